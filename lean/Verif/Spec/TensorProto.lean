import Verif.Model.TensorProto

/-!
# What a user expects of tensor messages
-/

namespace Verif.TensorProto.Spec

open Verif.TensorProto

/-- The number of bits of a number (a complex number has two parts); a boolean takes a byte. -/
def bits : DType → ℕ
  | .bool => 8
  | .i8 | .u8 => 8
  | .f16 | .i16 | .u16 => 16
  | .f32 | .i32 | .u32 => 32
  | .f64 | .i64 | .u64 => 64
  | .c64 => 2 * 32
  | .c128 => 2 * 64
  | .bytes | .text | .other => 0

/-- An element of an array of a given dtype. -/
def ElemOf (d : DType) : Elem → Prop
  | .bits n => d ≠ .bytes ∧ d ≠ .text ∧ d ≠ .other ∧ n < 2 ^ bits d
  | .bytes _ => d = .bytes
  | .text _ => d = .text

/-- An array whose data fit its shape and dtype. -/
structure WellFormed (a : Arr) : Prop where
  size : a.data.length = a.shape.prod
  elems : ∀ x ∈ a.data, ElemOf a.dtype x

/-- A dtype of numbers or booleans. -/
def Numeric (d : DType) : Prop := d ≠ .bytes ∧ d ≠ .text ∧ d ≠ .other

/-- The dtypes with a value field of their own that is read. -/
def common : List DType := [.f32, .f64, .i32, .i64, .bool]

/-- The arrays that are written but cannot be read: a single unsigned 32 or 64 bit integer, and an
empty array of a less common dtype with a non-zero extent. -/
def Lost (a : Arr) : Prop :=
  (a.dtype = .u32 ∨ a.dtype = .u64) ∧ a.data.length = 1 ∨
    a.dtype ∉ common ∧ a.data = [] ∧ ∃ n ∈ a.shape, n ≠ 0

end Verif.TensorProto.Spec
