import Mathlib.Algebra.BigOperators.Group.List.Basic
import Mathlib.Data.List.Basic

/-!
# Tensor messages on the JAX backend

`_jax_make_tensor_proto` and `_jax_make_ndarray` of `meridian/backend/__init__.py`.

An element of a numeric array is its bit pattern, a natural number below `256 ^ itemsize`; elements of
string arrays are byte strings or text.  Arrays are in row-major order (`tobytes` and `flatten` write
this order whatever the memory layout).  Bytes are in little-endian order; dtypes with another byte
order are not in the table of the code (`other`).
-/

namespace Verif.TensorProto

/-- numpy dtypes: those of the table at `meridian/backend/__init__.py:339-355`, the kinds "S" and "U",
and all others. -/
inductive DType where
  | f16 | f32 | f64 | i8 | i16 | i32 | i64 | u8 | u16 | u32 | u64 | c64 | c128 | bool
  | bytes | text | other
deriving DecidableEq

/-- Element types of a `TensorProto`; the dtype `text` is written as `DT_STRING`, which is read as
`bytes`. -/
inductive PType where
  | f16 | f32 | f64 | i8 | i16 | i32 | i64 | u8 | u16 | u32 | u64 | c64 | c128 | bool
  | string | unknown
deriving DecidableEq

/-- An element. -/
inductive Elem where
  | bits (n : ℕ)
  | bytes (s : List UInt8)
  | text (s : String)
deriving DecidableEq

/-- A numpy array. -/
structure Arr where
  dtype : DType
  shape : List ℕ
  data : List Elem
deriving DecidableEq

/-- A `TensorProto` (`tensorflow/core/framework/tensor.proto`), with the fields that are used. -/
structure Proto where
  dtype : PType
  shape : List ℕ
  content : List UInt8 := []
  floatVal : List Elem := []
  doubleVal : List Elem := []
  intVal : List Elem := []
  int64Val : List Elem := []
  boolVal : List Elem := []
  uint32Val : List Elem := []
  uint64Val : List Elem := []
  stringVal : List (List UInt8) := []

/-- `TypeError` for an unsupported dtype; `ValueError`s of `frombuffer`, of `reshape` and of the check
of the size of strings. -/
inductive Err where
  | unsupported
  | buffer
  | reshape
  | stringSize
deriving DecidableEq

/-- `itemsize` of the dtypes with a fixed size. -/
def DType.size : DType → ℕ
  | .i8 | .u8 | .bool => 1
  | .f16 | .i16 | .u16 => 2
  | .f32 | .i32 | .u32 => 4
  | .f64 | .i64 | .u64 | .c64 => 8
  | .c128 => 16
  | _ => 0

/-- The first table, with the strings, `meridian/backend/__init__.py:339-363`. -/
def protoType : DType → Option PType
  | .f16 => some .f16 | .f32 => some .f32 | .f64 => some .f64
  | .i8 => some .i8 | .i16 => some .i16 | .i32 => some .i32 | .i64 => some .i64
  | .u8 => some .u8 | .u16 => some .u16 | .u32 => some .u32 | .u64 => some .u64
  | .c64 => some .c64 | .c128 => some .c128 | .bool => some .bool
  | .bytes => some .string | .text => some .string
  | .other => none

/-- The second table, `meridian/backend/__init__.py:409-427`. -/
def arrayType : PType → Option DType
  | .f16 => some .f16 | .f32 => some .f32 | .f64 => some .f64
  | .i8 => some .i8 | .i16 => some .i16 | .i32 => some .i32 | .i64 => some .i64
  | .u8 => some .u8 | .u16 => some .u16 | .u32 => some .u32 | .u64 => some .u64
  | .c64 => some .c64 | .c128 => some .c128 | .bool => some .bool
  | .string => some .bytes
  | .unknown => none

/-- The `k` bytes of a bit pattern. -/
def toBytes : ℕ → ℕ → List UInt8
  | 0, _ => []
  | k + 1, n => UInt8.ofNat (n % 256) :: toBytes k (n / 256)

/-- The bit pattern with the given bytes. -/
def ofBytes : List UInt8 → ℕ
  | [] => 0
  | b :: l => b.toNat + 256 * ofBytes l

/-- `values.tobytes()`. -/
def elemBytes (k : ℕ) : Elem → List UInt8
  | .bits n => toBytes k n
  | .bytes s => s
  | .text s => s.toUTF8.toList

/-- `v.encode("utf-8") if isinstance(v, str) else v`, `meridian/backend/__init__.py:394-396`. -/
def encodeString : Elem → List UInt8
  | .text s => s.toUTF8.toList
  | .bytes s => s
  | .bits _ => []

/-- `_jax_make_tensor_proto`, `meridian/backend/__init__.py:322-400`, without the optional arguments
(no caller gives them). -/
def make (a : Arr) : Except Err Proto :=
  match protoType a.dtype with
  | none => .error .unsupported
  | some t =>
    let p : Proto := { dtype := t, shape := a.shape }
    let tobytes := a.data.flatMap (elemBytes a.dtype.size)
    if t ≠ .string ∧ 1 < a.data.length then .ok { p with content := tobytes }
    else match t with
      | .f32 => .ok { p with floatVal := a.data }
      | .f64 => .ok { p with doubleVal := a.data }
      | .i32 => .ok { p with intVal := a.data }
      | .i64 => .ok { p with int64Val := a.data }
      | .bool => .ok { p with boolVal := a.data }
      | .u32 => .ok { p with uint32Val := a.data }
      | .u64 => .ok { p with uint64Val := a.data }
      | .string => .ok { p with stringVal := a.data.map encodeString }
      | _ => .ok { p with content := tobytes }

/-- `reshape(shape)`. -/
def reshape (d : DType) (data : List Elem) (shape : List ℕ) : Except Err Arr :=
  if data.length = shape.prod then .ok { dtype := d, shape := shape, data := data }
  else .error .reshape

/-- Pieces of `k` bytes. -/
def chunks (k : ℕ) (l : List UInt8) : List (List UInt8) :=
  (List.range (l.length / k)).map fun i => (l.drop (i * k)).take k

/-- `np.frombuffer(content, dtype)` for items of `k` bytes. -/
def frombuffer (k : ℕ) (item : List UInt8 → Elem) (l : List UInt8) : Except Err (List Elem) :=
  if k = 0 ∨ l.length % k ≠ 0 then .error .buffer else .ok ((chunks k l).map item)

/-- Reading `tensor_content`, `meridian/backend/__init__.py:432-448`. -/
def readContent (p : Proto) (d : DType) : Except Err Arr :=
  if d = .bytes then
    let n := if p.shape = [] then 0 else p.shape.prod
    let k := p.content.length / n
    if 0 < n ∧ k * n ≠ p.content.length then .error .stringSize
    else (frombuffer (if 0 < n then k else 0) .bytes p.content).bind fun l => reshape d l p.shape
  else
    (frombuffer d.size (fun b => .bits (ofBytes b)) p.content).bind fun l => reshape d l p.shape

/-- `_jax_make_ndarray`, `meridian/backend/__init__.py:403-470`. -/
def read (p : Proto) : Except Err Arr :=
  match arrayType p.dtype with
  | none => .error .unsupported
  | some d =>
    if p.content ≠ [] then readContent p d
    else match d with
      | .f32 => reshape d p.floatVal p.shape
      | .f64 => reshape d p.doubleVal p.shape
      | .i32 => reshape d p.intVal p.shape
      | .i64 => reshape d p.int64Val p.shape
      | .bool => reshape d p.boolVal p.shape
      | _ =>
        if p.stringVal ≠ [] then reshape .bytes (p.stringVal.map .bytes) p.shape
        else if p.shape.all (fun n => decide (n = 0)) then reshape d [] p.shape
        else .error .unsupported

end Verif.TensorProto
