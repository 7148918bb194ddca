import Verif.Model.Engine

/-!
# What is said about the backend and the precision of a process
-/

namespace Verif.Engine.Spec

open Verif.Engine

/-- `s` is the word `w` (in small letters), in small or capital letters. -/
def Reads (s w : String) : Prop :=
  List.Forall₂ (fun c d : Char => c = d ∨ ('A' ≤ c ∧ c ≤ 'Z' ∧ d = Char.ofNat (c.toNat + 32))) s.toList w.toList

/-- The word for a backend. -/
def word : Backend → String
  | .tensorflow => "tensorflow"
  | .jax => "jax"

/-- The argument of `set_backend` is the backend `b`. -/
def Means (a : Arg) (b : Backend) : Prop :=
  a = .enum b ∨ ∃ s, a = .str s ∧ Reads s (word b)

/-- The report for tensors of a backend. -/
def report : Backend → CompBackend
  | .tensorflow => .tensorflow
  | .jax => .jax

/-- The processes that occur: from some environment, after some history. -/
def Reachable (p : Proc) : Prop :=
  ∃ env envX64 own es, p = run (start env envX64 own) es

/-- The floating types of numpy. -/
def Floating : Np → Prop
  | .float16 | .bfloat16 | .float32 | .float64 => True
  | _ => False

/-- The types of 64 bits, and the pairs of them. -/
def Wide : Np → Prop
  | .int64 | .uint64 | .float64 | .complex128 => True
  | _ => False

end Verif.Engine.Spec
