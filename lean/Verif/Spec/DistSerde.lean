import Verif.Model.DistSerde

/-!
# What a user expects of saved priors
-/

namespace Verif.DistSerde.Spec

open Verif.DistSerde
open Verif.Registry (Fn Reg)

variable {A P : Type}

mutual

/-- The value that comes back: floats rounded to 32 bits (and to the float type of the backend),
Python booleans as the integers 0 and 1 they are equal to, arrays as tensors, everything else the
same, at any depth. -/
def expected (round : ℚ → ℚ) (tensor : A → A) : Val A → Val A
  | .float x => .float (round x)
  | .bool b => .int (if b then 1 else 0)
  | .list l => .list (expectedList round tensor l)
  | .dict l => .dict (expectedFields round tensor l)
  | .dist c l => .dist c (expectedFields round tensor l)
  | .bij c l => .bij c (expectedFields round tensor l)
  | .other (some a) => .other (some (tensor a))
  | v => v

/-- The same for the items of a list. -/
def expectedList (round : ℚ → ℚ) (tensor : A → A) : Vals A → Vals A
  | .nil => .nil
  | .cons v l => .cons (expected round tensor v) (expectedList round tensor l)

/-- The same for named values. -/
def expectedFields (round : ℚ → ℚ) (tensor : A → A) : Fields A → Fields A
  | .nil => .nil
  | .cons k v l => .cons k (expected round tensor v) (expectedFields round tensor l)

end

/-- The functions among the registered ones and the defaults are told apart by their identity. -/
def OneObject (env : Env A P) (reg : Reg) : Prop :=
  ∀ f g : Fn, InPlay f → InPlay g → f.ident = g.ident → f = g
where
  /-- A registered or default function. -/
  InPlay (f : Fn) : Prop :=
    (∃ e ∈ reg.items, e.2 = f) ∨ ∃ cls param, env.default cls param = some (.fn f)

/-- A function that can be saved: it is the default of its parameter or registered. -/
def SavableFn (same : Fn → Fn → Prop) (env : Env A P) (reg : Reg) (cls : Cls) (param : String)
    (f : Fn) : Prop :=
  (env.default cls param).isSome ∧
    ((∃ g, env.default cls param = some (.fn g) ∧ same g f) ∨ ∃ e ∈ reg.items, same e.2 f)

mutual

/-- What can be saved: integers of 32 bits, known classes, functions that are registered or the
default of their parameter, and what fits into a tensor. -/
def Savable (same : Fn → Fn → Prop) (fits : A → Prop) (env : Env A P) (reg : Reg) (cls : Cls)
    (param : String) : Val A → Prop
  | .int n => -2 ^ 31 ≤ n ∧ n < 2 ^ 31
  | .list l => SavableList same fits env reg cls param l
  | .dict l => SavableDict same fits env reg cls param l
  | .dist c l => env.known (.dist c) = true ∧ SavableParams same fits env reg (.dist c) l
  | .bij c l => env.known (.bij c) = true ∧ SavableParams same fits env reg (.bij c) l
  | .fn f => SavableFn same env reg cls param f
  | .other a => ∃ x, a = some x ∧ fits x
  | _ => True

/-- The same for the items of a list. -/
def SavableList (same : Fn → Fn → Prop) (fits : A → Prop) (env : Env A P) (reg : Reg) (cls : Cls)
    (param : String) : Vals A → Prop
  | .nil => True
  | .cons v l => Savable same fits env reg cls param v ∧ SavableList same fits env reg cls param l

/-- The same for the items of a dictionary. -/
def SavableDict (same : Fn → Fn → Prop) (fits : A → Prop) (env : Env A P) (reg : Reg) (cls : Cls)
    (param : String) : Fields A → Prop
  | .nil => True
  | .cons _ v l => Savable same fits env reg cls param v ∧ SavableDict same fits env reg cls param l

/-- The same for the parameters of a distribution. -/
def SavableParams (same : Fn → Fn → Prop) (fits : A → Prop) (env : Env A P) (reg : Reg)
    (cls : Cls) : Fields A → Prop
  | .nil => True
  | .cons k v l => Savable same fits env reg cls k v ∧ SavableParams same fits env reg cls l

end

/-- An array that comes back from its tensor message, as `tensor x`. -/
def ReadsAs (env : Env A P) (tensor : A → A) (x : A) : Prop :=
  ∃ p, env.make x = some p ∧ env.read p = some (tensor x)

mutual

/-- Dictionaries contain no functions. -/
def NoFnInDict : Val A → Prop
  | .list l => NoFnInDictList l
  | .dict l => NoFnFields l
  | .dist _ l => NoFnInDictFields l
  | .bij _ l => NoFnInDictFields l
  | _ => True

@[inherit_doc NoFnInDict] def NoFnInDictList : Vals A → Prop
  | .nil => True
  | .cons v l => NoFnInDict v ∧ NoFnInDictList l

@[inherit_doc NoFnInDict] def NoFnInDictFields : Fields A → Prop
  | .nil => True
  | .cons _ v l => NoFnInDict v ∧ NoFnInDictFields l

/-- No function, except as parameters of distributions and bijectors. -/
def NoFn : Val A → Prop
  | .fn _ => False
  | .list l => NoFnList l
  | .dict l => NoFnFields l
  | .dist _ l => NoFnInDictFields l
  | .bij _ l => NoFnInDictFields l
  | _ => True

@[inherit_doc NoFn] def NoFnList : Vals A → Prop
  | .nil => True
  | .cons v l => NoFn v ∧ NoFnList l

@[inherit_doc NoFn] def NoFnFields : Fields A → Prop
  | .nil => True
  | .cons _ v l => NoFn v ∧ NoFnFields l

end

end Verif.DistSerde.Spec
