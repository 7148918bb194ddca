import Verif.Model.Registry

/-!
# What a registry check should guarantee
-/

namespace Verif.Registry.Spec

open Verif.Registry

/-- The keys of the dictionary are distinct. -/
def IsDict {α : Type} (m : List (String × α)) : Prop := (m.map Prod.fst).Nodup

/-- The registry has, under this key, a function whose source has this hash. -/
def HasHash (hash : String → String) (r : Reg) (key h : String) : Prop :=
  ∃ f src, r.items.lookup key = some f ∧ f.source = some src ∧ hash src = h

/-- The registry has, under this key, a function with this source. -/
def HasSource (r : Reg) (key src : String) : Prop :=
  ∃ f, r.items.lookup key = some f ∧ f.source = some src

/-- A function object is determined by its identity. -/
def ByIdentity (r : Reg) (f : Fn) : Prop :=
  ∀ e ∈ r.items, e.2.ident = f.ident → e.2 = f

end Verif.Registry.Spec
