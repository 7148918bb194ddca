import Verif.Model.Archive
import Verif.Spec.Rhat
import Mathlib.Data.List.Perm.Basic

/-!
# What a saved model should keep of its samples
-/

namespace Verif.Archive.Spec

/-- What is assumed of NetCDF files: what was written can be read, up to a normal form that has the same attributes and
is written with the same bytes. -/
structure Lawful {V : Type} (cd : Codec V) (normal : Dataset V → Dataset V) : Prop where
  read : ∀ d b, cd.write d = .ok b → cd.read b = .ok (normal d)
  attrs : ∀ d, (normal d).attrs = d.attrs
  again : ∀ d, cd.write (normal d) = cd.write d

/-- `d'` is `d` up to the normal form, without the time of its creation and with all its other attributes. -/
def Kept {V : Type} (normal : Dataset V → Dataset V) (d d' : Dataset V) : Prop :=
  (∃ e : Dataset V, e.body = d.body ∧ d' = normal e ∧ e.attrs = d'.attrs) ∧
  (∀ v, ("created_at", v) ∉ d'.attrs) ∧ ∀ k v, k ≠ "created_at" → ((k, v) ∈ d'.attrs ↔ (k, v) ∈ d.attrs)

/-- Two lists of groups have the same names, each with data related by `R`. -/
def SameGroups {V : Type} (R : Dataset V → Dataset V → Prop) (g g' : Groups V) : Prop :=
  (g.map (·.1)).Perm (g'.map (·.1)) ∧ ∀ name d d', (name, d) ∈ g → (name, d') ∈ g' → R d d'

/-- Each name occurs once. -/
def Distinct {V : Type} (g : Groups V) : Prop := (g.map (·.1)).Nodup

end Verif.Archive.Spec
