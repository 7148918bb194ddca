import Verif.Model.DataObject

/-!
# Specification: objects and the arrays they show
-/

namespace Verif.DataObject.Spec

/-- The array an attribute of an object shows. -/
def shows (st : Store) (o : Obj) (f : Field) : Option Cell := (o.ref f).map st.cell

/-- An object of a program: its arrays exist, and it has a KPI and a population. -/
structure Exists (st : Store) (o : Obj) : Prop where
  made : ∀ f a, o.ref f = some a → a < st.next
  kpi : o.ref .kpi ≠ none
  population : o.ref .population ≠ none

/-- All values can be read as numbers. -/
def Readable (parse : String → Option Num) (c : Cell) : Prop :=
  match c.vals with
  | .floats _ => True
  | .objects l => ∀ v ∈ l, ∀ s, v = .text s → parse s ≠ none

/-- The values are floats. -/
def Floats (c : Cell) : Prop := ∃ l, c.vals = .floats l

/-- The geo labels are strings. -/
def Strings (c : Cell) : Prop := ∀ l ∈ c.geo, ∃ s, l = .text s

/-- A history of two objects in one program: `false` for what is done to the first, `true` for the second. -/
def history (st : Store) (o o' : Obj) : List (Bool × Op) → Store × Obj × Obj
  | [] => (st, o, o')
  | (false, op) :: h => history (step (st, o) op).1 (step (st, o) op).2 o' h
  | (true, op) :: h => history (step (st, o') op).1 o (step (st, o') op).2 h

end Verif.DataObject.Spec
