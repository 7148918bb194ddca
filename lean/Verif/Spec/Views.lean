import Verif.Model.Views

/-! What a user expects of the objects of the visualizer. -/

namespace Verif.Views.Spec

/-- The settings an object has after a history: those it was made with, as changed by its own updates. A
level that is not given, or zero, and the choice between revenue and KPI stay. -/
def current (i : ℕ) : List Op → Option Settings :=
  List.foldl (fun s o =>
    match o with
    | .new j t => if j = i ∧ s = none then some t else s
    | .update j l ts r b =>
      if j = i then s.map fun t => ⟨if l = none ∨ l = some 0 then t.level else l.getD 0, ts, r, b, t.useKpi⟩
      else s
    | .get _ _ _ => s) none

/-- The question the user asks: the paid channels, with the marginal return by reach or not, or all
channels together with the baseline values of the non-media treatments. -/
def question (s : Settings) (m : Method) (aggregate : Bool) : Call :=
  match m with
  | .paid => { times := s.times, byReach := s.byReach, useKpi := s.useKpi, level := s.level,
               nonPaid := false, baseline := none, aggregateTimes := aggregate }
  | .all => { times := s.times, byReach := true, useKpi := s.useKpi, level := s.level,
              nonPaid := true, baseline := s.baseline, aggregateTimes := aggregate }

/-- No update of an object comes after a request to the same object. -/
def UpdatedFirst (h : List Op) : Prop :=
  ∀ a b i l ts r bl, h = a ++ Op.update i l ts r bl :: b → ∀ m st, Op.get m i st ∉ a

/-- No request is made. -/
def NoRequest (h : List Op) : Prop := ∀ m i st, Op.get m i st ∉ h

end Verif.Views.Spec
