import Verif.Spec.FitProto
import Verif.Props.FitData
import Verif.Props.TimeCoordinates
import Mathlib.Tactic

/-!
# C87: the model fit message
-/

namespace Verif.FitProto.Props

open Verif Verif.FitProto Verif.FitProto.Spec
open Verif.Calendar (CDate)
open Verif.Accuracy (EvalSet Row Gran)
open Verif.FitData (Ctx)
open Verif.FitData.Spec (Describes totals total SomeDraw covers IsEntry blank member)

/-- **C87 (spec).** The confidence level of an accepted spec is strictly between zero and one. -/
theorem level_accepted_iff (s : FitSpec) : s.validate = .ok () ↔ 0 < s.level ∧ s.level < 1 := by
  unfold FitSpec.validate
  by_cases h : s.level ≤ 0 ∨ 1 ≤ s.level
  · rw [if_pos h]; simp only [reduceCtorEq, false_iff]; rintro ⟨a, b⟩; rcases h with h | h <;> linarith
  · rw [if_neg h]; push Not at h; simp [h]

theorem collect_iff {α β : Type} (f : α → Except Err β) (l : List α) (r : List β) :
    collect f l = .ok r ↔ List.Forall₂ (fun a b => f a = .ok b) l r := by
  induction l generalizing r with
  | nil => simp only [collect, Except.ok.injEq, List.forall₂_nil_left_iff]; exact eq_comm
  | cons a l ih =>
    simp only [collect]
    cases hf : f a with
    | error e =>
      simp only [reduceCtorEq, false_iff]
      intro h; cases h with | cons h _ => rw [hf] at h; cases h
    | ok b =>
      simp only
      cases hc : collect f l with
      | error e =>
        simp only [reduceCtorEq, false_iff]
        intro h
        cases h with
        | cons _ h => rw [(ih _).2 h] at hc; cases hc
      | ok bs =>
        simp only [Except.ok.injEq]
        constructor
        · rintro rfl; exact .cons hf ((ih _).1 hc)
        · intro h
          cases h with
          | cons h1 h2 =>
            rw [hf] at h1; cases h1
            rw [(ih _).2 h2] at hc; cases hc
            rfl

theorem collect_ok {α β : Type} {f : α → Except Err β} {l : List α} (h : ∀ a ∈ l, ∃ b, f a = .ok b) :
    ∃ r, collect f l = .ok r := by
  induction l with
  | nil => exact ⟨[], rfl⟩
  | cons a l ih =>
    obtain ⟨b, hb⟩ := h a (by simp)
    obtain ⟨bs, hbs⟩ := ih fun x hx => h x (by simp [hx])
    exact ⟨b :: bs, by simp [collect, hb, hbs]⟩

theorem collect_ok_mem {α β : Type} {f : α → Except Err β} {l : List α} {r : List β}
    (h : collect f l = .ok r) : ∀ a ∈ l, ∃ b ∈ r, f a = .ok b := by
  rw [collect_iff] at h
  induction h with
  | nil => simp
  | cons h1 _ ih =>
    intro a ha
    rcases List.mem_cons.1 ha with rfl | ha
    · exact ⟨_, by simp, h1⟩
    · obtain ⟨b, hb, hf⟩ := ih a ha
      exact ⟨b, by simp [hb], hf⟩

theorem collect_mem {α β : Type} {f : α → Except Err β} {l : List α} {r : List β}
    (h : collect f l = .ok r) : ∀ b ∈ r, ∃ a ∈ l, f a = .ok b := by
  rw [collect_iff] at h
  induction h with
  | nil => simp
  | cons h1 _ ih =>
    intro b hb
    rcases List.mem_cons.1 hb with rfl | hb
    · exact ⟨_, by simp, h1⟩
    · obtain ⟨a, ha, hf⟩ := ih b hb
      exact ⟨a, by simp [ha], hf⟩

theorem sel_ok {α β : Type} [DecidableEq α] {l : List (α × β)} {k : α} {v : β} (h : sel l k = .ok v) :
    (k, v) ∈ l := by
  unfold sel at h
  cases hf : l.find? fun p => decide (p.1 = k) with
  | none => rw [hf] at h; cases h
  | some p =>
    rw [hf] at h
    cases h
    have h1 : p.1 = k := by simpa using List.find?_some hf
    have h2 := List.mem_of_find?_eq_some hf
    rw [← h1]; exact h2

theorem sel_of_mem {α β : Type} [DecidableEq α] {l : List (α × β)} {k : α} {v : β} (h : (k, v) ∈ l) :
    ∃ w, sel l k = .ok w := by
  unfold sel
  cases hf : l.find? fun p => decide (p.1 = k) with
  | none => exact absurd (List.find?_eq_none.1 hf _ h) (by simp)
  | some p => exact ⟨p.2, rfl⟩

theorem dictGet_ok {α β : Type} [DecidableEq α] {l : List (α × β)} {k : α} {v : β}
    (h : dictGet l k = .ok v) : (k, v) ∈ l := by
  have : sel l.reverse k = .ok v := h
  exact List.mem_reverse.1 (sel_ok this)

theorem dictGet_of_mem {α β : Type} [DecidableEq α] {l : List (α × β)} {k : α} {v : β} (h : (k, v) ∈ l) :
    ∃ w, dictGet l k = .ok w :=
  sel_of_mem (l := l.reverse) (List.mem_reverse.2 h)

/-! ### Parts -/

theorem prediction_ok {d : FitData.Data} {bs : List (CDate × ℤ)} {level : ℚ} {e : Option EvalSet}
    {p : ℕ × CDate} {q : Prediction} (h : prediction d bs level e p = .ok q) :
    ∃ stop a ex ba, dictGet bs p.2 = .ok stop ∧ sel d.actual (none, some p.1) = .ok a ∧
      sel d.expected (none, some p.1, e) = .ok ex ∧ sel d.baseline (none, some p.1, e) = .ok ba ∧
      q = ⟨p.2, stop, estimate level ex, estimate level ba, a⟩ := by
  unfold prediction at h
  split at h
  · rename_i h1 h2 h3 h4; cases h; exact ⟨_, _, _, _, h1, h2, h3, h4, rfl⟩
  all_goals cases h

theorem describes_estimate {level : ℚ} {x : List (List Num)} {r : List Num} (h : Describes level x r) :
    Describes level x [(estimate level r).value, (estimate level r).lower, (estimate level r).upper] := by
  have hl := FitData.Props.central_length h
  match r, hl with
  | [a, b, c], _ => exact h

theorem shows_of {level : ℚ} {x : List (List Num)} {r : List Num} {t : Prop}
    (h : (t ∧ Describes level x r) ∨ (¬ t ∧ r = blank)) : Shows level x t (estimate level r) := by
  rcases h with ⟨h1, h2⟩ | ⟨h1, rfl⟩
  · exact ⟨rfl, fun _ => describes_estimate h2, fun hn => absurd h1 hn⟩
  · exact ⟨rfl, fun ht => absurd ht h1, fun _ => ⟨rfl, rfl, rfl⟩⟩

/-- The evaluation set the datasets are restricted to. -/
def restricted (c : Ctx) (split : Bool) (e : EvalSet) : Option EvalSet :=
  if (FitData.splitBy c split).isSome then some e else none

theorem entries_shown {c : Ctx} {national : Bool} {dates : List CDate} (hs : Sound c national dates)
    {split : Bool} {level : ℚ} (h0 : 0 < level) (h1 : level < 1) {d : FitData.Data}
    (hd : FitData.expectedVsActual c true false false split level = .ok d) {i : ℕ} (e : EvalSet)
    (r : List Num) :
    (((none, some i, restricted c split e), r) ∈ d.expected → Shows level
      (totals (c.expected (FitData.useKpi c false)) (List.range c.geos.length) [i]) (Covered c split e i)
      (estimate level r)) ∧
    (((none, some i, restricted c split e), r) ∈ d.baseline → Shows level
      (totals (c.baseline (FitData.useKpi c false)) (List.range c.geos.length) [i]) (Covered c split e i)
      (estimate level r)) := by
  have hl0 : -1 ≤ level := by linarith
  have hl1 : level ≤ 1 := h1.le
  cases hh : c.hold with
  | none =>
    have hr : restricted c split e = none := by
      unfold restricted FitData.splitBy; rw [hh]; simp
    have hc : Covered c split e i := by unfold Covered; rw [hh]; trivial
    have := FitData.Props.reported_unsplit hd (.inr hh) (none, some i, none) r
    rw [hr]
    constructor
    · intro hm
      exact shows_of (.inl ⟨hc, (this.1.1 hm).2.2.2⟩)
    · intro hm
      exact shows_of (.inl ⟨hc, (this.2.1 hm).2.2.2⟩)
  | some held =>
    cases split with
    | false =>
      have hr : restricted c false e = none := by
        unfold restricted FitData.splitBy; simp
      have hc : Covered c false e i := by unfold Covered; rw [hh]; simp
      have := FitData.Props.reported_unsplit hd (.inl rfl) (none, some i, none) r
      rw [hr]
      constructor
      · intro hm
        exact shows_of (.inl ⟨hc, (this.1.1 hm).2.2.2⟩)
      · intro hm
        exact shows_of (.inl ⟨hc, (this.2.1 hm).2.2.2⟩)
    | true =>
      have hr : restricted c true e = some e := by
        unfold restricted FitData.splitBy; rw [hh]; simp
      have hc : Covered c true e i ↔ ∀ g < c.geos.length, member held e g i = true := by
        unfold Covered; rw [hh]; simp
      have r1 := FitData.Props.reported_split hd hh hl0 hl1 (hs.expected _) (none, some i, some e) r
      have r2 := FitData.Props.reported_split_baseline hd hh hl0 hl1 (hs.baseline _) (none, some i, some e) r
      rw [hr]
      have conv : ∀ x : List (List Num),
          (((∀ g ∈ covers c.geos.length none, ∀ t ∈ covers c.times.length (some i), member held e g t = true) ∧
            Describes level x r) ∨
           ((∃ g ∈ covers c.geos.length none, ∃ t ∈ covers c.times.length (some i), member held e g t = false) ∧
            r = blank)) →
          (Covered c true e i ∧ Describes level x r) ∨ (¬ Covered c true e i ∧ r = blank) := by
        intro x hx
        rcases hx with ⟨ha, hb⟩ | ⟨ha, hb⟩
        · refine .inl ⟨hc.2 fun g hg => ?_, hb⟩
          exact ha g (by simp [covers, hg]) i (by simp [covers])
        · refine .inr ⟨fun hcov => ?_, hb⟩
          obtain ⟨g, hg, t, ht, hf⟩ := ha
          simp only [covers, List.mem_range, List.mem_singleton] at hg ht
          subst ht
          rw [hc.1 hcov g hg] at hf; cases hf
      constructor
      · intro hm
        obtain ⟨-, -, e', he', hx⟩ := r1.1 hm
        simp only [Option.some.injEq] at he'
        subst he'
        exact shows_of (conv _ hx)
      · intro hm
        obtain ⟨-, -, e', he', hx⟩ := r2.1 hm
        simp only [Option.some.injEq] at he'
        subst he'
        exact shows_of (conv _ hx)

/-- What a successful execution consists of. -/
theorem execute_ok {norm : String → Option String} {c : Ctx} {national : Bool} {dates : List CDate} {s : FitSpec}
    {l : List FitSpec} {rs : List Result} (h : execute norm c national dates (s :: l) = .ok rs) :
    ∃ d m bs, FitData.expectedVsActual c true false false s.split s.level = .ok d ∧
      Accuracy.predictiveAccuracy norm (accCtx c national) none none = .ok m ∧ convertTimes dates = .ok bs ∧
      collect (fun e => createResult d m dates bs s.level e (restricted c s.split e))
        (if (FitData.splitBy c s.split).isSome then [.train, .test, .all] else [.all]) = .ok rs := by
  unfold execute at h
  simp only at h
  cases hd : FitData.expectedVsActual c true false false s.split s.level with
  | error x => rw [hd] at h; cases h
  | ok d =>
    rw [hd] at h
    simp only at h
    cases hm : Accuracy.predictiveAccuracy norm (accCtx c national) none none with
    | error x => rw [hm] at h; cases h
    | ok m =>
      rw [hm] at h
      simp only at h
      cases hb : convertTimes dates with
      | error x => rw [hb] at h; cases h
      | ok bs =>
        rw [hb] at h
        simp only at h
        refine ⟨d, m, bs, rfl, rfl, rfl, ?_⟩
        unfold restricted
        by_cases hsp : (FitData.splitBy c s.split).isSome = true
        · simp only [hsp, if_true] at h ⊢; exact h
        · simp only [hsp, if_false, Bool.false_eq_true] at h ⊢; exact h

theorem createResult_ok {d : FitData.Data} {m : Accuracy.Dataset} {dates : List CDate} {bs : List (CDate × ℤ)}
    {level : ℚ} {name : EvalSet} {e : Option EvalSet} {r : Result}
    (h : createResult d m dates bs level name e = .ok r) :
    r.name = name ∧ collect (prediction d bs level e) ((List.range dates.length).zip dates) = .ok r.predictions ∧
      performance m e = .ok r.performance := by
  unfold createResult at h
  cases hc : collect (prediction d bs level e) ((List.range dates.length).zip dates) with
  | error x => rw [hc] at h; cases h
  | ok ps =>
    rw [hc] at h
    simp only at h
    cases hp : performance m e with
    | error x => rw [hp] at h; cases h
    | ok q => rw [hp] at h; cases h; exact ⟨rfl, rfl, rfl⟩

theorem convertTimes_ok {dates : List CDate} {bs : List (CDate × ℤ)} (h : convertTimes dates = .ok bs) :
    TimeCoordinates.getPeriodBounds dates none = .ok bs := by
  unfold convertTimes at h
  split_ifs at h
  cases hc : TimeCoordinates.create dates with
  | error x => rw [hc] at h; cases h
  | ok ds =>
    have hds : ds = dates := by
      unfold TimeCoordinates.create at hc
      split_ifs at hc
      exact (Except.ok.inj hc).symm
    subst hds
    rw [hc] at h
    simp only at h
    cases hg : TimeCoordinates.getPeriodBounds ds none with
    | error x => rw [hg] at h; cases h
    | ok b => rw [hg] at h; cases h; rfl

/-! ### Theorems -/

/-- **C87 (one spec).** Only the first spec has an effect. -/
theorem first_spec_only (norm : String → Option String) (c : Ctx) (national : Bool) (dates : List CDate)
    (s : FitSpec) (l : List FitSpec) :
    execute norm c national dates (s :: l) = execute norm c national dates [s] := rfl

/-- **C87 (results).** The results are Train, Test and All Data, in this order, if a split is asked for and
the model has a holdout, and otherwise All Data alone. -/
theorem results_named (norm : String → Option String) (c : Ctx) (national : Bool) (dates : List CDate)
    (s : FitSpec) (l : List FitSpec) (rs : List Result)
    (h : execute norm c national dates (s :: l) = .ok rs) :
    rs.map (·.name) = if s.split = true ∧ c.hold.isSome = true then [.train, .test, .all] else [.all] := by
  obtain ⟨d, m, bs, -, -, -, hc⟩ := execute_ok h
  rw [collect_iff] at hc
  have hn : ∀ (es : List EvalSet) (rs : List Result),
      List.Forall₂ (fun e r => createResult d m dates bs s.level e (restricted c s.split e) = .ok r) es rs →
      rs.map (·.name) = es := by
    intro es rs hf
    induction hf with
    | nil => rfl
    | cons h1 _ ih => simp [ih, (createResult_ok h1).1]
  rw [hn _ _ hc]
  unfold FitData.splitBy
  cases s.split <;> simp

theorem zip_range_mem {α : Type} {l : List α} {i : ℕ} {a : α} (h : l[i]? = some a) :
    ((List.range l.length).zip l)[i]? = some (i, a) := by
  obtain ⟨hi, rfl⟩ := List.getElem?_eq_some_iff.1 h
  rw [List.getElem?_eq_getElem (by simp [hi])]
  simp

/-- **C87 (predictions).** Every result has one prediction per date, in order.  Its interval starts at the
date and ends at the next date, its actual value is the total over the geos, and the prediction and the
baseline show mean and credible interval, at the level of the spec, of the total over the geos — provided
every geo belongs at that date to the evaluation set of the result; otherwise they are NaN. -/
theorem predictions_exact (norm : String → Option String) (c : Ctx) (national : Bool) (dates : List CDate)
    (hs : Sound c national dates) (s : FitSpec) (hv : s.validate = .ok ()) (l : List FitSpec) (rs : List Result)
    (h : execute norm c national dates (s :: l) = .ok rs) (r : Result) (hr : r ∈ rs) :
    r.predictions.length = dates.length ∧
    ∀ (i : ℕ) p, r.predictions[i]? = some p →
      dates[i]? = some p.start ∧
      (∀ q, r.predictions[i + 1]? = some q → p.stop = q.start.ordinal) ∧ (p.start.ordinal : ℤ) < p.stop ∧
      p.actual = total (c.actual (FitData.useKpi c false)) (List.range c.geos.length) [i] ∧
      Shows s.level (totals (c.expected (FitData.useKpi c false)) (List.range c.geos.length) [i])
        (Covered c s.split r.name i) p.predicted ∧
      Shows s.level (totals (c.baseline (FitData.useKpi c false)) (List.range c.geos.length) [i])
        (Covered c s.split r.name i) p.baseline := by
  obtain ⟨hl0, hl1⟩ := (level_accepted_iff s).1 hv
  obtain ⟨d, m, bs, hd, hm, hb, hc⟩ := execute_ok h
  obtain ⟨e, -, he⟩ := collect_mem hc r hr
  obtain ⟨hn, hp, -⟩ := createResult_ok he
  subst hn
  rw [collect_iff] at hp
  have hlen := hp.length_eq
  simp only [List.length_zip, List.length_range, Nat.min_self] at hlen
  refine ⟨hlen.symm, ?_⟩
  have hne : dates ≠ [] := by
    intro h; have := hs.two; rw [h] at this; simp at this
  have hbs := convertTimes_ok hb
  obtain ⟨b1, b2, b3⟩ := TimeCoordinates.Props.periods_contiguous dates none bs hbs
  have hfst : bs.map Prod.fst = dates := by
    have : TimeCoordinates.getSelectedDates dates none = .ok dates := rfl
    rw [this] at b1; exact (Except.ok.inj b1).symm
  -- the entry of a date in the dictionary is the bound at its position
  have hget : ∀ (i : ℕ) a z, dates[i]? = some a → dictGet bs a = .ok z → bs[i]? = some (a, z) := by
    intro i a z ha hz
    have hmem := dictGet_ok hz
    obtain ⟨j, hj⟩ := List.getElem?_of_mem hmem
    have hj' : dates[j]? = some a := by rw [← hfst, List.getElem?_map, hj]; rfl
    have : i = j := by
      obtain ⟨hi, hia⟩ := List.getElem?_eq_some_iff.1 ha
      obtain ⟨hjl, hja⟩ := List.getElem?_eq_some_iff.1 hj'
      have hpw := List.pairwise_iff_getElem.1 (show dates.Pairwise _ from hs.increasing)
      rcases lt_trichotomy i j with h | h | h
      · have := hpw i j hi hjl h; rw [hia, hja] at this; omega
      · exact h
      · have := hpw j i hjl hi h; rw [hia, hja] at this; omega
    rw [this]; exact hj
  have hat : ∀ (i : ℕ) p, r.predictions[i]? = some p → ∃ a, dates[i]? = some a ∧
      prediction d bs s.level (restricted c s.split r.name) (i, a) = .ok p := by
    intro i p hpi
    have hi : i < dates.length := by
      have := (List.getElem?_eq_some_iff.1 hpi).1; omega
    have hz := zip_range_mem (List.getElem?_eq_getElem hi)
    have := (List.forall₂_iff_get.1 hp).2 i (by simp [hi]) (by omega)
    simp only [List.get_eq_getElem] at this
    rw [List.getElem?_eq_some_iff.1 hpi |>.2] at this
    rw [List.getElem?_eq_some_iff] at hz
    obtain ⟨hz1, hz2⟩ := hz
    rw [hz2] at this
    exact ⟨_, List.getElem?_eq_getElem hi, this⟩
  intro i p hpi
  obtain ⟨a, ha, hpr⟩ := hat i p hpi
  obtain ⟨stop, act, ex, ba, x1, x2, x3, x4, rfl⟩ := prediction_ok hpr
  have hbi := hget i a stop ha x1
  refine ⟨ha, ?_, ?_, ?_, ?_, ?_⟩
  · intro q hq
    obtain ⟨a', ha', hpr'⟩ := hat (i + 1) q hq
    obtain ⟨stop', act', ex', ba', y1, -, -, -, rfl⟩ := prediction_ok hpr'
    have hq' := hget (i + 1) a' stop' ha' y1
    have hh := b2 i (a, stop) (a', stop') hbi hq'
    simp only at hh ⊢
    exact hh
  · have hh := b3 hne hs.valid hs.increasing (a, stop) (List.mem_of_getElem? hbi)
    simp only at hh ⊢
    exact hh
  · have := (FitData.Props.actual_totals hd none (some i) act).1 (sel_ok x2)
    exact this.2.2
  · have hin := sel_ok x3
    exact (entries_shown hs hl0 hl1 hd r.name ex).1 hin
  · have hin := sel_ok x4
    exact (entries_shown hs hl0 hl1 hd r.name ba).2 hin

/-- **C87 (performance).** The performance of a result is the national row of `predictive_accuracy` for its
evaluation set (for the only row there is, without a holdout). -/
theorem performance_exact (norm : String → Option String) (c : Ctx) (national : Bool) (dates : List CDate)
    (s : FitSpec) (l : List FitSpec) (rs : List Result)
    (h : execute norm c national dates (s :: l) = .ok rs) (r : Result) (hr : r ∈ rs) :
    ∃ m, Accuracy.predictiveAccuracy norm (accCtx c national) none none = .ok m ∧
      ((.national, if c.hold.isSome then some r.name else none), r.performance) ∈ m := by
  obtain ⟨d, m, bs, hd, hm, hb, hc⟩ := execute_ok h
  obtain ⟨e, hee, he⟩ := collect_mem hc r hr
  obtain ⟨hn, -, hp⟩ := createResult_ok he
  subst hn
  refine ⟨m, hm, ?_⟩
  unfold performance at hp
  split at hp
  · rename_i x hx
    have hpe : x.2 = r.performance := Except.ok.inj hp
    have hmem : x ∈ m.filter fun y => keep (restricted c s.split r.name) y.1 := by rw [hx]; simp
    have hx2 := List.mem_filter.1 hmem
    have hgr : x.1.1 = .national := by
      have := hx2.2
      unfold keep at this
      split at this
      · rw [decide_eq_true_iff] at this; rw [this]
      · simpa using this
    have hev : x.1.2 = if c.hold.isSome then some r.name else none := by
      cases hh : c.hold with
      | none =>
        simp only [Option.isSome_none, Bool.false_eq_true, if_false]
        -- without a holdout all rows have no evaluation set
        unfold Accuracy.predictiveAccuracy at hm
        simp only [Selection.resolveGeos, Selection.resolveTimes, accCtx, hh, Except.ok.injEq] at hm
        have : ∀ y ∈ m, y.1.2 = none := by
          intro y hy
          rw [← hm] at hy
          unfold Accuracy.dropGeo at hy
          split_ifs at hy
          · have := (List.mem_filter.1 hy).1
            simp only [List.mem_cons, List.not_mem_nil, or_false] at this
            rcases this with rfl | rfl <;> rfl
          · simp only [List.mem_cons, List.not_mem_nil, or_false] at hy
            rcases hy with rfl | rfl <;> rfl
        exact this x hx2.1
      | some held =>
        simp only [Option.isSome_some, if_true]
        cases hsp : s.split with
        | true =>
          have hre : restricted c s.split r.name = some r.name := by
            unfold restricted FitData.splitBy; rw [hh, hsp]; simp
          have := hx2.2
          rw [hre] at this
          simp only [keep, decide_eq_true_eq] at this
          rw [this]
        | false =>
          exfalso
          have hre : restricted c s.split r.name = none := by
            unfold restricted FitData.splitBy; rw [hsp]; simp
          rw [hre] at hx
          unfold Accuracy.predictiveAccuracy at hm
          simp only [Selection.resolveGeos, Selection.resolveTimes, accCtx, hh] at hm
          split at hm
          · simp only [Except.ok.injEq] at hm
            rw [← hm] at hx
            unfold Accuracy.dropGeo at hx
            split_ifs at hx <;> simp [keep] at hx
          · cases hm
    have : x = ((.national, if c.hold.isSome then some r.name else none), x.2) := by
      obtain ⟨⟨a, b⟩, z⟩ := x
      simp only at hgr hev
      rw [hgr, hev]
    rw [← hpe, ← this]; exact hx2.1
  · cases hp

/-- **C87 (when it succeeds).** For a model and dates that fit together and an accepted spec, the message is
produced exactly if the dates are regular and, when the model has a holdout, the split is asked for. -/
theorem produced_iff (norm : String → Option String) (c : Ctx) (national : Bool) (dates : List CDate)
    (hs : Sound c national dates) (s : FitSpec) (hv : s.validate = .ok ()) (l : List FitSpec) :
    (∃ rs, execute norm c national dates (s :: l) = .ok rs) ↔
      TimeCoordinates.isRegular dates = true ∧ (c.hold.isSome = true → s.split = true) := by
  obtain ⟨hl0, hl1⟩ := (level_accepted_iff s).1 hv
  constructor
  · rintro ⟨rs, h⟩
    have hperf := performance_exact norm c national dates s l rs h
    have hnames := results_named norm c national dates s l rs h
    obtain ⟨d, m, bs, hd, hm, hb, hc⟩ := execute_ok h
    refine ⟨((TimeCoordinates.Props.period_bounds_accepted_iff dates none).1 ⟨bs, convertTimes_ok hb⟩).1, ?_⟩
    intro hh
    by_contra hsp
    obtain ⟨held, hheld⟩ := Option.isSome_iff_exists.1 hh
    have hsp' : s.split = false := by simpa using hsp
    obtain ⟨r, hr, hcr⟩ := collect_ok_mem hc .all (by split_ifs <;> simp)
    obtain ⟨-, -, hp⟩ := createResult_ok hcr
    have hre : restricted c s.split .all = none := by
      unfold restricted FitData.splitBy; rw [hsp']; simp
    rw [hre] at hp
    unfold Accuracy.predictiveAccuracy at hm
    simp only [Selection.resolveGeos, Selection.resolveTimes, accCtx, hheld] at hm
    split at hm
    · simp only [Except.ok.injEq] at hm
      rw [← hm] at hp
      unfold performance Accuracy.dropGeo at hp
      cases national <;> simp [keep] at hp
    · cases hm
  · rintro ⟨hreg, hsplit⟩
    obtain ⟨d, hd⟩ := FitData.Props.accepted (c := c) (level := s.level) (by linarith) hl1.le true false false s.split
    obtain ⟨bs, hbs⟩ := (TimeCoordinates.Props.period_bounds_accepted_iff dates none).2
      ⟨hreg, dates, rfl, hs.two⟩
    have hconv : convertTimes dates = .ok bs := by
      unfold convertTimes
      rw [if_neg (by have := hs.two; omega)]
      obtain ⟨t, ht⟩ := (TimeCoordinates.Props.time_axis_accepted_iff dates hs.valid).2
        ⟨hs.two, hs.increasing.imp fun h => h.le⟩
      have : t = dates := by
        unfold TimeCoordinates.create at ht
        split_ifs at ht
        exact (Except.ok.inj ht).symm
      subst this
      rw [ht]
      simp [hbs]
    have hfst : bs.map Prod.fst = dates := by
      have b1 := (TimeCoordinates.Props.periods_contiguous dates none bs hbs).1
      have : TimeCoordinates.getSelectedDates dates none = .ok dates := rfl
      rw [this] at b1; exact (Except.ok.inj b1).symm
    -- predictions can always be made
    have hpred : ∀ e, ∀ p ∈ (List.range dates.length).zip dates,
        ∃ q, prediction d bs s.level (restricted c s.split e) p = .ok q := by
      rintro e ⟨i, a⟩ hp
      obtain ⟨hi, ha⟩ := List.of_mem_zip hp
      rw [List.mem_range] at hi
      have hi' : i < c.times.length := by rw [← hs.length]; exact hi
      have hG : IsEntry c.geos.length true none := by simp [IsEntry]
      have hT : IsEntry c.times.length false (some i) := by
        unfold IsEntry; simp [hi']
      obtain ⟨v, hv⟩ : ∃ v, dictGet bs a = .ok v := by
        rw [← hfst] at ha
        obtain ⟨⟨a', v⟩, hm, rfl⟩ := List.mem_map.1 ha
        exact dictGet_of_mem hm
      obtain ⟨ac, hac⟩ := sel_of_mem ((FitData.Props.actual_totals hd none (some i) _).2 ⟨hG, hT, rfl⟩)
      obtain ⟨ex, hex⟩ : ∃ w, sel d.expected (none, some i, restricted c s.split e) = .ok w := by
        obtain ⟨z, hz⟩ := (Interval.Props.accepted_iff (totals (c.expected (FitData.useKpi c false))
          (covers c.geos.length none) (covers c.times.length (some i))) s.level false).2
          ⟨by linarith, hl1.le⟩
        cases hh : c.hold with
        | none =>
          have hre : restricted c s.split e = none := by unfold restricted FitData.splitBy; rw [hh]; simp
          rw [hre]
          exact sel_of_mem (((FitData.Props.reported_unsplit hd (.inr hh) (none, some i, none) z).1).2
            ⟨hG, hT, rfl, hz⟩)
        | some held =>
          have hsp := hsplit (by rw [hh]; rfl)
          have hre : restricted c s.split e = some e := by
            unfold restricted FitData.splitBy; rw [hh, hsp]; simp
          rw [hre]
          rw [hsp] at hd
          by_cases hall : ∀ g ∈ covers c.geos.length none, ∀ t ∈ covers c.times.length (some i),
              member held e g t = true
          · exact sel_of_mem ((FitData.Props.reported_split hd hh (by linarith) hl1.le (hs.expected _)
              (none, some i, some e) z).2 ⟨hG, hT, e, rfl, .inl ⟨hall, hz⟩⟩)
          · push Not at hall
            obtain ⟨g, hg, t, ht, hf⟩ := hall
            exact sel_of_mem ((FitData.Props.reported_split hd hh (by linarith) hl1.le (hs.expected _)
              (none, some i, some e) blank).2 ⟨hG, hT, e, rfl, .inr ⟨⟨g, hg, t, ht, by simpa using hf⟩, rfl⟩⟩)
      obtain ⟨ba, hba⟩ : ∃ w, sel d.baseline (none, some i, restricted c s.split e) = .ok w := by
        obtain ⟨z, hz⟩ := (Interval.Props.accepted_iff (totals (c.baseline (FitData.useKpi c false))
          (covers c.geos.length none) (covers c.times.length (some i))) s.level false).2
          ⟨by linarith, hl1.le⟩
        cases hh : c.hold with
        | none =>
          have hre : restricted c s.split e = none := by unfold restricted FitData.splitBy; rw [hh]; simp
          rw [hre]
          exact sel_of_mem (((FitData.Props.reported_unsplit hd (.inr hh) (none, some i, none) z).2).2
            ⟨hG, hT, rfl, hz⟩)
        | some held =>
          have hsp := hsplit (by rw [hh]; rfl)
          have hre : restricted c s.split e = some e := by
            unfold restricted FitData.splitBy; rw [hh, hsp]; simp
          rw [hre]
          rw [hsp] at hd
          by_cases hall : ∀ g ∈ covers c.geos.length none, ∀ t ∈ covers c.times.length (some i),
              member held e g t = true
          · exact sel_of_mem ((FitData.Props.reported_split_baseline hd hh (by linarith) hl1.le (hs.baseline _)
              (none, some i, some e) z).2 ⟨hG, hT, e, rfl, .inl ⟨hall, hz⟩⟩)
          · push Not at hall
            obtain ⟨g, hg, t, ht, hf⟩ := hall
            exact sel_of_mem ((FitData.Props.reported_split_baseline hd hh (by linarith) hl1.le (hs.baseline _)
              (none, some i, some e) blank).2 ⟨hG, hT, e, rfl, .inr ⟨⟨g, hg, t, ht, by simpa using hf⟩, rfl⟩⟩)
      exact ⟨_, by unfold prediction; simp only [hv, hac, hex, hba]; rfl⟩
    -- and so can the performance
    obtain ⟨m, hm, hperf⟩ : ∃ m, Accuracy.predictiveAccuracy norm (accCtx c national) none none = .ok m ∧
        ∀ e ∈ (if (FitData.splitBy c s.split).isSome then [EvalSet.train, .test, .all] else [.all]),
          ∃ r, performance m (restricted c s.split e) = .ok r := by
      unfold Accuracy.predictiveAccuracy
      cases hh : c.hold with
      | none =>
        simp only [Selection.resolveGeos, Selection.resolveTimes, accCtx, hh]
        refine ⟨_, rfl, ?_⟩
        intro e he
        have hre : restricted c s.split e = none := by unfold restricted FitData.splitBy; rw [hh]; simp
        rw [hre]
        unfold performance Accuracy.dropGeo
        cases national <;> simp [keep]
      | some held =>
        have hsp := hsplit (by rw [hh]; rfl)
        have hw : ∀ (x : ℕ → ℕ → ℚ) (b : Bool), ∃ y, Accuracy.where_
            (Accuracy.filterHoldout (accCtx c national) held none none)
            (Accuracy.gather x (Selection.axis c.geos.length none) (Selection.axis c.times.length none)) b
              = some y := by
          intro x b
          unfold Accuracy.where_ Accuracy.filterHoldout Accuracy.gather
          simp only [Accuracy.maskTimes, Selection.axis, List.length_range, accCtx]
          have h1 : ∃ k, Accuracy.bdim (Accuracy.maskGeos (accCtx c national) none).length c.geos.length = some k := by
            unfold Accuracy.maskGeos Accuracy.bdim
            cases national <;> simp [accCtx]
            split_ifs <;> simp
          obtain ⟨k, hk⟩ := h1
          have h2 : Accuracy.bdim c.times.length c.times.length = some c.times.length := by
            unfold Accuracy.bdim; simp
          simp only [accCtx] at hk
          rw [hk, h2]
          simp
        obtain ⟨y1, e1⟩ := hw (c.actual (FitData.useKpi c false)) false
        obtain ⟨y2, e2⟩ := hw (c.actual (FitData.useKpi c false)) true
        obtain ⟨y3, e3⟩ := hw ((accCtx c national).expected) false
        obtain ⟨y4, e4⟩ := hw ((accCtx c national).expected) true
        simp only [Selection.resolveGeos, Selection.resolveTimes]
        have hho : (accCtx c national).hold = some held := hh
        have hgo : (accCtx c national).geos = c.geos := rfl
        have hti : (accCtx c national).times = c.times := rfl
        have hou : (accCtx c national).outcome = c.actual (FitData.useKpi c false) := rfl
        simp only [hho, hgo, hti, hou, e1, e2, e3, e4]
        refine ⟨_, rfl, ?_⟩
        intro e he
        have hre : restricted c s.split e = some e := by
          unfold restricted FitData.splitBy; rw [hh, hsp]; simp
        rw [hre]
        unfold performance Accuracy.dropGeo
        have hna : (accCtx c national).national = national := rfl
        rw [hna]
        cases national <;> cases e <;> simp [keep]
    have hall : ∀ e ∈ (if (FitData.splitBy c s.split).isSome then [EvalSet.train, .test, .all] else [.all]),
        ∃ r, createResult d m dates bs s.level e (restricted c s.split e) = .ok r := by
      intro e he
      obtain ⟨ps, hps⟩ := collect_ok (hpred e)
      obtain ⟨r, hr⟩ := hperf e he
      exact ⟨_, by unfold createResult; rw [hps]; simp only [hr]; rfl⟩
    obtain ⟨rs, hrs⟩ := collect_ok hall
    refine ⟨rs, ?_⟩
    unfold execute
    simp only [hd, hm, hconv]
    unfold restricted at hrs
    by_cases hsp : (FitData.splitBy c s.split).isSome = true
    · simp only [hsp, if_true] at hrs ⊢; exact hrs
    · simp only [hsp, if_false, Bool.false_eq_true] at hrs ⊢; exact hrs

/-! ### Findings and a concrete case -/

/-- **C87, finding.** For a model with a holdout the option `split=False` never works: the accuracy still
has an evaluation-set axis, and no single number can be taken from it. -/
theorem unsplit_fails_with_holdout (norm : String → Option String) (c : Ctx) (national : Bool)
    (dates : List CDate) (hs : Sound c national dates) (hh : c.hold.isSome = true) (level : ℚ)
    (hv : (⟨false, level⟩ : FitSpec).validate = .ok ()) (l : List FitSpec) (rs : List Result) :
    execute norm c national dates (⟨false, level⟩ :: l) ≠ .ok rs := by
  intro h
  have := ((produced_iff norm c national dates hs ⟨false, level⟩ hv l).1 ⟨rs, h⟩).2 hh
  cases this

/-- **C87, finding.** If at some date one geo is held out and another is not, the predictions and baselines
of both Train and Test are NaN at that date.  Holding out some of the geos altogether leaves nothing in
either result. -/
theorem partial_holdout_is_nan (norm : String → Option String) (c : Ctx) (national : Bool)
    (dates : List CDate) (hs : Sound c national dates) (held : ℕ → ℕ → Bool) (hh : c.hold = some held)
    (level : ℚ) (hv : (⟨true, level⟩ : FitSpec).validate = .ok ()) (l : List FitSpec) (rs : List Result)
    (h : execute norm c national dates (⟨true, level⟩ :: l) = .ok rs) (r : Result) (hr : r ∈ rs)
    (hname : r.name ≠ .all) (i g g' : ℕ) (hg : g < c.geos.length) (hg' : g' < c.geos.length)
    (h1 : held g i = true) (h2 : held g' i = false) (p : Prediction) (hp : r.predictions[i]? = some p) :
    p.predicted.value = none ∧ p.predicted.lower = none ∧ p.predicted.upper = none ∧ p.baseline.value = none := by
  obtain ⟨-, hall⟩ := predictions_exact norm c national dates hs ⟨true, level⟩ hv l rs h r hr
  obtain ⟨-, -, -, -, s1, s2⟩ := hall i p hp
  have hc : ¬ Covered c true r.name i := by
    unfold Covered
    rw [hh]
    simp only [forall_const]
    intro hm
    cases hn : r.name with
    | train => have := hm g hg; rw [hn] at this; simp [member, h1] at this
    | test => have := hm g' hg'; rw [hn] at this; simp [member, h2] at this
    | all => exact hname hn
  exact ⟨(s1.2.2 hc).1, (s1.2.2 hc).2.1, (s1.2.2 hc).2.2, (s2.2.2 hc).1⟩

/-- **C87, finding.** The actual values are not restricted to the evaluation set: at every date they are
the same total in all results. -/
theorem actual_not_split (norm : String → Option String) (c : Ctx) (national : Bool) (dates : List CDate)
    (hs : Sound c national dates) (s : FitSpec) (hv : s.validate = .ok ()) (l : List FitSpec) (rs : List Result)
    (h : execute norm c national dates (s :: l) = .ok rs) (r r' : Result) (hr : r ∈ rs) (hr' : r' ∈ rs)
    (i : ℕ) (p p' : Prediction) (hp : r.predictions[i]? = some p) (hp' : r'.predictions[i]? = some p') :
    p.actual = p'.actual := by
  obtain ⟨-, -, -, e, -⟩ := (predictions_exact norm c national dates hs s hv l rs h r hr).2 i p hp
  obtain ⟨-, -, -, e', -⟩ := (predictions_exact norm c national dates hs s hv l rs h r' hr').2 i p' hp'
  rw [e, e']

/-- Two dates for the two times of the example of C64. -/
def exDates : List CDate := [⟨2024, 1, 1⟩, ⟨2024, 1, 8⟩]

theorem exSound : Sound FitData.Props.exCtx false exDates where
  length := rfl
  two := by simp [exDates]
  valid := by decide
  increasing := by unfold TimeCoordinates.Spec.Increasing exDates; decide
  expected := fun _ => ⟨_, List.mem_singleton.2 rfl, by simp⟩
  baseline := fun _ => ⟨_, List.mem_singleton.2 rfl, by simp⟩
  geo := by simp

example : ∃ rs, execute (fun s => some s) FitData.Props.exCtx false exDates [⟨true, 9/10⟩] = .ok rs :=
  (produced_iff _ _ _ _ exSound _ ((level_accepted_iff _).2 (by norm_num)) _).2
    ⟨by decide +kernel, fun _ => rfl⟩

end Verif.FitProto.Props
