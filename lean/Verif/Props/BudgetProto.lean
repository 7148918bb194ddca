import Verif.Spec.BudgetProto
import Verif.Lemmas.BudgetProto
import Verif.Props.DatedSpec
import Verif.Props.Optimizer
import Mathlib.Tactic

/-!
# C89: the budget optimization messages
-/

namespace Verif.BudgetProto.Props

open Verif Verif.BudgetProto Verif.BudgetProto.Spec
open Verif.Calendar (CDate)
open Verif.FitProto (Estimate)
open Verif.MarketingProto (Stat Var Outcome Media NewData toEstimate)
open Verif.Optimizer (stepSize)

/-! ### Lists -/

theorem collect_iff {α β : Type} (f : α → Except Err β) (l : List α) (r : List β) :
    collect f l = .ok r ↔ List.Forall₂ (fun a b => f a = .ok b) l r := by
  induction l generalizing r with
  | nil => simp only [collect, Except.ok.injEq, List.forall₂_nil_left_iff]; exact eq_comm
  | cons a l ih =>
    simp only [collect]
    cases hf : f a with
    | error e =>
      simp only [reduceCtorEq, false_iff]
      intro h; cases h with | cons h _ => rw [hf] at h; cases h
    | ok b =>
      simp only
      cases hc : collect f l with
      | error e =>
        simp only [reduceCtorEq, false_iff]
        intro h
        cases h with
        | cons _ h => rw [(ih _).2 h] at hc; cases hc
      | ok bs =>
        simp only [Except.ok.injEq]
        constructor
        · rintro rfl; exact .cons hf ((ih _).1 hc)
        · intro h
          cases h with
          | cons h1 h2 =>
            rw [hf] at h1; cases h1
            rw [(ih _).2 h2] at hc; cases hc
            rfl

theorem collect_ok_iff {α β : Type} (f : α → Except Err β) (l : List α) :
    (∃ r, collect f l = .ok r) ↔ ∀ a ∈ l, ∃ b, f a = .ok b := by
  constructor
  · rintro ⟨r, h⟩ a ha
    have h := (collect_iff f l r).1 h
    clear * - h ha
    induction h with
    | nil => cases ha
    | @cons x y l r hxy _ ih =>
      rcases List.mem_cons.1 ha with e | ha
      · subst e; exact ⟨y, hxy⟩
      · exact ih ha
  · intro h
    induction l with
    | nil => exact ⟨[], rfl⟩
    | cons a l ih =>
      obtain ⟨b, hb⟩ := h a (by simp)
      obtain ⟨bs, hbs⟩ := ih fun x hx => h x (by simp [hx])
      exact ⟨b :: bs, by simp [collect, hb, hbs]⟩

theorem forall₂_getElem {α β : Type} {R : α → β → Prop} {l : List α} {r : List β} (h : List.Forall₂ R l r)
    {i : ℕ} {a : α} (ha : l[i]? = some a) : ∃ b, r[i]? = some b ∧ R a b := by
  induction h generalizing i with
  | nil => simp at ha
  | @cons x y l r hxy _ ih =>
    cases i with
    | zero => simp at ha; subst ha; exact ⟨y, by simp, hxy⟩
    | succ i => simp at ha; obtain ⟨b, hb, hr⟩ := ih ha; exact ⟨b, by simpa using hb, hr⟩

/-! ### Acceptance -/

/-- **C89 (constraint).** A relative constraint is accepted exactly if the lower ratio is in `[0, 1]` and
the upper one is not negative. -/
theorem constraint_accepted_iff (ch : String) (l u : ℚ) :
    (Constraint.rel ch l u).validate = .ok () ↔ 0 ≤ l ∧ l ≤ 1 ∧ 0 ≤ u := by
  simp only [Constraint.validate]
  split_ifs with h1 h2 h3
  · simp; intro h; linarith
  · simp; intro _ h; linarith
  · simp; intro _ _; linarith
  · simp; exact ⟨not_lt.1 h1, not_lt.1 h2, not_lt.1 h3⟩

/-- **C89 (scenario).** A scenario is accepted exactly if its budget or its target is not negative and the
target is a return or a marginal return. -/
theorem scenario_accepted_iff (sc : Scenario) :
    sc.validate = .ok () ↔ match sc with
      | .fixed t => ∀ b ∈ t, 0 ≤ b
      | .flexible m v => (m = .roi ∨ m = .mroi) ∧ 0 ≤ v := by
  cases sc with
  | fixed t =>
    cases t with
    | none => simp [Scenario.validate]
    | some b =>
      simp only [Scenario.validate]
      split_ifs with h
      · simp; linarith
      · simp; exact not_lt.1 h
  | flexible m v =>
    cases m with
    | other n => simp [Scenario.validate]
    | roi =>
      simp only [Scenario.validate]
      split_ifs with h
      · simp; linarith
      · simp; exact not_lt.1 h
    | mroi =>
      simp only [Scenario.validate]
      split_ifs with h
      · simp; linarith
      · simp; exact not_lt.1 h

/-- **C89 (spec).** A spec is accepted exactly if it is accepted as an optimization spec, its batch size is
positive, new data comes with times, and a frequency cap that will be used is at least one. -/
theorem spec_accepted_iff {δ γ : Type} (s : BSpec δ γ) :
    s.validate = .ok () ↔
      DatedSpec.validateOptimization s.dated s.name s.gridName s.level = .ok () ∧ 0 < s.batch ∧
      (∀ d ∈ s.newData, d.time ≠ none) ∧ (s.optimalFrequency = true → ∀ f ∈ s.maxFrequency, 1 ≤ f) := by
  unfold BSpec.validate
  cases DatedSpec.validateOptimization s.dated s.name s.gridName s.level with
  | error e => simp
  | ok u =>
    simp only [true_and]
    by_cases hb : s.batch ≤ 0
    · rw [if_pos hb]; simp; omega
    · rw [if_neg hb]
      have ht : timeless s.newData = true ↔ ¬ ∀ d ∈ s.newData, d.time ≠ none := by
        cases s.newData <;> simp [timeless]
      have hf : (s.optimalFrequency && belowOne s.maxFrequency) = true ↔
          ¬ (s.optimalFrequency = true → ∀ f ∈ s.maxFrequency, 1 ≤ f) := by
        cases s.optimalFrequency <;> cases s.maxFrequency <;> simp [belowOne]
      by_cases h1 : timeless s.newData = true
      · rw [if_pos h1]; simp only [reduceCtorEq, false_iff]; exact fun h => (ht.1 h1) h.2.1
      · rw [if_neg h1]
        have h1' := not_not.1 (fun h => h1 (ht.2 h))
        by_cases h2 : (s.optimalFrequency && belowOne s.maxFrequency) = true
        · rw [if_pos h2]; simp only [reduceCtorEq, false_iff]; exact fun h => (hf.1 h2) h.2.2
        · rw [if_neg h2]
          have h2' := not_not.1 (fun h => h2 (hf.2 h))
          simp only [true_iff]; exact ⟨by omega, h1', h2'⟩

example : (BSpec.validate (δ := Unit) (γ := Unit) ⟨⟨none, none, ""⟩, "o".toList, "g".toList, none, 9 / 10,
      .fixed none, [], true, none, true, none, true, some 1, 100⟩).isOk = true ∧
    (BSpec.validate (δ := Unit) (γ := Unit) ⟨⟨none, none, ""⟩, "o".toList, "g".toList, none, 9 / 10,
      .fixed none, [], true, none, true, none, true, some (1 / 2), 100⟩).isOk = false ∧
    (BSpec.validate (δ := Unit) (γ := Unit) ⟨⟨none, none, ""⟩, "o".toList, "g".toList, none, 9 / 10,
      .fixed none, [], true, none, true, none, false, some (1 / 2), 100⟩).isOk = true := by decide +kernel

/-- **C89 (output).** The output is one message for each spec, in order; groups that are given (and are
not empty) must be distinct. -/
theorem execute_iff {δ γ : Type} (P : Optim δ γ) (specs : List (BSpec δ γ)) (out : List ResultMsg) :
    execute P specs = .ok out ↔
      (specs.filterMap fun s => s.group.bind fun g => if g = "" then none else some g).Nodup ∧
      List.Forall₂ (fun s m => runSpec P s = .ok m) specs out := by
  have e : groups specs = specs.filterMap fun s => s.group.bind fun g => if g = "" then none else some g := by
    unfold groups
    congr 1
    funext s
    cases s.group <;> rfl
  unfold execute
  rw [← e]
  split_ifs with h
  · rw [collect_iff]; simp [h]
  · simp [h]

/-! ### Constraints -/

theorem lookup_none {cs : List Constraint} {ch : String} : lookup cs ch = none ↔ ∀ c ∈ cs, c.name ≠ ch := by
  unfold lookup
  simp [List.find?_eq_none]

theorem lookup_some {cs : List Constraint} {ch : String} {c : Constraint} :
    lookup cs ch = some c ↔ c.name = ch ∧ ∃ pre post, cs = pre ++ c :: post ∧ ∀ x ∈ post, x.name ≠ ch := by
  unfold lookup
  rw [List.find?_eq_some_iff_append]
  simp only [decide_eq_true_eq, Bool.not_eq_true', decide_eq_false_iff_not]
  constructor
  · rintro ⟨h, as, bs, hab, hne⟩
    refine ⟨h, bs.reverse, as.reverse, ?_, ?_⟩
    · have := congrArg List.reverse hab
      simpa using this
    · intro x hx; exact hne x (by simpa using hx)
  · rintro ⟨h, pre, post, rfl, hne⟩
    exact ⟨h, post.reverse, pre.reverse, by simp, fun x hx => hne x (by simpa using hx)⟩

/-- **C89 (ratios).** The ratios of a channel are those of the last constraint on it; 1 and 2 without one. -/
theorem ratios_iff (cs : List Constraint) (ch : String) (l u : ℚ) :
    ratios cs ch = .ok (l, u) ↔ Ratios cs ch l u := by
  unfold ratios Ratios
  cases hl : lookup cs ch with
  | none =>
    simp only [Except.ok.injEq, Prod.mk.injEq]
    have h := lookup_none.1 hl
    constructor
    · rintro ⟨rfl, rfl⟩; exact .inl ⟨h, rfl, rfl⟩
    · rintro (⟨-, rfl, rfl⟩ | ⟨pre, post, rfl, -⟩)
      · exact ⟨rfl, rfl⟩
      · exact absurd rfl (h (.rel ch l u) (by simp))
  | some c =>
    obtain ⟨hn, hs⟩ := lookup_some.1 hl
    have hin : ¬ ∀ c ∈ cs, c.name ≠ ch := fun h => by rw [lookup_none.2 h] at hl; cases hl
    cases c with
    | abs n a b =>
      simp only [reduceCtorEq, false_iff]
      rintro (⟨h, -⟩ | ⟨pre, post, h1, h2⟩)
      · exact hin h
      · have : lookup cs ch = some (.rel ch l u) := lookup_some.2 ⟨rfl, pre, post, h1, h2⟩
        rw [this] at hl; cases hl
    | rel n a b =>
      simp only [Constraint.name] at hn
      subst hn
      simp only [Except.ok.injEq, Prod.mk.injEq]
      constructor
      · rintro ⟨rfl, rfl⟩; exact .inr hs
      · rintro (⟨h, -⟩ | ⟨pre, post, h1, h2⟩)
        · exact absurd h hin
        · have : lookup cs n = some (.rel n l u) := lookup_some.2 ⟨rfl, pre, post, h1, h2⟩
          rw [this] at hl
          simp at hl; exact ⟨hl.1.symm, hl.2.symm⟩

theorem constraintArgs_ok {cs : List Constraint} {paid : List String} {l u : List ℚ}
    (h : constraintArgs cs paid = .ok (l, u)) : l.length = paid.length ∧ u.length = paid.length ∧
      (∀ c ∈ cs, c.name ∈ paid) ∧
      ∀ (i : ℕ) ch, paid[i]? = some ch → ∃ a b, l[i]? = some a ∧ u[i]? = some b ∧ Ratios cs ch a b := by
  unfold constraintArgs at h
  split_ifs at h with hall
  cases hc : collect (ratios cs) paid with
  | error e => rw [hc] at h; cases h
  | ok r =>
    rw [hc] at h
    simp only [Except.ok.injEq, Prod.mk.injEq] at h
    obtain ⟨rfl, rfl⟩ := h
    have hf := (collect_iff _ _ _).1 hc
    refine ⟨by simp [hf.length_eq], by simp [hf.length_eq], by simpa using hall, ?_⟩
    intro i ch hi
    obtain ⟨⟨a, b⟩, hb, hr⟩ := forall₂_getElem hf hi
    exact ⟨a, b, by simp [hb], by simp [hb], (ratios_iff _ _ _ _).1 hr⟩

/-- **C89 (constraints).** Constraints are accepted exactly if they name paid channels and the last one on
each channel is relative. -/
theorem constraints_accepted_iff (cs : List Constraint) (paid : List String) :
    (∃ r, constraintArgs cs paid = .ok r) ↔
      (∀ c ∈ cs, c.name ∈ paid) ∧ ∀ ch ∈ paid, ∃ l u, Ratios cs ch l u := by
  unfold constraintArgs
  have e : (∃ r, collect (ratios cs) paid = .ok r) ↔ ∀ ch ∈ paid, ∃ l u, Ratios cs ch l u := by
    rw [collect_ok_iff]
    simp only [Prod.exists, ratios_iff]
  split_ifs with hall
  · rw [← e]
    have : ∀ c ∈ cs, c.name ∈ paid := by simpa using hall
    rw [and_iff_right this]
    cases hc : collect (ratios cs) paid with
    | error x => simp
    | ok r => simp
  · constructor
    · rintro ⟨_, h⟩; cases h
    rintro ⟨h, -⟩
    exact absurd (by simpa using h) hall

example : constraintArgs [.rel "b" 0 1, .rel "b" (1 / 10) (1 / 2)] ["a", "b"] =
    .ok ([1, 1 / 10], [2, 1 / 2]) ∧ constraintArgs [.rel "c" 0 1] ["a", "b"] = .error .channels ∧
    constraintArgs [.rel "b" 0 1, .abs "b" 3 4] ["a", "b"] = .error .absolute := by decide +kernel

/-! ### The call -/

theorem interval_of_call {ax : List CDate} {s : DatedSpec.Spec} {e i}
    (h1 : DatedSpec.closedEnd ax s.stop = .ok e) (h2 : DatedSpec.openEnd ax s = .ok i) :
    ∃ k, DatedSpec.interval ax = .ok k := by
  cases hi : DatedSpec.interval ax with
  | ok k => exact ⟨k, rfl⟩
  | error x =>
    exfalso
    unfold DatedSpec.closedEnd at h1
    unfold DatedSpec.openEnd at h2
    cases hs : s.stop with
    | none => simp only [hs, hi] at h2; cases h2
    | some b => simp only [hs, hi] at h1; cases h1

theorem call_asks {δ γ : Type} {P : Optim δ γ} {s : BSpec δ γ} {ax : List CDate} {a : Args δ γ} {k : ℕ}
    (hk : DatedSpec.interval ax = .ok k) (hv : ∀ b ∈ s.dated.stop, b.Valid) (h : call P s ax = .ok a) :
    Asks P s k a ∧ (∀ c ∈ s.constraints, c.name ∈ P.paid) ∧
      DatedSpec.closedEnd ax s.dated.stop = .ok a.stop := by
  unfold call at h
  cases h1 : scenarioArgs s.scenario with
  | error e => simp only [h1] at h; cases h
  | ok t =>
    obtain ⟨b, r, m⟩ := t
    simp only [h1] at h
    cases h2 : constraintArgs s.constraints P.paid with
    | error e => simp only [h2] at h; cases h
    | ok lu =>
      obtain ⟨l, u⟩ := lu
      simp only [h2] at h
      cases h3 : DatedSpec.closedEnd ax s.dated.stop with
      | error e => simp only [h3] at h; cases h
      | ok stop =>
        simp only [h3] at h
        cases h
        obtain ⟨c1, c2, c3, c4⟩ := constraintArgs_ok h2
        refine ⟨⟨rfl, ?_, ?_, c1, c2, c4, rfl, rfl, rfl, rfl, rfl, rfl, rfl⟩, c3, rfl⟩
        · unfold LastPeriod
          cases hs : s.dated.stop with
          | none => rw [hs] at h3; cases h3; exact .inl ⟨rfl, rfl⟩
          | some x =>
            rw [hs] at h3
            obtain ⟨c, rfl, hm⟩ := DatedSpec.Props.closedEnd_some hk (hv x (by rw [hs]; rfl)) h3
            exact .inr ⟨x, c, rfl, rfl, (DatedSpec.Props.minusDays_spec (hv x (by rw [hs]; rfl)) k hm).2⟩
        · cases hsc : s.scenario with
          | fixed t => rw [hsc] at h1; cases h1; exact ⟨rfl, rfl, rfl, rfl⟩
          | flexible mt v =>
            rw [hsc] at h1
            cases mt with
            | roi => cases h1; exact ⟨rfl, rfl, .inl ⟨rfl, rfl, rfl⟩⟩
            | mroi => cases h1; exact ⟨rfl, rfl, .inr ⟨rfl, rfl, rfl⟩⟩
            | other n => cases h1

/-! ### The message -/

theorem before_total (r : Curves) (ch : String) (a b : ℚ) : before r ch a b ∨ before r ch b a := by
  unfold before
  rcases lt_trichotomy (r.spend ch a) (r.spend ch b) with h | h | h
  · exact .inl (.inl h)
  · rcases le_total a b with h' | h'
    · exact .inl (.inr ⟨h, h'⟩)
    · exact .inr (.inr ⟨h.symm, h'⟩)
  · exact .inr (.inl h)

theorem before_trans (r : Curves) (ch : String) {a b c : ℚ} (h1 : before r ch a b) (h2 : before r ch b c) :
    before r ch a c := by
  unfold before at *
  rcases h1 with h1 | ⟨h1, h1'⟩ <;> rcases h2 with h2 | ⟨h2, h2'⟩
  · exact .inl (h1.trans h2)
  · exact .inl (h2 ▸ h1)
  · exact .inl (h1 ▸ h2)
  · exact .inr ⟨h1.trans h2, h1'.trans h2'⟩

theorem points_curve (r : Curves) (ch : String) : Curve r ch (points r ch) := by
  refine ⟨_, List.perm_insertionSort (before r ch) r.multipliers, ?_, rfl⟩
  have : Std.Total (before r ch) := ⟨before_total r ch⟩
  have : IsTrans ℚ (before r ch) := ⟨fun _ _ _ => before_trans r ch⟩
  refine (List.pairwise_insertionSort (before r ch) r.multipliers).imp ?_
  intro a b h
  rcases h with h | ⟨h, -⟩
  · exact h.le
  · exact h.le

theorem media_channel {d : BudgetData} {curves : Option Curves} {ch : String} {m : Media}
    (h : media d curves ch = .ok m) : Channel d curves ch m := by
  have ho : ∃ o, [outcome d ch] = [o] ∧ o.revenue = d.revenue ∧ o.share = none ∧
      Shows (d.cell ch .incremental) d.level o.value ∧
      ShowsSome (d.cell ch .roi) d.level o.roi ∧
      ShowsSome (d.cell ch .mroi) d.level o.mroi ∧
      ShowsSome (d.cell ch .cpik) d.level o.cpik ∧
      ShowsSome (d.cell ch .effectiveness) d.level o.effectiveness :=
    ⟨_, rfl, rfl, rfl, ⟨rfl, rfl, rfl, rfl⟩, ⟨_, rfl, rfl, rfl, rfl, rfl⟩, ⟨_, rfl, rfl, rfl, rfl, rfl⟩,
      ⟨_, rfl, rfl, rfl, rfl, rfl⟩, ⟨_, rfl, rfl, rfl, rfl, rfl⟩⟩
  unfold media at h
  cases curves with
  | none => cases h; exact ⟨rfl, rfl, ho, rfl⟩
  | some r =>
    simp only at h
    split_ifs at h with hr
    cases h
    exact ⟨rfl, rfl, ho, hr, _, rfl, points_curve r ch⟩

theorem analysis_lists {i : DatedSpec.Interval} {d : BudgetData} {curves : Option Curves} {x : Analysis}
    (h : analysis i d curves = .ok x) : Lists i d curves x := by
  unfold analysis at h
  cases hc : collect (media d curves) d.channels with
  | error e => rw [hc] at h; cases h
  | ok l =>
    rw [hc] at h; cases h
    exact ⟨rfl, ((collect_iff _ _ _).1 hc).imp fun _ _ => media_channel⟩

theorem cells_ok {g : GridData} {ch : String} {p} (h : cells g ch = .ok p) :
    p.1 = ch ∧ p.2.map Prod.fst = column g g.spend ch ∧ p.2.map Prod.snd = column g g.outcome ch := by
  unfold cells at h
  split_ifs at h with hl
  cases h
  push Not at hl
  exact ⟨rfl, List.map_fst_zip hl.le, List.map_snd_zip hl.ge⟩

theorem gridMsg_ok {g : GridData} {name : List Char} {x : GridMsg} (h : gridMsg g name = .ok x) :
    x.name = name ∧ x.step = g.step ∧ List.Forall₂ (fun ch p => p.1 = ch ∧
      p.2.map Prod.fst = column g g.spend ch ∧ p.2.map Prod.snd = column g g.outcome ch) g.channels x.cells := by
  unfold gridMsg at h
  cases hc : collect (cells g) g.channels with
  | error e => rw [hc] at h; cases h
  | ok l =>
    rw [hc] at h; cases h
    exact ⟨rfl, rfl, ((collect_iff _ _ _).1 hc).imp fun _ _ => cells_ok⟩

theorem openEnd_range {ax : List CDate} {k : ℕ} (hk : DatedSpec.interval ax = .ok k) (hne : ax ≠ [])
    (hv : ∀ d ∈ ax, d.Valid) {s : DatedSpec.Spec} {i : DatedSpec.Interval} (h : DatedSpec.openEnd ax s = .ok i) :
    Range ax k s i := by
  obtain ⟨x, hx⟩ : ∃ x, ax.head? = some x := by cases ax with | nil => exact absurd rfl hne | cons x l => exact ⟨x, rfl⟩
  have hst : match s.start with
      | some a => s.start.getD (ax.headD ⟨1, 1, 1⟩) = a
      | none => ax.head? = some (s.start.getD (ax.headD ⟨1, 1, 1⟩)) := by
    cases s.start with
    | some a => rfl
    | none => simp [hx, List.headD_eq_head?_getD]
  unfold DatedSpec.openEnd at h
  cases hs : s.stop with
  | some b =>
    simp only [hs] at h
    cases h
    refine ⟨rfl, hst, ?_⟩
    rw [hs]
  | none =>
    simp only [hs, hk] at h
    cases h
    refine ⟨rfl, hst, ?_⟩
    rw [hs]
    refine ⟨ax.getLast hne, List.getLast?_eq_getLast_of_ne_nil hne, ?_⟩
    simp only
    have e : ax.getLastD ⟨1, 1, 1⟩ = ax.getLast hne := by
      rw [List.getLastD_eq_getLast?, List.getLast?_eq_getLast_of_ne_nil hne]; rfl
    rw [e]
    exact (DatedSpec.Props.plusDays_spec (hv _ (List.getLast_mem hne)) k).2

theorem scenarioMsg_tells {sc : Scenario} {R : Result} {m : ScenarioMsg}
    (h : scenarioMsg (resolvedScenario sc R) = .ok m) : Tells sc R.optimized.budget m := by
  cases sc with
  | fixed t => cases t <;> (simp only [resolvedScenario, scenarioMsg] at h; cases h; rfl)
  | flexible mt v =>
    cases mt with
    | roi => simp only [resolvedScenario, scenarioMsg] at h; cases h; exact .inl ⟨rfl, rfl⟩
    | mroi => simp only [resolvedScenario, scenarioMsg] at h; cases h; exact .inr ⟨rfl, rfl⟩
    | other n => simp only [resolvedScenario, scenarioMsg] at h; cases h

theorem resolve_ok {δ γ : Type} {s s' : BSpec δ γ} {ax : List CDate} {R : Result} {l u : List ℚ}
    (h : resolve s ax R l u = .ok s') : ∃ i cs, DatedSpec.openEnd ax s.dated = .ok i ∧
      absolute R l u = .ok cs ∧
      s' = { s with dated := ⟨some i.start, some i.stop, i.tag⟩, constraints := cs,
                    scenario := resolvedScenario s.scenario R } ∧
      DatedSpec.validate ⟨some i.start, some i.stop, i.tag⟩ = .ok () ∧
      (resolvedScenario s.scenario R).validate = .ok () := by
  unfold resolve at h
  cases h1 : DatedSpec.openEnd ax s.dated with
  | error e => simp only [h1] at h; cases h
  | ok i =>
    simp only [h1] at h
    cases h2 : absolute R l u with
    | error e => simp only [h2] at h; cases h
    | ok cs =>
      simp only [h2] at h
      cases h3 : BSpec.validate { s with dated := ⟨some i.start, some i.stop, i.tag⟩, constraints := cs } with
      | error e => simp only [h3] at h; cases h
      | ok x =>
        simp only [h3] at h
        cases h4 : (resolvedScenario s.scenario R).validate with
        | error e => simp only [h4] at h; cases h
        | ok y =>
          simp only [h4] at h; cases h
          cases y
          have h5 := ((spec_accepted_iff _).1 h3).1
          exact ⟨i, cs, rfl, rfl, rfl, ((DatedSpec.Props.optimization_accepted_iff _ _ _ _).1 h5).1, rfl⟩

theorem specMsg_ok {δ γ : Type} {s : BSpec δ γ} {m : SpecMsg} (h : specMsg s = .ok m) :
    ∃ a b sc bs, s.dated.start = some a ∧ s.dated.stop = some b ∧ scenarioMsg s.scenario = .ok sc ∧
      collect boundMsg s.constraints = .ok bs ∧
      m = ⟨⟨a, b, s.dated.tag⟩, s.revenue, s.batch, sc, bs, s.optimalFrequency, s.maxFrequency⟩ := by
  unfold specMsg at h
  cases h1 : s.dated.start with
  | none => simp only [h1] at h; cases h
  | some a =>
    cases h2 : s.dated.stop with
    | none => simp only [h1, h2] at h; cases h
    | some b =>
      simp only [h1, h2] at h
      cases h3 : scenarioMsg s.scenario with
      | error e => simp only [h3] at h; cases h
      | ok sc =>
        simp only [h3] at h
        cases h4 : collect boundMsg s.constraints with
        | error e => simp only [h4] at h; cases h
        | ok bs => simp only [h4] at h; cases h; exact ⟨a, b, sc, bs, rfl, rfl, rfl, rfl, rfl⟩

theorem resultMsg_ok {δ γ : Type} {s : BSpec δ γ} {ax : List CDate} {R : Result} {l u : List ℚ} {m : ResultMsg}
    (h : resultMsg s ax R l u = .ok m) : ∃ i s' o n sm g, DatedSpec.openEnd ax s.dated = .ok i ∧
      resolve s ax R l u = .ok s' ∧
      analysis i R.optimized (if s.curves then some R.curves else none) = .ok o ∧
      analysis i R.nonoptimized (if s.curves then some R.curves else none) = .ok n ∧
      specMsg s' = .ok sm ∧ gridMsg R.grid s.gridName = .ok g ∧
      m = ⟨s.name, sm, o, n, g, s.group.getD ""⟩ := by
  unfold resultMsg at h
  cases h1 : resolve s ax R l u with
  | error e => simp only [h1] at h; cases h
  | ok s' =>
    cases h2 : DatedSpec.openEnd ax s.dated with
    | error e => simp only [h1, h2] at h; cases h
    | ok i =>
      simp only [h1, h2] at h
      cases h3 : analysis i R.optimized (if s.curves then some R.curves else none) with
      | error e => simp only [h3] at h; cases h
      | ok o =>
        simp only [h3] at h
        cases h4 : analysis i R.nonoptimized (if s.curves then some R.curves else none) with
        | error e => simp only [h4] at h; cases h
        | ok n =>
          simp only [h4] at h
          cases h5 : specMsg s' with
          | error e => simp only [h5] at h; cases h
          | ok sm =>
            simp only [h5] at h
            cases h6 : gridMsg R.grid s.gridName with
            | error e => simp only [h6] at h; cases h
            | ok g => simp only [h6] at h; cases h; exact ⟨i, s', o, n, sm, g, rfl, rfl, h3, h4, h5, rfl, rfl⟩

theorem absolute_ok {R : Result} {l u : List ℚ} {cs : List Constraint} (h : absolute R l u = .ok cs) :
    ∃ lo hi, Optimizer.getOptimizationBounds R.optimized.channels.length (spendAt R.nonoptimized)
        R.grid.roundFactor l u = .ok (lo, hi) ∧
      cs = R.optimized.channels.mapIdx fun i ch => .abs ch (lo i) (hi i) := by
  unfold absolute at h
  cases hb : Optimizer.getOptimizationBounds R.optimized.channels.length (spendAt R.nonoptimized)
        R.grid.roundFactor l u with
  | error e => rw [hb] at h; cases h
  | ok p => obtain ⟨lo, hi⟩ := p; rw [hb] at h; cases h; exact ⟨lo, hi, rfl, rfl⟩

theorem boundMsgs {chs : List String} {lo hi : ℕ → ℤ} {bs : List Bound}
    (h : collect boundMsg (chs.mapIdx fun i ch => .abs ch (lo i) (hi i)) = .ok bs) :
    bs = chs.mapIdx fun i ch => ⟨ch, lo i, hi i⟩ := by
  have h := (collect_iff _ _ _).1 h
  apply List.ext_getElem?
  intro i
  rw [List.getElem?_mapIdx]
  cases hc : chs[i]? with
  | none =>
    have hl : bs.length = chs.length := by rw [← h.length_eq]; simp
    simp only [Option.map_none]
    rw [List.getElem?_eq_none_iff] at hc ⊢
    omega
  | some ch =>
    obtain ⟨b, hb, hr⟩ := forall₂_getElem h (i := i) (a := .abs ch (lo i) (hi i)) (by
      rw [List.getElem?_mapIdx, hc]; rfl)
    rw [hb]
    simp only [boundMsg, Except.ok.injEq] at hr
    rw [← hr]; rfl

theorem names_mapIdx (chs : List String) (lo hi : ℕ → ℤ) :
    (chs.mapIdx fun i ch => (⟨ch, lo i, hi i⟩ : Bound)).map Bound.name = chs := by
  apply List.ext_getElem?
  intro j
  rw [List.getElem?_map, List.getElem?_mapIdx, Option.map_map]
  cases chs[j]? <;> rfl

theorem runSpec_ok {δ γ : Type} {P : Optim δ γ} {s : BSpec δ γ} {m : ResultMsg} (h : runSpec P s = .ok m) :
    ∃ ax a R, axis P s = .ok ax ∧ call P s ax = .ok a ∧ P.optimize a = .ok R ∧
      resultMsg s ax R a.lower a.upper = .ok m := by
  unfold runSpec at h
  cases h1 : axis P s with
  | error e => simp only [h1] at h; cases h
  | ok ax =>
    simp only [h1] at h
    cases h2 : call P s ax with
    | error e => simp only [h2] at h; cases h
    | ok a =>
      simp only [h2] at h
      cases h3 : P.optimize a with
      | error e => simp only [h3] at h; cases h
      | ok R => simp only [h3] at h; exact ⟨ax, a, R, rfl, h2, h3, h⟩

theorem axis_ok {δ γ : Type} {P : Optim δ γ} {s : BSpec δ γ} {ax : List CDate} (h : axis P s = .ok ax) :
    (s.newData.bind fun n => n.time).getD P.dates = ax := by
  unfold axis at h
  cases ht : s.newData.bind fun n => n.time with
  | none => simp only [ht] at h; cases h; rfl
  | some ts =>
    simp only [ht] at h
    cases hc : TimeCoordinates.create ts with
    | error e => simp only [hc] at h; cases h
    | ok l =>
      simp only [hc] at h; cases h
      unfold TimeCoordinates.create at hc
      split_ifs at hc
      cases hc; rfl

/-- **C89 (exactness).** When a spec produces a message, the optimizer was called with the arguments the
spec asks for, on the times of its new data or else of the model, and the message reports the result of that
call: its dates, the scenario, the two allocations channel by channel, the curves and the grid. -/
theorem message_exact {δ γ : Type} (P : Optim δ γ) (s : BSpec δ γ) (m : ResultMsg)
    (hne : (s.newData.bind fun n => n.time).getD P.dates ≠ [])
    (hv : ∀ d ∈ (s.newData.bind fun n => n.time).getD P.dates, d.Valid)
    (hstop : ∀ b ∈ s.dated.stop, b.Valid) (h : runSpec P s = .ok m) :
    ∃ k a R, DatedSpec.interval ((s.newData.bind fun n => n.time).getD P.dates) = .ok k ∧ Asks P s k a ∧
      (∀ c ∈ s.constraints, c.name ∈ P.paid) ∧ P.optimize a = .ok R ∧
      Reports s ((s.newData.bind fun n => n.time).getD P.dates) k R m ∧
      m.spec.bounds.map Bound.name = R.optimized.channels := by
  obtain ⟨ax, a, R, h1, h2, h3, h4⟩ := runSpec_ok h
  rw [axis_ok h1] at hne hv ⊢
  obtain ⟨i, s', o, n, sm, g, r1, r2, r3, r4, r5, r6, rfl⟩ := resultMsg_ok h4
  obtain ⟨i', cs, q1, q2, rfl, q3, q4⟩ := resolve_ok r2
  rw [r1] at q1; cases q1
  have hce : ∃ e, DatedSpec.closedEnd ax s.dated.stop = .ok e := by
    unfold call at h2
    cases x1 : scenarioArgs s.scenario with
    | error e => simp only [x1] at h2; cases h2
    | ok t =>
      obtain ⟨b, r, m⟩ := t
      simp only [x1] at h2
      cases x2 : constraintArgs s.constraints P.paid with
      | error e => simp only [x2] at h2; cases h2
      | ok lu =>
        simp only [x2] at h2
        cases x3 : DatedSpec.closedEnd ax s.dated.stop with
        | error e => simp only [x3] at h2; cases h2
        | ok stop => exact ⟨_, rfl⟩
  obtain ⟨e, hce⟩ := hce
  obtain ⟨k, hk⟩ := interval_of_call hce r1
  obtain ⟨c1, c2, -⟩ := call_asks hk hstop h2
  obtain ⟨a', b', sc, bs, s1, s2, s3, s4, rfl⟩ := specMsg_ok r5
  simp only [Option.some.injEq] at s1 s2
  subst s1 s2
  obtain ⟨g1, g2, g3⟩ := gridMsg_ok r6
  obtain ⟨lo, hi, b1, rfl⟩ := absolute_ok q2
  have hb := boundMsgs s4
  refine ⟨k, a, R, hk, c1, c2, h3, ⟨rfl, rfl, openEnd_range hk hne hv r1, rfl, rfl, scenarioMsg_tells s3, rfl,
    rfl, analysis_lists r3, analysis_lists r4, g1, g2, g3⟩, ?_⟩
  simp only [hb]
  exact names_mapIdx _ _ _

theorem sum_of_shares {n : ℕ} {hist sp : ℕ → ℚ} {b : ℚ} (h0 : Optimizer.histTotal n hist ≠ 0)
    (h : ∀ c, sp c * Optimizer.histTotal n hist = b * hist c) : ((List.range n).map sp).sum = b := by
  have e : sp = fun c => (b / Optimizer.histTotal n hist) * hist c := by
    funext c
    rw [div_mul_eq_mul_div, eq_div_iff h0]; exact h c
  rw [e, List.sum_map_mul_left]
  exact div_mul_cancel₀ _ h0

/-- **C89 (constraints).** With an optimizer that runs the grid search, the constraints in a message are the
bounds of that search, although they are computed once more from the rounded spend.  In every channel both the
optimized and the non-optimized spend of the message are whole steps and lie between them; the non-optimized
spend is, up to half a step, a share of the budget, and the bounds are within a step of what the ratios of the
spec say about it. -/
theorem constraints_bracket_spend {δ γ : Type} (P : Optim δ γ) (rev : Bool) (hP : Faithful P rev)
    (s : BSpec δ γ) (m : ResultMsg) (h : runSpec P s = .ok m) :
    ∃ (t : ℕ) (sp : ℕ → ℚ), m.spec.bounds.length = P.paid.length ∧
      m.optimized.media.length = P.paid.length ∧ m.nonoptimized.media.length = P.paid.length ∧
      (∀ b, s.scenario = .fixed (some b) → ((List.range P.paid.length).map sp).sum = b) ∧
      ∀ (c : ℕ) ch, P.paid[c]? = some ch →
        ∃ (lo hi x y : ℤ) (l u : ℚ) (mo mn : Media), Ratios s.constraints ch l u ∧
          m.spec.bounds[c]? = some ⟨ch, lo, hi⟩ ∧
          m.optimized.media[c]? = some mo ∧ mo.name = ch ∧ mo.spend.map Prod.fst = some (some (x : ℚ)) ∧
          m.nonoptimized.media[c]? = some mn ∧ mn.name = ch ∧ mn.spend.map Prod.fst = some (some (y : ℚ)) ∧
          (10 ^ t : ℤ) ∣ x ∧ (10 ^ t : ℤ) ∣ y ∧ lo ≤ x ∧ x ≤ hi ∧ lo ≤ y ∧ y ≤ hi ∧
          |(y : ℚ) - sp c| ≤ 10 ^ t / 2 ∧
          |(lo : ℚ) - (1 - l) * sp c| ≤ 10 ^ t ∧
          |(hi : ℚ) - (1 + u) * sp c| ≤ 10 ^ t + u * 10 ^ t / 2 := by
  obtain ⟨ax, a, R, h1, h2, h3, h4⟩ := runSpec_ok h
  obtain ⟨i, s', o, n, sm, g, r1, r2, r3, r4, r5, r6, rfl⟩ := resultMsg_ok h4
  obtain ⟨i', cs, q1, q2, rfl, q3, q4⟩ := resolve_ok r2
  obtain ⟨a', b', sc, bs, s1, s2, s3, s4, rfl⟩ := specMsg_ok r5
  obtain ⟨lo', hi', b1, rfl⟩ := absolute_ok q2
  have hb := boundMsgs s4
  obtain ⟨O, req, xs, non, K, base, f, o1, o2, o3, o4, o5, o6, o7, o8, o9, o10, o11⟩ := hP.run a R h3
  rw [← o1] at o3 o5
  obtain ⟨sp, lo, hi, w1, w2, w3, w4, w5, w6, w7⟩ := Optimizer.optimize_within o2 o3 o4 o5 o8
  simp only [Option.getD_some] at w4
  rw [o10.channels, o9, ← o1] at b1
  have hcall : ∃ l u b r mr, scenarioArgs s.scenario = .ok (b, r, mr) ∧
      constraintArgs s.constraints P.paid = .ok (l, u) ∧ a.lower = l ∧ a.upper = u ∧ a.budget = b ∧
      a.fixedBudget = s.scenario.isFixed := by
    unfold call at h2
    cases x1 : scenarioArgs s.scenario with
    | error e => simp only [x1] at h2; cases h2
    | ok t =>
      obtain ⟨b, r, m⟩ := t
      simp only [x1] at h2
      cases x2 : constraintArgs s.constraints P.paid with
      | error e => simp only [x2] at h2; cases h2
      | ok lu =>
        simp only [x2] at h2
        cases x3 : DatedSpec.closedEnd ax s.dated.stop with
        | error e => simp only [x3] at h2; cases h2
        | ok stop => simp only [x3] at h2; cases h2; exact ⟨_, _, _, _, _, rfl, rfl, rfl, rfl, rfl, rfl⟩
  obtain ⟨l, u, b, r, mr, k1, k2, k3, k4, k5, k6⟩ := hcall
  obtain ⟨c1, c2, c3, c4⟩ := constraintArgs_ok k2
  have hlo := (analysis_lists r3).2
  have hln := (analysis_lists r4).2
  rw [o10.channels] at hlo hb
  rw [o11.channels] at hln
  have hst : (Optimizer.stepSize O.roundFactor : ℤ) = 10 ^ (-O.roundFactor).toNat := rfl
  refine ⟨(-O.roundFactor).toNat, sp, by simp [hb], hlo.length_eq.symm, hln.length_eq.symm, ?_, ?_⟩
  · intro v hv
    rw [hv] at k1 k6
    simp only [scenarioArgs, Except.ok.injEq, Prod.mk.injEq] at k1
    rw [← o1]
    refine sum_of_shares w3 fun c => ?_
    rw [w2]
    congr 1
    have e1 : a.budget = some v := by rw [k5, ← k1.1]
    have e2 : a.fixedBudget = true := by rw [k6]; rfl
    rw [e1, e2] at o6 o7
    simp only [Optimizer.chooseRequest, if_true] at o7
    cases o7
    simp only [Optimizer.validateBudget, if_true] at o6
    split_ifs at o6 with y1 y2 y3
    simp only [Optimizer.Request.budget, Optimizer.resolveBudget]
    rw [if_neg (by linarith)]
  · intro c ch hc
    have hcl : c < O.grid.cols := by rw [o1]; exact (List.getElem?_eq_some_iff.1 hc).1
    obtain ⟨x1, x2, x3, x, x4, x5, x6, x7⟩ := w7 c hcl
    obtain ⟨ra, rb, g1, g2, g3⟩ := c4 c ch hc
    obtain ⟨mo, m1, m2⟩ := forall₂_getElem hlo hc
    obtain ⟨mn, m3, m4⟩ := forall₂_getElem hln hc
    have hnon : R.nonoptimized.spend ch = ((Optimizer.roundedSpend sp O.roundFactor c : ℤ) : ℚ) :=
      o11.spend c ch _ hc (by rw [List.getElem?_map, x1]; rfl)
    have hopt : R.optimized.spend ch = ((x : ℤ) : ℚ) := o10.spend c ch _ hc x4
    have hat : spendAt R.nonoptimized c = Optimizer.roundedSpend sp O.roundFactor c := by
      unfold spendAt
      rw [o11.channels, hc]
      exact hnon
    obtain ⟨e1, e2⟩ := Optimizer.bounds_of_rounded o2 w4 b1 hat
    obtain ⟨f1, f2, f3, f4, f5, f6, f7, f8, f9⟩ := Optimizer.bounds_facts o2 w4 hcl (w1 c hcl)
    have hca : Optimizer.constraintAt a.lower c = ra ∧ Optimizer.constraintAt a.upper c = rb := by
      rw [k3, k4]
      unfold Optimizer.constraintAt
      have hcp : c < P.paid.length := by rw [← o1]; exact hcl
      constructor
      · split_ifs with hl
        · have : c = 0 := by omega
          subst this; rw [List.getD_eq_getElem?_getD, g1]; rfl
        · rw [List.getD_eq_getElem?_getD, g1]; rfl
      · split_ifs with hl
        · have : c = 0 := by omega
          subst this; rw [List.getD_eq_getElem?_getD, g2]; rfl
        · rw [List.getD_eq_getElem?_getD, g2]; rfl
    rw [hca.1] at f8
    rw [hca.2] at f9
    rw [hst] at f3 f7 f8 f9 x7
    push_cast at f7 f8 f9
    refine ⟨lo c, hi c, x, Optimizer.roundedSpend sp O.roundFactor c, ra, rb, mo, mn, g3, ?_, m1, m2.name, ?_,
      m3, m4.name, ?_, x7, f3, x5, x6, x2, x3, f7, f8, f9⟩
    · simp only [hb]
      rw [List.getElem?_mapIdx, hc, ← e1, ← e2]
      rfl
    · rw [m2.spend, hopt]; rfl
    · rw [m4.spend, hnon]; rfl

/-- **C89 (defaults).** A channel without a constraint may lose all its spend and may get three times as
much. -/
theorem default_ratios (cs : List Constraint) (ch : String) (h : ∀ c ∈ cs, c.name ≠ ch) (l u : ℚ) :
    Ratios cs ch l u ↔ l = 1 ∧ u = 2 := by
  constructor
  · rintro (⟨-, h1⟩ | ⟨pre, post, rfl, -⟩)
    · exact h1
    · exact absurd rfl (h (.rel ch l u) (by simp))
  · exact fun h' => .inl ⟨h, h'⟩

/-- **C89 (labels).** The outcomes of a message are labelled with the type of the KPI of the model, not of
the spec: on a model with a revenue KPI a spec that asks for no revenue gets outcomes labelled as revenue
under a spec message labelled as not. -/
theorem outcome_labels {δ γ : Type} (P : Optim δ γ) (rev : Bool) (hP : Faithful P rev) (s : BSpec δ γ)
    (m : ResultMsg) (h : runSpec P s = .ok m) :
    m.spec.revenue = s.revenue ∧ ∀ x ∈ m.optimized.media ++ m.nonoptimized.media,
      ∀ o ∈ x.outcomes, o.revenue = (rev || s.revenue) ∧ o.value.probability = s.level := by
  obtain ⟨ax, a, R, h1, h2, h3, h4⟩ := runSpec_ok h
  obtain ⟨i, s', o, n, sm, g, r1, r2, r3, r4, r5, r6, rfl⟩ := resultMsg_ok h4
  obtain ⟨i', cs, q1, q2, rfl, q3, q4⟩ := resolve_ok r2
  obtain ⟨a', b', sc, bs, s1, s2, s3, s4, rfl⟩ := specMsg_ok r5
  have ha : a.useKpi = (!s.revenue) ∧ a.level = s.level := by
    unfold call at h2
    cases x1 : scenarioArgs s.scenario with
    | error e => simp only [x1] at h2; cases h2
    | ok t =>
      obtain ⟨b, r, m⟩ := t
      simp only [x1] at h2
      cases x2 : constraintArgs s.constraints P.paid with
      | error e => simp only [x2] at h2; cases h2
      | ok lu =>
        simp only [x2] at h2
        cases x3 : DatedSpec.closedEnd ax s.dated.stop with
        | error e => simp only [x3] at h2; cases h2
        | ok stop => simp only [x3] at h2; cases h2; exact ⟨rfl, rfl⟩
  have hr := hP.revenue a R h3
  have hl := hP.level a R h3
  rw [ha.1, Bool.not_not] at hr
  rw [ha.2] at hl
  refine ⟨rfl, ?_⟩
  have key : ∀ (d : BudgetData) (c : Option Curves) (x : Analysis), d.revenue = (rev || s.revenue) →
      d.level = s.level → Lists i d c x → ∀ y ∈ x.media, ∀ o ∈ y.outcomes,
      o.revenue = (rev || s.revenue) ∧ o.value.probability = s.level := by
    rintro d c ⟨xi, xm⟩ hd hlv ⟨-, hx⟩ y hy o ho
    simp only at hx hy
    generalize d.channels = chs at hx
    induction hx with
    | nil => cases hy
    | @cons ch z _ _ hz _ ih =>
      rcases List.mem_cons.1 hy with e | hy
      · subst e
        obtain ⟨w, w1, w2, -, w3, -⟩ := hz.outcome
        rw [w1, List.mem_singleton] at ho
        subst ho
        exact ⟨by rw [w2, hd], by rw [w3.2.1, hlv]⟩
      · exact ih hy
  intro x hx
  rcases List.mem_append.1 hx with hx | hx
  · exact key _ _ _ hr.1 hl.1 (analysis_lists r3) x hx
  · exact key _ _ _ hr.2 hl.2 (analysis_lists r4) x hx

/-- **C89 (grid).** When outcome and spend are missing in the same rows, the cells of a channel are its rows
with both, in order. -/
theorem cells_aligned (g : GridData) (ch : String) (p : String × List (ℚ × ℚ)) (h : cells g ch = .ok p)
    (hm : ∀ r < g.rows, (g.spend r ch).isSome = (g.outcome r ch).isSome) :
    p = (ch, (List.range g.rows).filterMap fun r =>
      (g.spend r ch).bind fun x => (g.outcome r ch).map fun y => (x, y)) := by
  unfold cells at h
  split_ifs at h
  cases h
  congr 1
  unfold present
  have hm' : ∀ r ∈ List.range g.rows, (g.spend r ch).isSome = (g.outcome r ch).isSome :=
    fun r hr => hm r (List.mem_range.1 hr)
  generalize List.range g.rows = l at hm'
  induction l with
  | nil => rfl
  | cons r l ih =>
    have h0 := hm' r (by simp)
    have ih := ih fun x hx => hm' x (by simp [hx])
    rw [List.filterMap_cons, List.filterMap_cons, List.filterMap_cons]
    cases hs : g.spend r ch with
    | none =>
      rw [hs] at h0
      cases ho : g.outcome r ch with
      | none => simpa using ih
      | some y => rw [ho] at h0; cases h0
    | some x =>
      rw [hs] at h0
      cases ho : g.outcome r ch with
      | none => rw [ho] at h0; cases h0
      | some y => simpa using ih

/-- **C89 (finding).** Rows are dropped from spend and outcome separately and only the counts are compared:
with the missing values in different rows a spend is paired with the outcome of another spend. -/
theorem cells_misaligned : ∃ g ch p, cells g ch = .ok p ∧ (10, 5) ∈ p.2 ∧
    ∀ r < g.rows, ¬ (g.spend r ch = some 10 ∧ g.outcome r ch = some 5) := by
  refine ⟨⟨["a"], 10, 3, fun r _ => if r = 2 then none else some (10 * r),
    fun r _ => if r = 1 then none else some (r * 5 / 2), 0⟩, "a", _, rfl, ?_, ?_⟩
  · decide +kernel
  · decide +kernel

/-- **C89 (finding).** A budget of zero and a target return of zero are accepted in a scenario, but no
spec with them ever produces a message. -/
theorem zero_accepted_never_run {δ γ : Type} (P : Optim δ γ) (rev : Bool) (hP : Faithful P rev) (s : BSpec δ γ)
    (hs : s.scenario = .fixed (some 0) ∨ s.scenario = .flexible .roi 0) :
    s.scenario.validate = .ok () ∧ ∀ m, runSpec P s ≠ .ok m := by
  refine ⟨by rcases hs with e | e <;> (rw [e]; decide +kernel), ?_⟩
  intro m h
  obtain ⟨ax, a, R, h1, h2, h3, h4⟩ := runSpec_ok h
  obtain ⟨O, req, xs, non, K, base, f, o1, o2, o3, o4, o5, o6, o7, -⟩ := hP.run a R h3
  unfold call at h2
  rcases hs with e | e <;> rw [e] at h2 <;> simp only [scenarioArgs] at h2 <;>
    (cases x2 : constraintArgs s.constraints P.paid with
      | error e => simp only [x2] at h2; cases h2
      | ok lu =>
        simp only [x2] at h2
        cases x3 : DatedSpec.closedEnd ax s.dated.stop with
        | error e => simp only [x3] at h2; cases h2
        | ok stop =>
          simp only [x3] at h2
          cases h2
          first
          | (simp [Optimizer.validateBudget, Scenario.isFixed] at o6; done)
          | (simp [Optimizer.chooseRequest, Scenario.isFixed] at o7))

/-- **C89 (produced).** With the answer of the optimizer at hand, the message is produced exactly if the
resolved dates are in order, the ratios fit the channels, the scenario is a return, a marginal return or a
budget (the optimized total, if none was given, not being negative), the response curves know all channels
and each column of the grid has as many outcomes as spends. -/
theorem message_produced_iff {δ γ : Type} (s : BSpec δ γ) (hs : s.validate = .ok ())
    (hsc : s.scenario.validate = .ok ()) (ax : List CDate) (R : Result) (l u : List ℚ) :
    (∃ m, resultMsg s ax R l u = .ok m) ↔ ∃ i, DatedSpec.openEnd ax s.dated = .ok i ∧
      DatedSpec.validate ⟨some i.start, some i.stop, i.tag⟩ = .ok () ∧
      Optimizer.validateSpendConstraints R.optimized.channels.length l u = .ok () ∧
      (s.scenario = .fixed none → 0 ≤ R.optimized.budget) ∧
      (s.curves = true → ∀ ch ∈ R.optimized.channels ++ R.nonoptimized.channels, ch ∈ R.curves.channels) ∧
      ∀ ch ∈ R.grid.channels,
        (column R.grid R.grid.spend ch).length = (column R.grid R.grid.outcome ch).length := by
  obtain ⟨v1, v2, v3, v4⟩ := (spec_accepted_iff s).1 hs
  obtain ⟨v5, v6⟩ := (DatedSpec.Props.optimization_accepted_iff _ _ _ _).1 v1
  have hmedia : ∀ (d : BudgetData) (i : DatedSpec.Interval),
      (∃ x, analysis i d (if s.curves then some R.curves else none) = .ok x) ↔
        (s.curves = true → ∀ ch ∈ d.channels, ch ∈ R.curves.channels) := by
    intro d i
    have e : (∃ x, analysis i d (if s.curves then some R.curves else none) = .ok x) ↔
        ∃ r, collect (media d (if s.curves then some R.curves else none)) d.channels = .ok r := by
      unfold analysis
      cases collect (media d (if s.curves then some R.curves else none)) d.channels <;> simp
    rw [e, collect_ok_iff]
    cases hcv : s.curves with
    | false => simp [media]
    | true =>
      simp only [if_true, forall_const]
      refine forall₂_congr fun ch _ => ?_
      simp only [media]
      by_cases hx : ch ∈ R.curves.channels
      · simp [hx]
      · simp [hx]
  have hgrid : (∃ x, gridMsg R.grid s.gridName = .ok x) ↔ ∀ ch ∈ R.grid.channels,
        (column R.grid R.grid.spend ch).length = (column R.grid R.grid.outcome ch).length := by
    have e : (∃ x, gridMsg R.grid s.gridName = .ok x) ↔ ∃ r, collect (cells R.grid) R.grid.channels = .ok r := by
      unfold gridMsg
      cases collect (cells R.grid) R.grid.channels <;> simp
    rw [e, collect_ok_iff]
    refine forall₂_congr fun ch _ => ?_
    unfold cells
    by_cases hx : (present R.grid R.grid.spend ch).length = (present R.grid R.grid.outcome ch).length
    · simp only [ne_eq, hx, not_true_eq_false, if_false, Except.ok.injEq, exists_eq', true_iff]; exact hx
    · simp only [ne_eq, hx, not_false_eq_true, if_true, reduceCtorEq, exists_false, false_iff]; exact hx
  have hres : (∀ (i : DatedSpec.Interval) cs, BSpec.validate { s with dated := ⟨some i.start, some i.stop, i.tag⟩, constraints := cs }
      = .ok () ↔ DatedSpec.validate ⟨some i.start, some i.stop, i.tag⟩ = .ok ()) := by
    intro i cs
    rw [spec_accepted_iff, DatedSpec.Props.optimization_accepted_iff]
    simp only
    exact ⟨fun h => h.1.1, fun h => ⟨⟨h, v6⟩, v2, v3, v4⟩⟩
  have hsv : (resolvedScenario s.scenario R).validate = .ok () ↔
      (s.scenario = .fixed none → 0 ≤ R.optimized.budget) := by
    cases hx : s.scenario with
    | flexible mt v => rw [hx] at hsc; simp [resolvedScenario, hsc]
    | fixed t =>
      cases t with
      | some b => rw [hx] at hsc; simp [resolvedScenario, hsc]
      | none =>
        simp only [resolvedScenario, forall_const]
        rw [scenario_accepted_iff]
        simp
  have hsm : ∃ x, scenarioMsg (resolvedScenario s.scenario R) = .ok x := by
    cases hx : s.scenario with
    | flexible mt v =>
      rw [hx] at hsc
      cases mt with
      | roi => exact ⟨_, rfl⟩
      | mroi => exact ⟨_, rfl⟩
      | other n => cases hsc
    | fixed t => cases t <;> exact ⟨_, rfl⟩
  have hbm : ∀ lo hi : ℕ → ℤ, ∃ bs, collect boundMsg
      (R.optimized.channels.mapIdx fun i ch => Constraint.abs ch (lo i) (hi i)) = .ok bs := by
    intro lo hi
    rw [collect_ok_iff]
    intro c hc
    rw [List.mem_mapIdx] at hc
    obtain ⟨i, hi', rfl⟩ := hc
    exact ⟨_, rfl⟩
  constructor
  · rintro ⟨m, h⟩
    obtain ⟨i, s', o, n, sm, g, r1, r2, r3, r4, r5, r6, rfl⟩ := resultMsg_ok h
    obtain ⟨i', cs, q1, q2, rfl, q3, q4⟩ := resolve_ok r2
    rw [r1] at q1; cases q1
    obtain ⟨lo, hi, b1, rfl⟩ := absolute_ok q2
    refine ⟨i, r1, q3, ?_, ?_, ?_, hgrid.1 ⟨g, r6⟩⟩
    · exact (Optimizer.getOptimizationBounds_ok b1).1
    · exact hsv.1 q4
    · intro hc ch hch
      rcases List.mem_append.1 hch with hch | hch
      · exact (hmedia R.optimized i).1 ⟨o, r3⟩ hc ch hch
      · exact (hmedia R.nonoptimized i).1 ⟨n, r4⟩ hc ch hch
  · rintro ⟨i, p1, p2, p3, p4, p5, p6⟩
    obtain ⟨o, ho⟩ := (hmedia R.optimized i).2 fun hc ch hch => p5 hc ch (List.mem_append_left _ hch)
    obtain ⟨n, hn⟩ := (hmedia R.nonoptimized i).2 fun hc ch hch => p5 hc ch (List.mem_append_right _ hch)
    obtain ⟨g, hg⟩ := hgrid.2 p6
    obtain ⟨lo, hi, hb⟩ : ∃ lo hi, Optimizer.getOptimizationBounds R.optimized.channels.length
        (spendAt R.nonoptimized) R.grid.roundFactor l u = .ok (lo, hi) := by
      unfold Optimizer.getOptimizationBounds
      rw [p3]
      exact ⟨_, _, rfl⟩
    have ha : absolute R l u = .ok (R.optimized.channels.mapIdx fun i ch => .abs ch (lo i) (hi i)) := by
      unfold absolute; rw [hb]
    obtain ⟨x, hx⟩ := hsm
    obtain ⟨bs, hbs⟩ := hbm lo hi
    have hr : resolve s ax R l u = .ok { s with
        dated := ⟨some i.start, some i.stop, i.tag⟩
        constraints := R.optimized.channels.mapIdx fun i ch => .abs ch (lo i) (hi i)
        scenario := resolvedScenario s.scenario R } := by
      unfold resolve
      simp only [p1, ha, (hres i _).2 p2, hsv.2 p4]
    unfold resultMsg
    simp only [hr, p1, ho, hn, specMsg, hx, hbs, hg]
    exact ⟨_, rfl⟩

/-! ### An optimizer -/

/-- A dataset with an allocation. -/
def dataOf (paid : List String) (xs : List (Option ℤ)) (rev : Bool) (level : ℚ) : BudgetData where
  channels := paid
  spend ch := ((xs.getD (paid.idxOf ch) none).getD 0 : ℤ)
  share _ := none
  cell _ _ st := match st with
    | .mean => some 2
    | .low => some 1
    | .high => some 3
    | _ => none
  budget := ((xs.map fun x => x.getD 0).sum : ℤ)
  revenue := rev
  level := level

/-- An optimizer that creates a grid and searches it, for some historical spends and outcomes. -/
def fresh (dates : List CDate) (paid : List String) (hist : ℕ → ℚ) (out : ℕ → ℕ → ℚ) (rev : Bool) :
    Optim Unit Unit where
  dates := dates
  paid := paid
  optimize a := match Optimizer.validateBudget a.fixedBudget a.budget a.targetRoi a.targetMroi with
    | .error e => .error e
    | .ok () => match Optimizer.createOptimizationGrid paid.length hist out a.budget (1 / 10000) none a.lower
        a.upper with
      | .error e => .error e
      | .ok O => match Optimizer.chooseRequest a.fixedBudget a.budget a.targetRoi a.targetMroi with
        | .error e => .error e
        | .ok req => match Optimizer.optimize O req none (some a.lower) (some a.upper) with
          | .error e => .error e
          | .ok (xs, non) => .ok
            { optimized := dataOf paid xs (rev || !a.useKpi) a.level
              nonoptimized := dataOf paid (non.map some) (rev || !a.useKpi) a.level
              grid := ⟨paid, stepSize O.roundFactor, O.grid.rows, fun r ch => O.grid.spend r (paid.idxOf ch),
                fun r ch => O.grid.out r (paid.idxOf ch), O.roundFactor⟩
              curves := ⟨paid, [0, 1, 2], fun ch x => hist (paid.idxOf ch) * x, fun _ x _ => some x⟩ }

theorem dataOf_holds {paid : List String} (hn : paid.Nodup) (xs : List (Option ℤ)) (rev : Bool) (level : ℚ) :
    Holds paid (dataOf paid xs rev level) xs where
  channels := rfl
  budget := rfl
  spend c ch x hc hx := by
    have : paid.idxOf ch = c := by
      obtain ⟨hl, he⟩ := List.getElem?_eq_some_iff.1 hc
      rw [← he]; exact hn.idxOf_getElem c hl
    simp only [dataOf, this, List.getD_eq_getElem?_getD, hx, Option.getD_some]

/-- Such optimizers are what the theorems ask for. -/
theorem fresh_faithful (dates : List CDate) (paid : List String) (hist : ℕ → ℚ) (out : ℕ → ℕ → ℚ) (rev : Bool)
    (hn : paid.Nodup) (hne : paid ≠ []) (hh : ∀ c < paid.length, 0 ≤ hist c) :
    Faithful (fresh dates paid hist out rev) rev := by
  have key : ∀ a R, (fresh dates paid hist out rev).optimize a = .ok R → ∃ O req xs non,
      Optimizer.validateBudget a.fixedBudget a.budget a.targetRoi a.targetMroi = .ok () ∧
      Optimizer.createOptimizationGrid paid.length hist out a.budget (1 / 10000) none a.lower a.upper = .ok O ∧
      Optimizer.chooseRequest a.fixedBudget a.budget a.targetRoi a.targetMroi = .ok req ∧
      Optimizer.optimize O req none (some a.lower) (some a.upper) = .ok (xs, non) ∧
      R.optimized = dataOf paid xs (rev || !a.useKpi) a.level ∧
      R.nonoptimized = dataOf paid (non.map some) (rev || !a.useKpi) a.level ∧
      R.grid.roundFactor = O.roundFactor := by
    intro a R h
    simp only [fresh] at h
    cases h1 : Optimizer.validateBudget a.fixedBudget a.budget a.targetRoi a.targetMroi with
    | error e => simp only [h1] at h; cases h
    | ok x =>
      simp only [h1] at h
      cases h2 : Optimizer.createOptimizationGrid paid.length hist out a.budget (1 / 10000) none a.lower
        a.upper with
      | error e => simp only [h2] at h; cases h
      | ok O =>
        simp only [h2] at h
        cases h3 : Optimizer.chooseRequest a.fixedBudget a.budget a.targetRoi a.targetMroi with
        | error e => simp only [h3] at h; cases h
        | ok req =>
          simp only [h3] at h
          cases h4 : Optimizer.optimize O req none (some a.lower) (some a.upper) with
          | error e => simp only [h4] at h; cases h
          | ok r => simp only [h4] at h; cases h; exact ⟨O, req, r.1, r.2, rfl, rfl, rfl, h4, rfl, rfl, rfl⟩
  refine ⟨hn, ?_, ?_, ?_⟩
  · intro a R h
    obtain ⟨O, req, xs, non, k1, k2, k3, k4, k5, k6, k7⟩ := key a R h
    have k2' := k2
    unfold Optimizer.createOptimizationGrid at k2'
    simp only [Optimizer.bind_ok] at k2'
    obtain ⟨share, p1, rf, p2, ⟨lo, hi⟩, p3, ⟨rows, cells⟩, p4, p5⟩ := k2'
    injection p5 with p5
    obtain ⟨hrf, -, hb⟩ := Optimizer.getRoundFactor_ok p2
    have hshare : ∀ c < paid.length, 0 ≤ share c := by
      intro c hc
      unfold Optimizer.validatePctOfSpend at p1
      simp only at p1
      split_ifs at p1
      injection p1 with p1
      rw [← p1]
      refine div_nonneg (hh c hc) ?_
      refine List.sum_nonneg ?_
      intro x hx
      rw [List.mem_map] at hx
      obtain ⟨j, hj, rfl⟩ := hx
      exact hh j (List.mem_range.1 hj)
    obtain ⟨k, hk, hreg⟩ := Optimizer.created_regular out (List.length_pos_iff.2 hne) hrf
      (fun c hc => mul_nonneg hb.le (hshare c hc)) p3 p4
    subst p5
    refine ⟨_, req, xs, non, k, lo, _, ?_, ?_, ?_, hreg, ?_, k1, k3, k4, k7, ?_, ?_⟩
    · rfl
    · exact hrf
    · exact hh
    · intro c hc
      exact (Optimizer.bounds_facts hrf p3 hc (mul_nonneg hb.le (hshare c hc))).1
    · rw [k5]; exact dataOf_holds hn _ _ _
    · rw [k6]; exact dataOf_holds hn _ _ _
  · intro a R h
    obtain ⟨O, req, xs, non, k1, k2, k3, k4, k5, k6, k7⟩ := key a R h
    rw [k5, k6]; exact ⟨rfl, rfl⟩
  · intro a R h
    obtain ⟨O, req, xs, non, k1, k2, k3, k4, k5, k6, k7⟩ := key a R h
    rw [k5, k6]; exact ⟨rfl, rfl⟩

/-- Two weeks and three channels. -/
def demo (rev : Bool) : Optim Unit Unit :=
  fresh [⟨2024, 1, 1⟩, ⟨2024, 1, 8⟩] ["a", "b", "c"] Optimizer.Props.demoHist Optimizer.Props.demoOutcome rev

/-- A spec with a constraint on one channel. -/
def demoSpec : BSpec Unit Unit where
  dated := ⟨none, none, "x"⟩
  name := "o".toList
  gridName := "g".toList
  constraints := [.rel "b" 0 1, .rel "b" (3 / 10) (3 / 10)]

example : demoSpec.validate = .ok () := by decide +kernel

theorem demo_message : (match runSpec (demo false) demoSpec with
    | .error _ => false
    | .ok m => decide (m.spec.scenario = .fixed 33) && decide (m.spec.bounds =
        [⟨"a", 0, 33⟩, ⟨"b", 8, 14⟩, ⟨"c", 0, 33⟩]) &&
      decide (m.optimized.media.map (fun x => x.spend.map Prod.fst) =
        [some (some 7), some (some 14), some (some 12)]) &&
      decide (m.spec.interval = ⟨⟨2024, 1, 1⟩, ⟨2024, 1, 15⟩, "x"⟩)) = true := by
  decide +kernel

theorem demo_faithful (rev : Bool) : Faithful (demo rev) rev := by
  refine fresh_faithful _ _ _ _ _ (by decide) (by decide) ?_
  intro c _
  unfold Optimizer.Props.demoHist
  split_ifs <;> norm_num

example : (∀ d ∈ (demo false).dates, d.Valid) ∧ (demo false).dates ≠ [] ∧
    (∃ m, runSpec (demo false) demoSpec = .ok m) := by
  refine ⟨by decide, by decide, ?_⟩
  have h := demo_message
  cases hr : runSpec (demo false) demoSpec with
  | error e => rw [hr] at h; cases h
  | ok m => exact ⟨m, rfl⟩

/-- **C89 (finding).** Without a budget in the spec the budget in the message is the optimized total, which
need not be the historical total the optimization started from. -/
theorem reported_budget_not_historical : ∃ (P : Optim Unit Unit) (s : BSpec Unit Unit) (m : ResultMsg),
    Faithful P false ∧ s.scenario = .fixed none ∧ runSpec P s = .ok m ∧ m.spec.scenario = .fixed 33 ∧
    ((List.range 3).map Optimizer.Props.demoHist).sum = 32 ∧
    P = fresh [⟨2024, 1, 1⟩, ⟨2024, 1, 8⟩] ["a", "b", "c"] Optimizer.Props.demoHist
      Optimizer.Props.demoOutcome false := by
  have h := demo_message
  cases hr : runSpec (demo false) demoSpec with
  | error e => rw [hr] at h; cases h
  | ok m =>
    rw [hr] at h
    simp only [Bool.and_eq_true, decide_eq_true_eq] at h
    exact ⟨demo false, demoSpec, m, demo_faithful false, rfl, hr, h.1.1.1, by decide +kernel, rfl⟩

/-- **C89 (finding).** A spec that asks for no revenue, on a model with a revenue KPI: the spec in the
message says so, its outcomes say revenue. -/
theorem label_mismatch : ∃ (P : Optim Unit Unit) (s : BSpec Unit Unit) (m : ResultMsg),
    Faithful P true ∧ s.revenue = false ∧ runSpec P s = .ok m ∧ m.spec.revenue = false ∧
    m.optimized.media ≠ [] ∧ ∀ x ∈ m.optimized.media, ∃ o ∈ x.outcomes, o.revenue = true := by
  have h : (match runSpec (demo true) { demoSpec with revenue := false } with
      | .error _ => false
      | .ok m => decide (m.optimized.media ≠ []) &&
        m.optimized.media.all fun x => x.outcomes.any fun o => o.revenue) = true := by decide +kernel
  cases hr : runSpec (demo true) { demoSpec with revenue := false } with
  | error e => rw [hr] at h; cases h
  | ok m =>
    rw [hr] at h
    simp only [Bool.and_eq_true, decide_eq_true_eq, List.all_eq_true, List.any_eq_true] at h
    exact ⟨demo true, _, m, demo_faithful true, rfl, hr,
      (outcome_labels _ _ (demo_faithful true) _ _ hr).1, h.1, h.2⟩

end Verif.BudgetProto.Props
