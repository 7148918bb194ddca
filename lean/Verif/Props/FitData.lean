import Mathlib.Tactic
import Verif.Spec.FitData
import Verif.Props.Interval

/-!
# C64: expected against actual outcome
-/

namespace Verif.FitData.Props

open Verif (Num)
open Verif.Accuracy (EvalSet)
open Verif.Interval (central)
open Verif.FitData Verif.FitData.Spec

/-! ## Sums -/

theorem nsum_some (l : List ℚ) : nsum (l.map some) = some l.sum := by
  induction l with
  | nil => rfl
  | cons a l ih => simp only [List.map_cons, nsum, ih, List.sum_cons, Option.map_some]

theorem nsum_none {l : List Num} (h : none ∈ l) : nsum l = none := by
  induction l with
  | nil => cases h
  | cons a l ih =>
    cases a with
    | none => rfl
    | some a =>
      simp only [nsum]
      rw [ih (by simpa using h)]
      rfl

theorem total_eq (d : Cells) (gs ts : List ℕ) :
    (gs.flatMap fun g => ts.map fun t => d g t).sum = total d gs ts := by
  unfold total
  induction gs with
  | nil => rfl
  | cons g gs ih => simp only [List.flatMap_cons, List.sum_append, List.map_cons, List.sum_cons, ih]

theorem flat_some (d : Cells) (gs ts : List ℕ) (f : ℕ → ℕ → ℚ → Num)
    (h : ∀ g ∈ gs, ∀ t ∈ ts, ∀ v, f g t v = some v) :
    (gs.flatMap fun g => ts.map fun t => f g t (d g t)) =
      (gs.flatMap fun g => ts.map fun t => d g t).map some := by
  rw [List.map_flatMap]
  refine List.flatMap_congr fun g hg => ?_
  rw [List.map_map]
  exact List.map_congr_left fun t ht => h g hg t ht _

theorem cellDraws_total (x : Chains) (gs ts : List ℕ) (f : ℕ → ℕ → ℚ → Num)
    (h : ∀ g ∈ gs, ∀ t ∈ ts, ∀ v, f g t v = some v) :
    cellDraws x f gs ts = totals x gs ts := by
  unfold cellDraws totals
  refine List.map_congr_left fun ch _ => List.map_congr_left fun d _ => ?_
  rw [flat_some d gs ts f h, nsum_some, total_eq]

theorem cellDraws_nan (x : Chains) (gs ts : List ℕ) (f : ℕ → ℕ → ℚ → Num) {g t : ℕ}
    (hg : g ∈ gs) (ht : t ∈ ts) (h : ∀ v, f g t v = none) (hx : SomeDraw x) :
    none ∈ (cellDraws x f gs ts).flatten := by
  obtain ⟨ch, hch, hne⟩ := hx
  obtain ⟨d, hd⟩ := List.exists_mem_of_ne_nil ch hne
  rw [List.mem_flatten]
  refine ⟨_, List.mem_map.2 ⟨ch, hch, rfl⟩, List.mem_map.2 ⟨d, hd, ?_⟩⟩
  refine nsum_none (List.mem_flatMap.2 ⟨g, hg, List.mem_map.2 ⟨t, ht, h _⟩⟩)

/-! ## The summaries -/

theorem central_length {data : List (List Num)} {c : ℚ} {r : List Num}
    (h : central data c false = .ok r) : r.length = 3 := by
  unfold central at h
  split at h
  · cases h
  · split at h
    · cases h
    · simp only [Bool.false_eq_true, if_false, Except.ok.injEq] at h
      subst h; rfl

theorem central_blank {data : List (List Num)} {c : ℚ} (h0 : -1 ≤ c) (h1 : c ≤ 1)
    (h : none ∈ data.flatten) : central data c false = .ok blank := by
  obtain ⟨r, hr⟩ := (Verif.Interval.Props.accepted_iff data c false).2 ⟨h0, h1⟩
  have hn := Verif.Interval.Props.nan_spreads data h hr
  have hl := central_length hr
  rw [hr]
  match r, hl with
  | [a, b, d], _ =>
    have e1 := hn a (by simp)
    have e2 := hn b (by simp)
    have e3 := hn d (by simp)
    subst e1; subst e2; subst e3; rfl

theorem summaries_iff (level : ℚ) (l : List (Key × List (List Num))) (r : List (Key × List Num)) :
    summaries level l = .ok r ↔
      List.Forall₂ (fun p q => q.1 = p.1 ∧ central p.2 level false = .ok q.2) l r := by
  induction l generalizing r with
  | nil =>
    simp only [summaries, Except.ok.injEq, List.forall₂_nil_left_iff]
    exact eq_comm
  | cons p l ih =>
    obtain ⟨k, d⟩ := p
    simp only [summaries]
    cases hc : central d level false with
    | error e =>
      constructor
      · intro h; cases h
      · intro h
        cases h with
        | cons h _ => rw [hc] at h; cases h.2
    | ok v =>
      cases hs : summaries level l with
      | error e =>
        constructor
        · intro h; cases h
        · intro h
          cases h with
          | cons _ h => rw [(ih _).2 h] at hs; cases hs
      | ok vs =>
        constructor
        · intro h
          simp only [Except.ok.injEq] at h
          subst h
          exact .cons ⟨rfl, hc⟩ ((ih vs).1 hs)
        · intro h
          cases h with
          | @cons _ q _ qs h1 h2 =>
            obtain ⟨q1, q2⟩ := q
            obtain ⟨a, b⟩ := h1
            have hb : v = q2 := by
              have := hc.symm.trans b
              simpa using this
            have hv := (ih _).2 h2
            rw [hs] at hv
            simp only [Except.ok.injEq] at hv ⊢
            simp only at a
            rw [a, hb, hv]

theorem mem_summaries {level : ℚ} {l : List (Key × List (List Num))} {r : List (Key × List Num)}
    (h : summaries level l = .ok r) (k : Key) (v : List Num) :
    (k, v) ∈ r ↔ ∃ d, (k, d) ∈ l ∧ central d level false = .ok v := by
  rw [summaries_iff] at h
  induction h with
  | nil => simp
  | @cons p q l r hpq _ ih =>
    obtain ⟨p1, p2⟩ := p
    obtain ⟨q1, q2⟩ := q
    obtain ⟨e1, e2⟩ := hpq
    simp only at e1 e2
    subst e1
    rw [List.mem_cons, ih]
    constructor
    · rintro (h | ⟨d, hd, hv⟩)
      · simp only [Prod.mk.injEq] at h
        obtain ⟨rfl, rfl⟩ := h
        exact ⟨p2, List.mem_cons_self, e2⟩
      · exact ⟨d, List.mem_cons_of_mem _ hd, hv⟩
    · rintro ⟨d, hd, hv⟩
      rcases List.mem_cons.1 hd with h | h
      · simp only [Prod.mk.injEq] at h
        obtain ⟨rfl, rfl⟩ := h
        rw [e2] at hv
        simp only [Except.ok.injEq] at hv
        left; rw [hv]
      · exact Or.inr ⟨d, h, hv⟩

theorem summaries_ok {level : ℚ} (h0 : -1 ≤ level) (h1 : level ≤ 1)
    (l : List (Key × List (List Num))) : ∃ r, summaries level l = .ok r := by
  induction l with
  | nil => exact ⟨[], rfl⟩
  | cons p l ih =>
    obtain ⟨k, d⟩ := p
    obtain ⟨v, hv⟩ := (Verif.Interval.Props.accepted_iff d level false).2 ⟨h0, h1⟩
    obtain ⟨r, hr⟩ := ih
    exact ⟨(k, v) :: r, by simp only [summaries, hv, hr]⟩

theorem mem_groups {n : ℕ} {ag : Bool} {k : Option ℕ} {l : List ℕ} :
    (k, l) ∈ groups n ag ↔ IsEntry n ag k ∧ l = covers n k := by
  unfold groups IsEntry
  cases ag
  · simp only [Bool.false_eq_true, if_false, List.mem_map, List.mem_range, Prod.mk.injEq]
    constructor
    · rintro ⟨i, hi, rfl, rfl⟩; exact ⟨⟨i, hi, rfl⟩, rfl⟩
    · rintro ⟨⟨i, hi, rfl⟩, rfl⟩; exact ⟨i, hi, rfl, rfl⟩
  · simp only [if_true, List.mem_singleton, Prod.mk.injEq]
    constructor
    · rintro ⟨rfl, rfl⟩; exact ⟨rfl, rfl⟩
    · rintro ⟨rfl, rfl⟩; exact ⟨rfl, rfl⟩

theorem mem_entries_none {c : Ctx} {x : Chains} {ag at_ : Bool} {k : Key} {d : List (List Num)} :
    (k, d) ∈ entries c x none ag at_ ↔
      IsEntry c.geos.length ag k.1 ∧ IsEntry c.times.length at_ k.2.1 ∧ k.2.2 = none ∧
        d = totals x (covers c.geos.length k.1) (covers c.times.length k.2.1) := by
  unfold entries
  simp only [List.mem_flatMap, List.mem_singleton, Prod.mk.injEq]
  constructor
  · rintro ⟨⟨G, gs⟩, hG, ⟨T, ts⟩, hT, rfl, rfl⟩
    obtain ⟨h1, rfl⟩ := mem_groups.1 hG
    obtain ⟨h2, rfl⟩ := mem_groups.1 hT
    exact ⟨h1, h2, rfl, cellDraws_total x _ _ _ fun _ _ _ _ _ => rfl⟩
  · obtain ⟨G, T, e⟩ := k
    rintro ⟨h1, h2, h3, h4⟩
    simp only at h1 h2 h3 h4
    subst h3; subst h4
    exact ⟨(G, _), mem_groups.2 ⟨h1, rfl⟩, (T, _), mem_groups.2 ⟨h2, rfl⟩, rfl,
      (cellDraws_total x _ _ _ fun _ _ _ _ _ => rfl).symm⟩

theorem mem_entries_some {c : Ctx} {x : Chains} {h : ℕ → ℕ → Bool} {ag at_ : Bool} {k : Key}
    {d : List (List Num)} :
    (k, d) ∈ entries c x (some h) ag at_ ↔
      IsEntry c.geos.length ag k.1 ∧ IsEntry c.times.length at_ k.2.1 ∧ ∃ e, k.2.2 = some e ∧
        d = cellDraws x (fun g t v => pick (h g t) e v) (covers c.geos.length k.1)
          (covers c.times.length k.2.1) := by
  unfold entries
  simp only [List.mem_flatMap, List.mem_map, Prod.mk.injEq]
  constructor
  · rintro ⟨⟨G, gs⟩, hG, ⟨T, ts⟩, hT, e, _, rfl, rfl⟩
    obtain ⟨h1, rfl⟩ := mem_groups.1 hG
    obtain ⟨h2, rfl⟩ := mem_groups.1 hT
    exact ⟨h1, h2, e, rfl, rfl⟩
  · obtain ⟨G, T, e⟩ := k
    rintro ⟨h1, h2, e', h3, h4⟩
    simp only at h1 h2 h3 h4
    subst h3; subst h4
    exact ⟨(G, _), mem_groups.2 ⟨h1, rfl⟩, (T, _), mem_groups.2 ⟨h2, rfl⟩, e',
      by cases e' <;> simp, rfl, rfl⟩

theorem pick_member (held : ℕ → ℕ → Bool) (e : EvalSet) (g t : ℕ) (v : ℚ) :
    pick (held g t) e v = if member held e g t then some v else none := by
  cases e <;> cases h : held g t <;> simp [pick, member, h]

theorem evs_iff {c : Ctx} {ag at_ req split : Bool} {level : ℚ} {d : Data} :
    expectedVsActual c ag at_ req split level = .ok d ↔
      meanAndCi c (c.expected (useKpi c req)) (splitBy c split) ag at_ level = .ok d.expected ∧
      meanAndCi c (c.baseline (useKpi c req)) (splitBy c split) ag at_ level = .ok d.baseline ∧
      d.actual = actuals c (useKpi c req) ag at_ := by
  unfold expectedVsActual
  cases h1 : meanAndCi c (c.expected (useKpi c req)) (splitBy c split) ag at_ level with
  | error e => constructor <;> intro h <;> simp at h
  | ok ex =>
    cases h2 : meanAndCi c (c.baseline (useKpi c req)) (splitBy c split) ag at_ level with
    | error e => constructor <;> intro h <;> simp at h
    | ok ba =>
      obtain ⟨d1, d2, d3⟩ := d
      simp only [Except.ok.injEq, Data.mk.injEq]
      constructor
      · rintro ⟨rfl, rfl, rfl⟩; exact ⟨rfl, rfl, rfl⟩
      · rintro ⟨rfl, rfl, rfl⟩; exact ⟨rfl, rfl, rfl⟩

/-! ## The properties -/

/-- **C64.** Every level between -1 and 1 gives a result; a level outside raises, if there is
anything to report. -/
theorem accepted {c : Ctx} {level : ℚ} (h0 : -1 ≤ level) (h1 : level ≤ 1)
    (ag at_ req split : Bool) : ∃ d, expectedVsActual c ag at_ req split level = .ok d := by
  obtain ⟨ex, hex⟩ := summaries_ok h0 h1 (entries c (c.expected (useKpi c req)) (splitBy c split)
    ag at_)
  obtain ⟨ba, hba⟩ := summaries_ok h0 h1 (entries c (c.baseline (useKpi c req)) (splitBy c split)
    ag at_)
  exact ⟨⟨ex, ba, _⟩, evs_iff.2 ⟨hex, hba, rfl⟩⟩

/-- **C64.** Without a split (or without a holdout) the entry of every geo and time, or of the whole
of an aggregated axis, describes the draws of its total; there are no other entries.  The same holds
for the baseline. -/
theorem reported_unsplit {c : Ctx} {ag at_ req split : Bool} {level : ℚ} {d : Data}
    (hd : expectedVsActual c ag at_ req split level = .ok d) (hs : split = false ∨ c.hold = none)
    (k : Key) (r : List Num) :
    ((k, r) ∈ d.expected ↔ IsEntry c.geos.length ag k.1 ∧ IsEntry c.times.length at_ k.2.1 ∧
      k.2.2 = none ∧ Describes level (totals (c.expected (useKpi c req))
        (covers c.geos.length k.1) (covers c.times.length k.2.1)) r) ∧
    ((k, r) ∈ d.baseline ↔ IsEntry c.geos.length ag k.1 ∧ IsEntry c.times.length at_ k.2.1 ∧
      k.2.2 = none ∧ Describes level (totals (c.baseline (useKpi c req))
        (covers c.geos.length k.1) (covers c.times.length k.2.1)) r) := by
  have hsp : splitBy c split = none := by
    unfold splitBy
    rcases hs with h | h
    · rw [h]; rfl
    · rw [h]; split <;> rfl
  obtain ⟨h1, h2, _⟩ := evs_iff.1 hd
  rw [hsp] at h1 h2
  unfold meanAndCi at h1 h2
  constructor
  · rw [mem_summaries h1]
    constructor
    · rintro ⟨x, hx, hv⟩
      obtain ⟨a, b, e, rfl⟩ := mem_entries_none.1 hx
      exact ⟨a, b, e, hv⟩
    · rintro ⟨a, b, e, hv⟩
      exact ⟨_, mem_entries_none.2 ⟨a, b, e, rfl⟩, hv⟩
  · rw [mem_summaries h2]
    constructor
    · rintro ⟨x, hx, hv⟩
      obtain ⟨a, b, e, rfl⟩ := mem_entries_none.1 hx
      exact ⟨a, b, e, hv⟩
    · rintro ⟨a, b, e, hv⟩
      exact ⟨_, mem_entries_none.2 ⟨a, b, e, rfl⟩, hv⟩

theorem level_of_entry {x : List (List Num)} {level : ℚ} {r : List Num}
    (h : central x level false = .ok r) : -1 ≤ level ∧ level ≤ 1 :=
  (Verif.Interval.Props.accepted_iff _ _ _).1 ⟨r, h⟩

theorem split_entry {x : Chains} (hx : SomeDraw x) {held : ℕ → ℕ → Bool} {level : ℚ}
    (h0 : -1 ≤ level) (h1 : level ≤ 1) {e : EvalSet} {gs ts : List ℕ} {r : List Num} :
    central (cellDraws x (fun g t v => pick (held g t) e v) gs ts) level false = .ok r ↔
      ((∀ g ∈ gs, ∀ t ∈ ts, member held e g t = true) ∧ Describes level (totals x gs ts) r) ∨
      ((∃ g ∈ gs, ∃ t ∈ ts, member held e g t = false) ∧ r = blank) := by
  by_cases hall : ∀ g ∈ gs, ∀ t ∈ ts, member held e g t = true
  · rw [cellDraws_total x gs ts _ fun g hg t ht v => by
      rw [pick_member, hall g hg t ht]; rfl]
    constructor
    · intro h; exact Or.inl ⟨hall, h⟩
    · rintro (⟨_, h⟩ | ⟨⟨g, hg, t, ht, hf⟩, _⟩)
      · exact h
      · rw [hall g hg t ht] at hf; cases hf
  · push Not at hall
    obtain ⟨g, hg, t, ht, hne⟩ := hall
    have hf : member held e g t = false := by simpa using hne
    have hn : none ∈ (cellDraws x (fun g t v => pick (held g t) e v) gs ts).flatten :=
      cellDraws_nan x gs ts _ hg ht (fun v => by rw [pick_member, hf]; rfl) hx
    rw [central_blank h0 h1 hn]
    constructor
    · intro h
      simp only [Except.ok.injEq] at h
      exact Or.inr ⟨⟨g, hg, t, ht, hf⟩, h.symm⟩
    · rintro (⟨h, _⟩ | ⟨_, h⟩)
      · rw [h g hg t ht] at hf; cases hf
      · rw [h]

/-- **C64.** With a split there is one entry for every evaluation set; it describes the draws of the
total exactly if all the observations it covers belong to the evaluation set, and is blank
otherwise. -/
theorem reported_split {c : Ctx} {ag at_ req : Bool} {level : ℚ} {d : Data} {held : ℕ → ℕ → Bool}
    (hd : expectedVsActual c ag at_ req true level = .ok d) (hh : c.hold = some held)
    (h0 : -1 ≤ level) (h1 : level ≤ 1) (hx : SomeDraw (c.expected (useKpi c req)))
    (k : Key) (r : List Num) :
    (k, r) ∈ d.expected ↔ IsEntry c.geos.length ag k.1 ∧ IsEntry c.times.length at_ k.2.1 ∧
      ∃ e, k.2.2 = some e ∧
      (((∀ g ∈ covers c.geos.length k.1, ∀ t ∈ covers c.times.length k.2.1,
          member held e g t = true) ∧
        Describes level (totals (c.expected (useKpi c req))
          (covers c.geos.length k.1) (covers c.times.length k.2.1)) r) ∨
       ((∃ g ∈ covers c.geos.length k.1, ∃ t ∈ covers c.times.length k.2.1,
          member held e g t = false) ∧ r = blank)) := by
  obtain ⟨h1', _, _⟩ := evs_iff.1 hd
  have hsp : splitBy c true = some held := by unfold splitBy; rw [hh]; rfl
  rw [hsp] at h1'
  unfold meanAndCi at h1'
  rw [mem_summaries h1']
  constructor
  · rintro ⟨x, hxx, hv⟩
    obtain ⟨a, b, e, he, rfl⟩ := mem_entries_some.1 hxx
    exact ⟨a, b, e, he, (split_entry hx h0 h1).1 hv⟩
  · rintro ⟨a, b, e, he, hv⟩
    exact ⟨_, mem_entries_some.2 ⟨a, b, e, he, rfl⟩, (split_entry hx h0 h1).2 hv⟩

/-- The same for the baseline. -/
theorem reported_split_baseline {c : Ctx} {ag at_ req : Bool} {level : ℚ} {d : Data}
    {held : ℕ → ℕ → Bool} (hd : expectedVsActual c ag at_ req true level = .ok d)
    (hh : c.hold = some held) (h0 : -1 ≤ level) (h1 : level ≤ 1)
    (hx : SomeDraw (c.baseline (useKpi c req))) (k : Key) (r : List Num) :
    (k, r) ∈ d.baseline ↔ IsEntry c.geos.length ag k.1 ∧ IsEntry c.times.length at_ k.2.1 ∧
      ∃ e, k.2.2 = some e ∧
      (((∀ g ∈ covers c.geos.length k.1, ∀ t ∈ covers c.times.length k.2.1,
          member held e g t = true) ∧
        Describes level (totals (c.baseline (useKpi c req))
          (covers c.geos.length k.1) (covers c.times.length k.2.1)) r) ∨
       ((∃ g ∈ covers c.geos.length k.1, ∃ t ∈ covers c.times.length k.2.1,
          member held e g t = false) ∧ r = blank)) := by
  obtain ⟨_, h1', _⟩ := evs_iff.1 hd
  have hsp : splitBy c true = some held := by unfold splitBy; rw [hh]; rfl
  rw [hsp] at h1'
  unfold meanAndCi at h1'
  rw [mem_summaries h1']
  constructor
  · rintro ⟨x, hxx, hv⟩
    obtain ⟨a, b, e, he, rfl⟩ := mem_entries_some.1 hxx
    exact ⟨a, b, e, he, (split_entry hx h0 h1).1 hv⟩
  · rintro ⟨a, b, e, he, hv⟩
    exact ⟨_, mem_entries_some.2 ⟨a, b, e, he, rfl⟩, (split_entry hx h0 h1).2 hv⟩

/-- **C64.** Without aggregation, an observation that is held out is reported under Test and under
All Data and is blank under Train; one that is not, under Train and All Data. -/
theorem each_observation {c : Ctx} {req : Bool} {level : ℚ} {d : Data} {held : ℕ → ℕ → Bool}
    (hd : expectedVsActual c false false req true level = .ok d) (hh : c.hold = some held)
    (h0 : -1 ≤ level) (h1 : level ≤ 1) (hx : SomeDraw (c.expected (useKpi c req)))
    {g t : ℕ} (hg : g < c.geos.length) (ht : t < c.times.length) :
    ∃ r, Describes level (totals (c.expected (useKpi c req)) [g] [t]) r ∧
      ((some g, some t, some .all), r) ∈ d.expected ∧
      ((some g, some t, some .train), if held g t then blank else r) ∈ d.expected ∧
      ((some g, some t, some .test), if held g t then r else blank) ∈ d.expected := by
  obtain ⟨r, hr⟩ := (Verif.Interval.Props.accepted_iff
    (totals (c.expected (useKpi c req)) [g] [t]) level false).2 ⟨h0, h1⟩
  have hG : IsEntry c.geos.length false (some g) := by
    unfold IsEntry; exact ⟨g, hg, rfl⟩
  have hT : IsEntry c.times.length false (some t) := by
    unfold IsEntry; exact ⟨t, ht, rfl⟩
  have key : ∀ e v, (if member held e g t then v = r else v = blank) →
      ((some g, some t, some e), v) ∈ d.expected := by
    intro e v hv
    rw [reported_split hd hh h0 h1 hx]
    refine ⟨hG, hT, e, rfl, ?_⟩
    simp only [covers, List.mem_singleton, forall_eq, exists_eq_left]
    cases hm : member held e g t
    · rw [hm] at hv; exact Or.inr ⟨rfl, by simpa using hv⟩
    · rw [hm] at hv
      have hv' : v = r := by simpa using hv
      exact Or.inl ⟨rfl, by rw [hv']; exact hr⟩
  refine ⟨r, hr, key .all r (by simp [member]), key .train _ ?_, key .test _ ?_⟩
  · cases hq : held g t <;> simp [member, hq]
  · cases hq : held g t <;> simp [member, hq]

/-- **C64.** All Data is what a call without the split reports. -/
theorem all_data_unsplit {c : Ctx} {ag at_ req : Bool} {level : ℚ} {d d' : Data}
    {held : ℕ → ℕ → Bool} (hd : expectedVsActual c ag at_ req true level = .ok d)
    (hd' : expectedVsActual c ag at_ req false level = .ok d') (hh : c.hold = some held)
    (h0 : -1 ≤ level) (h1 : level ≤ 1) (hx : SomeDraw (c.expected (useKpi c req)))
    (G T : Option ℕ) (r : List Num) :
    ((G, T, some .all), r) ∈ d.expected ↔ ((G, T, none), r) ∈ d'.expected := by
  rw [reported_split hd hh h0 h1 hx, (reported_unsplit hd' (Or.inl rfl) _ _).1]
  constructor
  · rintro ⟨a, b, e, he, hv⟩
    simp only [Option.some.injEq] at he
    subst he
    refine ⟨a, b, rfl, ?_⟩
    rcases hv with hv | ⟨⟨g, _, t, _, hf⟩, _⟩
    · exact hv.2
    · simp [member] at hf
  · rintro ⟨a, b, _, hv⟩
    exact ⟨a, b, .all, rfl, Or.inl ⟨fun _ _ _ _ => rfl, hv⟩⟩

/-- **C64.** The actual outcome is the total over the geos and times of the entry, whatever the
split. -/
theorem actual_totals {c : Ctx} {ag at_ req split : Bool} {level : ℚ} {d : Data}
    (hd : expectedVsActual c ag at_ req split level = .ok d) (G T : Option ℕ) (v : ℚ) :
    ((G, T), v) ∈ d.actual ↔ IsEntry c.geos.length ag G ∧ IsEntry c.times.length at_ T ∧
      v = total (c.actual (useKpi c req)) (covers c.geos.length G) (covers c.times.length T) := by
  obtain ⟨_, _, h⟩ := evs_iff.1 hd
  rw [h]
  unfold actuals
  simp only [List.mem_flatMap, List.mem_map, Prod.mk.injEq]
  constructor
  · rintro ⟨⟨G', gs⟩, hG, ⟨T', ts⟩, hT, ⟨rfl, rfl⟩, rfl⟩
    obtain ⟨a, rfl⟩ := mem_groups.1 hG
    obtain ⟨b, rfl⟩ := mem_groups.1 hT
    exact ⟨a, b, total_eq _ _ _⟩
  · rintro ⟨a, b, rfl⟩
    exact ⟨(G, _), mem_groups.2 ⟨a, rfl⟩, (T, _), mem_groups.2 ⟨b, rfl⟩, ⟨rfl, rfl⟩,
      total_eq _ _ _⟩

/-- **C64, what does not hold.** Once an aggregated entry covers observations of both kinds, Train
and Test are both blank: the totals over the training and over the held-out observations are not
reported at all. -/
theorem mixed_blank {c : Ctx} {ag at_ req : Bool} {level : ℚ} {d : Data} {held : ℕ → ℕ → Bool}
    (hd : expectedVsActual c ag at_ req true level = .ok d) (hh : c.hold = some held)
    (h0 : -1 ≤ level) (h1 : level ≤ 1) (hx : SomeDraw (c.expected (useKpi c req)))
    {G T : Option ℕ} {g t g' t' : ℕ} (hg : g ∈ covers c.geos.length G)
    (ht : t ∈ covers c.times.length T) (hheld : held g t = true)
    (hg' : g' ∈ covers c.geos.length G) (ht' : t' ∈ covers c.times.length T)
    (hfree : held g' t' = false) {e : EvalSet} (he : e ≠ .all) {r : List Num}
    (hr : ((G, T, some e), r) ∈ d.expected) : r = blank := by
  obtain ⟨_, _, e', he', hv⟩ := (reported_split hd hh h0 h1 hx _ _).1 hr
  simp only [Option.some.injEq] at he'
  subst he'
  rcases hv with ⟨hall, _⟩ | ⟨_, h⟩
  · cases e
    · have := hall g hg t ht; simp [member, hheld] at this
    · have := hall g' hg' t' ht'; simp [member, hfree] at this
    · exact absurd rfl he
  · exact h

/-- Two geos, two times, one geo held out at the second time; two draws. -/
def exCtx : Ctx where
  geos := ["A", "B"]
  times := ["2024-01-01", "2024-01-08"]
  hold := some fun g t => g == 0 && t == 1
  kpiIsRevenue := false
  hasRevenuePerKpi := true
  actual := fun k _ _ => if k then 5 else 50
  expected := fun k => [[fun g t => (if k then 1 else 10) * (g + 2 * t + 1), fun _ _ => 4]]
  baseline := fun _ => [[fun _ _ => 1, fun _ _ => 2]]

/-- **C64, what does not hold, in a concrete case**: summed over the geos, with one of two geos held
out at the second time, Train is blank there, although the other geo is a training observation. -/
theorem mixed_blank_witness : ∃ d, expectedVsActual exCtx true false true true (1 / 2) = .ok d ∧
    ((none, some 1, some .train), blank) ∈ d.expected ∧
    ((none, some 1, some .test), blank) ∈ d.expected ∧
    ((none, some 0, some .train), [some (11 / 2), some (17 / 4), some (27 / 4)]) ∈ d.expected := by
  obtain ⟨d, hd⟩ := accepted (c := exCtx) (level := 1 / 2) (by norm_num) (by norm_num) true false
    true true
  have hx : SomeDraw (exCtx.expected (useKpi exCtx true)) := ⟨_, List.mem_cons_self, by simp⟩
  refine ⟨d, hd, ?_, ?_, ?_⟩
  · refine (reported_split hd rfl (by norm_num) (by norm_num) hx _ _).2
      ⟨rfl, ⟨1, by decide, rfl⟩, .train, rfl, Or.inr ⟨⟨0, by decide, 1, by decide, by decide⟩, rfl⟩⟩
  · refine (reported_split hd rfl (by norm_num) (by norm_num) hx _ _).2
      ⟨rfl, ⟨1, by decide, rfl⟩, .test, rfl, Or.inr ⟨⟨1, by decide, 1, by decide, by decide⟩, rfl⟩⟩
  · refine (reported_split hd rfl (by norm_num) (by norm_num) hx _ _).2
      ⟨rfl, ⟨0, by decide, rfl⟩, .train, rfl, Or.inl ⟨by decide, by unfold Describes; decide +kernel⟩⟩

/-! ## The plot -/

theorem mem_lookup {t : List (Key × List Num)} {g s : ℕ} {v : List Num}
    (hu : ∀ v', ((some g, some s, none), v') ∈ t ↔ v' = v) : lookup t g s = v := by
  unfold lookup
  cases hf : t.find? (fun r => decide (r.1 = (some g, some s, none))) with
  | none =>
    have := List.find?_eq_none.1 hf _ ((hu v).2 rfl)
    simp at this
  | some r =>
    obtain ⟨k, v'⟩ := r
    have h1 := List.find?_some hf
    simp only [decide_eq_true_eq] at h1
    subst h1
    exact (hu v').1 (List.mem_of_find?_eq_some hf)

theorem lookup_eq {c : Ctx} {req : Bool} {level : ℚ} {d : Data}
    (hd : expectedVsActual c false false req false level = .ok d)
    {g s : ℕ} (hg : g < c.geos.length) (hs : s < c.times.length) :
    central (totals (c.expected (useKpi c req)) [g] [s]) level false =
      .ok (lookup d.expected g s) := by
  have hG : IsEntry c.geos.length false (some g) := by
    unfold IsEntry; exact ⟨g, hg, rfl⟩
  have hT : IsEntry c.times.length false (some s) := by
    unfold IsEntry; exact ⟨s, hs, rfl⟩
  have hlev : -1 ≤ level ∧ level ≤ 1 := by
    by_contra hcon
    obtain ⟨h1, _, _⟩ := evs_iff.1 hd
    unfold meanAndCi at h1
    have hsp : splitBy c false = none := rfl
    rw [hsp] at h1
    have hm := (mem_entries_none (x := c.expected (useKpi c req)) (k := (some g, some s, none))).2
      ⟨hG, hT, rfl, rfl⟩
    have hf := (summaries_iff _ _ _).1 h1
    obtain ⟨q, _, hq⟩ : ∃ q ∈ d.expected, q.1 = (some g, some s, none) ∧
        central (totals (c.expected (useKpi c req)) [g] [s]) level false = .ok q.2 := by
      clear h1 hd
      revert hm
      generalize hE : entries c (c.expected (useKpi c req)) none false false = E at hf ⊢
      generalize d.expected = R at hf ⊢
      clear hE
      intro hm
      induction hf with
      | nil => cases hm
      | @cons p q l r hpq _ ih =>
        rcases List.mem_cons.1 hm with h | h
        · subst h
          exact ⟨q, List.mem_cons_self, hpq.1, hpq.2⟩
        · obtain ⟨q', hq', h'⟩ := ih h
          exact ⟨q', List.mem_cons_of_mem _ hq', h'⟩
    exact hcon (level_of_entry hq.2)
  obtain ⟨r, hr⟩ := (Verif.Interval.Props.accepted_iff
    (totals (c.expected (useKpi c req)) [g] [s]) level false).2 hlev
  rw [hr, mem_lookup (v := r)]
  intro v'
  rw [(reported_unsplit hd (Or.inl rfl) _ _).1]
  constructor
  · rintro ⟨_, _, _, hv⟩
    unfold Describes at hv
    simp only [covers] at hv
    rw [hr] at hv
    simpa using hv.symm
  · rintro rfl
    exact ⟨hG, hT, rfl, hr⟩

theorem totals_array (x : Chains) (hx : SomeDraw x) (gs ts : List ℕ) :
    ∃ D : Verif.Interval.Spec.Draws, D.array = totals x gs ts ∧
      D.all = x.flatten.map fun d => total d gs ts := by
  refine ⟨⟨x.map (·.map fun d => total d gs ts), ?_⟩, ?_, ?_⟩
  · obtain ⟨ch, hch, hne⟩ := hx
    intro h
    rw [List.flatten_eq_nil_iff] at h
    have := h _ (List.mem_map.2 ⟨ch, hch, rfl⟩)
    exact hne (List.map_eq_nil_iff.1 this)
  · unfold Verif.Interval.Spec.Draws.array totals
    rw [List.map_map]
    refine List.map_congr_left fun ch _ => ?_
    simp only [Function.comp, List.map_map]
    rfl
  · unfold Verif.Interval.Spec.Draws.all
    rw [← List.map_flatten]

theorem lookup_mean {c : Ctx} {req : Bool} {level : ℚ} {d : Data}
    (hd : expectedVsActual c false false req false level = .ok d)
    (hx : SomeDraw (c.expected (useKpi c req)))
    {g s : ℕ} (hg : g < c.geos.length) (hs : s < c.times.length) :
    (lookup d.expected g s).getD 0 none =
      some (((c.expected (useKpi c req)).flatten.map fun x => x g s).sum /
        (c.expected (useKpi c req)).flatten.length) := by
  have h := lookup_eq hd hg hs
  obtain ⟨D, hD, hall⟩ := totals_array _ hx [g] [s]
  rw [← hD] at h
  obtain ⟨h0, h1⟩ := level_of_entry h
  obtain ⟨⟨m, lo, hi, hm⟩, _⟩ := Verif.Interval.Props.result_finite D h0 h1
  have hmean := Verif.Interval.Props.mean_is_average D hm
  rw [hm] at h
  simp only [Except.ok.injEq] at h
  rw [← h]
  simp only [List.getD_cons_zero]
  have hne : (D.all.length : ℚ) ≠ 0 := by
    have := D.some_draw
    change D.all ≠ [] at this
    exact_mod_cast fun h => this (List.length_eq_zero_iff.1 h)
  rw [eq_div_of_mul_eq hne hmean, hall, List.length_map]
  congr 3
  refine List.map_congr_left fun x _ => ?_
  unfold total
  simp

theorem avg_total (X : List Cells) (gs : List ℕ) (s : ℕ) :
    (gs.map fun g => (X.map fun x => x g s).sum / (X.length : ℚ)).sum =
      (X.map fun x => total x gs [s]).sum / X.length := by
  have key : (gs.map fun g => (X.map fun x => x g s).sum).sum =
      (X.map fun x => (gs.map fun g => x g s).sum).sum := by
    induction gs with
    | nil => simp
    | cons g gs ih => simp only [List.map_cons, List.sum_cons, ih, List.sum_map_add]
  have h1 : (gs.map fun g => (X.map fun x => x g s).sum / (X.length : ℚ)).sum =
      (gs.map fun g => (X.map fun x => x g s).sum).sum / X.length := by
    generalize (X.length : ℚ) = n
    induction gs with
    | nil => simp
    | cons g gs ih =>
      simp only [List.map_cons, List.sum_cons]
      rw [add_div, ih ?_]
      have key' : (gs.map fun g => (X.map fun x => x g s).sum).sum =
          (X.map fun x => (gs.map fun g => x g s).sum).sum := by
        clear key ih
        induction gs with
        | nil => simp
        | cons g gs ih => simp only [List.map_cons, List.sum_cons, ih, List.sum_map_add]
      exact key'
  rw [h1, key]
  congr 2
  refine List.map_congr_left fun x _ => ?_
  unfold total
  simp

/-- **C64.** In the plot summed over geos, the line of the expected outcome is, at every time, the
average over the draws of the total over the selected geos. -/
theorem plotted_line {c : Ctx} {req : Bool} {level : ℚ} {d : Data}
    (hd : expectedVsActual c false false req false level = .ok d)
    (hx : SomeDraw (c.expected (useKpi c req))) {gs ts : List ℕ}
    (hg : ∀ g ∈ gs, g < c.geos.length) (hs : ∀ s ∈ ts, s < c.times.length) {l : Line}
    (hl : l ∈ plotLines d.expected gs ts false) :
    l.time ∈ ts ∧ l.mean = some
      (((c.expected (useKpi c req)).flatten.map fun x => total x gs [l.time]).sum /
        (c.expected (useKpi c req)).flatten.length) := by
  unfold plotLines at hl
  simp only [Bool.false_eq_true, if_false, List.mem_map] at hl
  obtain ⟨s, hsm, rfl⟩ := hl
  refine ⟨hsm, ?_⟩
  simp only [Option.some.injEq]
  rw [← avg_total]
  unfold skipSum
  have : (gs.map fun g => (lookup d.expected g s).getD 0 none) =
      (gs.map fun g => (((c.expected (useKpi c req)).flatten.map fun x => x g s).sum /
        ((c.expected (useKpi c req)).flatten.length : ℚ))).map some := by
    rw [List.map_map]
    exact List.map_congr_left fun g hgm => lookup_mean hd hx (hg g hgm) (hs s hsm)
  rw [this, List.filterMap_map]
  simp

/-- **C64.** In the plot for each geo, line and band are the reported mean and interval. -/
theorem plotted_geo {c : Ctx} {req : Bool} {level : ℚ} {d : Data}
    (hd : expectedVsActual c false false req false level = .ok d) {gs ts : List ℕ}
    (hg : ∀ g ∈ gs, g < c.geos.length) (hs : ∀ s ∈ ts, s < c.times.length) {l : Line}
    (hl : l ∈ plotLines d.expected gs ts true) :
    ∃ g ∈ gs, l.geo = some g ∧ l.time ∈ ts ∧
      Describes level (totals (c.expected (useKpi c req)) [g] [l.time]) [l.mean, l.lo, l.hi] := by
  unfold plotLines at hl
  simp only [if_true, List.mem_flatMap, List.mem_map] at hl
  obtain ⟨g, hgm, s, hsm, rfl⟩ := hl
  refine ⟨g, hgm, rfl, hsm, ?_⟩
  have h := lookup_eq hd (hg g hgm) (hs s hsm)
  have hlen := central_length h
  unfold Describes
  simp only
  rw [h]
  match hq : lookup d.expected g s, hlen with
  | [a, b, e], _ => rfl

/-- Three geos, one time, nine draws: the draw number `k` is low in one geo only. -/
def exNarrow : Ctx where
  geos := ["A", "B", "C"]
  times := ["2024-01-01"]
  hold := none
  kpiIsRevenue := true
  hasRevenuePerKpi := true
  actual := fun _ _ _ => 0
  expected := fun _ => [(List.range 9).map fun k => fun g _ => if k = g then -10 else 0]
  baseline := fun _ => [(List.range 9).map fun _ => fun _ _ => 0]

/-- Two geos that compensate each other: two draws. -/
def exWide : Ctx where
  geos := ["A", "B"]
  times := ["2024-01-01"]
  hold := none
  kpiIsRevenue := true
  hasRevenuePerKpi := true
  actual := fun _ _ _ => 0
  expected := fun _ => [(List.range 2).map fun k => fun g _ => if k = g then 10 else 0]
  baseline := fun _ => [(List.range 2).map fun _ => fun _ _ => 0]

/-- **C64, what does not hold.** The band plotted for the total over geos adds up the ends of the
intervals of the geos; it is not the credible interval of the total.  It can be too wide (here the
total is 10 in all the draws) and too narrow (here the lower end is 0 although more than a quarter
of the draws are -10). -/
theorem plotted_band_wrong :
    (∃ d, expectedVsActual exWide false false false false (1 / 2) = .ok d ∧
      plotLines d.expected [0, 1] [0] false = [⟨none, 0, some 10, some 5, some 15⟩] ∧
      Describes (1 / 2) (totals (exWide.expected false) [0, 1] [0]) [some 10, some 10, some 10]) ∧
    ∃ d, expectedVsActual exNarrow false false false false (1 / 2) = .ok d ∧
      (plotLines d.expected [0, 1, 2] [0] false).map (fun l => (l.lo, l.hi)) = [(some 0, some 0)] ∧
      Describes (1 / 2) (totals (exNarrow.expected false) [0, 1, 2] [0])
        [some (-10 / 3), some (-10), some 0] := by
  constructor
  · refine ⟨⟨[((some 0, some 0, none), [some 5, some (5 / 2), some (15 / 2)]),
        ((some 1, some 0, none), [some 5, some (5 / 2), some (15 / 2)])],
      [((some 0, some 0, none), [some 0, some 0, some 0]),
        ((some 1, some 0, none), [some 0, some 0, some 0])],
      [((some 0, some 0), 0), ((some 1, some 0), 0)]⟩, ?_, ?_, ?_⟩
    · decide +kernel
    · decide +kernel
    · unfold Describes; decide +kernel
  · refine ⟨⟨[((some 0, some 0, none), [some (-10 / 9), some 0, some 0]),
        ((some 1, some 0, none), [some (-10 / 9), some 0, some 0]),
        ((some 2, some 0, none), [some (-10 / 9), some 0, some 0])],
      [((some 0, some 0, none), [some 0, some 0, some 0]),
        ((some 1, some 0, none), [some 0, some 0, some 0]),
        ((some 2, some 0, none), [some 0, some 0, some 0])],
      [((some 0, some 0), 0), ((some 1, some 0), 0), ((some 2, some 0), 0)]⟩, ?_, ?_, ?_⟩
    · decide +kernel
    · decide +kernel
    · unfold Describes; decide +kernel

/-! ## Changing the confidence level -/

/-- The data an object should show: those of its own outcome at a level. -/
def Shows (c : Ctx) (f : Fit) (level : ℚ) : Prop :=
  ∃ d, expectedVsActual c false false f.kpi false level = .ok d ∧ f.data = d

/-- **C64 (outcome).** The KPI itself is shown exactly if it was asked for and is not revenue already,
or there is no way to turn it into revenue. -/
theorem useKpi_iff (c : Ctx) (req : Bool) : useKpi c req = true ↔
    (req = true ∧ c.kpiIsRevenue = false) ∨ (req = false ∧ c.hasRevenuePerKpi = false) := by
  unfold useKpi
  cases req <;> cases c.kpiIsRevenue <;> cases c.hasRevenuePerKpi <;> simp

theorem useKpi_idem (c : Ctx) (b : Bool) (hr : c.kpiIsRevenue = true → c.hasRevenuePerKpi = true) :
    useKpi c (useKpi c b) = useKpi c b := by
  unfold useKpi
  cases b <;> cases h1 : c.kpiIsRevenue <;> cases h2 : c.hasRevenuePerKpi <;> simp_all

/-- **C64.** A new object shows the outcome it is labelled with, at the requested level. -/
theorem new_shows {c : Ctx} {req : Bool} {level : ℚ} {f : Fit}
    (hf : Fit.new c req level = .ok f) :
    Shows c f level ∧ (f.label = .kpi ↔ useKpi c req = true) := by
  unfold Fit.new at hf
  cases hd : expectedVsActual c false false (useKpi c req) false level with
  | error e => rw [hd] at hf; cases hf
  | ok d =>
    rw [hd] at hf
    simp only [Except.ok.injEq] at hf
    subst hf
    refine ⟨⟨d, hd, rfl⟩, ?_⟩
    unfold Fit.label
    cases useKpi c req <;> simp

/-- **C64.** After changing the level, an object still shows its outcome if revenue was shown, or if
there is no revenue. -/
theorem update_shows {c : Ctx} {f g : Fit} {level : ℚ} (h : f.update c level = .ok g)
    (hk : f.kpi = false ∨ c.hasRevenuePerKpi = false)
    (hr : c.kpiIsRevenue = true → c.hasRevenuePerKpi = true) :
    Shows c g level ∧ g.label = f.label := by
  unfold Fit.update at h
  cases hd : expectedVsActual c false false false false level with
  | error e => rw [hd] at h; cases h
  | ok d =>
    rw [hd] at h
    simp only [Except.ok.injEq] at h
    subst h
    refine ⟨⟨d, ?_, rfl⟩, rfl⟩
    rcases hk with hk | hk
    · simpa only [hk] using hd
    · have e : useKpi c f.kpi = useKpi c false := by
        have : c.kpiIsRevenue = false := by
          cases h1 : c.kpiIsRevenue
          · rfl
          · rw [hr h1] at hk; cases hk
        unfold useKpi
        cases f.kpi <;> simp [hk, this]
      have hd' := evs_iff.1 hd
      rw [← e] at hd'
      exact evs_iff.2 hd'

/-- **C64, what does not hold.** Changing the level of an object that shows the KPI makes it show
revenue, if there is revenue, under the label of the KPI; already asking for the same level
again. -/
theorem update_forgets_kpi {c : Ctx} (h1 : c.kpiIsRevenue = false) (h2 : c.hasRevenuePerKpi = true)
    {level level' : ℚ} {f g : Fit} (hf : Fit.new c true level = .ok f)
    (hg : f.update c level' = .ok g) :
    g.label = .kpi ∧ g.data.actual = actuals c false false false ∧
      f.data.actual = actuals c true false false := by
  have hu : useKpi c true = true := by unfold useKpi; simp [h1]
  have hu' : useKpi c false = false := by unfold useKpi; simp [h2]
  unfold Fit.new at hf
  rw [hu] at hf
  cases hd : expectedVsActual c false false true false level with
  | error e => rw [hd] at hf; cases hf
  | ok d =>
    rw [hd] at hf
    simp only [Except.ok.injEq] at hf
    subst hf
    unfold Fit.update at hg
    cases hd' : expectedVsActual c false false false false level' with
    | error e => rw [hd'] at hg; cases hg
    | ok d' =>
      rw [hd'] at hg
      simp only [Except.ok.injEq] at hg
      subst hg
      refine ⟨rfl, ?_, ?_⟩
      · rw [(evs_iff.1 hd').2.2, hu']
      · rw [(evs_iff.1 hd).2.2, hu]

/-- The concrete case: the KPI is 5 everywhere, the revenue 50. -/
theorem update_forgets_kpi_witness : ∃ f g, Fit.new exCtx true (1 / 2) = .ok f ∧
    f.update exCtx (1 / 2) = .ok g ∧ g.label = .kpi ∧
    ((some 0, some 0), 5) ∈ f.data.actual ∧ ((some 0, some 0), 50) ∈ g.data.actual := by
  obtain ⟨d, hd⟩ := accepted (c := exCtx) (level := 1 / 2) (by norm_num) (by norm_num) false false
    true false
  obtain ⟨d', hd'⟩ := accepted (c := exCtx) (level := 1 / 2) (by norm_num) (by norm_num) false false
    false false
  refine ⟨⟨true, d⟩, ⟨true, d'⟩, ?_, ?_, rfl, ?_, ?_⟩
  · unfold Fit.new
    have : useKpi exCtx true = true := rfl
    rw [this, hd]
  · unfold Fit.update
    rw [hd']
  · rw [(evs_iff.1 hd).2.2]; decide +kernel
  · rw [(evs_iff.1 hd').2.2]; decide +kernel

example : ∃ d, expectedVsActual exCtx false false true true (9 / 10) = .ok d ∧
    ((some 0, some 1, some .train), blank) ∈ d.expected := by
  obtain ⟨d, hd⟩ := accepted (c := exCtx) (level := 9 / 10) (by norm_num) (by norm_num) false false
    true true
  obtain ⟨r, _, _, h, _⟩ := each_observation hd rfl (by norm_num) (by norm_num)
    ⟨_, List.mem_cons_self, by simp⟩ (g := 0) (t := 1) (by decide) (by decide)
  exact ⟨d, hd, by simpa using h⟩

end Verif.FitData.Props
