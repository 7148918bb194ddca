import Verif.Model.Aks
import Mathlib.Tactic.Linarith
import Mathlib.Tactic.NormNum
import Mathlib.Order.Interval.Finset.Basic
import Mathlib.Data.Int.Interval

/-!
# Automatic knot selection: property C48
-/

namespace Verif.Aks.Props

open Verif.Aks

theorem mem_unique {l : List ℤ} {k : ℤ} : k ∈ unique l ↔ k ∈ l := by
  unfold unique
  rw [(List.perm_insertionSort _ _).mem_iff, List.mem_dedup]

theorem unique_sorted (l : List ℤ) : (unique l).Pairwise (· < ·) := by
  unfold unique
  have h1 := List.pairwise_insertionSort (· ≤ ·) l.dedup
  have h2 : (l.dedup.insertionSort (· ≤ ·)).Nodup :=
    (List.perm_insertionSort _ _).nodup_iff.2 (List.nodup_dedup l)
  exact (h1.and h2).imp fun h => lt_of_le_of_ne h.1 h.2

theorem mem_internal {n : ℕ} {k : ℤ} : k ∈ internal n ↔ 0 < k ∧ k < (n : ℤ) - 1 := by
  unfold internal
  simp only [List.mem_map, List.mem_filter, List.mem_range, Bool.and_eq_true, decide_eq_true_eq]
  constructor
  · rintro ⟨i, ⟨h1, h2, h3⟩, rfl⟩; omega
  · rintro ⟨h1, h2⟩
    exact ⟨k.toNat, by omega, by omega⟩

theorem internal_nodup (n : ℕ) : (internal n).Nodup := by
  unfold internal
  exact (List.nodup_range.filter _).map fun a b h => by simpa using h

theorem mem_initialKnots {n : ℕ} {ex : Option (List ℤ)} {ks : List ℤ}
    (h : initialKnots n ex = .ok ks) :
    ks.Nodup ∧ ∃ e, (ex = some e ∨ (ex = none ∧ e = (internal n).getLast?.toList)) ∧
      (∀ k ∈ e, k ∈ internal n) ∧ ∀ k, k ∈ ks ↔ k ∈ internal n ∧ k ∉ e := by
  unfold initialKnots at h
  simp only at h
  split_ifs at h with h1
  cases h
  refine ⟨(internal_nodup n).filter _, _, ?_, h1, fun k => by simp [List.mem_filter]⟩
  cases ex with
  | some e => exact .inl rfl
  | none => exact .inr ⟨rfl, rfl⟩

/-- Selected knots are candidates, in order, and required candidates are selected. -/
theorem selected_spec (knots req : List ℤ) (d : List ℚ) (hl : d.length = knots.length) :
    let s := selected knots ((knots.zip d).map fun p => selOf req p.1 p.2)
    s.Sublist knots ∧ ∀ k ∈ knots, k ∈ req → k ∈ s := by
  induction knots generalizing d with
  | nil => simp [selected]
  | cons k rest ih =>
    cases d with
    | nil => simp at hl
    | cons x d =>
      obtain ⟨h1, h2⟩ := ih d (by simpa using hl)
      simp only [selected, List.zip_cons_cons, List.map_cons, List.filter_cons] at h1 h2 ⊢
      split_ifs with hs
      · simp only [List.map_cons]
        refine ⟨h1.cons_cons _, ?_⟩
        intro q hq hr
        rcases List.mem_cons.1 hq with rfl | hq
        · simp
        · exact List.mem_cons_of_mem _ (h2 q hq hr)
      · refine ⟨h1.cons _, ?_⟩
        intro q hq hr
        rcases List.mem_cons.1 hq with rfl | hq
        · simp [selOf, hr] at hs
          norm_num at hs
        · exact h2 q hq hr

theorem asplineLoop_spec {solve : ℚ → List ℚ → List ℚ → Option (List ℚ)} {knots req : List ℤ}
    {fuel : ℕ} {pens oldSel w par : List ℚ} {r : List (List ℤ)}
    (h : asplineLoop solve knots req fuel pens oldSel w par = .ok r) :
    r.length = pens.length ∧
    ∀ s ∈ r, s.Sublist knots ∧ ∀ k ∈ knots, k ∈ req → k ∈ s := by
  induction fuel generalizing pens oldSel w par r with
  | zero =>
    cases pens with
    | nil => unfold asplineLoop at h; cases h; simp
    | cons _ _ => unfold asplineLoop at h; cases h
  | succ fuel ih =>
    cases pens with
    | nil => unfold asplineLoop at h; cases h; simp
    | cons pen rest =>
      unfold asplineLoop at h
      cases hs : solve pen w par with
      | none => rw [hs] at h; cases h
      | some par' =>
        rw [hs] at h
        simp only at h
        split_ifs at h with hl
        split at h
        · cases h
        · split_ifs at h with hc
          · cases hr : asplineLoop solve knots req fuel rest
              ((knots.zip (diff2 par')).map fun p => selOf req p.1 p.2)
              ((knots.zip (diff2 par')).map fun p => weightOf req p.1 p.2) par' with
            | error e => rw [hr] at h; cases h
            | ok r' =>
              rw [hr] at h
              cases h
              obtain ⟨i1, i2⟩ := ih hr
              refine ⟨by simp [i1], ?_⟩
              intro s hs
              rcases List.mem_cons.1 hs with rfl | hs
              · exact selected_spec knots req _ (by simpa using hl)
              · exact i2 s hs
          · have := ih h
            simpa using this

theorem best_mem {score : List ℤ → ℚ} {l : List (List ℤ)} {b : List ℤ} (h : best score l = some b) :
    b ∈ l ∧ ∀ k ∈ l, score b ≤ score k := by
  induction l generalizing b with
  | nil => cases h
  | cons k rest ih =>
    unfold best at h
    cases hr : best score rest with
    | none =>
      rw [hr] at h
      simp only [Option.some.injEq] at h
      subst h
      have : rest = [] := by
        cases rest with
        | nil => rfl
        | cons q qs =>
          unfold best at hr
          split at hr
          · cases hr
          · split_ifs at hr
      subst this
      simp
    | some c =>
      rw [hr] at h
      obtain ⟨h1, h2⟩ := ih hr
      simp only at h
      split_ifs at h with hlt <;> cases h
      · refine ⟨by simp, ?_⟩
        intro q hq
        rcases List.mem_cons.1 hq with rfl | hq
        · exact le_rfl
        · exact hlt.le.trans (h2 q hq)
      · refine ⟨by simp [h1], ?_⟩
        intro q hq
        rcases List.mem_cons.1 hq with rfl | hq
        · exact not_lt.1 hlt
        · exact h2 q hq

theorem candidates_spec {solve} {a : Args} {knots : List ℤ} {hi : ℤ} {req : Option (List ℤ)}
    {c : List ℤ × List (List ℤ)} (h : candidates solve a knots hi req = .ok c) :
    c.1.Sublist knots ∧ (∀ k ∈ req.getD [], k ∈ c.1) ∧
    (∀ s ∈ c.2, s.Sublist c.1 ∧ ∀ k ∈ req.getD [], k ∈ s) ∧ c.2.length = a.penalty.length ∧
    (a.restrict = true → ∀ k ∈ c.1, k ∈ req.getD [] ∨ ∀ q ∈ req.getD [], q < k) ∧
    (a.restrict = true → req ≠ none) := by
  have hasp : ∀ ks r cs, aspline (solve ks) ks r a.penalty = .ok cs → cs.length = a.penalty.length ∧
      ∀ s ∈ cs, s.Sublist ks ∧ ∀ k ∈ ks, k ∈ r → k ∈ s := by
    intro ks r cs hc
    unfold aspline at hc
    split_ifs at hc
    exact asplineLoop_spec hc
  unfold candidates at h
  cases req with
  | none =>
    simp only at h
    split_ifs at h with hr
    cases hc : aspline (solve knots) knots [] a.penalty with
    | error e => rw [hc] at h; cases h
    | ok cs =>
      rw [hc] at h
      cases h
      obtain ⟨h1, h2⟩ := hasp _ _ _ hc
      simp [hr, h1]
      exact fun s hs => (h2 s hs).1
  | some r =>
    simp only at h
    split_ifs at h with h1 h2
    have hsub : (restrictKnots a.restrict r knots).Sublist knots := by
      unfold restrictKnots
      split_ifs
      · exact List.filter_sublist
      · exact List.Sublist.refl _
    have hreq : ∀ k ∈ r, k ∈ restrictKnots a.restrict r knots := by
      intro k hk
      unfold restrictKnots
      split_ifs
      · exact List.mem_filter.2 ⟨h1 k hk, by simp [hk]⟩
      · exact h1 k hk
    cases hc : aspline (solve (restrictKnots a.restrict r knots)) (restrictKnots a.restrict r knots)
        r a.penalty with
    | error e => rw [hc] at h; cases h
    | ok cs =>
      rw [hc] at h
      cases h
      obtain ⟨i1, i2⟩ := hasp _ _ _ hc
      refine ⟨hsub, hreq, fun s hs => ⟨(i2 s hs).1, fun k hk => (i2 s hs).2 k (hreq k hk) hk⟩, i1, ?_,
        fun _ => by simp⟩
      intro hr k hk
      unfold restrictKnots at hk
      rw [if_pos hr] at hk
      simpa using (List.mem_filter.1 hk).2

theorem mem_normalise (xs : Option (List ℤ)) (k : ℤ) :
    k ∈ xs.getD [] ↔ k ∈ (normalise xs).getD [] := by
  unfold normalise
  cases xs with
  | none => simp
  | some l =>
    simp only
    split_ifs with h
    · simp [h]
    · simp [mem_unique]

theorem normalise_ne_nil (xs : Option (List ℤ)) : normalise xs ≠ some [] := by
  unfold normalise
  cases xs with
  | none => simp
  | some l =>
    simp only
    split_ifs with h
    · simp
    · intro hc
      rw [Option.some.injEq] at hc
      obtain ⟨k, hk⟩ := List.exists_mem_of_ne_nil l h
      have := mem_unique.2 hk
      rw [hc] at this
      simp at this

theorem internal_length (n : ℕ) : (internal n).length ≤ n - 2 := by
  have h : (internal n).toFinset ⊆ Finset.Ioo (0 : ℤ) ((n : ℤ) - 1) := by
    intro k hk
    rw [List.mem_toFinset, mem_internal] at hk
    exact Finset.mem_Ioo.2 hk
  have h2 := Finset.card_le_card h
  rw [List.toFinset_card_of_nodup (internal_nodup n), Int.card_Ioo] at h2
  omega

theorem maxInternal_ok {n f : ℕ} {lo : ℤ} {mx : Option ℤ} {hi : ℤ}
    (h : maxInternal n f lo mx = .ok hi) : hi = mx.getD ((n : ℤ) - f) := by
  unfold maxInternal at h
  simp only at h
  split_ifs at h
  cases h
  rfl

theorem select_ok {solve rss sigma0} {a : Args} {r : List ℤ}
    (h : select solve rss sigma0 a = .ok r) :
    ∃ knots hi cands s, initialKnots a.nTimes (normalise a.excluded) = .ok knots ∧
      maxInternal knots.length a.nFeatures a.minKnots a.maxKnots = .ok hi ∧
      candidates solve a knots hi (normalise a.required) = .ok cands ∧
      best (aic rss (sigma0 cands.1)) (feasible a.minKnots hi cands.2) = some s ∧
      addEnds a.nTimes s = r := by
  unfold select at h
  simp only at h
  split_ifs at h
  split at h
  · cases h
  rename_i knots h1
  split at h
  · cases h
  rename_i hi h2
  split at h
  · cases h
  rename_i cands h3
  split at h
  · cases h
  rename_i s h4
  cases h
  exact ⟨knots, hi, cands, s, h1, h2, h3, h4, rfl⟩

/-- **C48.** Whatever the solver and the least squares fit return, a successful automatic knot
selection yields knots that are strictly increasing times of the data, contain every required knot
and no excluded knot (by default the last internal time), contain the first and last time whenever
there is any knot, and have between `min` and `max` internal knots; with
`restrict_to_right_of_required_knots` every other internal knot is to the right of all required
ones. -/
theorem selection_respects_request (solve rss sigma0) (a : Args) (r : List ℤ)
    (h : select solve rss sigma0 a = .ok r) :
    r.Pairwise (· < ·) ∧
    (∀ k ∈ r, 0 ≤ k ∧ k ≤ (a.nTimes : ℤ) - 1) ∧
    (∀ k ∈ a.required.getD [], k ∈ r) ∧
    (∀ k ∈ a.excluded.getD [], k ∉ r) ∧
    (a.excluded.getD [] = [] → 2 < a.nTimes → (a.nTimes : ℤ) - 2 ∉ r) ∧
    (r ≠ [] → (0 : ℤ) ∈ r ∧ (a.nTimes : ℤ) - 1 ∈ r) ∧
    (∃ c : ℕ, c = (r.filter fun k => decide (0 < k) && decide (k < (a.nTimes : ℤ) - 1)).length ∧
      a.minKnots ≤ c ∧ (∀ m, a.maxKnots = some m → (c : ℤ) ≤ m) ∧
      (a.maxKnots = none → c + a.nFeatures ≤ a.nTimes - 2)) ∧
    (a.restrict = true → ∀ k ∈ r, 0 < k → k < (a.nTimes : ℤ) - 1 →
      k ∈ a.required.getD [] ∨ ∀ q ∈ a.required.getD [], q < k) := by
  obtain ⟨knots, hi, cands, s, h1, h2, h3, h4, rfl⟩ := select_ok h
  obtain ⟨hnd, e, he, hein, hmem⟩ := mem_initialKnots h1
  obtain ⟨c1, c2, c3, -, c5, -⟩ := candidates_spec h3
  obtain ⟨b1, -⟩ := best_mem h4
  obtain ⟨b1, b2⟩ := List.mem_filter.1 b1
  have hsub : s.Sublist knots := (c3 s b1).1.trans c1
  have hsin : ∀ k ∈ s, 0 < k ∧ k < (a.nTimes : ℤ) - 1 := fun k hk =>
    mem_internal.1 ((hmem k).1 (hsub.subset hk)).1
  have hsnd : s.Nodup := hsub.nodup hnd
  have hreq : ∀ k, k ∈ a.required.getD [] ↔ k ∈ (normalise a.required).getD [] := mem_normalise _
  have hexc : ∀ k, k ∈ a.excluded.getD [] ↔ k ∈ (normalise a.excluded).getD [] := mem_normalise _
  have hr : ∀ k, k ∈ addEnds a.nTimes s ↔ s ≠ [] ∧ (k ∈ s ∨ k = 0 ∨ k = (a.nTimes : ℤ) - 1) := by
    intro k
    unfold addEnds
    split_ifs with h0
    · simp [h0]
    · rw [mem_unique]; simp [h0]
  have hn : s ≠ [] → 2 ≤ (a.nTimes : ℤ) - 1 := by
    intro h0
    obtain ⟨k, hk⟩ := List.exists_mem_of_ne_nil s h0
    have := hsin k hk
    omega
  have hnotex : ∀ k ∈ e, k ∉ addEnds a.nTimes s := by
    intro k hk hc
    obtain ⟨-, hc⟩ := (hr k).1 hc
    have hin := mem_internal.1 (hein k hk)
    rcases hc with hc | hc | hc
    · exact ((hmem k).1 (hsub.subset hc)).2 hk
    · omega
    · omega
  have hcount : (addEnds a.nTimes s).filter (fun k => decide (0 < k) && decide (k < (a.nTimes : ℤ) - 1))
      |>.Perm s := by
    apply (List.perm_ext_iff_of_nodup ?_ hsnd).2
    · intro k
      rw [List.mem_filter, hr]
      simp only [Bool.and_eq_true, decide_eq_true_eq]
      constructor
      · rintro ⟨⟨-, hk | hk | hk⟩, hk1, hk2⟩
        · exact hk
        · omega
        · omega
      · intro hk
        exact ⟨⟨List.ne_nil_of_mem hk, .inl hk⟩, hsin k hk⟩
    · apply List.Nodup.filter
      unfold addEnds
      split_ifs
      · exact List.nodup_nil
      · exact (unique_sorted _).imp fun h => h.ne
  simp only [Bool.and_eq_true, decide_eq_true_eq] at b2
  refine ⟨?_, ?_, ?_, ?_, ?_, ?_, ⟨_, rfl, ?_, ?_, ?_⟩, ?_⟩
  · unfold addEnds
    split_ifs
    · exact List.Pairwise.nil
    · exact unique_sorted _
  · intro k hk
    obtain ⟨h0, hk⟩ := (hr k).1 hk
    have := hn h0
    rcases hk with hk | hk | hk
    · have := hsin k hk; omega
    · omega
    · omega
  · intro k hk
    have := (c3 s b1).2 k ((hreq k).1 hk)
    exact (hr k).2 ⟨List.ne_nil_of_mem this, .inl this⟩
  · intro k hk
    apply hnotex
    have hk := (hexc k).1 hk
    rcases he with he | ⟨he, -⟩
    · rw [he] at hk; exact hk
    · rw [he] at hk; simp at hk
  · intro h0 h2
    apply hnotex
    rcases he with he | ⟨he, rfl⟩
    · exfalso
      rw [he] at hexc
      have hne : e = [] := by
        rw [List.eq_nil_iff_forall_not_mem]
        intro k hk
        have := (hexc k).2 hk
        rw [h0] at this
        simp at this
      subst hne
      exact normalise_ne_nil _ he
    · have hl : (internal a.nTimes).getLast? = some ((a.nTimes : ℤ) - 2) := by
        unfold internal
        rw [List.getLast?_map, show a.nTimes = (a.nTimes - 1) + 1 by omega, List.range_succ,
          List.filter_append]
        rw [show (List.filter (fun i => decide (0 < i) && decide (i + 1 < a.nTimes - 1 + 1))
          [a.nTimes - 1]) = [] by simp]
        rw [List.append_nil, show a.nTimes - 1 = (a.nTimes - 2) + 1 by omega, List.range_succ,
          List.filter_append]
        rw [show (List.filter (fun i => decide (0 < i) && decide (i + 1 < a.nTimes - 2 + 1 + 1))
          [a.nTimes - 2]) = [a.nTimes - 2] by simp; omega]
        simp
        omega
      rw [hl]; simp
  · intro h0
    obtain ⟨k, hk⟩ := List.exists_mem_of_ne_nil _ h0
    have hs := ((hr k).1 hk).1
    exact ⟨(hr 0).2 ⟨hs, by simp⟩, (hr _).2 ⟨hs, by simp⟩⟩
  · rw [hcount.length_eq]; exact b2.1
  · intro m hm
    rw [hcount.length_eq]
    have := maxInternal_ok h2
    rw [hm] at this
    simp only [Option.getD_some] at this
    omega
  · intro hm
    rw [hcount.length_eq]
    have := maxInternal_ok h2
    rw [hm] at this
    simp only [Option.getD_none] at this
    have hkl : knots.length ≤ a.nTimes - 2 := by
      have hk : knots ⊆ internal a.nTimes := fun k hk => ((hmem k).1 hk).1
      have := (hnd.subperm hk).length_le
      exact this.trans (internal_length _)
    omega
  · intro hres k hk hk1 hk2
    obtain ⟨h0, hk⟩ := (hr k).1 hk
    rcases hk with hk | hk | hk
    · have := c5 hres k ((c3 s b1).1.subset hk)
      rcases this with h | h
      · exact .inl ((hreq k).2 h)
      · exact .inr fun q hq => h q ((hreq q).1 hq)
    · omega
    · omega

/-- The last minimiser: everything before scores at least as much, everything after strictly more. -/
theorem best_last {score : List ℤ → ℚ} {l : List (List ℤ)} {b : List ℤ} (h : best score l = some b) :
    ∃ pre post, l = pre ++ b :: post ∧ (∀ t ∈ pre, score b ≤ score t) ∧
      ∀ t ∈ post, score b < score t := by
  induction l generalizing b with
  | nil => simp [best] at h
  | cons k rest ih =>
    unfold best at h
    split at h
    · rename_i hn
      cases h
      have : rest = [] := by
        cases rest with
        | nil => rfl
        | cons x xs =>
          unfold best at hn
          split at hn
          · cases hn
          · split_ifs at hn
      exact ⟨[], [], by simp [this], by simp, by simp⟩
    · rename_i b' hb
      obtain ⟨pre, post, rfl, h1, h2⟩ := ih hb
      split_ifs at h with hlt
      · cases h
        refine ⟨[], _, rfl, by simp, ?_⟩
        intro t ht
        rcases List.mem_append.1 ht with ht | ht
        · exact lt_of_lt_of_le hlt (h1 t ht)
        · rcases List.mem_cons.1 ht with rfl | ht
          · exact hlt
          · exact hlt.trans (h2 t ht)
      · cases h
        refine ⟨k :: pre, post, rfl, ?_, h2⟩
        intro t ht
        rcases List.mem_cons.1 ht with rfl | ht
        · exact not_lt.1 hlt
        · exact h1 t ht

/-- **C48 (criterion).** There is one candidate set of internal knots per penalty.  Among the
candidates whose size is allowed, the selected one has the least information criterion
`2 (#knots + 2) + rss / sigma0`, and every later one (larger penalty) has a strictly larger one. -/
theorem selection_minimises_aic (solve rss sigma0) (a : Args) (r : List ℤ)
    (h : select solve rss sigma0 a = .ok r) :
    ∃ (knots : List ℤ) (cands : List (List ℤ)) (hi : ℤ) (pre : List (List ℤ)) (s : List ℤ)
      (post : List (List ℤ)),
      cands.length = a.penalty.length ∧
      (∀ m, a.maxKnots = some m → hi = m) ∧
      cands.filter (fun t => decide (a.minKnots ≤ t.length ∧ (t.length : ℤ) ≤ hi)) = pre ++ s :: post ∧
      (∀ k, k ∈ r ↔ s ≠ [] ∧ (k ∈ s ∨ k = 0 ∨ k = (a.nTimes : ℤ) - 1)) ∧
      (∀ t ∈ pre, 2 * (s.length + 2 : ℚ) + rss s / sigma0 knots
        ≤ 2 * (t.length + 2 : ℚ) + rss t / sigma0 knots) ∧
      ∀ t ∈ post, 2 * (s.length + 2 : ℚ) + rss s / sigma0 knots
        < 2 * (t.length + 2 : ℚ) + rss t / sigma0 knots := by
  obtain ⟨knots, hi, cands, s, h1, h2, h3, h4, rfl⟩ := select_ok h
  obtain ⟨-, -, -, c4, -, -⟩ := candidates_spec h3
  obtain ⟨pre, post, e, b1, b2⟩ := best_last h4
  have hm := maxInternal_ok h2
  refine ⟨cands.1, cands.2, hi, pre, s, post, c4, ?_, ?_, ?_, ?_, ?_⟩
  · intro m hmm; rw [hmm] at hm; exact hm
  · rw [← e]; unfold feasible; congr 1; funext t; simp
  · intro k
    unfold addEnds
    split_ifs with h0
    · simp [h0]
    · rw [mem_unique]; simp [h0]
  · intro t ht; have := b1 t ht; unfold aic at this; linarith
  · intro t ht; have := b2 t ht; unfold aic at this; linarith

/-- **C48 (rejections).** A selection that does not raise was asked something satisfiable: no knot is
both required and excluded, every required or excluded knot is an internal time, the minimum does
not exceed the maximum, the distinct required knots fit in the maximum, and the restriction is
only asked with required knots. -/
theorem selection_request_consistent (solve rss sigma0) (a : Args) (r : List ℤ)
    (h : select solve rss sigma0 a = .ok r) :
    (∀ k ∈ a.required.getD [], k ∉ a.excluded.getD []) ∧
    (∀ k ∈ a.required.getD [], 0 < k ∧ k < (a.nTimes : ℤ) - 1) ∧
    (∀ k ∈ a.excluded.getD [], 0 < k ∧ k < (a.nTimes : ℤ) - 1) ∧
    (∀ m, a.maxKnots = some m → a.minKnots ≤ m ∧ ((a.required.getD []).dedup.length : ℤ) ≤ m) ∧
    a.minKnots ≤ max 0 ((a.nTimes : ℤ) - 2) ∧ a.penalty ≠ [] ∧
    (a.restrict = true → a.required.getD [] ≠ []) := by
  obtain ⟨s1, s2, s3, s4, s5, s6, ⟨c, hc, s7, s8, s9⟩, s10⟩ := selection_respects_request _ _ _ _ _ h
  obtain ⟨knots, hi, cands, s, h1, h2, h3, h4, rfl⟩ := select_ok h
  obtain ⟨hnd, e, he, hein, hmem⟩ := mem_initialKnots h1
  obtain ⟨c1, c2, c3, c4, c5, c6⟩ := candidates_spec h3
  have hreq : ∀ k, k ∈ a.required.getD [] ↔ k ∈ (normalise a.required).getD [] := mem_normalise _
  have hexc : ∀ k, k ∈ a.excluded.getD [] ↔ k ∈ (normalise a.excluded).getD [] := mem_normalise _
  have hrin : ∀ k ∈ a.required.getD [], k ∈ knots := fun k hk => c1.subset (c2 k ((hreq k).1 hk))
  have hrin' : ∀ k ∈ a.required.getD [], 0 < k ∧ k < (a.nTimes : ℤ) - 1 := fun k hk =>
    mem_internal.1 ((hmem k).1 (hrin k hk)).1
  refine ⟨fun k hk hx => s4 k hx (s3 k hk), hrin', ?_, ?_, ?_, ?_, ?_⟩
  · intro k hk
    have hk := (hexc k).1 hk
    rcases he with he | ⟨he, -⟩
    · rw [he] at hk; exact mem_internal.1 (hein k hk)
    · rw [he] at hk; simp at hk
  · intro m hm
    have h8 := s8 m hm
    refine ⟨s7.trans h8, ?_⟩
    have hsub : (a.required.getD []).dedup ⊆ (addEnds a.nTimes s).filter
        (fun k => decide (0 < k) && decide (k < (a.nTimes : ℤ) - 1)) := by
      intro k hk
      rw [List.mem_dedup] at hk
      have := hrin' k hk
      exact List.mem_filter.2 ⟨s3 k hk, by simp [this]⟩
    have := ((List.nodup_dedup _).subperm hsub).length_le
    omega
  · have := (hnd.subperm (fun k hk => ((hmem k).1 hk).1 : knots ⊆ internal a.nTimes)).length_le
    have h5 := internal_length a.nTimes
    unfold maxInternal at h2
    simp only at h2
    split_ifs at h2
    have h6 := le_max_left (0 : ℤ) ((a.nTimes : ℤ) - 2)
    have h7 := le_max_right (0 : ℤ) ((a.nTimes : ℤ) - 2)
    omega
  · intro h0
    have : cands.2.length = 0 := by rw [c4, h0]; rfl
    have h5 := List.length_eq_zero_iff.1 this
    rw [h5] at h4
    simp [feasible, best] at h4
  · intro hr h0
    apply c6 hr
    revert h0
    unfold normalise
    cases a.required with
    | none => simp
    | some l => simp +contextual

/-- The errors about the request itself, rather than about the fit. -/
def requestErrors : List Err :=
  [.requiredAndExcluded, .excludedIllegal, .minTooLarge, .maxBelowMin, .requiredIllegal,
   .tooManyRequired, .restrictWithoutRequired]

/-- The times that may become knots: neither the first nor the last, and not excluded, where by default
the last but one is excluded. -/
def available (n : ℕ) (excluded : List ℤ) : Finset ℤ :=
  Finset.Ioo 0 ((n : ℤ) - 1) \ (if excluded = [] then {(n : ℤ) - 2} else excluded.toFinset)

theorem normalise_getD_nil (xs : Option (List ℤ)) : normalise xs = none ↔ xs.getD [] = [] := by
  unfold normalise
  cases xs with
  | none => simp
  | some l =>
    simp only
    split_ifs with h
    · simp [h]
    · simp [h]

theorem normalise_length (xs : Option (List ℤ)) :
    ((normalise xs).getD []).length = (xs.getD []).toFinset.card := by
  have h1 : ((normalise xs).getD []).Nodup := by
    unfold normalise
    cases xs with
    | none => simp
    | some l =>
      simp only
      split_ifs with h
      · simp
      · exact (unique_sorted l).imp ne_of_lt
  rw [← List.toFinset_card_of_nodup h1]
  congr 1
  ext k
  rw [List.mem_toFinset, List.mem_toFinset, ← mem_normalise]

theorem initialKnots_available {n : ℕ} {xs : Option (List ℤ)} {ks : List ℤ}
    (h : initialKnots n (normalise xs) = .ok ks) :
    ks.Nodup ∧ ks.toFinset = available n (xs.getD []) := by
  obtain ⟨hnd, e, he, hein, hmem⟩ := mem_initialKnots h
  refine ⟨hnd, ?_⟩
  ext k
  rw [List.mem_toFinset, hmem, available, Finset.mem_sdiff, Finset.mem_Ioo, mem_internal]
  refine and_congr_right fun hk => not_congr ?_
  by_cases hx : xs.getD [] = []
  · rw [if_pos hx, Finset.mem_singleton]
    rw [← normalise_getD_nil] at hx
    rcases he with he | ⟨-, he⟩
    · rw [hx] at he; cases he
    · have hint : ∃ m, n = m + 3 := ⟨n - 3, by omega⟩
      obtain ⟨m, rfl⟩ := hint
      have : internal (m + 3) = internal (m + 2) ++ [((m + 1 : ℕ) : ℤ)] := by
        unfold internal
        rw [List.range_succ, List.range_succ, List.range_succ]
        simp only [List.filter_append, List.map_append, List.filter_singleton]
        have e1 : (List.range m).filter (fun i => decide (0 < i) && decide (i + 1 < m + 3)) =
            (List.range m).filter (fun i => decide (0 < i) && decide (i + 1 < m + 2)) := by
          apply List.filter_congr
          intro i hi
          rw [List.mem_range] at hi
          have a1 : i + 1 < m + 3 := by omega
          have a2 : i + 1 < m + 2 := by omega
          simp [a1, a2]
        rw [e1]
        simp
      rw [he, this]
      simp
      omega
  · rw [if_neg hx, List.mem_toFinset]
    rcases he with he | ⟨he, -⟩
    · rw [mem_normalise, he]; rfl
    · exact absurd ((normalise_getD_nil xs).1 he) hx

theorem initialKnots_isOk (n : ℕ) (xs : Option (List ℤ)) :
    (∃ ks, initialKnots n (normalise xs) = .ok ks) ↔
      ∀ k ∈ xs.getD [], 0 < k ∧ k < (n : ℤ) - 1 := by
  unfold initialKnots
  simp only
  cases h : normalise xs with
  | none =>
    have := (normalise_getD_nil xs).1 h
    simp only [this, List.not_mem_nil, false_imp_iff, implies_true, iff_true]
    rw [if_neg]
    · exact ⟨_, rfl⟩
    · push Not
      intro e he
      rw [Option.mem_toList] at he
      exact List.mem_of_getLast? he
  | some e =>
    simp only
    have hm : ∀ k, k ∈ xs.getD [] ↔ k ∈ e := by
      intro k; rw [mem_normalise, h]; rfl
    by_cases hc : ∀ k ∈ e, k ∈ internal n
    · rw [if_neg (not_not.2 hc)]
      refine ⟨fun _ k hk => mem_internal.1 (hc k ((hm k).1 hk)), fun _ => ⟨_, rfl⟩⟩
    · rw [if_pos hc]
      constructor
      · rintro ⟨ks, hks⟩; cases hks
      · intro hh; exact absurd (fun k hk => mem_internal.2 (hh k ((hm k).2 hk))) hc

theorem initialKnots_error {n : ℕ} {xs : Option (List ℤ)} {e : Err}
    (h : initialKnots n xs = .error e) : e = .excludedIllegal := by
  unfold initialKnots at h
  simp only at h
  split_ifs at h
  cases h; rfl

theorem asplineLoop_error {solve : ℚ → List ℚ → List ℚ → Option (List ℚ)} {knots req : List ℤ} :
    ∀ {fuel : ℕ} {pens oldSel w par e}, asplineLoop solve knots req fuel pens oldSel w par = .error e →
      e ∉ requestErrors := by
  intro fuel
  induction fuel with
  | zero =>
    intro pens oldSel w par e h
    cases pens with
    | nil => simp [asplineLoop] at h
    | cons p ps => simp only [asplineLoop, Except.error.injEq] at h; subst h; decide
  | succ fuel ih =>
    intro pens oldSel w par e h
    cases pens with
    | nil => simp [asplineLoop] at h
    | cons p ps =>
      simp only [asplineLoop] at h
      cases hs : solve p w par with
      | none => simp only [hs, Except.error.injEq] at h; subst h; decide
      | some par' =>
        simp only [hs] at h
        split_ifs at h with h1
        · cases h; decide
        · cases hm : maxChange oldSel ((knots.zip (diff2 par')).map fun p => selOf req p.1 p.2) with
          | error e' =>
            simp only [hm, Except.error.injEq] at h
            subst h
            unfold maxChange at hm
            split at hm
            · cases hm; decide
            · cases hm
          | ok m =>
            simp only [hm] at h
            split_ifs at h with h2
            · cases hr : asplineLoop solve knots req fuel ps
                  ((knots.zip (diff2 par')).map fun p => selOf req p.1 p.2)
                  ((knots.zip (diff2 par')).map fun p => weightOf req p.1 p.2) par' with
              | error e' =>
                rw [hr] at h
                cases h
                exact ih hr
              | ok r => rw [hr] at h; cases h
            · exact ih h

theorem aspline_error {solve : ℚ → List ℚ → List ℚ → Option (List ℚ)} {knots req : List ℤ}
    {pens : List ℚ} {e : Err} (h : aspline solve knots req pens = .error e) : e ∉ requestErrors := by
  unfold aspline at h
  split_ifs at h
  · cases h; decide
  · exact asplineLoop_error h

/-- **C48 (refusals).** A request is refused as such exactly when a knot is both required and excluded,
an excluded knot is not an internal time, the minimum exceeds the number of available times or the
maximum (by default the number of available times less that of the variables), a required knot is not
available, there are more required knots than the maximum, or the restriction is asked for without
required knots. -/
theorem request_refused_iff (solve rss sigma0) (a : Args) :
    (∀ e ∈ requestErrors, select solve rss sigma0 a ≠ .error e) ↔
      (∀ k ∈ a.required.getD [], k ∉ a.excluded.getD []) ∧
      (∀ k ∈ a.excluded.getD [], 0 < k ∧ k < (a.nTimes : ℤ) - 1) ∧
      a.minKnots ≤ (available a.nTimes (a.excluded.getD [])).card ∧
      a.minKnots ≤ a.maxKnots.getD ((available a.nTimes (a.excluded.getD [])).card - a.nFeatures) ∧
      (∀ k ∈ a.required.getD [], k ∈ available a.nTimes (a.excluded.getD [])) ∧
      (a.required.getD [] ≠ [] → ((a.required.getD []).toFinset.card : ℤ) ≤
        a.maxKnots.getD ((available a.nTimes (a.excluded.getD [])).card - a.nFeatures)) ∧
      (a.restrict = true → a.required.getD [] ≠ []) := by
  have hdis : ((normalise a.excluded).getD []).any
      (fun e => decide (e ∈ (normalise a.required).getD [])) = true ↔
      ¬ ∀ k ∈ a.required.getD [], k ∉ a.excluded.getD [] := by
    rw [List.any_eq_true]
    push Not
    constructor
    · rintro ⟨k, h1, h2⟩
      exact ⟨k, (mem_normalise _ _).2 (by simpa using h2), (mem_normalise _ _).2 h1⟩
    · rintro ⟨k, h1, h2⟩
      exact ⟨k, (mem_normalise _ _).1 h2, by simpa using (mem_normalise _ _).1 h1⟩
  unfold select
  simp only
  by_cases c1 : ∀ k ∈ a.required.getD [], k ∉ a.excluded.getD []
  swap
  · rw [if_pos (hdis.2 c1)]
    exact ⟨fun h => absurd rfl (h .requiredAndExcluded (by decide)), fun h => absurd h.1 c1⟩
  rw [if_neg (fun h => hdis.1 h c1)]
  cases hk : initialKnots a.nTimes (normalise a.excluded) with
  | error e =>
    have he := initialKnots_error hk
    subst he
    simp only
    refine ⟨fun h => absurd rfl (h _ (by decide)), fun h => ?_⟩
    obtain ⟨ks, hks⟩ := (initialKnots_isOk _ _).2 h.2.1
    rw [hk] at hks; cases hks
  | ok ks =>
    have c2 := (initialKnots_isOk _ _).1 ⟨ks, hk⟩
    obtain ⟨hnd, hav⟩ := initialKnots_available hk
    have hlen : ks.length = (available a.nTimes (a.excluded.getD [])).card := by
      rw [← hav, List.toFinset_card_of_nodup hnd]
    simp only [← hlen]
    unfold maxInternal
    simp only
    by_cases c3 : (ks.length : ℤ) < a.minKnots
    · rw [if_pos c3]
      simp only
      exact ⟨fun h => absurd rfl (h _ (by decide)), fun h => absurd h.2.2.1 (by omega)⟩
    rw [if_neg c3]
    by_cases c4 : a.maxKnots.getD ((ks.length : ℤ) - a.nFeatures) < a.minKnots
    · rw [if_pos c4]
      simp only
      exact ⟨fun h => absurd rfl (h _ (by decide)), fun h => absurd h.2.2.2.1 (by omega)⟩
    rw [if_neg c4]
    simp only
    generalize hmx : a.maxKnots.getD ((ks.length : ℤ) - a.nFeatures) = hi at *
    have havm : ∀ k, k ∈ ks ↔ k ∈ available a.nTimes (a.excluded.getD []) := by
      intro k; rw [← hav, List.mem_toFinset]
    have tail : ∀ c : Except Err (List ℤ × List (List ℤ)),
        (∀ e, c = .error e → e ∉ requestErrors) →
        ∀ e ∈ requestErrors, (match c with
          | .error e => .error e
          | .ok cands => match best (aic rss (sigma0 cands.1)) (feasible a.minKnots hi cands.2) with
            | none => .error .noFeasible
            | some k => .ok (addEnds a.nTimes k) : Except Err (List ℤ)) ≠ .error e := by
      intro c hc e he hh
      cases c with
      | error e' =>
        simp only [Except.error.injEq] at hh
        subst hh
        exact hc _ rfl he
      | ok cands =>
        simp only at hh
        split at hh
        · cases hh; revert he; decide
        · cases hh
    cases hr : normalise a.required with
    | none =>
      have hr0 := (normalise_getD_nil _).1 hr
      simp only [hr0, candidates]
      by_cases c7 : a.restrict = true
      · rw [if_pos c7]
        refine ⟨fun h => absurd rfl (h _ (by decide)), fun h => absurd rfl (h.2.2.2.2.2.2 c7)⟩
      · rw [if_neg c7]
        refine iff_of_true ?_ ⟨by simp, c2, by omega, by omega, by simp, by simp, fun h => absurd h c7⟩
        apply tail
        intro e he
        cases has : aspline (solve ks) ks [] a.penalty with
        | error e' => rw [has] at he; cases he; exact aspline_error has
        | ok cs => rw [has] at he; cases he
    | some r =>
      have hr0 : a.required.getD [] ≠ [] := by
        intro hh
        rw [← normalise_getD_nil, hr] at hh
        cases hh
      have hrm : ∀ k, k ∈ a.required.getD [] ↔ k ∈ r := by
        intro k; rw [mem_normalise, hr]; rfl
      have hrl : r.length = (a.required.getD []).toFinset.card := by
        rw [← normalise_length, hr]; rfl
      simp only [candidates]
      by_cases c5 : ∀ k ∈ r, k ∈ ks
      swap
      · rw [if_pos c5]
        refine ⟨fun h => absurd rfl (h _ (by decide)), fun h => ?_⟩
        exact absurd (fun k hk => (havm k).2 (h.2.2.2.2.1 k ((hrm k).2 hk))) c5
      rw [if_neg (not_not.2 c5)]
      by_cases c6 : hi < (r.length : ℤ)
      · rw [if_pos c6]
        refine ⟨fun h => absurd rfl (h _ (by decide)), fun h => ?_⟩
        have := h.2.2.2.2.2.1 hr0
        omega
      rw [if_neg c6]
      refine iff_of_true ?_ ⟨c1, c2, by omega, by omega,
        fun k hk => (havm k).1 (c5 k ((hrm k).1 hk)), fun _ => by omega, fun _ => hr0⟩
      apply tail
      intro e he
      cases has : aspline (solve (restrictKnots a.restrict r ks)) (restrictKnots a.restrict r ks) r
          a.penalty with
      | error e' => rw [has] at he; cases he; exact aspline_error has
      | ok cs => rw [has] at he; cases he

/-! ## Non-vacuity: a request on eight weeks -/

/-- A solver that returns a fixed broken line: kinks at weeks 2 and 5. -/
def kinks : List ℤ → ℚ → List ℚ → List ℚ → Option (List ℚ) := fun ks _ _ _ =>
  some ((List.range (ks.length + 2)).map fun i =>
    (if 2 ≤ i then ((i : ℚ) - 2) else 0) + if 5 ≤ i then 3 * ((i : ℚ) - 5) else 0)

example : select kinks (fun k => 100 - 10 * k.length) (fun _ => 1)
    { nTimes := 8, nFeatures := 2, penalty := [1, 2], minKnots := 1, maxKnots := none,
      required := some [4, 4], excluded := some [3], restrict := false } = .ok [0, 2, 4, 6, 7] := by
  decide +kernel

example : select kinks (fun k => 100 - 10 * k.length) (fun _ => 1)
    { nTimes := 8, nFeatures := 2, penalty := [1, 2], minKnots := 1, maxKnots := none,
      required := some [3], excluded := some [3], restrict := false }
    = .error .requiredAndExcluded := by
  decide +kernel

end Verif.Aks.Props
