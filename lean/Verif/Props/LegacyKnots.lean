import Verif.Spec.LegacyKnots
import Verif.Spec.SaveLoad
import Verif.Props.Aks
import Verif.Props.Knots
import Verif.Props.SaveLoad

/-!
# C106: automatic knots of models saved by earlier versions
-/

namespace Verif.LegacyKnots.Props

open Verif.Aks Verif.Aks.Props Verif.SaveLoad Verif.SaveLoad.Spec Verif.LegacyKnots Verif.LegacyKnots.Spec
open Verif.Knots (KnotInfo)
open Verif.Knots.Props (Consistent)

instance (v : Version) (a b c : ℕ) : Decidable (UpTo v a b c) := by unfold UpTo; infer_instance

theorem sorted_ext {l m : List ℤ} (hl : l.Pairwise (· < ·)) (hm : m.Pairwise (· < ·)) (h : ∀ x, x ∈ l ↔ x ∈ m) :
    l = m := by
  have hp : l.Perm m := (List.perm_ext_iff_of_nodup (hl.imp fun h => ne_of_lt h) (hm.imp fun h => ne_of_lt h)).2 h
  exact hp.eq_of_pairwise (fun _ _ _ _ h1 h2 => absurd (lt_trans h1 h2) (lt_irrefl _)) hl hm

theorem internal_sorted (n : ℕ) : (internal n).Pairwise (· < ·) := by
  unfold internal
  rw [List.pairwise_map]
  refine (List.pairwise_lt_range.filter _).imp ?_
  intro a b h
  exact_mod_cast h

theorem mem_places {n : ℕ} {k : ℤ} : k ∈ places n ↔ 0 < k ∧ k < (n : ℤ) - 2 := by
  unfold places
  simp only [List.mem_map, List.mem_range]
  constructor
  · rintro ⟨i, h, rfl⟩; omega
  · rintro ⟨h1, h2⟩; exact ⟨(k - 1).toNat, by omega, by omega⟩

theorem places_sorted (n : ℕ) : (places n).Pairwise (· < ·) := by
  unfold places
  rw [List.pairwise_map]
  refine List.pairwise_lt_range.imp ?_
  intro a b h
  exact_mod_cast Nat.succ_lt_succ h

theorem last_internal (n : ℕ) (k : ℤ) (h : k ∈ (internal n).getLast?.toList) : k = (n : ℤ) - 2 := by
  rw [Option.mem_toList] at h
  obtain ⟨l, hl⟩ := List.getLast?_eq_some_iff.1 h
  have hs := internal_sorted n
  have hk : k ∈ internal n := by rw [hl]; simp
  have hk' := mem_internal.1 hk
  by_contra hne
  have hin : (n : ℤ) - 2 ∈ internal n := mem_internal.2 (by omega)
  rw [hl, List.pairwise_append] at hs
  rw [hl] at hin
  rcases List.mem_append.1 hin with h1 | h1
  · have := hs.2.2 _ h1 k (by simp)
    omega
  · simp only [List.mem_cons, List.not_mem_nil, or_false] at h1
    omega

theorem initial_default (n : ℕ) : initialKnots n none = .ok (places n) := by
  have hok : ∃ ks, initialKnots n none = .ok ks := by
    unfold initialKnots
    simp only
    rw [if_neg]
    · exact ⟨_, rfl⟩
    · rw [not_not]
      intro e he
      rw [Option.mem_toList] at he
      exact List.mem_of_getLast? he
  obtain ⟨ks, h⟩ := hok
  have h' := h
  unfold initialKnots at h'
  simp only at h'
  split_ifs at h' with h1
  cases h'
  rw [h]
  congr 1
  refine sorted_ext ((internal_sorted n).filter _) (places_sorted n) ?_
  intro x
  rw [List.mem_filter, mem_internal, mem_places, decide_eq_true_eq]
  constructor
  · rintro ⟨⟨a, b⟩, c⟩
    refine ⟨a, ?_⟩
    by_contra hx
    have hxn : x = (n : ℤ) - 2 := by omega
    apply c
    have hne : internal n ≠ [] := by
      intro hnil
      have : x ∈ internal n := mem_internal.2 ⟨a, b⟩
      rw [hnil] at this; cases this
    have hl := List.getLast?_eq_getLast_of_ne_nil hne
    rw [hl, Option.mem_toList]
    rw [hxn, Option.some.injEq]
    exact last_internal n _ (by rw [hl]; simp)
  · rintro ⟨a, b⟩
    refine ⟨⟨a, by omega⟩, ?_⟩
    intro hc
    have := last_internal n x hc
    omega

/-- The sets of knots to choose from, or the refusal: the same for all versions. -/
def choices (f : Fit) : Except Aks.Err (List (List ℤ)) :=
  match maxInternal (places f.nTimes).length f.nFeatures 1 none with
  | .error e => .error e
  | .ok hi =>
    match aspline (f.solve (places f.nTimes)) (places f.nTimes) [] f.penalty with
    | .error e => .error e
    | .ok cs => .ok (feasible 1 hi cs)

theorem pick_eq (f : Fit) (s : List ℤ → ℚ) :
    pick f.solve f.rss s f.args =
      match choices f with
      | .error e => .error e
      | .ok cs =>
        match best (aic f.rss (s (places f.nTimes))) cs with
        | none => .error .noFeasible
        | some k => .ok k := by
  unfold pick choices
  have hinit : initialKnots f.args.nTimes (normalise f.args.excluded) = .ok (places f.nTimes) := initial_default _
  simp only [hinit]
  have hex : (normalise f.args.excluded).getD [] = [] := rfl
  rw [hex]
  simp only [List.any_nil, Bool.false_eq_true, if_false]
  have hm : maxInternal (places f.nTimes).length f.args.nFeatures f.args.minKnots f.args.maxKnots =
      maxInternal (places f.nTimes).length f.nFeatures 1 none := rfl
  rw [hm]
  cases maxInternal (places f.nTimes).length f.nFeatures 1 none with
  | error e => rfl
  | ok hi =>
    have hc : candidates f.solve f.args (places f.nTimes) hi (normalise f.args.required) =
        (aspline (f.solve (places f.nTimes)) (places f.nTimes) [] f.penalty).map
          fun c => (places f.nTimes, c) := rfl
    simp only [hc]
    cases aspline (f.solve (places f.nTimes)) (places f.nTimes) [] f.penalty with
    | error e => rfl
    | ok cs => rfl

theorem select_eq (f : Fit) (s : List ℤ → ℚ) :
    select f.solve f.rss s f.args =
      match pick f.solve f.rss s f.args with
      | .error e => .error e
      | .ok k => .ok (addEnds f.nTimes k) := by
  unfold select pick
  simp only
  split
  · rfl
  · split
    · next h => simp only [h]
    · next h =>
      simp only [h]
      split
      · next h => simp only [h]
      · next h =>
        simp only [h]
        split
        · next h => simp only [h]
        · next h =>
          simp only [h]
          split
          · next h => simp only [h]
          · next h => simp only [h]; rfl

theorem choices_facts {f : Fit} {cs : List (List ℤ)} (h : choices f = .ok cs) :
    ∀ k ∈ cs, k.Sublist (places f.nTimes) ∧ k ≠ [] := by
  unfold choices at h
  split at h
  · cases h
  split at h
  · cases h
  next cs' hcs =>
    cases h
    unfold aspline at hcs
    split_ifs at hcs
    obtain ⟨-, h2⟩ := asplineLoop_spec hcs
    intro k hk
    unfold feasible at hk
    rw [List.mem_filter] at hk
    refine ⟨(h2 k hk.1).1, ?_⟩
    rintro rfl
    simp at hk

theorem best_none {score : List ℤ → ℚ} {l : List (List ℤ)} (h : best score l = none) : l = [] := by
  cases l with
  | nil => rfl
  | cons a l =>
    unfold best at h
    split at h
    · cases h
    · split_ifs at h

/-- A selection is one of the choices, with the least criterion. -/
theorem pick_facts {f : Fit} {s : List ℤ → ℚ} {k : List ℤ} (h : pick f.solve f.rss s f.args = .ok k) :
    ∃ cs, choices f = .ok cs ∧ k ∈ cs ∧ k ≠ [] ∧ k.Pairwise (· < ·) ∧ (∀ x ∈ k, 0 < x ∧ x < (f.nTimes : ℤ) - 2) ∧
      ∀ t ∈ cs, criterion f.rss (s (places f.nTimes)) k ≤ criterion f.rss (s (places f.nTimes)) t := by
  rw [pick_eq] at h
  split at h
  · cases h
  next cs hcs =>
    split at h
    · cases h
    next k' hk =>
      cases h
      obtain ⟨h1, h2⟩ := best_mem hk
      obtain ⟨h3, h4⟩ := choices_facts hcs k h1
      refine ⟨cs, hcs, h1, h4, (places_sorted _).sublist h3, fun x hx => mem_places.1 (h3.subset hx), ?_⟩
      intro t ht
      have := h2 t ht
      unfold aic at this
      unfold criterion
      linarith

theorem pick_same (f : Fit) (s s' : List ℤ → ℚ) :
    (∀ k, pick f.solve f.rss s f.args = .ok k → ∃ k', pick f.solve f.rss s' f.args = .ok k') ∧
    ∀ e, pick f.solve f.rss s f.args = .error e → pick f.solve f.rss s' f.args = .error e := by
  rw [pick_eq, pick_eq]
  cases hc : choices f with
  | error e => simp
  | ok cs =>
    simp only
    cases cs with
    | nil => simp [best]
    | cons a cs =>
      cases h1 : best (aic f.rss (s (places f.nTimes))) (a :: cs) with
      | none => exact absurd (best_none h1) (by simp)
      | some k =>
        cases h2 : best (aic f.rss (s' (places f.nTimes))) (a :: cs) with
        | none => exact absurd (best_none h2) (by simp)
        | some k' => simp

/-- The end points around a selection. -/
theorem addEnds_eq {n : ℕ} {k : List ℤ} (hne : k ≠ []) (hs : k.Pairwise (· < ·))
    (hin : ∀ x ∈ k, 0 < x ∧ x < (n : ℤ) - 2) : addEnds n k = 0 :: (k ++ [(n : ℤ) - 1]) := by
  unfold addEnds
  rw [if_neg hne]
  obtain ⟨x0, hx0⟩ := List.exists_mem_of_ne_nil k hne
  have h0 := hin x0 hx0
  refine sorted_ext (unique_sorted _) ?_ ?_
  · rw [List.pairwise_cons]
    refine ⟨?_, ?_⟩
    · intro y hy
      rcases List.mem_append.1 hy with h | h
      · exact (hin y h).1
      · simp only [List.mem_cons, List.not_mem_nil, or_false] at h
        omega
    · rw [List.pairwise_append]
      refine ⟨hs, by simp, ?_⟩
      intro a ha b hb
      simp only [List.mem_cons, List.not_mem_nil, or_false] at hb
      have := hin a ha
      omega
  · intro x
    rw [mem_unique]
    simp only [List.mem_append, List.mem_cons, List.not_mem_nil, or_false]
    tauto

theorem inject_ok {n : ℕ} {l : List ℤ} (hne : l ≠ []) (hs : l.Pairwise (· < ·)) (hr : ∀ x ∈ l, 0 ≤ x ∧ x < (n : ℤ)) :
    ∃ i, inject n l = .ok i ∧ Consistent n i ∧ i.locations = l := by
  have he : inject n l = Knots.finish n l.length l := rfl
  obtain ⟨i, h1, h2, -, h4⟩ := Knots.Props.finish_consistent (n := n) (k := l.length) (locs := l)
    (List.length_pos_iff.2 hne) rfl hs hr
  exact ⟨i, by rw [he]; exact h1, h2, h4⟩

theorem get_ok {n : ℕ} {l : List ℤ} (nat : Bool) (hne : l ≠ []) (hs : l.Pairwise (· < ·))
    (hr : ∀ x ∈ l, 0 ≤ x ∧ x < (n : ℤ)) :
    ∃ i, Knots.getKnotInfo n (.list l) nat = .ok i ∧ Consistent n i ∧ i.locations = l := by
  obtain ⟨h1, h2⟩ := Knots.Props.knots_list n l nat hne (hs.imp fun h => ne_of_lt h)
  obtain ⟨i, hi⟩ := h1.2 hr
  obtain ⟨c, -, m⟩ := h2 i hi
  exact ⟨i, hi, c, sorted_ext c.1 hs m⟩

/-- What loading gives in terms of the selection without end points. -/
theorem loaded_cases (v : Version) (f : Fit) :
    ∃ s : List ℤ → ℚ, s = (if UpTo v 1 7 1 then squared f.mse else f.mse) ∧
      (∀ e, pick f.solve f.rss s f.args = .error e → loaded v f = .error (.selection e)) ∧
      ∀ k, pick f.solve f.rss s f.args = .ok k → ∃ i, loaded v f = .ok i ∧ Consistent f.nTimes i ∧
        i.locations = if UpTo v 1 7 0 then k else 0 :: (k ++ [(f.nTimes : ℤ) - 1]) := by
  have l0 : v.le cutoff170 = true ↔ UpTo v 1 7 0 := SaveLoad.Props.le_iff v cutoff170
  have l1 : v.le cutoff171 = true ↔ UpTo v 1 7 1 := SaveLoad.Props.le_iff v cutoff171
  have h01 : UpTo v 1 7 0 → UpTo v 1 7 1 := by unfold UpTo; omega
  have ends : ∀ k : List ℤ, k ≠ [] → k.Pairwise (· < ·) → (∀ x ∈ k, 0 < x ∧ x < (f.nTimes : ℤ) - 2) →
      addEnds f.nTimes k = 0 :: (k ++ [(f.nTimes : ℤ) - 1]) ∧ (addEnds f.nTimes k).Pairwise (· < ·) ∧
      ∀ x ∈ addEnds f.nTimes k, 0 ≤ x ∧ x < (f.nTimes : ℤ) := by
    intro k h1 h2 h3
    have he := addEnds_eq h1 h2 h3
    refine ⟨he, ?_, ?_⟩
    · unfold addEnds; rw [if_neg h1]; exact unique_sorted _
    · rw [he]
      obtain ⟨x0, hx0⟩ := List.exists_mem_of_ne_nil k h1
      have h0 := h3 x0 hx0
      intro x hx
      simp only [List.mem_cons, List.mem_append, List.not_mem_nil, or_false] at hx
      rcases hx with rfl | hx | rfl
      · omega
      · have := h3 x hx; omega
      · omega
  refine ⟨_, rfl, ?_, ?_⟩
  · intro e he
    unfold loaded
    by_cases c0 : UpTo v 1 7 0
    · rw [if_pos (l0.2 c0)]
      rw [if_pos (h01 c0)] at he
      unfold legacy170
      rw [he]
      rfl
    · rw [if_neg (fun h => c0 (l0.1 h))]
      by_cases c1 : UpTo v 1 7 1
      · rw [if_pos (l1.2 c1)]
        rw [if_pos c1] at he
        unfold legacy171
        rw [he]
        rfl
      · rw [if_neg (fun h => c1 (l1.1 h))]
        rw [if_neg c1] at he
        unfold now
        rw [select_eq, he]
  · intro k hk
    obtain ⟨cs, -, -, h1, h2, h3, -⟩ := pick_facts hk
    obtain ⟨e1, e2, e3⟩ := ends k h1 h2 h3
    have hne : addEnds f.nTimes k ≠ [] := by rw [e1]; simp
    unfold loaded
    by_cases c0 : UpTo v 1 7 0
    · rw [if_pos (l0.2 c0), if_pos c0]
      rw [if_pos (h01 c0)] at hk
      unfold legacy170
      rw [hk]
      obtain ⟨i, i1, i2, i3⟩ := inject_ok (n := f.nTimes) h1 h2 (fun x hx => by have := h3 x hx; omega)
      exact ⟨i, by simp only [injected, i1], i2, i3⟩
    · rw [if_neg (fun h => c0 (l0.1 h)), if_neg c0]
      by_cases c1 : UpTo v 1 7 1
      · rw [if_pos (l1.2 c1)]
        rw [if_pos c1] at hk
        unfold legacy171
        rw [hk]
        simp only
        rw [if_pos hne]
        obtain ⟨i, i1, i2, i3⟩ := inject_ok (n := f.nTimes) hne e2 e3
        exact ⟨i, by simp only [injected, i1], i2, by rw [i3, e1]⟩
      · rw [if_neg (fun h => c1 (l1.1 h))]
        rw [if_neg c1] at hk
        unfold now
        rw [select_eq, hk]
        simp only
        obtain ⟨i, i1, i2, i3⟩ := get_ok f.isNational hne e2 e3
        exact ⟨i, by simp only [i1], i2, by rw [i3, e1]⟩

/-- Inversion: a loaded model has the knots of a selection. -/
theorem loaded_inv {v : Version} {f : Fit} {i : KnotInfo} (h : loaded v f = .ok i) :
    ∃ k, pick f.solve f.rss (if UpTo v 1 7 1 then squared f.mse else f.mse) f.args = .ok k ∧ Consistent f.nTimes i ∧
      i.locations = if UpTo v 1 7 0 then k else 0 :: (k ++ [(f.nTimes : ℤ) - 1]) := by
  obtain ⟨s, hs, h1, h2⟩ := loaded_cases v f
  rw [← hs]
  cases hp : pick f.solve f.rss s f.args with
  | error e => rw [h1 e hp] at h; cases h
  | ok k =>
    obtain ⟨i', a, b, c⟩ := h2 k hp
    rw [a] at h
    cases h
    exact ⟨k, rfl, b, c⟩

/-! ## Theorems -/

/-- Whichever version saved a model with automatic knots, loading it gives a consistent layout: increasing knots inside
the data, one weight per knot that add up to one at every time.  There is a knot strictly inside the data.  Up to version
1.7.0 there is none at the ends, later there is one at both ends; never one at the last time but one. -/
theorem loaded_layout (v : Version) (f : Fit) (i : KnotInfo) (h : loaded v f = .ok i) :
    Consistent f.nTimes i ∧ inside f.nTimes i.locations ≠ [] ∧
    (∀ x ∈ i.locations, x ≠ (f.nTimes : ℤ) - 2) ∧
    (UpTo v 1 7 0 → ∀ x ∈ i.locations, 0 < x ∧ x < (f.nTimes : ℤ) - 1) ∧
    (¬ UpTo v 1 7 0 → i.locations.head? = some 0 ∧ i.locations.getLast? = some ((f.nTimes : ℤ) - 1)) := by
  obtain ⟨k, hk, hc, hl⟩ := loaded_inv h
  obtain ⟨cs, -, -, h1, h2, h3, -⟩ := pick_facts hk
  obtain ⟨x0, hx0⟩ := List.exists_mem_of_ne_nil k h1
  have h0 := h3 x0 hx0
  refine ⟨hc, ?_, ?_, ?_, ?_⟩
  · intro hnil
    have : x0 ∈ inside f.nTimes i.locations := by
      unfold inside
      rw [List.mem_filter, decide_eq_true_eq]
      refine ⟨?_, by omega, by omega⟩
      rw [hl]
      split_ifs
      · exact hx0
      · simp [hx0]
    rw [hnil] at this
    cases this
  · intro x hx
    rw [hl] at hx
    split_ifs at hx
    · have := h3 x hx; omega
    · simp only [List.mem_cons, List.mem_append, List.not_mem_nil, or_false] at hx
      rcases hx with rfl | hx | rfl
      · omega
      · have := h3 x hx; omega
      · omega
  · intro hv x hx
    rw [hl, if_pos hv] at hx
    have := h3 x hx
    omega
  · intro hv
    rw [hl, if_neg hv]
    refine ⟨rfl, ?_⟩
    rw [← List.cons_append, List.getLast?_append]
    simp

/-- A model that can be loaded as of one version can be loaded as of any other, and is refused with the same error
otherwise. -/
theorem same_acceptance (v w : Version) (f : Fit) :
    ((∃ i, loaded v f = .ok i) ↔ ∃ i, loaded w f = .ok i) ∧
    ∀ e, loaded v f = .error e ↔ loaded w f = .error e := by
  have key : ∀ v w : Version, (∀ i, loaded v f = .ok i → ∃ j, loaded w f = .ok j) ∧
      ∀ e, loaded v f = .error e → loaded w f = .error e := by
    intro v w
    obtain ⟨s, hs, a1, a2⟩ := loaded_cases v f
    obtain ⟨s', hs', b1, b2⟩ := loaded_cases w f
    obtain ⟨p1, p2⟩ := pick_same f s s'
    cases hp : pick f.solve f.rss s f.args with
    | error e =>
      have hv := a1 e hp
      have hw := b1 e (p2 e hp)
      rw [hv, hw]
      exact ⟨fun i h => (by cases h), fun e' h => h⟩
    | ok k =>
      obtain ⟨i, hi, -⟩ := a2 k hp
      obtain ⟨k', hk'⟩ := p1 k hp
      obtain ⟨j, hj, -⟩ := b2 k' hk'
      rw [hi, hj]
      exact ⟨fun _ _ => ⟨j, rfl⟩, fun e h => by simp at h⟩
  exact ⟨⟨fun h => h.elim (key v w).1, fun h => h.elim (key w v).1⟩,
    fun e => ⟨(key v w).2 e, (key w v).2 e⟩⟩

/-- Version 1.7.1 selected the same knots as the versions before it, and added one at both ends. -/
theorem ends_added (v w : Version) (hv : UpTo v 1 7 0) (hw : ¬ UpTo w 1 7 0) (hw' : UpTo w 1 7 1) (f : Fit)
    (i j : KnotInfo) (hi : loaded v f = .ok i) (hj : loaded w f = .ok j) :
    j.locations = 0 :: (i.locations ++ [(f.nTimes : ℤ) - 1]) ∧ j.nKnots = i.nKnots + 2 := by
  obtain ⟨k, hk, hc, hl⟩ := loaded_inv hi
  obtain ⟨k', hk', hc', hl'⟩ := loaded_inv hj
  have hv' : UpTo v 1 7 1 := by revert hv; unfold UpTo; omega
  rw [if_pos hv'] at hk
  rw [if_pos hw'] at hk'
  rw [hk] at hk'
  cases hk'
  rw [if_pos hv] at hl
  rw [if_neg hw] at hl'
  refine ⟨by rw [hl', hl], ?_⟩
  have e1 := hc.2.2.1
  have e2 := hc'.2.2.1
  rw [hl] at e1
  rw [hl'] at e2
  simp only [List.length_cons, List.length_append, List.length_nil] at e2
  omega

theorem interior_of {n : ℕ} {k : List ℤ} (h : ∀ x ∈ k, 0 < x ∧ x < (n : ℤ) - 2) :
    inside n k = k ∧ inside n (0 :: (k ++ [(n : ℤ) - 1])) = k := by
  have h1 : inside n k = k := by
    unfold inside
    rw [List.filter_eq_self]
    intro x hx
    have := h x hx
    rw [decide_eq_true_eq]
    omega
  refine ⟨h1, ?_⟩
  have h2 : inside n (0 :: (k ++ [(n : ℤ) - 1])) = inside n [0] ++ (inside n k ++ inside n [(n : ℤ) - 1]) := by
    unfold inside
    rw [← List.filter_append, ← List.filter_append]
    rfl
  rw [h2, h1]
  simp [inside]

/-- Exchange: with a smaller scale the criterion prefers the better fit. -/
theorem smaller_scale (rss : List ℤ → ℚ) (a b : ℚ) (ha : 0 < a) (hab : a < b) (k t : List ℤ)
    (h1 : criterion rss a k ≤ criterion rss a t) (h2 : criterion rss b t ≤ criterion rss b k) :
    rss k ≤ rss t ∧ t.length ≤ k.length := by
  unfold criterion at h1 h2
  have hb : 0 < b := ha.trans hab
  have hr : rss k ≤ rss t := by
    by_contra hlt
    push Not at hlt
    have hd : 0 < rss k - rss t := by linarith
    have : (rss k - rss t) / b < (rss k - rss t) / a := div_lt_div_of_pos_left hd ha hab
    rw [sub_div, sub_div] at this
    linarith
  refine ⟨hr, ?_⟩
  have : (rss k - rss t) / b ≤ 0 := div_nonpos_of_nonpos_of_nonneg (by linarith) hb.le
  rw [sub_div] at this
  have hl : (t.length : ℚ) ≤ k.length := by linarith
  exact_mod_cast hl

/-- What changed after 1.7.1: if the mean squared residual of the fit with all knots is below 1, the earlier versions
chose at least as many knots inside the data as this one, and a fit that is at least as close; above 1 the other way
round. -/
theorem earlier_chose_more (v w : Version) (hv : UpTo v 1 7 1) (hw : ¬ UpTo w 1 7 1) (f : Fit) (i j : KnotInfo)
    (hi : loaded v f = .ok i) (hj : loaded w f = .ok j) :
    (0 < f.mse (places f.nTimes) → f.mse (places f.nTimes) < 1 →
      f.rss (inside f.nTimes i.locations) ≤ f.rss (inside f.nTimes j.locations) ∧
      (inside f.nTimes j.locations).length ≤ (inside f.nTimes i.locations).length) ∧
    (1 < f.mse (places f.nTimes) →
      f.rss (inside f.nTimes j.locations) ≤ f.rss (inside f.nTimes i.locations) ∧
      (inside f.nTimes i.locations).length ≤ (inside f.nTimes j.locations).length) := by
  obtain ⟨k, hk, -, hl⟩ := loaded_inv hi
  obtain ⟨k', hk', -, hl'⟩ := loaded_inv hj
  rw [if_pos hv] at hk
  rw [if_neg hw] at hk'
  obtain ⟨cs, c1, c2, -, -, c5, c6⟩ := pick_facts hk
  obtain ⟨cs', d1, d2, -, -, d5, d6⟩ := pick_facts hk'
  rw [c1] at d1
  cases d1
  have e1 : inside f.nTimes i.locations = k := by
    rw [hl]
    split_ifs
    · exact (interior_of c5).1
    · exact (interior_of c5).2
  have e2 : inside f.nTimes j.locations = k' := by
    rw [hl']
    split_ifs
    · exact (interior_of d5).1
    · exact (interior_of d5).2
  rw [e1, e2]
  have m1 := c6 k' d2
  have m2 := d6 k c2
  unfold squared at m1
  refine ⟨fun p q => ?_, fun p => ?_⟩
  · exact smaller_scale f.rss _ _ (by positivity) (by nlinarith) k k' m1 m2
  · exact smaller_scale f.rss _ _ (by linarith) (by nlinarith) k' k m2 m1

/-- Whether the model is national makes no difference to automatic knots. -/
theorem national_irrelevant (v : Version) (f : Fit) (b : Bool) :
    loaded v { f with isNational := b } = loaded v f := by
  have same : legacy171 { f with isNational := b } = legacy171 f := by
    unfold legacy171
    have hp : pick ({ f with isNational := b } : Fit).solve ({ f with isNational := b } : Fit).rss
        (squared ({ f with isNational := b } : Fit).mse) ({ f with isNational := b } : Fit).args =
        pick f.solve f.rss (squared f.mse) f.args := rfl
    rw [hp]
    cases h : pick f.solve f.rss (squared f.mse) f.args with
    | error e => rfl
    | ok k =>
      obtain ⟨-, -, -, h1, h2, h3, -⟩ := pick_facts h
      have hne : addEnds f.nTimes k ≠ [] := by rw [addEnds_eq h1 h2 h3]; simp
      simp only
      rw [if_pos hne, if_pos hne]
  have hnow : now { f with isNational := b } = now f := by
    unfold now
    have hp : select ({ f with isNational := b } : Fit).solve ({ f with isNational := b } : Fit).rss
        ({ f with isNational := b } : Fit).mse ({ f with isNational := b } : Fit).args =
        select f.solve f.rss f.mse f.args := rfl
    rw [hp, select_eq]
    cases h : pick f.solve f.rss f.mse f.args with
    | error e => rfl
    | ok k =>
      obtain ⟨-, -, -, h1, h2, h3, -⟩ := pick_facts h
      have hne : addEnds f.nTimes k ≠ [] := by rw [addEnds_eq h1 h2 h3]; simp
      simp only
      have : Knots.getKnotInfo f.nTimes (.list (addEnds f.nTimes k)) b =
          Knots.getKnotInfo f.nTimes (.list (addEnds f.nTimes k)) f.isNational := by
        unfold Knots.getKnotInfo
        simp only
        rw [if_pos (List.length_pos_iff.2 hne), if_pos (List.length_pos_iff.2 hne)]
      rw [this]
  unfold loaded
  rw [same, hnow]
  rfl

/-- Finding: the message does not hold the knots, and a model loaded from an earlier version is saved as one of this
version.  Saved and loaded again, a model of version 1.7.0 or earlier always gets other knots. -/
theorem resaved_always_other_knots (v : Version) (hv : UpTo v 1 7 0) (f : Fit) (i j : KnotInfo)
    (hi : loaded v f = .ok i) (hj : loaded SaveLoad.current f = .ok j) : i.locations ≠ j.locations := by
  have h1 := (loaded_layout v f i hi).2.2.2.1 hv
  have h2 := (loaded_layout _ f j hj).2.2.2.2 (by unfold UpTo SaveLoad.current; decide)
  intro he
  have : (0 : ℤ) ∈ i.locations := by
    rw [he]
    exact List.mem_of_head? h2.1
  have := (h1 0 this).1
  omega

/-- If the number of knots changed too, the samples are refused when the model is loaded again. -/
theorem resaved_refused (L : Lib) (d : L.Data) (old new : L.Knots) (g : Coord → Option ℕ)
    (hg : (g .knots).getD 0 = L.nKnots old) (h : L.nKnots old ≠ L.nKnots new) : groupOk d new g = false := by
  have : coordOk g .knots (L.nKnots new) = false := by
    unfold coordOk
    rw [hg]
    simpa using h
  unfold groupOk
  rw [this]
  simp

/-! ## Cases that meet the hypotheses -/

/-- Six weeks; the small penalty leaves kinks at weeks 1, 2 and 3, the large one at week 2 only; the mean squared
residual is one half. -/
def six : Fit where
  nTimes := 6
  nFeatures := 0
  penalty := [1, 2]
  solve := fun _ pen _ _ => some (if pen = 1 then [0, 0, 1, 3, 6] else [0, 0, 0, 1, 2])
  rss := fun k => if k.length = 1 then 29 / 10 else 1
  mse := fun _ => 1 / 2
  isNational := false

/-- The locations and number of knots. -/
def summary : Except Fail KnotInfo → Option (ℕ × List ℤ)
  | .error _ => none
  | .ok i => some (i.nKnots, i.locations)

theorem six_170 : summary (loaded ⟨1, 7, 0⟩ six) = some (3, [1, 2, 3]) := by decide +kernel
theorem six_171 : summary (loaded ⟨1, 7, 1⟩ six) = some (5, [0, 1, 2, 3, 5]) := by decide +kernel
theorem six_now : summary (loaded SaveLoad.current six) = some (3, [0, 2, 5]) := by decide +kernel

/-- Finding: with as many knots as before, the samples of the old knots are taken for those of the new ones. -/
theorem resaved_silently_moved : ∃ (f : Fit) (i j : KnotInfo), loaded ⟨1, 7, 0⟩ f = .ok i ∧
    loaded SaveLoad.current f = .ok j ∧ i.nKnots = j.nKnots ∧ i.locations ≠ j.locations := by
  have h1 := six_170
  have h2 := six_now
  cases hi : loaded ⟨1, 7, 0⟩ six with
  | error e => rw [hi] at h1; cases h1
  | ok i =>
    cases hj : loaded SaveLoad.current six with
    | error e => rw [hj] at h2; cases h2
    | ok j =>
      rw [hi] at h1
      rw [hj] at h2
      simp only [summary, Option.some.injEq, Prod.mk.injEq] at h1 h2
      exact ⟨six, i, j, hi, hj, by rw [h1.1, h2.1], by rw [h1.2, h2.2]; decide⟩

/-- Finding: a model of version 1.7.1, saved and loaded again, can lose knots. -/
theorem resaved_171_other_knots : ∃ (f : Fit) (i j : KnotInfo), loaded ⟨1, 7, 1⟩ f = .ok i ∧
    loaded SaveLoad.current f = .ok j ∧ j.nKnots < i.nKnots := by
  have h1 := six_171
  have h2 := six_now
  cases hi : loaded ⟨1, 7, 1⟩ six with
  | error e => rw [hi] at h1; cases h1
  | ok i =>
    cases hj : loaded SaveLoad.current six with
    | error e => rw [hj] at h2; cases h2
    | ok j =>
      rw [hi] at h1
      rw [hj] at h2
      simp only [summary, Option.some.injEq, Prod.mk.injEq] at h1 h2
      exact ⟨six, i, j, hi, hj, by rw [h1.1, h2.1]; decide⟩

example : UpTo ⟨1, 6, 3⟩ 1 7 0 ∧ ¬ UpTo ⟨1, 7, 1⟩ 1 7 0 ∧ UpTo ⟨1, 7, 1⟩ 1 7 1 ∧ ¬ UpTo SaveLoad.current 1 7 1 := by
  unfold UpTo SaveLoad.current; decide

example : 0 < six.mse (places six.nTimes) ∧ six.mse (places six.nTimes) < 1 := by
  unfold six; norm_num

end Verif.LegacyKnots.Props
