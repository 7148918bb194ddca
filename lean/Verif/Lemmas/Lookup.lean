import Verif.Spec.Lookup
import Verif.Props.Transformers

/-!
# Lemmas on the lookups by channel
-/

namespace Verif.Lookup.Lemmas

open Verif.Lookup Verif.Lookup.Spec Verif.Transformers

/-- The names of the channels of the type. -/
def namesOf (d : Inputs) (k : Kind) : List String := (names (block d k)).getD []

theorem isChannel_iff (d : Inputs) (k : Kind) (i : ℕ) (n : String) :
    IsChannel d k i n ↔ (namesOf d k)[i]? = some n := by
  unfold IsChannel namesOf names
  cases block d k with
  | none => simp
  | some b => simp

theorem isNonMedia_iff (d : Inputs) (n : String) : IsNonMedia d n ↔ n ∈ d.nonMedia.getD [] := by
  unfold IsNonMedia
  cases d.nonMedia <;> simp

theorem isControl_iff (d : Inputs) (n : String) : IsControl d n ↔ n ∈ d.controls.getD [] := by
  unfold IsControl
  cases d.controls <;> simp

theorem mem_namesOf {d : Inputs} {k : Kind} {n : String} :
    n ∈ namesOf d k ↔ ∃ i, IsChannel d k i n := by
  simp only [isChannel_iff, List.mem_iff_getElem?]

theorem nodup_iff {l : List String} :
    l.Nodup ↔ ∀ (i j : ℕ) (n : String), l[i]? = some n → l[j]? = some n → i = j := by
  constructor
  · intro h i j n hi hj
    obtain ⟨hi', rfl⟩ := List.getElem?_eq_some_iff.1 hi
    obtain ⟨hj', e⟩ := List.getElem?_eq_some_iff.1 hj
    exact ((List.Nodup.getElem_inj_iff h).1 e).symm
  · intro h
    rw [List.nodup_iff_injective_getElem]
    intro a b e
    apply Fin.ext
    exact h a b l[a] (List.getElem?_eq_getElem a.2) (by
      rw [List.getElem?_eq_getElem b.2]
      exact congrArg some e.symm)

theorem distinct_iff (d : Inputs) : Distinct d ↔
    (namesOf d .media ++ namesOf d .rf ++ namesOf d .organicMedia ++ namesOf d .organicRf ++
      d.nonMedia.getD []).Nodup := by
  have key : ∀ (k k' : Kind), List.Disjoint (namesOf d k) (namesOf d k') ↔
      ∀ i i' n, IsChannel d k i n → ¬ IsChannel d k' i' n := by
    intro k k'
    constructor
    · intro h i i' n hi hi'
      exact h (mem_namesOf.2 ⟨i, hi⟩) (mem_namesOf.2 ⟨i', hi'⟩)
    · intro h n hn hn'
      obtain ⟨i, hi⟩ := mem_namesOf.1 hn
      obtain ⟨i', hi'⟩ := mem_namesOf.1 hn'
      exact h i i' n hi hi'
  constructor
  · rintro ⟨h1, h2, h3⟩
    have nd : ∀ k, (namesOf d k).Nodup := fun k => nodup_iff.2 fun i j n hi hj =>
      (h1 k k i j n ((isChannel_iff ..).2 hi) ((isChannel_iff ..).2 hj)).2
    have dj : ∀ k k', k ≠ k' → List.Disjoint (namesOf d k) (namesOf d k') := fun k k' hk =>
      (key k k').2 fun i i' n hi hi' => hk (h1 k k' i i' n hi hi').1
    have dn : ∀ k, List.Disjoint (namesOf d k) (d.nonMedia.getD []) := by
      intro k n hn hn'
      obtain ⟨i, hi⟩ := mem_namesOf.1 hn
      exact h3 k i n hi ((isNonMedia_iff ..).2 hn')
    have hN : (d.nonMedia.getD []).Nodup := by
      cases hl : d.nonMedia with
      | none => simp
      | some l => simpa using h2 l hl
    simp only [List.nodup_append', List.disjoint_append_left]
    exact ⟨⟨⟨⟨nd _, nd _, dj _ _ (by decide)⟩, nd _, dj _ _ (by decide), dj _ _ (by decide)⟩,
      nd _, ⟨dj _ _ (by decide), dj _ _ (by decide)⟩, dj _ _ (by decide)⟩, hN,
      ⟨⟨dn _, dn _⟩, dn _⟩, dn _⟩
  · intro h
    simp only [List.nodup_append', List.disjoint_append_left] at h
    obtain ⟨⟨⟨⟨a1, a2, a12⟩, a3, a13, a23⟩, a4, ⟨a14, a24⟩, a34⟩, a5, ⟨⟨a15, a25⟩, a35⟩, a45⟩ := h
    have nd : ∀ k, (namesOf d k).Nodup := by
      intro k
      cases k <;> assumption
    have dj : ∀ k k', k ≠ k' → List.Disjoint (namesOf d k) (namesOf d k') := by
      intro k k' hk
      cases k <;> cases k' <;> first | exact absurd rfl hk | assumption | (apply List.Disjoint.symm; assumption)
    have dn : ∀ k, List.Disjoint (namesOf d k) (d.nonMedia.getD []) := by
      intro k
      cases k <;> assumption
    refine ⟨?_, ?_, ?_⟩
    · intro k k' i i' n hi hi'
      by_cases hk : k = k'
      · subst hk
        exact ⟨rfl, nodup_iff.1 (nd k) i i' n ((isChannel_iff ..).1 hi) ((isChannel_iff ..).1 hi')⟩
      · exact absurd hi' ((key k k').1 (dj k k' hk) i i' n hi)
    · intro l hl
      simpa [hl] using a5
    · intro k i n hi hn
      exact dn k (mem_namesOf.2 ⟨i, hi⟩) ((isNonMedia_iff ..).1 hn)

theorem idxOf_of_channel {d : Inputs} (hd : Distinct d) {k : Kind} {i : ℕ} {n : String}
    (h : IsChannel d k i n) : (namesOf d k).idxOf n = i := by
  have hm : n ∈ namesOf d k := mem_namesOf.2 ⟨i, h⟩
  have h' : (namesOf d k)[(namesOf d k).idxOf n]? = some n := by
    rw [List.getElem?_eq_getElem (List.idxOf_lt_length_of_mem hm), List.getElem_idxOf]
  exact (hd.channels k k _ i n ((isChannel_iff ..).2 h') h).2

/-! ### Transformers -/

theorem medians_ok {G T : ℕ} {pop : ℕ → ℝ} {vol : ℕ → Panel} : ∀ {cs : List ℕ},
    (∀ c ∈ cs, mediaMedian G T (vol c) pop ≠ none) →
    ∃ ms, medians G T pop vol cs = .ok ms ∧
      cs.map (fun c => mediaMedian G T (vol c) pop) = ms.map some
  | [], _ => ⟨[], rfl, rfl⟩
  | c :: cs, h => by
    obtain ⟨ms, h1, h2⟩ := medians_ok (cs := cs) fun x hx => h x (List.mem_cons_of_mem _ hx)
    cases hm : mediaMedian G T (vol c) pop with
    | none => exact absurd hm (h c List.mem_cons_self)
    | some m =>
      refine ⟨m :: ms, ?_, ?_⟩
      · simp only [medians, hm, h1]
        rfl
      · simp [hm, h2]

theorem medians_error {G T : ℕ} {pop : ℕ → ℝ} {vol : ℕ → Panel} : ∀ {cs : List ℕ},
    (∃ c ∈ cs, mediaMedian G T (vol c) pop = none) →
    medians G T pop vol cs = .error .nanMedian
  | [], h => by simp at h
  | c :: cs, h => by
    cases hm : mediaMedian G T (vol c) pop with
    | none => simp only [medians, hm]
    | some m =>
      have : ∃ c ∈ cs, mediaMedian G T (vol c) pop = none := by
        obtain ⟨x, hx, hx'⟩ := h
        rcases List.mem_cons.1 hx with rfl | hx
        · rw [hm] at hx'
          cases hx'
        · exact ⟨x, hx, hx'⟩
      simp only [medians, hm, medians_error this]
      rfl

theorem median_exists {d : Inputs} {x : Panel} (h : NotEmpty d x) :
    mediaMedian d.geos.length d.mediaTimes.length x d.population ≠ none := by
  intro hn
  obtain ⟨g, hg, t, ht, h1, h2⟩ := h
  rcases ((Transformers.Props.media_scale_correct d.geos.length d.mediaTimes.length x
    d.population).1.1 hn) g hg t ht with h | h
  · exact h1 h
  · exact h2 h

/-- The scale factors of an array: those of each channel. -/
theorem transformer_ok {d : Inputs} {b : Block}
    (h : ∀ i < b.names.length, NotEmpty d (b.volume i)) :
    ∃ ms, medians d.geos.length d.mediaTimes.length d.population b.volume
        (List.range b.names.length) = .ok ms ∧
      ∀ i < b.names.length, mediaMedian d.geos.length d.mediaTimes.length (b.volume i)
        d.population = some (ms.getD i 0) := by
  obtain ⟨ms, h1, h2⟩ := medians_ok (G := d.geos.length) (T := d.mediaTimes.length)
    (pop := d.population) (vol := b.volume) (cs := List.range b.names.length)
    fun c hc => median_exists (h c (List.mem_range.1 hc))
  refine ⟨ms, h1, fun i hi => ?_⟩
  have := congrArg (fun l => l[i]?) h2
  simp only [List.getElem?_map, List.getElem?_range hi, Option.map_some] at this
  cases hm : ms[i]? with
  | none => simp [hm] at this
  | some m =>
    rw [hm] at this
    simp only [Option.map_some, Option.some.injEq] at this
    simpa [List.getD_eq_getElem?_getD, hm] using this

/-- All four transformers can be built. -/
theorem transformer_exists {d : Inputs} (hn : NoneEmpty d) (k : Kind) :
    ∃ o, transformer d (block d k) = .ok o ∧
      ∀ b, block d k = some b → ∃ s, o = some s ∧ ∀ i < b.names.length, ∃ med,
        mediaMedian d.geos.length d.mediaTimes.length (b.volume i) d.population = some med ∧
        ∀ g, s g i = d.population g * med := by
  cases hb : block d k with
  | none => exact ⟨none, rfl, fun b h => by cases h⟩
  | some b =>
    obtain ⟨ms, h1, h2⟩ := transformer_ok (hn k b hb)
    refine ⟨some fun g c => mediaScale (ms.getD c 0) d.population g, ?_, ?_⟩
    · simp only [transformer, h1]
      rfl
    · intro b' hb'
      cases hb'
      exact ⟨_, rfl, fun i hi => ⟨_, h2 i hi, fun g => rfl⟩⟩

/-! ### Sorting by population -/

theorem insertByPop_perm (x : String × ℚ) : ∀ l, (insertByPop x l).Perm (x :: l)
  | [] => .refl _
  | y :: l => by
    unfold insertByPop
    split
    · exact .refl _
    · exact ((insertByPop_perm x l).cons y).trans (.swap x y l)

theorem insertByPop_sorted (x : String × ℚ) : ∀ {l : List (String × ℚ)},
    l.Pairwise (fun a b => b.2 ≤ a.2) → (insertByPop x l).Pairwise (fun a b => b.2 ≤ a.2)
  | [], _ => by simp [insertByPop]
  | y :: l, h => by
    rw [List.pairwise_cons] at h
    unfold insertByPop
    split
    · rename_i hlt
      rw [List.pairwise_cons, List.pairwise_cons]
      refine ⟨?_, h⟩
      intro z hz
      rcases List.mem_cons.1 hz with rfl | hz
      · exact hlt.le
      · exact (h.1 z hz).trans hlt.le
    · rename_i hle
      rw [List.pairwise_cons]
      refine ⟨?_, insertByPop_sorted x h.2⟩
      intro z hz
      rcases List.mem_cons.1 ((insertByPop_perm x l).mem_iff.1 hz) with rfl | hz
      · exact not_lt.1 hle
      · exact h.1 z hz

theorem foldl_insert (l acc : List (String × ℚ)) (h : acc.Pairwise fun a b => b.2 ≤ a.2) :
    (l.foldl (fun acc x => insertByPop x acc) acc).Perm (l ++ acc) ∧
      (l.foldl (fun acc x => insertByPop x acc) acc).Pairwise fun a b => b.2 ≤ a.2 := by
  induction l generalizing acc with
  | nil => exact ⟨.refl _, h⟩
  | cons x l ih =>
    obtain ⟨h1, h2⟩ := ih (insertByPop x acc) (insertByPop_sorted x h)
    refine ⟨h1.trans ?_, h2⟩
    exact ((insertByPop_perm x acc).append_left l).trans (by
      simpa using (List.perm_middle (a := x) (l₁ := l) (l₂ := acc)))

theorem sortByPop_perm (l : List (String × ℚ)) : (sortByPop l).Perm l := by
  simpa [sortByPop] using (foldl_insert l [] List.Pairwise.nil).1

theorem sortByPop_sorted (l : List (String × ℚ)) :
    (sortByPop l).Pairwise fun a b => b.2 ≤ a.2 :=
  (foldl_insert l [] List.Pairwise.nil).2

end Verif.Lookup.Lemmas
