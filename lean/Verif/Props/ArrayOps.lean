import Mathlib.Tactic.Linarith
import Mathlib.Tactic.Ring
import Mathlib.Tactic.FieldSimp
import Mathlib.Data.List.GetD
import Mathlib.Data.List.Nodup
import Mathlib.Data.List.Count
import Verif.Spec.ArrayOps

/-!
# C100: the array operations of the two backends
-/

namespace Verif.ArrayOps.Props

open Verif.ArrayOps Verif.ArrayOps.Spec

/-! ### Masks -/

theorem insertAt_zero {β : Type} (x : β) (l : List β) : insertAt 0 x l = x :: l := by simp [insertAt]

theorem removeAt_zero {β : Type} (l : List β) : removeAt 0 l = l.tail := by
  cases l <;> simp [removeAt]

theorem insert_remove {β : Type} (i : ℕ) (x : β) (l : List β) (h : i ≤ l.length) :
    insertAt i x (removeAt i l) = l.take i ++ x :: l.drop (i + 1) := by
  have hl : (l.take i).length = i := by simp [h]
  unfold insertAt removeAt
  rw [List.take_append_of_le_length (by omega), List.take_take, min_self,
    List.drop_append_of_le_length (by omega), List.drop_eq_nil_of_le (by omega)]
  simp

theorem mem_indices {s idx : List ℕ} (h : idx ∈ indices s) : idx.length = s.length := by
  induction s generalizing idx with
  | nil => simp only [indices, List.mem_singleton] at h; rw [h]
  | cons n s ih =>
    simp only [indices, List.mem_flatMap, List.mem_map] at h
    obtain ⟨i, -, r, hr, rfl⟩ := h
    simp [ih hr]

/-- **C100 (masks).** With a mask of one axis, or along the first axis, both backends select the same. -/
theorem mask_same {α : Type} (t : Tensor α) (mask : Tensor Bool) (axis : ℕ)
    (h : mask.shape.length = 1 ∨ axis = 0) : SameResult (jaxMask t mask axis) (tfMask t mask axis) := by
  unfold jaxMask tfMask
  by_cases ha : t.shape.length ≤ axis
  · rw [if_pos ha, if_pos]
    · trivial
    · rw [List.drop_eq_nil_of_le ha, List.take_nil]
      tauto
  · rw [if_neg ha]
    push Not at ha
    obtain ⟨d, hd⟩ : ∃ d, t.shape[axis]? = some d := ⟨_, List.getElem?_eq_getElem ha⟩
    have hgd : t.shape.getD axis 0 = d := by rw [List.getD_eq_getElem?_getD, hd]; rfl
    have hdrop : t.shape.drop axis = d :: t.shape.drop (axis + 1) := by
      have e : t.shape[axis] = d := by
        rw [List.getElem?_eq_getElem ha] at hd; exact Option.some.inj hd
      rw [List.drop_eq_getElem_cons ha, e]
    have hms : (moveaxis t axis 0).shape = d :: removeAt axis t.shape := by
      simp only [moveaxis, insertAt_zero, hgd]
    -- the two tests of the shape agree
    have htest : mask.shape.length = 1 ∨ axis = 0 →
        ((moveaxis t axis 0).shape.take mask.shape.length = (t.shape.drop axis).take mask.shape.length) := by
      rintro (h1 | h0)
      · rw [h1, hms, hdrop]; rfl
      · subst h0
        rw [hms, removeAt_zero, hdrop]
        simp
    unfold maskLeading
    rw [htest h]
    by_cases hm : mask.shape = [] ∨ mask.shape ≠ (t.shape.drop axis).take mask.shape.length
    · rw [if_pos hm, if_pos hm]; trivial
    · rw [if_neg hm, if_neg hm]
      push Not at hm
      obtain ⟨hm0, hm1⟩ := hm
      have hlen : ∀ k < (indicesWhere mask).length,
          ((indicesWhere mask).getD k []).length = mask.shape.length := by
        intro k hk
        have : (indicesWhere mask).getD k [] ∈ indicesWhere mask := by
          rw [List.getD_eq_getElem _ _ hk]; exact List.getElem_mem hk
        exact mem_indices (List.mem_filter.1 this).1
      rcases h with h1 | h0
      · -- a mask of one axis
        have hmv : ((indicesWhere mask).length :: (moveaxis t axis 0).shape.drop mask.shape.length) =
            (indicesWhere mask).length :: removeAt axis t.shape := by rw [h1, hms]; rfl
        simp only [Except.map, SameResult, hmv]
        refine ⟨?_, ?_⟩
        · simp only [moveaxis, removeAt_zero, List.tail_cons, List.getD_cons_zero]
          rw [insert_remove _ _ _ ha.le, h1]
        · intro idx hidx
          have hshape : (moveaxis (α := α)
              { shape := (indicesWhere mask).length :: removeAt axis t.shape
                entry := fun idx => (moveaxis t axis 0).entry
                  ((indicesWhere mask).getD (idx.headD 0) [] ++ idx.tail) } 0 axis).shape =
              t.shape.take axis ++ (indicesWhere mask).length :: t.shape.drop (axis + 1) := by
            simp only [moveaxis, removeAt_zero, List.tail_cons, List.getD_cons_zero]
            exact insert_remove _ _ _ ha.le
          rw [hshape] at hidx
          obtain ⟨i1, i2⟩ := hidx
          have hil : axis < idx.length := by rw [i1]; simp; omega
          have hlt : idx.getD axis 0 < (indicesWhere mask).length := by
            refine i2 axis _ _ (by rw [List.getD_eq_getElem _ _ hil]; exact List.getElem?_eq_getElem hil) ?_
            rw [List.getElem?_append_right (by simp)]
            simp [ha.le]
          have hl1 := hlen _ hlt
          rw [h1] at hl1
          obtain ⟨j, hj⟩ := List.length_eq_one_iff.1 hl1
          simp only [moveaxis, removeAt_zero, insertAt_zero, List.headD_cons, List.tail_cons]
          rw [hj]
          simp only [List.singleton_append, List.getD_cons_zero, List.tail_cons]
          rw [insert_remove _ _ _ hil.le]
          simp
      · -- the first axis
        subst h0
        simp only [Except.map, SameResult]
        have hms' : (moveaxis t 0 0).shape = t.shape := by
          rw [hms, removeAt_zero]
          have := hdrop
          simp only [List.drop_zero, zero_add] at this
          rw [this]; simp
        refine ⟨?_, ?_⟩
        · simp only [moveaxis, insertAt_zero, removeAt_zero, List.tail_cons, List.getD_cons_zero]
          have := hms'
          simp only [moveaxis, insertAt_zero, removeAt_zero] at this
          rw [this]
          simp
        · intro idx hidx
          obtain ⟨i1, i2⟩ := hidx
          simp only [moveaxis, insertAt_zero, removeAt_zero, List.tail_cons, List.getD_cons_zero] at i1 i2
          cases idx with
          | nil => simp at i1
          | cons k rest =>
            have hk : k < (indicesWhere mask).length := i2 0 k _ rfl rfl
            have hl := hlen k hk
            simp only [moveaxis, insertAt_zero, removeAt_zero, List.headD_cons, List.tail_cons,
              List.getD_cons_zero, List.take_zero, List.nil_append, zero_add, List.drop_one]
            cases hq : (indicesWhere mask).getD k [] with
            | nil => rw [hq] at hl; exact absurd (List.length_eq_zero_iff.1 hl.symm) hm0
            | cons a q => rfl

theorem indices_one (n : ℕ) : indices [n] = (List.range n).map fun i => [i] := by
  simp only [indices, List.map_cons, List.map_nil]
  rw [List.map_eq_flatMap]

/-- **C100 (masks, exactly).** A mask of one axis as long as the axis selects its true positions, in order,
and any other mask of one axis is refused. -/
theorem mask_exact {α : Type} (t : Tensor α) (mask : Tensor Bool) (axis n : ℕ) (hm : mask.shape = [n]) :
    (t.shape[axis]? ≠ some n → tfMask t mask axis = .error .shape) ∧
    (t.shape[axis]? = some n → ∃ a, tfMask t mask axis = .ok a ∧
      a.shape = t.shape.set axis ((List.range n).filter fun i => mask.entry [i]).length ∧
      ∀ idx, idx.length = t.shape.length → ∀ j, ((List.range n).filter fun i => mask.entry [i])[idx.getD axis 0]? = some j →
        a.entry idx = t.entry (idx.set axis j)) := by
  have hw : indicesWhere mask = ((List.range n).filter fun i => mask.entry [i]).map fun i => [i] := by
    unfold indicesWhere
    rw [hm, indices_one, List.filter_map]
    rfl
  have htake : ([n] = (t.shape.drop axis).take 1) ↔ t.shape[axis]? = some n := by
    have h0 : t.shape[axis]? = (t.shape.drop axis)[0]? := by simp
    rw [h0]
    cases t.shape.drop axis with
    | nil => simp
    | cons b l => simp [eq_comm]
  unfold tfMask
  rw [hm]
  simp only [List.length_singleton, reduceCtorEq, false_or]
  constructor
  · intro h
    rw [if_pos (fun e => h (htake.1 e))]
  · intro h
    rw [if_neg (not_not.2 (htake.2 h))]
    obtain ⟨hl, he⟩ := List.getElem?_eq_some_iff.1 h
    refine ⟨_, rfl, ?_, fun idx hi j hj => ?_⟩
    · rw [hw, List.length_map, List.set_eq_take_append_cons_drop, if_pos hl]
    · have : (indicesWhere mask).getD (idx.getD axis 0) [] = [j] := by
        rw [hw, List.getD_eq_getElem?_getD, List.getElem?_map, hj]; rfl
      simp only [this]
      rw [List.set_eq_take_append_cons_drop, if_pos (by omega)]
      simp

/-- An array of two by two by two numbers, and a mask of two axes. -/
def cube : Tensor ℕ := ⟨[2, 2, 2], fun idx => 4 * idx.getD 0 0 + 2 * idx.getD 1 0 + idx.getD 2 0⟩
@[inherit_doc cube]
def pairMask : Tensor Bool := ⟨[2, 2], fun idx => idx = [0, 1]⟩

/-- **C100 (finding, masks of several axes).** With a mask of two axes along another than the first axis the
JAX backend reads other entries, without an error: it masks the axis moved to the front and the axis after
it. -/
theorem mask_differs : ∃ a b, jaxMask cube pairMask 1 = .ok a ∧ tfMask cube pairMask 1 = .ok b ∧
    a.shape = b.shape ∧ a.entry [0, 0] ≠ b.entry [0, 0] ∧ IsIndex a.shape [0, 0] := by
  refine ⟨_, _, rfl, rfl, by decide, by decide, by decide, ?_⟩
  intro i x n hx hn
  have hs : [2, 1][i]? = some n := hn
  match i with
  | 0 => cases hx; cases hs; decide
  | 1 => cases hx; cases hs; decide
  | i + 2 => simp at hx

example : (jaxMask cube ⟨[2], fun idx => idx = [1]⟩ 1).toOption.map (fun a => (a.shape, a.entry [1, 0, 1])) =
    some ([2, 1, 2], 7) := by decide

/-! ### Splits -/

theorem cumsum_ne {a : ℕ} {l : List ℕ} (h : l ≠ []) : cumsum a l ≠ [] := by
  cases l with
  | nil => exact absurd rfl h
  | cons => simp [cumsum]

theorem slice_eq {α : Type} (t : Tensor α) (axis a s : ℕ) (h : a + s ≤ t.shape.getD axis 0) :
    slice t axis a (a + s) = ⟨t.shape.set axis s, fun idx => t.entry (idx.modify axis (· + a))⟩ := by
  unfold slice
  rw [min_eq_left h, min_eq_left (by omega)]
  simp

theorem cuts_parts {α : Type} (t : Tensor α) (axis : ℕ) (sizes : List ℕ) (hne : sizes ≠ []) (a : ℕ)
    (h : a + sizes.sum = t.shape.getD axis 0) :
    List.zipWith (fun x y => slice t axis x y) (a :: (cumsum a sizes).dropLast)
      ((cumsum a sizes).dropLast ++ [t.shape.getD axis 0]) = parts t axis a sizes := by
  induction sizes generalizing a with
  | nil => exact absurd rfl hne
  | cons s l ih =>
    cases l with
    | nil =>
      simp only [List.sum_cons, List.sum_nil, add_zero] at h
      simp only [cumsum, List.dropLast_singleton, List.nil_append, List.zipWith_cons_cons,
        List.zipWith_nil_left, parts]
      rw [← h, slice_eq t axis a s h.le]
    | cons s' l' =>
      have hs : (a + s) + (s' :: l').sum = t.shape.getD axis 0 := by
        simp only [List.sum_cons] at h ⊢; omega
      have := ih (by simp) (a + s) hs
      have hd : (cumsum a (s :: s' :: l')).dropLast = (a + s) :: (cumsum (a + s) (s' :: l')).dropLast := by
        rw [cumsum, List.dropLast_cons_of_ne_nil (cumsum_ne (by simp))]
      rw [hd]
      simp only [List.cons_append, List.zipWith_cons_cons]
      rw [this]
      simp only [parts]
      rw [slice_eq t axis a s (by simp only [List.sum_cons] at h; omega)]

theorem same_refl {α : Type} (t : Tensor α) : Same t t := ⟨rfl, fun _ _ => rfl⟩

/-- **C100 (splits).** For sizes that add up to the length of the axis both backends give the same parts. -/
theorem split_same {α : Type} (t : Tensor α) (sizes : List ℕ) (axis : ℕ) (hne : sizes ≠ [])
    (h : sizes.sum = t.shape.getD axis 0) : SameParts (jaxSplit t sizes axis) (tfSplit t sizes axis) := by
  unfold jaxSplit tfSplit
  by_cases ha : t.shape.length ≤ axis
  · rw [if_pos ha, if_pos ha]; trivial
  · rw [if_neg ha, if_neg ha, if_neg (by simpa using h)]
    simp only [SameParts]
    rw [cuts_parts t axis sizes hne 0 (by omega)]
    exact List.forall₂_same.2 fun x _ => same_refl x

/-- **C100 (splits, TensorFlow).** Part number `i` holds the entries from the sum of the sizes before it. -/
theorem split_parts {α : Type} (t : Tensor α) (sizes : List ℕ) (axis : ℕ) (l : List (Tensor α))
    (h : tfSplit t sizes axis = .ok l) : l.length = sizes.length ∧
      ∀ (i : ℕ) (p : Tensor α) (s : ℕ), l[i]? = some p → sizes[i]? = some s →
        p.shape = t.shape.set axis s ∧
        ∀ idx, p.entry idx = t.entry (idx.modify axis (· + (sizes.take i).sum)) := by
  have key : ∀ (sizes : List ℕ) (a : ℕ), (parts t axis a sizes).length = sizes.length ∧
      ∀ (i : ℕ) (p : Tensor α) (s : ℕ), (parts t axis a sizes)[i]? = some p → sizes[i]? = some s →
        p.shape = t.shape.set axis s ∧
        ∀ idx, p.entry idx = t.entry (idx.modify axis (· + (a + (sizes.take i).sum))) := by
    intro sizes
    induction sizes with
    | nil => intro a; exact ⟨rfl, fun i p s hp => by simp [parts] at hp⟩
    | cons s l ih =>
      intro a
      obtain ⟨i1, i2⟩ := ih (a + s)
      refine ⟨by simp [parts, i1], fun i p s' hp hs => ?_⟩
      cases i with
      | zero => cases hp; cases hs; exact ⟨rfl, fun idx => by simp⟩
      | succ i =>
        obtain ⟨j1, j2⟩ := i2 i p s' hp hs
        refine ⟨j1, fun idx => ?_⟩
        rw [j2, List.take_succ_cons, List.sum_cons, add_assoc]
  unfold tfSplit at h
  split_ifs at h
  cases h
  obtain ⟨k1, k2⟩ := key sizes 0
  exact ⟨k1, fun i p s hp hs => by simpa using k2 i p s hp hs⟩

/-- **C100 (finding, splits).** Sizes that do not add up are refused by TensorFlow only: with JAX the last
part takes what is left. -/
theorem split_unchecked {α : Type} (t : Tensor α) (sizes : List ℕ) (axis : ℕ) (ha : axis < t.shape.length)
    (h : sizes.sum ≠ t.shape.getD axis 0) :
    (∃ e, tfSplit t sizes axis = .error e) ∧ ∃ l, jaxSplit t sizes axis = .ok l := by
  unfold tfSplit jaxSplit
  rw [if_neg (by omega), if_pos h, if_neg (by omega)]
  exact ⟨⟨_, rfl⟩, ⟨_, rfl⟩⟩

example : (jaxSplit cube [1, 1] 2).toOption.map (·.map fun p => (p.shape, p.entry [1, 1, 0])) =
    some [([2, 2, 1], 6), ([2, 2, 1], 7)] := by decide

/-! ### Values with counts -/

theorem mem_firsts {a : ℕ} {x : List ℕ} : a ∈ firsts x ↔ a ∈ x := by
  induction x with
  | nil => simp [firsts]
  | cons b l ih =>
    simp only [firsts, List.mem_cons, List.mem_filter, ih, decide_eq_true_eq]
    by_cases h : a = b <;> simp [h]

theorem nodup_firsts (x : List ℕ) : (firsts x).Nodup := by
  induction x with
  | nil => exact List.nodup_nil
  | cons b l ih => exact List.nodup_cons.2 ⟨by simp, ih.filter _⟩

theorem firsts_append (l₁ l₂ : List ℕ) :
    firsts (l₁ ++ l₂) = firsts l₁ ++ (firsts l₂).filter fun b => b ∉ l₁ := by
  induction l₁ with
  | nil => simp [firsts]
  | cons a l ih =>
    simp only [List.cons_append, firsts, ih, List.filter_append, List.filter_filter]
    congr 2
    apply List.filter_congr
    intro b _
    by_cases h : b = a <;> simp [h]

theorem firsts_nodup {l : List ℕ} (h : l.Nodup) : firsts l = l := by
  induction l with
  | nil => rfl
  | cons a l ih =>
    obtain ⟨h1, h2⟩ := List.nodup_cons.1 h
    simp only [firsts, ih h2]
    congr 1
    exact List.filter_eq_self.2 fun b hb => by
      simp only [decide_eq_true_eq]; rintro rfl; exact h1 hb

theorem insertSorted_perm (a : ℕ) (l : List ℕ) : (insertSorted a l).Perm (a :: l) := by
  induction l with
  | nil => exact List.Perm.refl _
  | cons b l ih =>
    unfold insertSorted
    split_ifs
    · exact List.Perm.refl _
    · exact (ih.cons b).trans (List.Perm.swap a b l)

theorem sort_perm (l : List ℕ) : (l.foldr insertSorted []).Perm l := by
  induction l with
  | nil => exact List.Perm.refl _
  | cons a l ih => exact (insertSorted_perm a _).trans (ih.cons a)

theorem insertSorted_sorted (a : ℕ) (l : List ℕ) (h : l.Pairwise (· ≤ ·)) :
    (insertSorted a l).Pairwise (· ≤ ·) := by
  induction l with
  | nil => exact List.pairwise_singleton _ _
  | cons b l ih =>
    obtain ⟨h1, h2⟩ := List.pairwise_cons.1 h
    unfold insertSorted
    split_ifs with hab
    · refine List.pairwise_cons.2 ⟨fun c hc => ?_, h⟩
      rcases List.mem_cons.1 hc with rfl | hc
      · exact hab
      · exact hab.trans (h1 c hc)
    · refine List.pairwise_cons.2 ⟨fun c hc => ?_, ih h2⟩
      rcases List.mem_cons.1 ((insertSorted_perm a l).subset hc) with rfl | hc
      · omega
      · exact h1 c hc

theorem sort_sorted (l : List ℕ) : (l.foldr insertSorted []).Pairwise (· ≤ ·) := by
  induction l with
  | nil => exact List.Pairwise.nil
  | cons a l ih => exact insertSorted_sorted a _ ih

/-- **C100 (values with counts).** Both backends give every value once with the number of its places, JAX
in rising order, TensorFlow in the order of the first places. -/
theorem unique_exact (x : List ℕ) :
    (jaxUnique x).Perm (tfUnique x) ∧ (jaxUnique x).Pairwise (fun p q => p.1 < q.1) ∧
    ((tfUnique x).map Prod.fst).Nodup ∧ ∀ v n, (v, n) ∈ tfUnique x ↔ v ∈ x ∧ n = x.count v := by
  refine ⟨(sort_perm _).map _, ?_, ?_, fun v n => ?_⟩
  · unfold jaxUnique
    rw [List.pairwise_map]
    have hn : ((firsts x).foldr insertSorted []).Nodup := (sort_perm _).nodup_iff.2 (nodup_firsts x)
    refine ((sort_sorted (firsts x)).and hn).imp ?_
    rintro a b ⟨h1, h2⟩
    exact lt_of_le_of_ne h1 h2
  · unfold tfUnique
    rw [List.map_map]
    have : (Prod.fst ∘ fun v => (v, List.count v x)) = id := rfl
    rw [this, List.map_id]
    exact nodup_firsts x
  · unfold tfUnique
    simp only [List.mem_map, mem_firsts, Prod.mk.injEq]
    constructor
    · rintro ⟨a, ha, rfl, rfl⟩; exact ⟨ha, rfl⟩
    · rintro ⟨h, rfl⟩; exact ⟨v, h, rfl, rfl⟩

/-- **C100 (finding, order of values).** The orders can differ. -/
theorem unique_order_differs : jaxUnique [2, 1, 2] = [(1, 1), (2, 2)] ∧ tfUnique [2, 1, 2] = [(2, 2), (1, 1)] := by
  decide

theorem indices_two (r m : ℕ) :
    indices [r, m] = (List.range r).flatMap fun i => (List.range m).map fun k => [i, k] := by
  simp only [indices, List.map_cons, List.map_nil, List.map_flatMap]
  congr 1
  funext i
  rw [List.map_eq_flatMap]

theorem columns_rows (c : Tensor Bool) (r m : ℕ) (hc : c.shape = [r, m]) :
    ((indicesWhere c).map fun idx => idx.getD 1 0) =
      (List.range r).flatMap fun i => (List.range m).filter fun k => c.entry [i, k] := by
  unfold indicesWhere
  rw [hc, indices_two, List.filter_flatMap, List.map_flatMap]
  congr 1
  funext i
  rw [List.filter_map, List.map_map]
  simp [Function.comp_def]

theorem count_row (c : Tensor Bool) (m i k : ℕ) :
    ((List.range m).filter fun k => c.entry [i, k]).count k = if k < m ∧ c.entry [i, k] then 1 else 0 := by
  rw [List.Nodup.count (List.nodup_range.filter _)]
  simp

theorem count_columns (c : Tensor Bool) (m k : ℕ) (rows : List ℕ) :
    (rows.flatMap fun i => (List.range m).filter fun k => c.entry [i, k]).count k ≤ rows.length ∧
    (rows ≠ [] → ((rows.flatMap fun i => (List.range m).filter fun k => c.entry [i, k]).count k = rows.length ↔
      k < m ∧ ∀ i ∈ rows, c.entry [i, k] = true)) := by
  induction rows with
  | nil => simp
  | cons i rows ih =>
    obtain ⟨h1, h2⟩ := ih
    rw [List.flatMap_cons, List.count_append, count_row]
    have hle : (if k < m ∧ c.entry [i, k] = true then 1 else 0) ≤ 1 := by split_ifs <;> omega
    refine ⟨by simp only [List.length_cons]; omega, fun _ => ?_⟩
    constructor
    · intro h
      simp only [List.length_cons] at h
      split_ifs at h with hk
      · refine ⟨hk.1, fun j hj => ?_⟩
        rcases List.mem_cons.1 hj with rfl | hj
        · exact hk.2
        · exact ((h2 (List.ne_nil_of_mem hj)).1 (by omega)).2 j hj
      · omega
    · rintro ⟨hk, ha⟩
      rw [if_pos ⟨hk, ha i (by simp)⟩]
      simp only [List.length_cons]
      by_cases hr : rows = []
      · subst hr; simp
      · rw [(h2 hr).2 ⟨hk, fun j hj => ha j (by simp [hj])⟩]; omega

/-- The columns where the condition holds in every row. -/
def always (c : Tensor Bool) (r m : ℕ) : List ℕ :=
  (List.range m).filter fun k => (List.range r).all fun i => c.entry [i, k]

/-- **C100 (columns without variation).** The columns that the model refuses because a condition holds in
all rows are exactly those, in their order, with either backend: the error names the same variables in the
same order. -/
theorem bad_columns_same (c : Tensor Bool) (r m : ℕ) (hr : 0 < r) (hc : c.shape = [r, m]) :
    badColumns jaxUnique c r = always c r m ∧ badColumns tfUnique c r = always c r m := by
  set x := (List.range r).flatMap fun i => (List.range m).filter fun k => c.entry [i, k] with hx
  have hcol := columns_rows c r m hc
  have hcount : ∀ k, x.count k = r ↔ k < m ∧ ∀ i ∈ List.range r, c.entry [i, k] = true := by
    intro k
    have := (count_columns c m k (List.range r)).2 (by simp; omega)
    simpa [hx] using this
  have hP : ∀ k, k ∈ always c r m ↔ x.count k = r := by
    intro k
    rw [hcount]
    simp [always, List.mem_filter]
  have hbad : ∀ l : List ℕ, ((l.map fun v => (v, x.count v)).filter fun p => p.2 = r).map Prod.fst =
      l.filter fun v => x.count v = r := by
    intro l
    rw [List.filter_map, List.map_map]
    simp [Function.comp_def]
  unfold badColumns
  rw [hcol, ← hx]
  refine ⟨?_, ?_⟩
  · unfold jaxUnique
    rw [hbad]
    -- two rising lists with the same members
    apply List.Perm.eq_of_pairwise (le := (· ≤ ·)) (fun a b _ _ => le_antisymm)
    · exact (sort_sorted _).filter _
    · exact ((List.pairwise_lt_range).imp le_of_lt).filter _
    · apply (List.perm_ext_iff_of_nodup _ _).2
      · intro k
        rw [List.mem_filter, (sort_perm _).mem_iff, mem_firsts, decide_eq_true_eq, hP]
        refine ⟨fun h => h.2, fun h => ⟨List.count_pos_iff.1 (by omega), h⟩⟩
      · exact ((sort_perm _).nodup_iff.2 (nodup_firsts x)).filter _
      · exact List.nodup_range.filter _
  · unfold tfUnique
    rw [hbad]
    obtain ⟨r', rfl⟩ : ∃ r', r = r' + 1 := ⟨r - 1, by omega⟩
    have hsplit : x = ((List.range m).filter fun k => c.entry [0, k]) ++
        ((List.range r').map (· + 1)).flatMap fun i => (List.range m).filter fun k => c.entry [i, k] := by
      rw [hx, List.range_succ_eq_map, List.flatMap_cons]
    have hf : firsts x = ((List.range m).filter fun k => c.entry [0, k]) ++
        (firsts (((List.range r').map (· + 1)).flatMap fun i =>
          (List.range m).filter fun k => c.entry [i, k])).filter
            fun b => b ∉ (List.range m).filter fun k => c.entry [0, k] := by
      conv_lhs => rw [hsplit]
      rw [firsts_append, firsts_nodup (List.nodup_range.filter _)]
    rw [hf, List.filter_append, List.filter_filter, List.filter_filter]
    have h2 : ((firsts (((List.range r').map (· + 1)).flatMap fun i =>
        (List.range m).filter fun k => c.entry [i, k])).filter fun a =>
          decide (x.count a = r' + 1) && decide (a ∉ (List.range m).filter fun k => c.entry [0, k])) = [] := by
      apply List.filter_eq_nil_iff.2
      intro a _
      simp only [Bool.and_eq_true, decide_eq_true_eq, not_and, not_not]
      intro ha
      obtain ⟨h1, h2⟩ := (hcount a).1 ha
      exact List.mem_filter.2 ⟨List.mem_range.2 h1, h2 0 (by simp)⟩
    rw [h2, List.append_nil]
    unfold always
    apply List.filter_congr
    intro k hk
    have hk' := List.mem_range.1 hk
    rw [Bool.eq_iff_iff]
    simp only [Bool.and_eq_true, decide_eq_true_eq, hcount, List.all_eq_true]
    constructor
    · rintro ⟨⟨-, h⟩, -⟩; exact h
    · intro h; exact ⟨⟨hk', h⟩, h 0 (by simp)⟩

/-- Two rows, three columns; the second and third column are bad in both rows, the first in one. -/
example : badColumns tfUnique ⟨[2, 3], fun idx => idx ≠ [0, 0]⟩ 2 = [1, 2] := by decide

/-! ### Gathering -/

/-- **C100 (gathering).** TensorFlow accepts exactly positions in range, and then both backends give the
entries at these positions. -/
theorem gather_same {α : Type} (fill : α) (t : Tensor α) (pos : List ℤ) (axis : ℕ) (ha : axis < t.shape.length) :
    ((∃ a, tfGather t pos axis = .ok a) ↔ ∀ p ∈ pos, 0 ≤ p ∧ p < (t.shape.getD axis 0 : ℕ)) ∧
    ∀ a, tfGather t pos axis = .ok a → Same (jaxGather fill t pos axis) a ∧
      a.shape = t.shape.set axis pos.length ∧
      ∀ idx (p : ℤ), pos[idx.getD axis 0]? = some p → a.entry idx = t.entry (idx.set axis p.toNat) := by
  unfold tfGather
  refine ⟨⟨?_, fun h => by rw [if_pos h]; exact ⟨_, rfl⟩⟩, ?_⟩
  · rintro ⟨a, h⟩
    by_contra hc
    rw [if_neg hc] at h
    cases h
  · intro a h
    split_ifs at h with hp
    cases h
    refine ⟨⟨rfl, fun idx hidx => ?_⟩, rfl, fun idx p hp => by
      simp only [List.getD_eq_getElem?_getD] at hp ⊢; rw [hp]; rfl⟩
    obtain ⟨i1, i2⟩ := hidx
    simp only [jaxGather, List.length_set] at i1
    have hil : axis < idx.length := by omega
    have hlt : idx.getD axis 0 < pos.length := by
      refine i2 axis _ _ (by rw [List.getD_eq_getElem _ _ hil]; exact List.getElem?_eq_getElem hil) ?_
      simp only [jaxGather]
      rw [List.getElem?_set_self ha]
    have hpm : pos.getD (idx.getD axis 0) 0 ∈ pos := by
      rw [List.getD_eq_getElem _ _ hlt]; exact List.getElem_mem hlt
    obtain ⟨p1, p2⟩ := hp _ hpm
    simp only [jaxGather]
    rw [if_neg (not_lt.2 p1), if_pos ⟨p1, p2⟩]

/-- **C100 (finding, positions out of range).** A position that TensorFlow refuses is read by JAX: a negative
one from the end, and one beyond the end as a missing value. -/
theorem gather_out_of_range {α : Type} (fill : α) (t : Tensor α) (p : ℤ) (axis : ℕ)
    (h : ¬ (0 ≤ p ∧ p < (t.shape.getD axis 0 : ℕ))) (idx : List ℕ) (hi : idx.getD axis 0 = 0) :
    tfGather t [p] axis = .error .range ∧
    (jaxGather fill t [p] axis).entry idx =
      if -(t.shape.getD axis 0 : ℕ) ≤ p ∧ p < 0 then
        t.entry (idx.set axis (p + (t.shape.getD axis 0 : ℕ)).toNat) else fill := by
  constructor
  · unfold tfGather
    rw [if_neg (by simpa using h)]
  · simp only [jaxGather, hi, List.getD_cons_zero]
    by_cases hp : p < 0
    · rw [if_pos hp]
      by_cases hn : -((t.shape.getD axis 0 : ℕ) : ℤ) ≤ p
      · rw [if_pos ⟨by omega, by omega⟩, if_pos ⟨hn, hp⟩]
      · rw [if_neg (by omega), if_neg (by tauto)]
    · rw [if_neg hp, if_neg (by push Not at h ⊢; intro h0; exact h h0), if_neg (by omega)]

example : (tfGather cube [1, 0] 2).toOption.map (fun a => (a.entry [1, 1, 0], a.entry [1, 1, 1])) =
    some (7, 6) := by decide

/-! ### Ranges -/

/-- **C100 (ranges).** What TensorFlow accepts, JAX computes alike: the numbers from the start on, in steps,
before the stop. -/
theorem arange_same (start stop step : ℤ) (l : List ℤ) (h : tfArange start stop step = .ok l) :
    jaxArange start stop step = .ok l ∧
    ∀ i : ℕ, (∀ v, l[i]? = some v → v = start + step * i) ∧
      (i < l.length ↔ if 0 < step then start + step * i < stop else stop < start + step * i) := by
  unfold tfArange at h
  split_ifs at h with hc
  cases h
  push Not at hc
  obtain ⟨h0, h1, h2⟩ := hc
  refine ⟨by unfold jaxArange; rw [if_neg h0], fun i => ⟨fun v hv => ?_, ?_⟩⟩
  · unfold values at hv
    rw [List.getElem?_map] at hv
    cases hr : (List.range (rangeLength start stop step))[i]? with
    | none => rw [hr] at hv; cases hv
    | some j =>
      rw [hr] at hv
      have := List.getElem?_eq_some_iff.1 hr
      obtain ⟨hj, e⟩ := this
      rw [List.getElem_range] at e
      simp only [Option.map_some, Option.some.injEq] at hv
      rw [← hv, e]
  · have hlen : (values start step (rangeLength start stop step)).length = rangeLength start stop step := by
      simp [values]
    rw [hlen]
    unfold rangeLength
    have hi : (i < ⌈((stop - start : ℤ) : ℚ) / step⌉.toNat) ↔ ((i : ℤ) : ℚ) < ((stop - start : ℤ) : ℚ) / step := by
      rw [Int.lt_toNat, Int.lt_ceil]
    rw [hi]
    rcases lt_or_gt_of_ne h0 with hs | hs
    · rw [if_neg (by omega)]
      have hs' : (step : ℚ) < 0 := by exact_mod_cast hs
      rw [lt_div_iff_of_neg hs']
      constructor
      · intro h; have : stop - start < i * step := by exact_mod_cast h
        linarith
      · intro h; have : stop - start < i * step := by linarith
        exact_mod_cast this
    · rw [if_pos hs]
      have hs' : (0 : ℚ) < step := by exact_mod_cast hs
      rw [lt_div_iff₀ hs']
      constructor
      · intro h; have : i * step < stop - start := by exact_mod_cast h
        linarith
      · intro h; have : i * step < stop - start := by linarith
        exact_mod_cast this

/-- **C100 (lags).** The lags of the adstock, from the window down to 0 (`adstock_hill.py`), are the same with
both backends. -/
theorem lags (w : ℕ) : jaxArange ((w : ℤ) - 1) (-1) (-1) = .ok ((List.range w).map fun i : ℕ => (w : ℤ) - 1 - (i : ℤ)) ∧
    tfArange ((w : ℤ) - 1) (-1) (-1) = .ok ((List.range w).map fun i : ℕ => (w : ℤ) - 1 - (i : ℤ)) := by
  have hl : rangeLength ((w : ℤ) - 1) (-1) (-1) = w := by
    unfold rangeLength
    have : (((-1 - ((w : ℤ) - 1) : ℤ) : ℚ) / ((-1 : ℤ) : ℚ)) = ((w : ℤ) : ℚ) := by push_cast; ring
    rw [this, Int.ceil_intCast]
    simp
  have hv : values ((w : ℤ) - 1) (-1) w = (List.range w).map fun i : ℕ => (w : ℤ) - 1 - i := by
    unfold values
    apply List.map_congr_left
    intro i _
    ring
  constructor
  · unfold jaxArange; rw [if_neg (by decide), hl, hv]
  · unfold tfArange; rw [if_neg (by omega), hl, hv]

/-- **C100 (finding, empty ranges).** A range whose stop lies behind its start is empty with JAX and refused
by TensorFlow. -/
theorem arange_backwards (start stop step : ℤ) (h : 0 < step ∧ stop < start) :
    jaxArange start stop step = .ok [] ∧ tfArange start stop step = .error .step := by
  constructor
  · unfold jaxArange
    rw [if_neg (by omega)]
    have : rangeLength start stop step = 0 := by
      unfold rangeLength
      rw [Int.toNat_eq_zero, Int.ceil_le]
      have h1 : (0 : ℚ) < step := by exact_mod_cast h.1
      have h2 : ((stop - start : ℤ) : ℚ) ≤ 0 := by exact_mod_cast (by omega : stop - start ≤ 0)
      simpa using div_nonpos_of_nonpos_of_nonneg h2 h1.le
    rw [this]; rfl
  · unfold tfArange
    rw [if_pos (.inr (.inl h))]

end Verif.ArrayOps.Props
