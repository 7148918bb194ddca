import Verif.Model.TensorFilter
import Verif.Spec.TensorFilter
import Verif.Props.Selection

/-!
# Filtering and summing tensors
-/

namespace Verif.TensorFilter.Props

open Verif.Selection Verif.Selection.Spec Verif.TensorFilter Verif.TensorFilter.Spec

/-- The number of channels that a channel axis may have in a model. -/
def Count (d : Dims) (c : ℕ) : Prop := ChannelCount d.media d.rf d.nonMedia d.organicMedia d.organicRf c

theorem mem_allowedDim (d : Dims) (c : ℕ) : c ∈ allowedDim d ↔ Count d c := by
  unfold allowedDim Count ChannelCount
  rw [List.mem_append, List.mem_map]
  simp only [allowedChannels, List.mem_cons, List.not_mem_nil, or_false]
  constructor
  · rintro (h | ⟨n, h, rfl⟩)
    · exact ⟨c, h, .inl rfl⟩
    · exact ⟨n, h, .inr rfl⟩
  · rintro ⟨n, h, rfl | rfl⟩
    · exact .inl h
    · exact .inr ⟨n, h, rfl⟩

theorem mem_expected (d : Dims) (t : ℕ) (l : List ℕ) :
    l ∈ expectedMedia d t ↔ ∃ c, Count d c ∧ l = [d.geos, t, c] := by
  unfold expectedMedia
  rw [List.mem_map]
  constructor
  · rintro ⟨c, hc, rfl⟩; exact ⟨c, (mem_allowedDim d c).mp hc, rfl⟩
  · rintro ⟨c, hc, rfl⟩; exact ⟨c, (mem_allowedDim d c).mpr hc, rfl⟩

theorem lastDims_append (B l : List ℕ) : lastDims l.length (B ++ l) = l := by
  unfold lastDims
  rw [List.length_append, Nat.add_sub_cancel, List.drop_left]

theorem lastDims_eq {k : ℕ} {s l : List ℕ} (h : lastDims k s = l) (hk : l.length = k) :
    ∃ B, s = B ++ l := by
  subst hk
  unfold lastDims at h
  exact ⟨s.take (s.length - l.length), by rw [← h, h]; conv_lhs => rw [← List.take_append_drop (s.length - l.length) s, h]⟩

/-- With the number of times of the model, a tensor is taken to have a channel axis exactly if its last three
axes are the geos, the times and a possible number of channels; otherwise its last two axes must be the geos
and the times. -/
theorem channel_axis_iff (d : Dims) (s : List ℕ) (hm : Bool) :
    (hasChannelAxis d s false hm = .ok true ↔ ∃ B c, Count d c ∧ s = B ++ [d.geos, d.times, c]) ∧
    (hasChannelAxis d s false hm = .ok false ↔ (∃ B, s = B ++ [d.geos, d.times]) ∧
      ¬ ∃ B c, Count d c ∧ s = B ++ [d.geos, d.times, c]) := by
  have h3 : lastDims 3 s ∈ expectedMedia d d.times ↔ ∃ B c, Count d c ∧ s = B ++ [d.geos, d.times, c] := by
    rw [mem_expected]
    constructor
    · rintro ⟨c, hc, h⟩
      obtain ⟨B, hB⟩ := lastDims_eq h rfl
      exact ⟨B, c, hc, hB⟩
    · rintro ⟨B, c, hc, rfl⟩
      exact ⟨c, hc, lastDims_append B [d.geos, d.times, c]⟩
  have h2 : lastDims 2 s = [d.geos, d.times] ↔ ∃ B, s = B ++ [d.geos, d.times] := by
    constructor
    · intro h; exact lastDims_eq h rfl
    · rintro ⟨B, rfl⟩; exact lastDims_append B [d.geos, d.times]
  unfold hasChannelAxis
  simp only [Bool.false_eq_true, if_false, ← h3, ← h2]
  by_cases a : lastDims 3 s ∈ expectedMedia d d.times
  · simp [a]
  · by_cases b : lastDims 2 s = [d.geos, d.times] <;> simp [a, b]

/-- With a free number of times, the caller says whether there is a channel axis, and the number of geos and
channels must fit. -/
theorem flexible_axis_iff (d : Dims) (s : List ℕ) (hm : Bool) :
    (∀ r, hasChannelAxis d s true hm = .ok r → r = hm) ∧
    (hasChannelAxis d s true true = .ok true ↔ ∃ B t c, Count d c ∧ s = B ++ [d.geos, t, c]) ∧
    (hasChannelAxis d s true false = .ok false ↔ ∃ B t, s = B ++ [d.geos, t]) := by
  refine ⟨?_, ?_, ?_⟩
  · intro r h
    unfold hasChannelAxis at h
    cases hm <;> simp only [if_true, true_and, Bool.not_true, Bool.not_false, Bool.false_eq_true, false_and,
      or_false, false_or, if_false] at h <;> split at h
    · cases h
    · split at h
      · cases h
      · simpa using h.symm
    · cases h
    · split at h
      · cases h
      · simpa using h.symm
  · constructor
    · intro h
      unfold hasChannelAxis at h
      simp only [if_true, true_and, Bool.not_true, Bool.false_eq_true, false_and, or_false, if_false] at h
      split at h
      · cases h
      · split at h
        · cases h
        · rename_i _ hne
          rw [not_not, mem_expected] at hne
          obtain ⟨c, hc, h'⟩ := hne
          obtain ⟨B, hB⟩ := lastDims_eq h' rfl
          exact ⟨B, _, c, hc, hB⟩
    · rintro ⟨B, t, c, hc, rfl⟩
      have hl : (B ++ [d.geos, t, c]).length = B.length + 3 := by simp
      have hg : (B ++ [d.geos, t, c]).getD ((B ++ [d.geos, t, c]).length - 2) 0 = t := by
        rw [hl, List.getD_eq_getElem?_getD, show B.length + 3 - 2 = B.length + 1 by omega,
          List.getElem?_append_right (by omega)]
        simp
      have hd := lastDims_append B [d.geos, t, c]
      have hmem : lastDims 3 (B ++ [d.geos, t, c]) ∈ expectedMedia d t := by
        rw [mem_expected]; exact ⟨c, hc, hd⟩
      unfold hasChannelAxis
      simp only [if_true, true_and, Bool.not_true, Bool.false_eq_true, false_and, or_false, if_false, hg,
        hmem, not_true_eq_false]
      rw [if_neg (by omega)]
  · constructor
    · intro h
      unfold hasChannelAxis at h
      simp only [if_true, true_and, Bool.not_false, Bool.false_eq_true, false_and, false_or, if_false] at h
      split at h
      · cases h
      · split at h
        · cases h
        · rename_i _ hne
          rw [not_not] at hne
          obtain ⟨B, hB⟩ := lastDims_eq hne rfl
          exact ⟨B, _, hB⟩
    · rintro ⟨B, t, rfl⟩
      have hl : (B ++ [d.geos, t]).length = B.length + 2 := by simp
      have hg : (B ++ [d.geos, t]).getD ((B ++ [d.geos, t]).length - 1) 0 = t := by
        rw [hl, List.getD_eq_getElem?_getD, show B.length + 2 - 1 = B.length + 1 by omega,
          List.getElem?_append_right (by omega)]
        simp
      have hd := lastDims_append B [d.geos, t]
      simp only [List.length_cons, List.length_nil] at hd
      unfold hasChannelAxis
      simp only [if_true, true_and, Bool.not_false, Bool.false_eq_true, false_and, false_or, if_false, hg]
      rw [if_neg (by omega), if_neg (by rw [not_not]; exact hd)]

/-! ### The entries of the result -/

theorem gather_shape {ax : ℕ} {idx : Option (List ℕ)} {x y : Tensor} (h : gather ax idx x = .ok y) :
    y.shape.length = x.shape.length ∧
    (∀ i, i ≠ ax → y.shape.getD i 0 = x.shape.getD i 0) ∧
    (ax < x.shape.length → y.shape.getD ax 0 = (axis (x.shape.getD ax 0) idx).length) := by
  cases idx with
  | none =>
    simp only [gather, Except.ok.injEq] at h
    subst h
    exact ⟨rfl, fun _ _ => rfl, fun _ => by simp [axis]⟩
  | some l =>
    simp only [gather] at h
    split at h
    · simp only [Except.ok.injEq] at h
      subst h
      refine ⟨by simp, ?_, ?_⟩
      · intro i hi
        simp only [List.getD_eq_getElem?_getD]
        rw [List.getElem?_set_ne (Ne.symm hi)]
      · intro hax
        simp [List.getD_eq_getElem?_getD, List.getElem?_set_self hax, axis]
    · cases h

/-- The entry of a gathered tensor. -/
theorem gather_val {ax : ℕ} {idx : Option (List ℕ)} {x y : Tensor} (h : gather ax idx x = .ok y)
    (k : List ℕ) (i : ℕ) (hk : k[ax]? = some i) (hi : i < (axis (x.shape.getD ax 0) idx).length) :
    y.val k = x.val (k.set ax ((axis (x.shape.getD ax 0) idx)[i])) := by
  cases idx with
  | none =>
    simp only [gather, Except.ok.injEq] at h
    subst h
    congr 1
    simp only [axis, List.getElem_range]
    obtain ⟨hlt, he⟩ := List.getElem?_eq_some_iff.mp hk
    rw [← he, List.set_getElem_self]
  | some l =>
    simp only [gather] at h
    split at h
    · simp only [Except.ok.injEq] at h
      subst h
      simp only [axis] at hi ⊢
      congr 2
      rw [List.getD_eq_getElem?_getD, List.getD_eq_getElem?_getD, hk]
      simp only [Option.getD_some]
      rw [List.getElem?_eq_getElem hi]
      rfl
    · cases h

/-- A gather succeeds exactly if all indices are in range. -/
theorem gather_ok_iff (ax : ℕ) (idx : Option (List ℕ)) (x : Tensor) :
    (∃ y, gather ax idx x = .ok y) ↔ ∀ i ∈ axis (x.shape.getD ax 0) idx, i < x.shape.getD ax 0 := by
  cases idx with
  | none => simp [gather, axis]
  | some l =>
    simp only [gather, axis]
    by_cases h : (l.all fun i => decide (i < x.shape.getD ax 0)) = true
    · rw [if_pos h]
      simp only [List.all_eq_true, decide_eq_true_eq] at h
      exact ⟨fun _ => h, fun _ => ⟨_, rfl⟩⟩
    · rw [if_neg h]
      simp only [List.all_eq_true, decide_eq_true_eq] at h
      exact ⟨fun ⟨_, h'⟩ => (by cases h'), fun h' => absurd h' h⟩

/-- The shape of a tensor: the axes before geos and times, the geos, the times, and the axes after them. -/
def Shaped (x : Tensor) (B : List ℕ) (g t : ℕ) (M : List ℕ) : Prop := x.shape = B ++ [g, t] ++ M

theorem shaped_getD {x : Tensor} {B M : List ℕ} {g t : ℕ} (h : Shaped x B g t M) :
    x.shape.getD B.length 0 = g ∧ x.shape.getD (B.length + 1) 0 = t ∧
    x.shape.take B.length = B ∧ x.shape.drop (B.length + 2) = M := by
  unfold Shaped at h
  rw [h]
  refine ⟨?_, ?_, ?_, ?_⟩
  · rw [List.getD_eq_getElem?_getD, List.append_assoc, List.getElem?_append_right (by omega)]
    simp
  · rw [List.getD_eq_getElem?_getD, List.append_assoc, List.getElem?_append_right (by omega)]
    simp
  · rw [List.append_assoc, List.take_left]
  · rw [show B.length + 2 = (B ++ [g, t]).length by simp, List.drop_left]

theorem set_mid (pre post : List ℕ) (n i j a : ℕ) (h : pre.length = n) :
    (pre ++ [i, j] ++ post).set n a = pre ++ [a, j] ++ post ∧
    (pre ++ [i, j] ++ post).set (n + 1) a = pre ++ [i, a] ++ post := by
  subst h
  constructor
  · rw [List.append_assoc, List.set_append_right _ _ (by omega)]
    simp
  · rw [List.append_assoc, List.set_append_right _ _ (by omega)]
    simp

/-- Both gathers: the shape, and the entries at the positions of the selections. -/
theorem gathered {x y z : Tensor} {B M : List ℕ} {g t : ℕ} (hx : Shaped x B g t M) {gi ti : Option (List ℕ)}
    (hy : gather B.length gi x = .ok y) (hz : gather (B.length + 1) ti y = .ok z) :
    Shaped z B (axis g gi).length (axis t ti).length M ∧
    ∀ (pre post : List ℕ) (i j : ℕ), pre.length = B.length → (hi : i < (axis g gi).length) →
      (hj : j < (axis t ti).length) →
      z.val (pre ++ [i, j] ++ post) = x.val (pre ++ [(axis g gi)[i], (axis t ti)[j]] ++ post) := by
  obtain ⟨hg, ht, -, -⟩ := shaped_getD hx
  have hxl : x.shape.length = B.length + 2 + M.length := by rw [hx]; simp; omega
  obtain ⟨y1, y2, y3⟩ := gather_shape hy
  obtain ⟨z1, z2, z3⟩ := gather_shape hz
  have hyt : y.shape.getD (B.length + 1) 0 = t := by rw [y2 _ (by omega), ht]
  rw [hg] at y3
  rw [hyt] at z3
  refine ⟨?_, ?_⟩
  · unfold Shaped
    apply List.ext_getElem
    · simp only [List.length_append, List.length_cons, List.length_nil]
      omega
    · intro n h1 h2
      have e1 : z.shape[n] = z.shape.getD n 0 := by
        rw [List.getD_eq_getElem?_getD, List.getElem?_eq_getElem h1]; rfl
      have e2 : (B ++ [(axis g gi).length, (axis t ti).length] ++ M)[n] =
          (B ++ [(axis g gi).length, (axis t ti).length] ++ M).getD n 0 := by
        rw [List.getD_eq_getElem?_getD, List.getElem?_eq_getElem h2]; rfl
      rw [e1, e2]
      have hs : Shaped ⟨B ++ [(axis g gi).length, (axis t ti).length] ++ M, x.val⟩ B _ _ M := rfl
      obtain ⟨s1, s2, -, -⟩ := shaped_getD hs
      by_cases hn : n = B.length
      · subst hn
        rw [z2 _ (by omega), y3 (by omega)]
        exact s1.symm
      · by_cases hn' : n = B.length + 1
        · subst hn'
          rw [z3 (by omega)]
          exact s2.symm
        · rw [z2 _ hn', y2 _ hn, hx]
          simp only [List.getD_eq_getElem?_getD]
          by_cases hb : n < B.length
          · rw [List.append_assoc, List.append_assoc, List.getElem?_append_left hb,
              List.getElem?_append_left hb]
          · rw [List.getElem?_append_right (by simp; omega), List.getElem?_append_right (by simp; omega)]
            simp
  · intro pre post i j hpre hi hj
    have k2 : (pre ++ [i, j] ++ post)[B.length + 1]? = some j := by
      rw [← hpre, List.append_assoc, List.getElem?_append_right (by omega)]
      simp
    have hj' : j < (axis (y.shape.getD (B.length + 1) 0) ti).length := by rw [hyt]; exact hj
    rw [gather_val hz _ j k2 hj']
    have e1 : (pre ++ [i, j] ++ post).set (B.length + 1) ((axis (y.shape.getD (B.length + 1) 0) ti)[j]) =
        pre ++ [i, (axis t ti)[j]] ++ post := by
      simp only [hyt]
      exact (set_mid pre post _ i j _ hpre).2
    rw [e1]
    have k1 : (pre ++ [i, (axis t ti)[j]] ++ post)[B.length]? = some i := by
      rw [← hpre, List.append_assoc, List.getElem?_append_right (by omega)]
      simp
    have hi' : i < (axis (x.shape.getD B.length 0) gi).length := by rw [hg]; exact hi
    rw [gather_val hy _ i k1 hi']
    congr 1
    simp only [hg]
    exact (set_mid pre post _ i _ _ hpre).1

theorem sum_range_axis (l : List ℕ) (f : ℕ → ℝ) (F : ℕ → ℝ)
    (h : ∀ i, (hi : i < l.length) → F i = f l[i]) :
    ((List.range l.length).map F).sum = (l.map f).sum := by
  congr 1
  apply List.ext_getElem
  · simp
  · intro n h1 h2
    simp only [List.length_map, List.length_range] at h1
    simp [h n h1]

/-- What the result holds: its shape, and every entry as a sum over the selected geos and times, or over the
selected times of one geo, or over the selected geos at one time, or as the entry of one geo and time. -/
theorem filtered (d : Dims) (x r : Tensor) (B M : List ℕ) (g t : ℕ) (m : Bool) (gi ti : Option (List ℕ))
    (aggG aggT flex hm : Bool) (hs : hasChannelAxis d x.shape flex hm = .ok m)
    (hx : Shaped x B g t M) (hM : M.length = if m then 1 else 0)
    (h : byIndices d x gi ti aggG aggT flex hm = .ok r) (pre post : List ℕ) (hpre : pre.length = B.length) :
    r.shape = B ++ (if aggG then [] else [(axis g gi).length]) ++
      (if aggT then [] else [(axis t ti).length]) ++ M ∧
    (aggG = true → aggT = true → r.val (pre ++ post) = cells x.val (axis g gi) (axis t ti) pre post) ∧
    (aggG = false → aggT = true → ∀ i, (hi : i < (axis g gi).length) →
      r.val (pre ++ [i] ++ post) = cells x.val [(axis g gi)[i]] (axis t ti) pre post) ∧
    (aggG = true → aggT = false → ∀ j, (hj : j < (axis t ti).length) →
      r.val (pre ++ [j] ++ post) = cells x.val (axis g gi) [(axis t ti)[j]] pre post) ∧
    (aggG = false → aggT = false → ∀ i, (hi : i < (axis g gi).length) → ∀ j, (hj : j < (axis t ti).length) →
      r.val (pre ++ [i, j] ++ post) = x.val (pre ++ [(axis g gi)[i], (axis t ti)[j]] ++ post)) := by
  have hxl : x.shape.length = B.length + 2 + M.length := by rw [hx]; simp; omega
  have hgd : x.shape.length - 2 - (if m then 1 else 0) = B.length := by rw [← hM]; omega
  have htd : x.shape.length - 1 - (if m then 1 else 0) = B.length + 1 := by rw [← hM]; omega
  simp only [byIndices, hs, hgd, htd] at h
  cases hy : gather B.length gi x with
  | error e => simp [hy] at h
  | ok y =>
    simp only [hy] at h
    cases hz : gather (B.length + 1) ti y with
    | error e => simp [hz] at h
    | ok z =>
      simp only [hz, Except.ok.injEq] at h
      subst h
      obtain ⟨hzs, hzv⟩ := gathered hx hy hz
      obtain ⟨z1, z2, z3, z4⟩ := shaped_getD hzs
      have hpd : ∀ rest : List ℕ, (pre ++ rest).drop B.length = rest := fun rest => by
        rw [← hpre, List.drop_left]
      have hpt : ∀ rest : List ℕ, (pre ++ rest).take B.length = pre := fun rest => by
        rw [← hpre, List.take_left]
      refine ⟨?_, ?_, ?_, ?_, ?_⟩
      · simp only [einsum, z1, z2, z3, z4]
      · rintro rfl rfl
        simp only [einsum, positions, if_true, z1, z2, hpd, hpt]
        unfold cells
        apply sum_range_axis
        intro i hi
        apply sum_range_axis
        intro j hj
        exact hzv pre post i j hpre hi hj
      · rintro rfl rfl i hi
        simp only [einsum, positions, if_true, Bool.false_eq_true, if_false, z1, z2,
          List.append_assoc, hpd, hpt]
        unfold cells
        simp only [List.cons_append, List.nil_append, List.headD_cons, List.tail_cons, List.map_cons,
          List.map_nil, List.sum_cons, List.sum_nil, add_zero]
        apply sum_range_axis
        intro j hj
        simpa using hzv pre post i j hpre hi hj
      · rintro rfl rfl j hj
        simp only [einsum, positions, if_true, Bool.false_eq_true, if_false, z1, z2,
          List.append_assoc, hpd, hpt]
        unfold cells
        simp only [List.cons_append, List.nil_append, List.headD_cons, List.tail_cons, List.map_cons,
          List.map_nil, List.sum_cons, List.sum_nil, add_zero]
        apply sum_range_axis
        intro i hi
        simpa using hzv pre post i j hpre hi hj
      · rintro rfl rfl i hi j hj
        simp only [einsum, positions, Bool.false_eq_true, if_false, 
          List.append_assoc, hpd, hpt]
        simpa using hzv pre post i j hpre hi hj

/-! ### Selections by name -/

open Classical in
/-- For a tensor over the times of the model and accepted selections there is a result, and summing over geos
and times gives, at each place of the other axes, the sum over the selected geos and times, each once. -/
theorem selected (d : Dims) (norm : String → Option String) (geos times : List String) (x : Tensor)
    (B M : List ℕ) (m : Bool) (gsel : Option (List String)) (tsel : Option (List Item)) (flex hm : Bool)
    (hg : geos.length = d.geos) (ht : times.length = d.times)
    (hs : hasChannelAxis d x.shape flex hm = .ok m) (hx : Shaped x B d.geos d.times M)
    (hM : M.length = if m then 1 else 0)
    (okG : ∃ r, resolveGeos geos gsel = .ok r) (okT : ∃ r, resolveTimes norm times d.times tsel = .ok r) :
    ∃ r, byNames d norm geos times x gsel tsel true true flex hm = .ok r ∧ r.shape = B ++ M ∧
      ∀ pre post : List ℕ, pre.length = B.length →
        r.val (pre ++ post) = ∑ g ∈ Finset.range d.geos with geoSelected geos gsel g,
          ∑ t ∈ Finset.range d.times with timeSelected norm times tsel t, x.val (pre ++ [g, t] ++ post) := by
  obtain ⟨gi, hgi⟩ := okG
  obtain ⟨ti, hti⟩ := okT
  obtain ⟨g1, g2⟩ := Selection.Props.geo_indices_exact geos gsel gi hgi
  obtain ⟨t1, t2⟩ := Selection.Props.time_indices_exact norm times tsel ti (by rw [ht]; exact hti)
  rw [hg] at g1 g2
  rw [ht] at t1 t2
  have hxl : x.shape.length = B.length + 2 + M.length := by rw [hx]; simp; omega
  have hgd : x.shape.length - 2 - (if m then 1 else 0) = B.length := by rw [← hM]; omega
  have htd : x.shape.length - 1 - (if m then 1 else 0) = B.length + 1 := by rw [← hM]; omega
  obtain ⟨s1, s2, -, -⟩ := shaped_getD hx
  obtain ⟨y, hy⟩ := (gather_ok_iff B.length gi x).mpr (by
    rw [s1]; intro i hi; exact ((g2 i).mp hi).1)
  have hyt : y.shape.getD (B.length + 1) 0 = d.times := by
    rw [(gather_shape hy).2.1 _ (by omega), s2]
  obtain ⟨z, hz⟩ := (gather_ok_iff (B.length + 1) ti y).mpr (by
    rw [hyt]; intro i hi; exact ((t2 i).mp hi).1)
  have hr : byIndices d x gi ti true true flex hm = .ok (einsum B.length true true z) := by
    simp only [byIndices, hs, hgd, htd, hy, hz]
  refine ⟨einsum B.length true true z, by simp only [byNames, hgi, hti, hr], ?_, ?_⟩
  · have := (filtered d x _ B M d.geos d.times m gi ti true true flex hm hs hx hM hr B [] rfl).1
    simpa using this
  · intro pre post hpre
    rw [(filtered d x _ B M d.geos d.times m gi ti true true flex hm hs hx hM hr pre post hpre).2.1 rfl rfl]
    unfold cells
    rw [Selection.Props.sum_sorted d.geos _ (geoSelected geos gsel) g1 g2]
    apply Finset.sum_congr rfl
    intro g _
    exact Selection.Props.sum_sorted d.times _ (timeSelected norm times tsel) t1 t2 _

/-- Finding: with a free number of times, a list of flags must have one flag for each time of the model, not of
the tensor: flags of the documented length are refused whenever the numbers differ. -/
theorem flags_of_tensor_refused (d : Dims) (norm : String → Option String) (geos times : List String)
    (x : Tensor) (gsel : Option (List String)) (flags : List Bool) (aggG aggT hm : Bool)
    (h0 : flags ≠ []) (hn : flags.length ≠ d.times) :
    ∀ r, byNames d norm geos times x gsel (some (flags.map .flag)) aggG aggT true hm ≠ .ok r := by
  intro r h
  have hv : resolveTimes norm times d.times (some (flags.map .flag)) = .error .flagCount := by
    have hb : isBoolList (flags.map Item.flag) = true := by
      unfold isBoolList
      simp [List.all_map]
    have he : (flags.map Item.flag).isEmpty = false := by
      cases flags with
      | nil => exact absurd rfl h0
      | cons a l => rfl
    simp [resolveTimes, validateTimes, he, hb, hn]
  simp only [byNames, hv] at h
  cases hg : resolveGeos geos gsel with
  | error e => simp [hg] at h
  | ok gi => simp [hg] at h

/-- Finding: without a free number of times, a tensor without channel axis is taken for one with a channel axis
exactly if the axis before its geos has as many entries as there are geos, there are as many times as geos, and
that number is a possible number of channels. -/
theorem misread_iff (d : Dims) (B : List ℕ) (hm : Bool) :
    hasChannelAxis d (B ++ [d.geos, d.times]) false hm = .ok true ↔
      (∃ C, B = C ++ [d.geos]) ∧ d.geos = d.times ∧ Count d d.times := by
  rw [(channel_axis_iff d _ hm).1]
  constructor
  · rintro ⟨C, c, hc, h⟩
    have h1 : B ++ [d.geos, d.times] = (C ++ [d.geos]) ++ [d.times, c] := by rw [h]; simp
    obtain ⟨h2, h3⟩ := List.append_inj' h1 rfl
    simp only [List.cons.injEq, and_true] at h3
    exact ⟨⟨C, h2⟩, h3.1, h3.2 ▸ hc⟩
  · rintro ⟨⟨C, rfl⟩, h, hc⟩
    refine ⟨C, d.times, hc, ?_⟩
    rw [← h]
    simp

/-- A model with two geos, two times and one media channel. -/
def demo : Dims := ⟨2, 2, 1, 0, 0, 0, 0⟩

/-- Two draws of a value for each geo and time: 1 everywhere in the first draw, 100 in the second. -/
def demoTensor : Tensor := ⟨[2, 2, 2], fun k => if k.headD 0 = 0 then 1 else 100⟩

/-- Summing two draws over geos and times gives the sums over draws and geos instead: 202 twice, where the sums
of the draws are 4 and 400. -/
theorem misread_sum : ∃ r, byIndices demo demoTensor none none true true false true = .ok r ∧
    r.shape = [2] ∧ r.val [0] = 202 ∧ r.val [1] = 202 ∧
    cells demoTensor.val [0, 1] [0, 1] [0] [] = 4 ∧ cells demoTensor.val [0, 1] [0, 1] [1] [] = 400 := by
  have h : hasChannelAxis demo demoTensor.shape false true = .ok true := by decide
  refine ⟨_, by simp only [byIndices, h, gather]; rfl, ?_, ?_, ?_, ?_, ?_⟩
  · simp [einsum, demoTensor]
  · simp [einsum, positions, demoTensor, List.range_succ]; norm_num
  · simp [einsum, positions, demoTensor, List.range_succ]; norm_num
  · simp [cells, demoTensor]; norm_num
  · simp [cells, demoTensor]; norm_num

/-- A model with two geos and three times, four draws of one media channel. -/
example : hasChannelAxis ⟨2, 3, 1, 0, 0, 0, 0⟩ [4, 2, 3, 1] false true = .ok true ∧
    hasChannelAxis ⟨2, 3, 1, 0, 0, 0, 0⟩ [4, 2, 3] false true = .ok false ∧
    hasChannelAxis ⟨2, 3, 1, 0, 0, 0, 0⟩ [4, 2, 5, 1] true true = .ok true ∧
    hasChannelAxis ⟨2, 3, 1, 0, 0, 0, 0⟩ [4, 2, 5, 3] true true = .error .shape := by decide

/-- Four draws, two geos, three times and one channel: the second geo and the last two times. -/
example : hasChannelAxis ⟨2, 3, 1, 0, 0, 0, 0⟩ [4, 2, 3, 1] false true = .ok true ∧
    resolveGeos ["a", "b"] (some ["b"]) = .ok (some [1]) ∧
    resolveTimes some ["x", "y", "z"] 3 (some [.str "z", .str "y"]) = .ok (some [1, 2]) ∧
    resolveTimes some ["x", "y", "z"] 3 (some [.flag false, .flag true, .flag true]) = .ok (some [1, 2]) := by
  decide +kernel

/-- Five flags for a tensor with five times, in a model with three. -/
example : [true, false, true, true, false] ≠ [] ∧
    [true, false, true, true, false].length ≠ (⟨2, 3, 1, 0, 0, 0, 0⟩ : Dims).times := by decide

end Verif.TensorFilter.Props
