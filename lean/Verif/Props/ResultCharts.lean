import Mathlib.Tactic
import Verif.Model.ResultCharts
import Verif.Spec.ResultCharts
import Verif.Props.TimeCoordinates
import Verif.Props.Formatter
import Verif.Lemmas.Num

/-!
# C77: tables and charts of a budget optimization
-/

namespace Verif.ResultCharts.Props

open Verif Verif.Calendar Verif.ResultCharts Verif.ResultCharts.Spec

/-! ### The changes by channel -/

instance : IsTotal Row (fun a b => a.2 ≤ b.2) := ⟨fun a b => le_total a.2 b.2⟩
instance : IsTrans Row (fun a b => a.2 ≤ b.2) := ⟨fun _ _ _ h1 h2 => h1.trans h2⟩
instance : IsTotal Row (fun a b => b.2 ≤ a.2) := ⟨fun a b => le_total b.2 a.2⟩
instance : IsTrans Row (fun a b => b.2 ≤ a.2) := ⟨fun _ _ _ h1 h2 => h2.trans h1⟩

theorem sortUp_perm (l : List Row) : (sortUp l).Perm l := List.perm_insertionSort _ _
theorem sortDown_perm (l : List Row) : (sortDown l).Perm l := List.perm_insertionSort _ _

theorem sortUp_sorted (l : List Row) : (sortUp l).Pairwise fun a b => a.2 ≤ b.2 :=
  List.pairwise_insertionSort _ _

theorem sortDown_sorted (l : List Row) : (sortDown l).Pairwise fun a b => b.2 ≤ a.2 :=
  List.pairwise_insertionSort _ _

theorem neg_pos_perm (rows : List (String × Num)) :
    (negRows rows ++ posRows rows).Perm (knownRows rows) := by
  induction rows with
  | nil => exact List.Perm.refl _
  | cons r rows ih =>
    obtain ⟨c, x⟩ := r
    cases x with
    | none => simpa [negRows, posRows, knownRows] using ih
    | some x =>
      by_cases h : x < 0
      · have h' : ¬ 0 ≤ x := not_le.2 h
        simpa [negRows, posRows, knownRows, h, h'] using ih
      · have h' : 0 ≤ x := not_lt.1 h
        simp only [negRows, posRows, knownRows, List.filterMap_cons, Option.bind_some, if_neg h,
          if_pos h', Option.map_some]
        exact (List.perm_middle).trans (List.Perm.cons _ ih)

theorem mem_neg {rows : List (String × Num)} {r : Row} (h : r ∈ negRows rows) : r.2 < 0 := by
  unfold negRows at h
  obtain ⟨⟨c, x⟩, -, h2⟩ := List.mem_filterMap.1 h
  cases x with
  | none => simp at h2
  | some x =>
    by_cases hx : x < 0
    · simp only [Option.bind_some, if_pos hx, Option.some.injEq] at h2
      rw [← h2]; exact hx
    · simp [if_neg hx] at h2

theorem mem_pos {rows : List (String × Num)} {r : Row} (h : r ∈ posRows rows) : 0 ≤ r.2 := by
  unfold posRows at h
  obtain ⟨⟨c, x⟩, -, h2⟩ := List.mem_filterMap.1 h
  cases x with
  | none => simp at h2
  | some x =>
    by_cases hx : 0 ≤ x
    · simp only [Option.bind_some, if_pos hx, Option.some.injEq] at h2
      rw [← h2]; exact hx
    · simp [if_neg hx] at h2

/-- **C77 (changes).** The table of changes has the channels whose change is a number, each once with its
change; decreases come first, the largest first, then increases, the largest first. -/
theorem changes_table (opt non : List (String × Num)) :
    (deltaData opt non).Perm (knownRows (deltas opt non)) ∧ (deltaData opt non).Pairwise Before := by
  constructor
  · exact ((sortUp_perm _).append (sortDown_perm _)).trans (neg_pos_perm _)
  · unfold deltaData
    rw [List.pairwise_append]
    refine ⟨?_, ?_, ?_⟩
    · refine (sortUp_sorted _).imp_of_mem fun {a b} ha hb h => ?_
      exact Or.inr (Or.inl ⟨mem_neg ((sortUp_perm _).mem_iff.1 ha),
        mem_neg ((sortUp_perm _).mem_iff.1 hb), h⟩)
    · refine (sortDown_sorted _).imp_of_mem fun {a b} ha hb h => ?_
      exact Or.inr (Or.inr ⟨mem_pos ((sortDown_perm _).mem_iff.1 ha),
        mem_pos ((sortDown_perm _).mem_iff.1 hb), h⟩)
    · intro a ha b hb
      exact Or.inl ⟨mem_neg ((sortUp_perm _).mem_iff.1 ha), mem_pos ((sortDown_perm _).mem_iff.1 hb)⟩

theorem knownRows_deltas (opt non : List (String × ℚ)) :
    knownRows (deltas (known opt) (known non)) = changes opt non := by
  induction opt generalizing non with
  | nil => rfl
  | cons a opt ih =>
    cases non with
    | nil => rfl
    | cons b non =>
      have := ih non
      simp only [knownRows, deltas, known, changes, List.map_cons, List.zipWith_cons_cons,
        List.filterMap_cons, Num.sub, Option.map_some] at this ⊢
      rw [this]

theorem changes_total (opt non : List (String × ℚ)) (h : opt.length = non.length) :
    total (changes opt non) = total opt - total non := by
  induction opt generalizing non with
  | nil => cases non <;> simp_all [changes, total]
  | cons a opt ih =>
    cases non with
    | nil => simp at h
    | cons b non =>
      have := ih non (by simpa using h)
      simp only [changes, total, List.zipWith_cons_cons, List.map_cons, List.sum_cons] at this ⊢
      rw [this]; ring

theorem same_length {opt non : List (String × ℚ)} (h : SameChannels opt non) :
    opt.length = non.length := by
  have := congrArg List.length h
  simpa using this

theorem changes_channels (opt non : List (String × ℚ)) (h : opt.length = non.length) :
    (changes opt non).map (·.1) = opt.map (·.1) := by
  induction opt generalizing non with
  | nil => cases non <;> rfl
  | cons a opt ih =>
    cases non with
    | nil => simp at h
    | cons b non =>
      have := ih non (by simpa using h)
      simp only [changes, List.zipWith_cons_cons, List.map_cons] at this ⊢
      rw [this]

/-- **C77 (changes add up).** If all values are known, the changes of the table are those of the channels,
and they add up to the change of the total. -/
theorem changes_add_up (opt non : List (String × ℚ)) (h : SameChannels opt non) :
    (deltaData (known opt) (known non)).Perm (changes opt non) ∧
    total (deltaData (known opt) (known non)) = total opt - total non := by
  have hp := (changes_table (known opt) (known non)).1
  rw [knownRows_deltas] at hp
  refine ⟨hp, ?_⟩
  rw [← changes_total opt non (same_length h)]
  exact (hp.map _).sum_eq

example : deltaData (known [("tv", 5), ("radio", 1), ("web", 9), ("print", 2)])
    (known [("tv", 4), ("radio", 3), ("web", 3), ("print", 5)])
    = [("print", -3), ("radio", -2), ("web", 6), ("tv", 1)] := by decide +kernel

/-- **C77 (finding).** A channel whose outcome is not a number has no row and no bar. -/
theorem unknown_change_left_out : deltaData [("tv", some 5), ("radio", none)]
    [("tv", some 4), ("radio", some 2)] = [("tv", 1)] := by decide +kernel

/-! ### The waterfall chart -/

theorem barsFrom_append (acc : ℚ) (l l' : List Row) :
    barsFrom acc (l ++ l') = barsFrom acc l ++ barsFrom (acc + total l) l' := by
  induction l generalizing acc with
  | nil => simp [barsFrom, total]
  | cons r l ih =>
    simp only [List.cons_append, barsFrom, ih, total, List.map_cons, List.sum_cons, add_assoc]

theorem barsFrom_rows (acc : ℚ) (l : List Row) (h : optimized ∉ l.map (·.1)) :
    (barsFrom acc l).map (fun b => (b.channel, b.label)) = l ∧
    ∀ b ∈ barsFrom acc l, b.stop = b.start + b.label := by
  induction l generalizing acc with
  | nil => exact ⟨rfl, by simp [barsFrom]⟩
  | cons r l ih =>
    simp only [List.map_cons, List.mem_cons, not_or] at h
    obtain ⟨h1, h2⟩ := ih (acc + r.2) h.2
    have hr : ¬ r.1 = optimized := fun e => h.1 e.symm
    constructor
    · simp only [barsFrom, List.map_cons, h1, bar, if_neg hr]
    · intro b hb
      simp only [barsFrom, List.mem_cons] at hb
      rcases hb with rfl | hb
      · simp only [bar, if_neg hr]; ring
      · exact h2 b hb

theorem barsFrom_chain (acc : ℚ) (l : List Row) (h : optimized ∉ l.map (·.1)) (b0 : Bar)
    (h0 : b0.stop = acc) :
    List.IsChain (fun a b : Bar => b.start = a.stop) (b0 :: barsFrom acc l) ∧
    ((b0 :: barsFrom acc l).getLast?).map (·.stop) = some (acc + total l) := by
  induction l generalizing acc b0 with
  | nil => simp [barsFrom, total, h0]
  | cons r l ih =>
    simp only [List.map_cons, List.mem_cons, not_or] at h
    have hr : ¬ r.1 = optimized := fun e => h.1 e.symm
    obtain ⟨h1, h2⟩ := ih (acc + r.2) h.2 (bar r (acc + r.2)) rfl
    constructor
    · simp only [barsFrom]
      refine List.IsChain.cons_cons ?_ h1
      simp only [bar, if_neg hr, h0]; ring
    · simp only [barsFrom]
      rw [List.getLast?_cons_cons, h2]
      simp only [total, List.map_cons, List.sum_cons, Option.some.injEq]
      ring

/-- **C77 (waterfall).** The chart of the change in outcome has a bar from zero to the total before the
optimization, a bar for each channel whose length is the change of the channel and which starts where the
last one ended, and a bar from zero to the total after the optimization, which is where the last channel
ended. -/
theorem waterfall (opt non : List (String × ℚ)) (h : SameChannels opt non)
    (hn : optimized ∉ opt.map (·.1)) :
    ∃ mids : List Bar,
      bars (total non) (known opt) (known non)
        = ⟨nonOptimized, 0, total non, total non⟩ :: (mids ++ [⟨optimized, 0, total opt, total opt⟩]) ∧
      (mids.map fun b => (b.channel, b.label)).Perm (changes opt non) ∧
      (∀ b ∈ mids, b.stop = b.start + b.label) ∧
      List.IsChain (fun a b : Bar => b.start = a.stop)
        (⟨nonOptimized, 0, total non, total non⟩ :: mids) ∧
      (((⟨nonOptimized, 0, total non, total non⟩ : Bar) :: mids).getLast?).map (·.stop)
        = some (total opt) := by
  obtain ⟨hp, ht⟩ := changes_add_up opt non h
  have hno : optimized ∉ (deltaData (known opt) (known non)).map (·.1) := by
    rw [(hp.map _).mem_iff, changes_channels _ _ (same_length h)]; exact hn
  obtain ⟨r1, r2⟩ := barsFrom_rows (total non) _ hno
  obtain ⟨c1, c2⟩ := barsFrom_chain (total non) _ hno ⟨nonOptimized, 0, total non, total non⟩ rfl
  have he : total non + total (deltaData (known opt) (known non)) = total opt := by rw [ht]; ring
  refine ⟨barsFrom (total non) (deltaData (known opt) (known non)), ?_, ?_, r2, c1, ?_⟩
  · have hne : ¬ nonOptimized = optimized := by decide
    simp only [bars, waterfallRows, barsFrom, zero_add, barsFrom_append, bar, if_neg hne, sub_self,
      he, add_zero, if_true]
  · rw [r1]; exact hp
  · rw [c2, he]

example : bars 15 (known [("tv", 5), ("radio", 1), ("web", 9), ("print", 2)])
    (known [("tv", 4), ("radio", 3), ("web", 3), ("print", 5)])
    = [⟨"non_optimized", 0, 15, 15⟩, ⟨"print", 15, 12, -3⟩, ⟨"radio", 12, 10, -2⟩, ⟨"web", 10, 16, 6⟩,
       ⟨"tv", 16, 17, 1⟩, ⟨"optimized", 0, 17, 17⟩] := by decide +kernel

/-- **C77 (finding).** A channel may be called `optimized`; its bar then shows the running total, not its
change. -/
theorem channel_called_optimized : bars 7 (known [("tv", 5), ("optimized", 3)])
    (known [("tv", 4), ("optimized", 3)])
    = [⟨"non_optimized", 0, 7, 7⟩, ⟨"tv", 7, 8, 1⟩, ⟨"optimized", 0, 8, 8⟩, ⟨"optimized", 0, 8, 8⟩] := by
  decide +kernel

/-! ### The section of the axis that is shown -/

/-- **C77 (margin).** The margin at both ends of the axis is positive; for a total decrease of at least one
it is at most this decrease and more than a tenth of it. -/
theorem margin (decr : ℚ) : 0 < padding decr ∧
    (decr ≤ -1 → padding decr ≤ -decr ∧ -decr < 10 * padding decr) := by
  constructor
  · unfold padding
    split_ifs
    · positivity
    · norm_num
  · intro h
    unfold padding
    rw [if_pos (by linarith)]
    exact Formatter.Props.intLog10_large (by linarith)

theorem sum_take_nonneg {l : List ℚ} (h : ∀ x ∈ l, 0 ≤ x) (i : ℕ) :
    0 ≤ (l.take i).sum ∧ (l.take i).sum ≤ l.sum := by
  have h1 : 0 ≤ (l.take i).sum := List.sum_nonneg fun x hx => h x (List.mem_of_mem_take hx)
  have h2 : 0 ≤ (l.drop i).sum := List.sum_nonneg fun x hx => h x (List.mem_of_mem_drop hx)
  have h3 : (l.take i).sum + (l.drop i).sum = l.sum := by
    rw [← List.sum_append, List.take_append_drop]
  exact ⟨h1, by linarith⟩

theorem sum_nonpos {l : List ℚ} (h : ∀ x ∈ l, x ≤ 0) : l.sum ≤ 0 := by
  induction l with
  | nil => simp
  | cons x l ih =>
    rw [List.sum_cons]
    linarith [h x (by simp), ih fun y hy => h y (by simp [hy])]

theorem sum_take_nonpos {l : List ℚ} (h : ∀ x ∈ l, x ≤ 0) (i : ℕ) :
    (l.take i).sum ≤ 0 ∧ l.sum ≤ (l.take i).sum := by
  have h1 : (l.take i).sum ≤ 0 := sum_nonpos fun x hx => h x (List.mem_of_mem_take hx)
  have h2 : (l.drop i).sum ≤ 0 := sum_nonpos fun x hx => h x (List.mem_of_mem_drop hx)
  have h3 : (l.take i).sum + (l.drop i).sum = l.sum := by
    rw [← List.sum_append, List.take_append_drop]
  exact ⟨h1, by linarith⟩

theorem mem_barsFrom {acc : ℚ} {l : List Row} {b : Bar} (h : b ∈ barsFrom acc l) :
    ∃ i : ℕ, b.stop = acc + ((l.map (·.2)).take i).sum := by
  induction l generalizing acc with
  | nil => simp [barsFrom] at h
  | cons r l ih =>
    simp only [barsFrom, List.mem_cons] at h
    rcases h with rfl | h
    · exact ⟨1, by simp [bar]⟩
    · obtain ⟨i, hi⟩ := ih h
      exact ⟨i + 1, by simp [hi]; ring⟩

theorem sumDecr_rows {total0 : ℚ} (h0 : 0 ≤ total0) (opt non : List (String × Num)) :
    sumDecr (waterfallRows total0 opt non) = total (sortUp (negRows (deltas opt non))) := by
  have e1 : (deltaData opt non).filter (fun r => decide (r.2 < 0))
      = sortUp (negRows (deltas opt non)) := by
    unfold deltaData
    rw [List.filter_append, List.filter_eq_self.2, List.filter_eq_nil_iff.2, List.append_nil]
    · intro a ha
      simpa using mem_pos ((sortDown_perm _).mem_iff.1 ha)
    · intro a ha
      simpa using mem_neg ((sortUp_perm _).mem_iff.1 ha)
  unfold sumDecr waterfallRows total
  rw [List.filter_cons_of_neg (by simpa using h0), List.filter_append, e1]
  simp

/-- **C77 (axis).** All ends of bars lie in the section of the axis that is shown exactly if the total
before the optimization does; in particular if the optimization does not lower the total. -/
theorem axis_shows_bars (opt non : List (String × ℚ)) (h : SameChannels opt non)
    (h0 : 0 ≤ total non) :
    let d := domain (total non) (total opt) (waterfallRows (total non) (known opt) (known non))
    ((∀ b ∈ bars (total non) (known opt) (known non), d.1 ≤ b.stop ∧ b.stop ≤ d.2) ↔
      total non ≤ d.2) ∧
    (total non ≤ total opt → total non ≤ d.2) := by
  intro d
  obtain ⟨hp, ht⟩ := changes_add_up opt non h
  have hd := sumDecr_rows h0 (known opt) (known non)
  set N := sortUp (negRows (deltas (known opt) (known non))) with hN
  set P := sortDown (posRows (deltas (known opt) (known non))) with hP
  have hsum : total (deltaData (known opt) (known non)) = total N + total P := by
    unfold deltaData total
    rw [List.map_append, List.sum_append]
  have hNneg : ∀ x ∈ N.map (·.2), x ≤ 0 := by
    intro x hx
    obtain ⟨r, hr, rfl⟩ := List.mem_map.1 hx
    exact (mem_neg ((sortUp_perm _).mem_iff.1 hr)).le
  have hPpos : ∀ x ∈ P.map (·.2), 0 ≤ x := by
    intro x hx
    obtain ⟨r, hr, rfl⟩ := List.mem_map.1 hx
    exact mem_pos ((sortDown_perm _).mem_iff.1 hr)
  have hNle : total N ≤ 0 := sum_nonpos hNneg
  have hPge : 0 ≤ total P := List.sum_nonneg hPpos
  have hpad := (margin (total N)).1
  have hd1 : d.1 = total non + total N - padding (total N) := by
    simp only [d, domain, hd]
  have hd2 : d.2 = total opt + padding (total N) := by
    simp only [d, domain, hd]
  have hfirst : ∃ b ∈ bars (total non) (known opt) (known non), b.stop = total non := by
    refine ⟨bar (nonOptimized, total non) (0 + total non), ?_, by simp [bar]⟩
    simp [bars, waterfallRows, barsFrom]
  refine ⟨⟨fun hb => ?_, fun hle b hb => ?_⟩, fun hle => by rw [hd2]; linarith⟩
  · obtain ⟨b, hb1, hb2⟩ := hfirst
    rw [← hb2]; exact (hb b hb1).2
  · have key : total non + total N ≤ b.stop ∧ (b.stop ≤ total non ∨ b.stop ≤ total opt) := by
      unfold bars waterfallRows at hb
      simp only [barsFrom, List.mem_cons, zero_add, barsFrom_append, List.mem_append,
        List.not_mem_nil, or_false] at hb
      rcases hb with rfl | hb | rfl
      · simp only [bar]; exact ⟨by linarith, Or.inl le_rfl⟩
      · obtain ⟨i, hi⟩ := mem_barsFrom hb
        rw [hi]
        unfold deltaData
        rw [← hN, ← hP, List.map_append, List.take_append, List.sum_append]
        obtain ⟨n1, n2⟩ := sum_take_nonpos hNneg i
        obtain ⟨p1, p2⟩ := sum_take_nonneg hPpos (i - (N.map (·.2)).length)
        have e1 : total N = (N.map (·.2)).sum := rfl
        have e2 : total P = (P.map (·.2)).sum := rfl
        refine ⟨by linarith, ?_⟩
        rcases Nat.le_total i (N.map (·.2)).length with hle' | hle'
        · left
          rw [Nat.sub_eq_zero_of_le hle', List.take_zero, List.sum_nil]
          linarith
        · right
          rw [List.take_of_length_le hle']
          linarith
      · simp only [bar, add_zero]
        refine ⟨by rw [hsum]; linarith, Or.inr ?_⟩
        rw [ht]; linarith
    rw [hd1]
    refine ⟨by linarith [key.1], ?_⟩
    rcases key.2 with h1 | h1
    · exact h1.trans hle
    · rw [hd2]; linarith

/-- **C77 (finding).** If the optimization lowers the total outcome (as a flexible budget may, by saving
spend), the bar of the total before the optimization can end beyond the axis, where it is cut off, and the
bars of the decreases are not visible at all. -/
theorem axis_cuts_off : ∃ (opt non : List (String × ℚ)), SameChannels opt non ∧
    domain (total non) (total opt) (waterfallRows (total non) (known opt) (known non)) = (30, 50) ∧
    bars (total non) (known opt) (known non)
      = [⟨"non_optimized", 0, 100, 100⟩, ⟨"tv", 100, 60, -40⟩, ⟨"web", 60, 40, -20⟩,
         ⟨"optimized", 0, 40, 40⟩] := by
  refine ⟨[("web", 10), ("tv", 30)], [("web", 30), ("tv", 70)], rfl, ?_, by decide +kernel⟩
  have e : sumDecr (waterfallRows (total [("web", 30), ("tv", 70)])
      (known [("web", 10), ("tv", 30)]) (known [("web", 30), ("tv", 70)])) = -60 := by decide +kernel
  have hlog : Int.log 10 (60 : ℚ) = 1 := by
    have h1 := Int.log_natCast 10 60 (R := ℚ)
    have h2 : Nat.log 10 60 = 1 := by norm_num
    rw [h2] at h1
    simpa using h1
  unfold domain
  rw [e]
  unfold padding Formatter.intLog10
  norm_num [hlog, total]

/-! ### The channels of the response curves -/

/-- **C77 (top channels).** More channels than there are cannot be asked for.  Otherwise the wanted number
of channels is chosen, in decreasing order of optimized spend, and no other channel has more spend than a
chosen one. -/
theorem top_channels (spend : List (String × ℚ)) (n : ℕ) :
    ((topChannels spend n).isSome ↔ n ≤ spend.length) ∧
    ∀ l, topChannels spend n = some l → ∃ chosen others : List (String × ℚ),
      (chosen ++ others).Perm spend ∧ chosen.map (·.1) = l ∧ l.length = n ∧
      (chosen.Pairwise fun a b => b.2 ≤ a.2) ∧ ∀ a ∈ chosen, ∀ b ∈ others, b.2 ≤ a.2 := by
  unfold topChannels
  by_cases h : (n : ℤ) > spend.length
  · rw [if_pos h]
    refine ⟨⟨by simp, fun hn => ?_⟩, by simp⟩
    exact absurd h (by push_cast; omega)
  · rw [if_neg h]
    have hn : n ≤ spend.length := by omega
    refine ⟨⟨fun _ => hn, fun _ => rfl⟩, ?_⟩
    intro l hl
    simp only [Option.some.injEq] at hl
    unfold topChannels.pySlice at hl
    rw [if_pos (by positivity), Int.toNat_natCast] at hl
    have hs := sortDown_sorted spend
    rw [← List.take_append_drop n (sortDown spend), List.pairwise_append] at hs
    refine ⟨(sortDown spend).take n, (sortDown spend).drop n, ?_, ?_, ?_, hs.1, hs.2.2⟩
    · rw [List.take_append_drop]; exact sortDown_perm _
    · rw [List.map_take]; exact hl
    · rw [← hl, List.length_take, List.length_map, (sortDown_perm spend).length_eq]
      omega

example : topChannels [("tv", 5), ("radio", 1), ("web", 9)] 2 = some ["web", "tv"] := by decide +kernel

/-- **C77 (finding).** A negative number of channels is accepted; it leaves out that many of the channels
with least spend. -/
theorem negative_number_accepted :
    chosenChannels [("tv", 5), ("radio", 1), ("web", 9)] (some (-1)) = some ["web", "tv"] ∧
    chosenChannels [("tv", 5), ("radio", 1), ("web", 9)] (some 0) = some ["tv", "radio", "web"] := by
  decide +kernel

/-! ### The curves -/

theorem foldl_max_ge (l : List ℚ) (a : ℚ) : a ≤ l.foldl max a ∧ ∀ x ∈ l, x ≤ l.foldl max a := by
  induction l generalizing a with
  | nil => simp
  | cons b l ih =>
    obtain ⟨h1, h2⟩ := ih (max a b)
    refine ⟨(le_max_left a b).trans h1, ?_⟩
    intro x hx
    rcases List.mem_cons.1 hx with rfl | hx
    · exact (le_max_right a x).trans h1
    · exact h2 x hx

theorem le_maxOf {l : List ℚ} {x : ℚ} (h : x ∈ l) : x ≤ maxOf l := by
  cases l with
  | nil => simp at h
  | cons a l =>
    rcases List.mem_cons.1 h with rfl | h
    · exact (foldl_max_ge l x).1
    · exact (foldl_max_ge l a).2 x h

theorem mem_curve {ub ratio : List ℚ} {x : ℚ} : x ∈ curveMultipliers ub ratio ↔
    ∃ k : ℕ, x = k / 100 ∧ x < upperLimit ub ratio := by
  unfold curveMultipliers curveStep
  simp only [List.mem_map, List.mem_range]
  constructor
  · rintro ⟨k, hk, rfl⟩
    refine ⟨k, by ring, ?_⟩
    have h1 : (k : ℤ) < ⌈upperLimit ub ratio / (1 / 100)⌉ := by omega
    have h2 := Int.lt_ceil.1 h1
    push_cast at h2
    linarith
  · rintro ⟨k, rfl, hk⟩
    refine ⟨k, ?_, by ring⟩
    have : (k : ℤ) < ⌈upperLimit ub ratio / (1 / 100)⌉ := by
      rw [Int.lt_ceil]
      push_cast
      linarith
    omega

/-- The bound of channel `i`: a single bound holds for all channels. -/
theorem bound_multiplier {bounds ratio : List ℚ} {i : ℕ} {b r : ℚ}
    (hb : (bounds = [b] ∨ (bounds.length ≠ 1 ∧ bounds[i]? = some b))) (hr : ratio[i]? = some r) :
    (boundMultipliers bounds ratio)[i]? = some (b * r) := by
  have hi : i < ratio.length := by
    by_contra h
    rw [List.getElem?_eq_none (by omega)] at hr
    simp at hr
  unfold boundMultipliers
  rw [List.getElem?_zipWith, hr]
  rcases hb with rfl | ⟨h1, h2⟩
  · rw [if_pos (by simp), List.getElem?_replicate, if_pos hi]
    rfl
  · rw [if_neg h1, h2]

/-- **C77 (curves).** The response curves of a result are computed at the multipliers 0, 0.01, 0.02, ...;
the historical spend is one of them, and for every channel they go beyond its upper bound by almost 0.5. -/
theorem curve_points (ubounds ratio : List ℚ) :
    (∃ L, 2 ≤ L ∧ (∀ x, x ∈ curveMultipliers ubounds ratio ↔ ∃ k : ℕ, x = k / 100 ∧ x < L)) ∧
    0 ∈ curveMultipliers ubounds ratio ∧ 1 ∈ curveMultipliers ubounds ratio ∧
    (curveMultipliers ubounds ratio).Pairwise (· < ·) ∧
    ∀ (i : ℕ) b r, (ubounds = [b] ∨ (ubounds.length ≠ 1 ∧ ubounds[i]? = some b)) →
      ratio[i]? = some r → 0 ≤ b * r →
      ∃ x ∈ curveMultipliers ubounds ratio, b * r + 49 / 100 ≤ x := by
  have h2 : 2 ≤ upperLimit ubounds ratio := le_max_right _ _
  refine ⟨⟨upperLimit ubounds ratio, h2, fun x => mem_curve⟩, ?_, ?_, ?_, ?_⟩
  · exact mem_curve.2 ⟨0, by norm_num, by linarith⟩
  · exact mem_curve.2 ⟨100, by norm_num, by linarith⟩
  · unfold curveMultipliers curveStep
    rw [List.pairwise_map]
    refine List.pairwise_lt_range.imp fun {a b} h => ?_
    have : (a : ℚ) < b := by exact_mod_cast h
    linarith
  · intro i b r hb hr h0
    have hmem : b * r ∈ boundMultipliers ubounds ratio :=
      List.mem_of_getElem? (bound_multiplier hb hr)
    have hL : b * r + 1 / 2 ≤ upperLimit ubounds ratio := by
      refine le_trans ?_ (le_max_left _ _)
      have := le_maxOf hmem
      unfold spendPadding
      linarith
    obtain ⟨k, hk⟩ : ∃ k : ℕ, (k : ℤ) = ⌈(b * r + 49 / 100) * 100⌉ :=
      ⟨_, Int.toNat_of_nonneg (Int.ceil_nonneg (by linarith))⟩
    have h1 := Int.le_ceil ((b * r + 49 / 100) * 100)
    have h3 := Int.ceil_lt_add_one ((b * r + 49 / 100) * 100)
    rw [← hk] at h1 h3
    push_cast at h1 h3
    exact ⟨k / 100, mem_curve.2 ⟨k, rfl, by linarith⟩, by linarith⟩

example : (curveMultipliers [3] [1, 1 / 2]).length = 350 ∧ (curveMultipliers [1] [1]).length = 200 := by
  decide +kernel

/-- **C77 (constraints).** A point of a curve is drawn as within the constraint exactly if its spend lies
between the bounds, which are relative to the spend before the optimization. -/
theorem constraint_shown (non hist : List ℚ) (i : ℕ) (n h : ℚ) (hn : non[i]? = some n)
    (hh : hist[i]? = some h) (hpos : 0 < h) :
    ∃ r, (spendRatio non hist)[i]? = some r ∧ ∀ k lb ub : ℚ,
      (withinLabel k (lb * r) (ub * r) = true ↔ lb * n ≤ k * h ∧ k * h ≤ ub * n) := by
  refine ⟨n / h, ?_, ?_⟩
  · unfold spendRatio
    rw [List.getElem?_zipWith, hn, hh]
    simp [hpos.ne']
  · intro k lb ub
    unfold withinLabel
    rw [decide_eq_true_eq]
    have e1 : lb * (n / h) ≤ k ↔ lb * n ≤ k * h := by
      rw [← mul_div_assoc, div_le_iff₀ hpos]
    have e2 : k ≤ ub * (n / h) ↔ k * h ≤ ub * n := by
      rw [← mul_div_assoc, le_div_iff₀ hpos]
    rw [e1, e2]

/-- **C77 (lines).** Every point of a curve with positive spend is drawn, below or above the lower bound;
only the point at the bound belongs to both lines.  The origin is not drawn. -/
theorem points_drawn (k lower : ℚ) :
    (k ≠ 0 → (inBelow k lower = true ∨ inAbove k lower = true)) ∧
    (inBelow k lower = true ∧ inAbove k lower = true ↔ k ≠ 0 ∧ k = lower) ∧
    inBelow 0 lower = false ∧ inAbove 0 lower = false := by
  simp only [inBelow, inAbove, decide_eq_true_eq]
  refine ⟨fun h => ?_, ⟨?_, ?_⟩, by simp, by simp⟩
  · rcases le_total k lower with h1 | h1
    · exact Or.inl ⟨h, h1⟩
    · exact Or.inr ⟨h, h1⟩
  · rintro ⟨⟨h0, h1⟩, -, h2⟩
    exact ⟨h0, le_antisymm h1 h2⟩
  · rintro ⟨h0, h1⟩
    exact ⟨⟨h0, h1.le⟩, h0, h1.ge⟩

/-! ### The allocation table -/

instance : IsTotal (String × ℚ × ℚ) (fun a b => b.2.2 ≤ a.2.2) := ⟨fun a b => le_total b.2.2 a.2.2⟩
instance : IsTrans (String × ℚ × ℚ) (fun a b => b.2.2 ≤ a.2.2) := ⟨fun _ _ _ h1 h2 => h2.trans h1⟩

/-- **C77 (allocation table).** The rows of the table are the channels, in decreasing order of their
optimized share; both percentages of a row are the shares of the channel rounded to whole percents. -/
theorem allocation_table (channels : List String) (non opt : List ℚ) :
    ∃ rows : List (String × ℚ × ℚ), rows.Perm (channels.zip (non.zip opt)) ∧
      (rows.Pairwise fun a b => b.2.2 ≤ a.2.2) ∧
      List.Forall₂ (fun r t => t.channel = r.1 ∧ |(t.non : ℚ) - 100 * r.2.1| ≤ 1 / 2 ∧
        |(t.opt : ℚ) - 100 * r.2.2| ≤ 1 / 2) rows (allocationTable channels non opt) := by
  refine ⟨_, List.perm_insertionSort (fun a b => b.2.2 ≤ a.2.2) _,
    List.pairwise_insertionSort (fun a b : String × ℚ × ℚ => b.2.2 ≤ a.2.2) _, ?_⟩
  unfold allocationTable
  rw [List.forall₂_map_right_iff, List.forall₂_same]
  intro r _
  have h1 := abs_rint_sub (r.2.1 * 100)
  have h2 := abs_rint_sub (r.2.2 * 100)
  refine ⟨rfl, ?_, ?_⟩
  · rw [mul_comm 100]; exact h1
  · rw [mul_comm 100]; exact h2

/-- **C77 (percentages).** If the optimized shares add up to one, the shown percentages add up to one
hundred up to half a percent for each channel. -/
theorem percentages_add_up (channels : List String) (non opt : List ℚ)
    (h1 : channels.length = opt.length) (h2 : non.length = opt.length) (hs : opt.sum = 1) :
    |(((allocationTable channels non opt).map (·.opt)).sum : ℚ) - 100| ≤ (opt.length : ℚ) / 2 := by
  obtain ⟨rows, hp, -, hf⟩ := allocation_table channels non opt
  have e1 : (channels.zip (non.zip opt)).map (·.2.2) = opt := by
    have : (fun r : String × ℚ × ℚ => r.2.2) = Prod.snd ∘ Prod.snd := rfl
    rw [this, ← List.map_map, List.map_snd_zip (by simp [h2, h1]), List.map_snd_zip (by omega)]
  have e2 : (rows.map (·.2.2)).sum = 1 := by
    rw [(hp.map _).sum_eq, e1, hs]
  have e3 : rows.length = opt.length := by
    rw [hp.length_eq]
    simp [h1, h2]
  have key : ∀ (rows : List (String × ℚ × ℚ)) (t : List AllocRow),
      List.Forall₂ (fun r t => t.channel = r.1 ∧ |(t.non : ℚ) - 100 * r.2.1| ≤ 1 / 2 ∧
        |(t.opt : ℚ) - 100 * r.2.2| ≤ 1 / 2) rows t →
      |((t.map (·.opt)).sum : ℚ) - 100 * (rows.map (·.2.2)).sum| ≤ (rows.length : ℚ) / 2 := by
    intro rows t hf
    induction hf with
    | nil => simp
    | @cons a b l l' hab _ ih =>
      obtain ⟨-, -, h⟩ := hab
      simp only [List.map_cons, List.sum_cons, List.length_cons]
      push_cast
      rw [abs_le] at h ih ⊢
      constructor <;> linarith [h.1, h.2, ih.1, ih.2]
  have := key _ _ hf
  rw [e2, e3, mul_one] at this
  exact this

example : allocationTable ["tv", "radio", "web"] [1 / 2, 1 / 4, 1 / 4] [1 / 3, 1 / 6, 1 / 2]
    = [⟨"web", 25, 50⟩, ⟨"tv", 50, 33⟩, ⟨"radio", 25, 17⟩] := by decide +kernel

/-! ### The selected times -/

/-- **C77 (times).** For data with a changed number of times, the times of which are written as the code
writes dates, the times selected by two limits are the times between them, as labels and as flags alike. -/
theorem times_selected (read : String → Option CDate) (write : CDate → String) (modelDates : List CDate)
    (times : List String) (dates : List CDate) (hread : times.mapM read = some dates)
    (hvalid : ∀ d ∈ dates, d.Valid) (hne : dates ≠ [])
    (hw : dates.map write = times) (hinj : ∀ a ∈ dates, ∀ b ∈ dates, write a = write b → a = b)
    (start stop : Option CDate) (hs : ¬ (start = none ∧ stop = none)) (r : Option Times)
    (asLabels : Bool)
    (h : expandTimes read write modelDates true (some times) start stop asLabels = .ok r) :
    r = some (if asLabels then
        .labels ((dates.filter fun d => decide (TimeCoordinates.Spec.Within start stop d)).map write)
      else .flags (dates.map fun d => decide (TimeCoordinates.Spec.Within start stop d))) := by
  unfold expandTimes at h
  rw [if_neg hs, if_neg (by simp)] at h
  simp only [hread] at h
  cases hc : TimeCoordinates.create dates with
  | error e => simp [hc] at h
  | ok ds =>
    have hds : ds = dates := by
      unfold TimeCoordinates.create at hc
      split_ifs at hc
      exact (Except.ok.inj hc).symm
    subst hds
    simp only [hc] at h
    cases he : TimeCoordinates.expandSelected ds start stop with
    | error e => simp [he] at h
    | ok sel =>
      simp only [he, Except.ok.injEq] at h
      have hsel := TimeCoordinates.Props.selection_exact ds hne hvalid start stop sel he
      rw [hsel] at h
      have hmem : ∀ d ∈ ds, (write d ∈ (ds.filter fun d =>
          decide (TimeCoordinates.Spec.Within start stop d)).map write
          ↔ TimeCoordinates.Spec.Within start stop d) := by
        intro d hd
        rw [List.mem_map]
        constructor
        · rintro ⟨a, ha, e⟩
          obtain ⟨ha1, ha2⟩ := List.mem_filter.1 ha
          rw [← hinj a ha1 d hd e]
          simpa using ha2
        · intro hd2
          exact ⟨d, List.mem_filter.2 ⟨hd, by simpa using hd2⟩, rfl⟩
      rw [← h]
      congr 1
      cases asLabels with
      | true =>
        simp only [if_true]
        rw [← hw, List.filter_map]
        congr 2
        apply List.filter_congr
        intro d hd
        simp only [Function.comp, hmem d hd]
      | false =>
        simp only [Bool.false_eq_true, if_false]
        rw [← hw, List.map_map]
        congr 1
        apply List.map_congr_left
        intro d hd
        simp only [Function.comp, hmem d hd]

/-- **C77 (times of the model).** With the times of the model, the labels of the dates between the two
limits are selected; no restriction is returned if there are no limits or all times are selected. -/
theorem model_times_selected (read : String → Option CDate) (write : CDate → String)
    (modelDates : List CDate) (hvalid : ∀ d ∈ modelDates, d.Valid) (hne : modelDates ≠ [])
    (newTimes : Option (List String)) (start stop : Option CDate) (r : Option Times) (asLabels : Bool)
    (h : expandTimes read write modelDates false newTimes start stop asLabels = .ok r) :
    (∀ t, r = some t → t = .labels ((modelDates.filter fun d =>
      decide (TimeCoordinates.Spec.Within start stop d)).map write)) ∧
    (r = none → ∀ d ∈ modelDates, TimeCoordinates.Spec.Within start stop d) := by
  unfold expandTimes at h
  by_cases hs : start = none ∧ stop = none
  · rw [if_pos hs] at h
    obtain ⟨rfl, rfl⟩ := hs
    have : r = none := (Except.ok.inj h).symm
    subst this
    refine ⟨by simp, ?_⟩
    intro _ d _
    exact ⟨by simp, by simp⟩
  · rw [if_neg hs, if_pos (by simp)] at h
    cases he : TimeCoordinates.expandSelected modelDates start stop with
    | error e => simp [he] at h
    | ok sel =>
      simp only [he, Except.ok.injEq] at h
      have hsel := TimeCoordinates.Props.selection_exact modelDates hne hvalid start stop sel he
      cases sel with
      | none =>
        simp only [Option.map_none] at h
        subst h
        refine ⟨by simp, ?_⟩
        intro _ d hd
        simp only [Option.getD_none] at hsel
        rw [hsel] at hd
        simpa using (List.mem_filter.1 hd).2
      | some l =>
        simp only [Option.map_some] at h
        subst h
        refine ⟨?_, by simp⟩
        intro t ht
        simp only [Option.getD_some] at hsel
        rw [← Option.some.inj ht, hsel]

/-- A reader that also accepts the time of day, as pandas does. -/
def demoRead (s : String) : Option CDate :=
  if s = "2024-01-01 00:00:00" then some ⟨2024, 1, 1⟩
  else if s = "2024-01-08 00:00:00" then some ⟨2024, 1, 8⟩
  else if s = "2024-01-01" then some ⟨2024, 1, 1⟩
  else if s = "2024-01-08" then some ⟨2024, 1, 8⟩ else none

/-- The writer of the two dates of the example. -/
def demoWrite (d : CDate) : String := if d = ⟨2024, 1, 1⟩ then "2024-01-01" else "2024-01-08"

example : expandTimes demoRead demoWrite [] true (some ["2024-01-01", "2024-01-08"])
    (some ⟨2024, 1, 8⟩) none false = .ok (some (.flags [false, true])) := by decide +kernel

/-- **C77 (finding).** Times of new data that are written in another way are read and the limits are
checked against them, but no time is selected, without an error. -/
theorem other_form_selects_nothing : expandTimes demoRead demoWrite [] true
    (some ["2024-01-01 00:00:00", "2024-01-08 00:00:00"]) (some ⟨2024, 1, 8⟩) none false
      = .ok (some (.flags [false, false])) := by decide +kernel

end Verif.ResultCharts.Props
