import Verif.Model.SummaryTable
import Verif.Spec.SummaryTable
import Verif.Props.Formatter
import Mathlib.Tactic

/-!
# C84: the table of the media summary as text
-/

namespace Verif.SummaryTable.Props

open Verif Verif.Summary Verif.SummaryTable Verif.SummaryTable.Spec
open Verif.Formatter (Text intDigits lastDigits)
open Verif.Formatter.Spec (natValue IsDigit)
open Verif.Formatter.Props

/-! ### Commas -/

/-- Reversed groups. -/
theorem commasRev_groups : ∀ (n : ℕ) (l : Text), l.length ≤ n → l ≠ [] →
    ∃ last : Text, ∃ groups : List Text, commasRev l = groups.flatMap (fun g => g ++ [',']) ++ last ∧
      l = groups.flatten ++ last ∧ 1 ≤ last.length ∧ last.length ≤ 3 ∧ ∀ g ∈ groups, g.length = 3
  | 0, l, h, h0 => by
    simp only [Nat.le_zero, List.length_eq_zero_iff] at h
    exact absurd h h0
  | n + 1, l, h, h0 => by
    match l, h, h0 with
    | [a], _, _ => exact ⟨[a], [], rfl, rfl, by simp, by simp, by simp⟩
    | [a, b], _, _ => exact ⟨[a, b], [], rfl, rfl, by simp, by simp, by simp⟩
    | [a, b, c], _, _ => exact ⟨[a, b, c], [], rfl, rfl, by simp, by simp, by simp⟩
    | a :: b :: c :: d :: l, h, _ =>
      obtain ⟨last, groups, h1, h2, h3, h4, h5⟩ := commasRev_groups n (d :: l)
        (by simp only [List.length_cons] at h ⊢; omega) (by simp)
      refine ⟨last, [a, b, c] :: groups, ?_, ?_, h3, h4, ?_⟩
      · rw [commasRev, h1]
        simp
      · rw [h2]
        simp
      · intro g hg
        rcases List.mem_cons.1 hg with rfl | hg
        · rfl
        · exact h5 g hg

/-- Grouped digits are digits in groups of three. -/
theorem grouped_thousands (l : Text) (h0 : l ≠ []) : Thousands (grouped l) l := by
  obtain ⟨last, groups, h1, h2, h3, h4, h5⟩ := commasRev_groups l.reverse.length l.reverse le_rfl
    (by simpa using h0)
  refine ⟨last.reverse, (groups.map List.reverse).reverse, ?_, ?_, by simpa using h3, by simpa using h4, ?_⟩
  · unfold grouped
    rw [h1, List.reverse_append]
    congr 1
    rw [List.flatMap_def, List.reverse_flatten, List.flatMap_def]
    congr 1
    rw [List.map_map, ← List.map_reverse, ← List.map_reverse, List.map_map]
    apply List.map_congr_left
    intro g _
    simp
  · have := congrArg List.reverse h2
    rw [List.reverse_reverse, List.reverse_append, List.reverse_flatten] at this
    exact this
  · intro g hg
    simp only [List.mem_reverse, List.mem_map] at hg
    obtain ⟨g', hg', rfl⟩ := hg
    simpa using h5 g' hg'

/-! ### Numbers -/

/-- What a reader reads. -/
def shown (x : ℚ) (p : ℕ) : ℚ :=
  (if x < 0 then -1 else 1) * (((rint (|x| * 10 ^ p)).toNat : ℚ) / 10 ^ p)

theorem withCommas_reads (x : ℚ) (p : ℕ) : Reads (withCommas x p) p (shown x p) := by
  set m := (rint (|x| * 10 ^ p)).toNat with hm
  refine ⟨decide (x < 0), grouped (intDigits (m / 10 ^ p) (m / 10 ^ p)),
    intDigits (m / 10 ^ p) (m / 10 ^ p), lastDigits p m, ?_,
    grouped_thousands _ (intDigits_ne _ _), intDigits_digits _ _ le_rfl, (lastDigits_digits p m).1,
    (lastDigits_digits p m).2, ?_, ?_⟩
  · unfold withCommas
    simp only [decide_eq_true_eq, ← hm]
  · intro h
    have := intDigits_head _ _ le_rfl h
    exact this.1
  · unfold shown
    simp only [decide_eq_true_eq, ← hm]
    rw [intDigits_value _ _ le_rfl, lastDigits_value]
    congr 1
    have hp : (10 ^ p : ℚ) ≠ 0 := by positivity
    have := Nat.div_add_mod m (10 ^ p)
    have h2 : (m : ℚ) = (10 ^ p : ℚ) * ((m / 10 ^ p : ℕ) : ℚ) + ((m % 10 ^ p : ℕ) : ℚ) := by
      exact_mod_cast this.symm
    rw [div_eq_iff hp, add_mul, div_mul_cancel₀ _ hp, h2]
    ring_nf

theorem shown_close (x : ℚ) (p : ℕ) : |shown x p - x| ≤ 1 / 10 ^ p / 2 := by
  have hp : (0 : ℚ) < 10 ^ p := by positivity
  set m := (rint (|x| * 10 ^ p)).toNat with hm
  have hround := abs_rint_sub (|x| * 10 ^ p)
  rw [← toNat_rint (by positivity), ← hm] at hround
  have herr : |(m : ℚ) / 10 ^ p - (|x|)| ≤ 1 / 10 ^ p / 2 := by
    have e : (m : ℚ) / 10 ^ p - (|x|) = ((m : ℚ) - |x| * 10 ^ p) * (1 / 10 ^ p) := by field_simp
    rw [e, abs_mul, abs_of_pos (show (0 : ℚ) < 1 / 10 ^ p by positivity)]
    have : (0 : ℚ) < 1 / 10 ^ p := by positivity
    nlinarith
  unfold shown
  rw [← hm]
  by_cases h : x < 0
  · rw [if_pos h]
    rw [abs_of_neg h] at herr
    have e : -1 * ((m : ℚ) / 10 ^ p) - x = -((m : ℚ) / 10 ^ p - -x) := by ring
    rw [e, abs_neg]
    exact herr
  · rw [if_neg h]
    rw [abs_of_nonneg (not_lt.1 h)] at herr
    rw [one_mul]
    exact herr

theorem shown_mono {x y : ℚ} (h : x ≤ y) (p : ℕ) : shown x p ≤ shown y p := by
  have hp : (0 : ℚ) < 10 ^ p := by positivity
  have key : ∀ a b : ℚ, 0 ≤ a → a ≤ b →
      ((rint (a * 10 ^ p)).toNat : ℚ) / 10 ^ p ≤ ((rint (b * 10 ^ p)).toNat : ℚ) / 10 ^ p := by
    intro a b ha hab
    apply div_le_div_of_nonneg_right _ hp.le
    exact_mod_cast Int.toNat_le_toNat (rint_mono (mul_le_mul_of_nonneg_right hab hp.le))
  have pos : ∀ a : ℚ, (0 : ℚ) ≤ ((rint (a * 10 ^ p)).toNat : ℚ) / 10 ^ p := fun a => by positivity
  unfold shown
  by_cases hy : y < 0
  · have hx : x < 0 := lt_of_le_of_lt h hy
    rw [if_pos hx, if_pos hy, abs_of_neg hx, abs_of_neg hy]
    have := key (-y) (-x) (by linarith) (by linarith)
    linarith
  · rw [if_neg hy]
    by_cases hx : x < 0
    · rw [if_pos hx]
      have h1 := pos |x|
      have h2 := pos |y|
      linarith
    · rw [if_neg hx, abs_of_nonneg (not_lt.1 hx), abs_of_nonneg (not_lt.1 hy)]
      have := key x y (not_lt.1 hx) h
      linarith

/-! ### The decimals -/

theorem foldl_minStep (l : List ℚ) (a : ℚ) :
    (l.map some).foldl minStep (some a) = some (l.foldl min a) := by
  induction l generalizing a with
  | nil => rfl
  | cons b l ih =>
    rw [List.map_cons, List.foldl_cons, List.foldl_cons, ← ih]
    congr 1
    unfold minStep
    by_cases h : b < a
    · simp only [if_pos h, min_eq_right h.le]
    · simp only [if_neg h, min_eq_left (not_lt.1 h)]

theorem foldl_min_lt (l : List ℚ) (a t : ℚ) : l.foldl min a < t ↔ a < t ∨ ∃ b ∈ l, b < t := by
  induction l generalizing a with
  | nil => simp
  | cons b l ih =>
    rw [List.foldl_cons, ih, min_lt_iff]
    simp only [List.mem_cons, exists_eq_or_imp]
    tauto

theorem belowOne_iff (l : List Num) (h : ∀ x ∈ l, x ≠ none) :
    belowOne l = true ↔ ∃ x : ℚ, some x ∈ l ∧ |x| < 1 := by
  obtain ⟨l', rfl⟩ : ∃ l' : List ℚ, l = l'.map some := by
    refine ⟨l.map (·.getD 0), ?_⟩
    rw [List.map_map]
    conv_lhs => rw [← List.map_id l]
    apply List.map_congr_left
    intro x hx
    cases x with
    | none => exact absurd rfl (h none hx)
    | some q => rfl
  cases l' with
  | nil => simp [belowOne]
  | cons a l' =>
    have e : ((l'.map some).map (Option.map abs) : List Num) = (l'.map abs).map some := by
      simp
    rw [List.map_cons]
    unfold belowOne
    simp only [Option.map_some]
    rw [e, foldl_minStep]
    simp only [decide_eq_true_eq, foldl_min_lt, List.mem_map, List.mem_cons]
    constructor
    · rintro (h | ⟨b, ⟨x, hx, rfl⟩, hb⟩)
      · exact ⟨a, Or.inl rfl, h⟩
      · exact ⟨x, Or.inr ⟨x, hx, rfl⟩, hb⟩
    · rintro ⟨x, (hx | ⟨y, hy, hx⟩), hlt⟩
      · obtain rfl := Option.some.inj hx
        exact Or.inl hlt
      · obtain rfl := Option.some.inj hx
        exact Or.inr ⟨_, ⟨_, hy, rfl⟩, hlt⟩

theorem given_iff (nonPaid : Bool) (v : Var) : v ∈ inputVars nonPaid ↔ Given nonPaid v := by
  cases nonPaid <;> cases v <;> simp [inputVars, Given]

theorem estimated_iff (nonPaid : Bool) (v : Var) : v ∈ resultVars nonPaid ↔ Estimated nonPaid v := by
  cases nonPaid <;> cases v <;> simp [resultVars, Estimated]

theorem mem_distributions (ip iq : Bool) (dist : Dist) : dist ∈ distributions ip iq ↔ Included ip iq dist := by
  cases ip <;> cases iq <;> cases dist <;> simp [distributions, Included]

theorem mem_statsOf (v : Var) (st : Stat) : st ∈ statsOf v ↔ (st = central v ∨ st = .ciLo ∨ st = .ciHi) := by
  cases v <;> cases st <;> simp [statsOf, central]

theorem mem_column (ds : Dataset) (nonPaid ip iq : Bool) (v : Var)
    (hv : v ∈ inputVars nonPaid ∨ v ∈ resultVars nonPaid) (hd : ip = true ∨ iq = true) (x : Num) :
    x ∈ column ds nonPaid (distributions ip iq) v ↔
      Value ds.names.length ds.input ds.result ip iq nonPaid v x := by
  unfold column Value
  simp only [List.mem_flatMap, List.mem_range, List.mem_map, mem_distributions, mem_statsOf]
  constructor
  · rintro ⟨c, hc, st, hst, dist, hdist, rfl⟩
    refine ⟨c, hc, ?_⟩
    unfold entry
    by_cases h : v ∈ inputVars nonPaid
    · rw [if_pos h]
      exact Or.inl ⟨(given_iff _ _).1 h, rfl⟩
    · rw [if_neg h]
      exact Or.inr ⟨(estimated_iff _ _).1 (hv.resolve_left h), dist, st, hdist, hst, rfl⟩
  · rintro ⟨c, hc, (⟨hg, rfl⟩ | ⟨he, dist, st, hdist, hst, rfl⟩)⟩
    · obtain ⟨dist, hdist⟩ : ∃ dist, Included ip iq dist := by
        rcases hd with h | h
        · exact ⟨.prior, Or.inl ⟨rfl, h⟩⟩
        · exact ⟨.posterior, Or.inr ⟨rfl, h⟩⟩
      refine ⟨c, hc, .ciLo, Or.inr (Or.inl rfl), dist, hdist, ?_⟩
      unfold entry
      rw [if_pos ((given_iff _ _).2 hg)]
    · refine ⟨c, hc, st, hst, dist, hdist, ?_⟩
      unfold entry
      rw [if_neg]
      intro h
      have := (given_iff _ _).1 h
      revert he this
      unfold Given Estimated
      cases v <;> simp

/-! ### The cells -/

theorem affixed_eq (nonPaid useRevenue : Bool) (currency : Text) (v : Var) (s : Text)
    (hv : v ∈ inputVars nonPaid ∨ v ∈ resultVars nonPaid) :
    affixed nonPaid useRevenue currency v s = before useRevenue currency v ++ s ++ after v := by
  cases nonPaid <;> cases useRevenue <;> cases v <;>
    simp_all [affixed, percentage, monetary, before, after, inputVars, resultVars]

theorem component (nonPaid useRevenue : Bool) (currency : Text) (v : Var) (p : ℕ) (x : Num)
    (hv : v ∈ inputVars nonPaid ∨ v ∈ resultVars nonPaid) :
    ShowsNum useRevenue currency v p (affixed nonPaid useRevenue currency v (numText x p)) x := by
  rw [affixed_eq _ _ _ _ _ hv]
  cases x with
  | none => rfl
  | some q => exact ⟨shown q p, _, rfl, withCommas_reads q p, shown_close q p⟩

theorem statsOf_eq (v : Var) : statsOf v = [central v, .ciLo, .ciHi] := by
  cases v <;> rfl

/-- **C84 (rows).** The table has one row for every channel, the total included, and every requested
distribution: the channels in their order, the prior before the posterior.  It is refused exactly if neither
distribution is requested. -/
theorem table_rows (paid all : Dataset) (useKpi : Bool) (currency : Text) (ip iq nonPaid : Bool) :
    (ip = false ∧ iq = false →
      summaryTable paid all useKpi currency ip iq nonPaid = .error .noDistribution) ∧
    (ip = true ∨ iq = true → ∃ rows, summaryTable paid all useKpi currency ip iq nonPaid = .ok rows ∧
      rows.map (fun r => (r.channel, r.dist)) =
        (if nonPaid then all else paid).names.flatMap fun n =>
          (if ip then [(n, Dist.prior)] else []) ++ (if iq then [(n, Dist.posterior)] else [])) := by
  constructor
  · rintro ⟨rfl, rfl⟩
    rfl
  · intro h
    have h0 : ¬ (!(iq || ip)) = true := by cases ip <;> cases iq <;> simp_all
    unfold summaryTable
    rw [if_neg h0]
    refine ⟨_, rfl, ?_⟩
    · rw [List.map_flatMap]
      have hn : ∀ names : List String, names.flatMap (fun n =>
          (if ip then [(n, Dist.prior)] else []) ++ (if iq then [(n, Dist.posterior)] else [])) =
          (List.range names.length).flatMap fun c =>
            (if ip then [(names.getD c "", Dist.prior)] else []) ++
              (if iq then [(names.getD c "", Dist.posterior)] else []) := by
        intro names
        have e : names = (List.range names.length).map fun c => names.getD c "" := by
          apply List.ext_getElem
          · simp
          · intro k h1 h2
            simp [List.getD_eq_getElem?_getD, h1]
        conv_lhs => rw [e]
        rw [List.flatMap_map]
      rw [hn]
      congr 1
      funext c
      cases ip <;> cases iq <;> simp [distributions]

/-- The rows of the table. -/
theorem row_eq {paid all : Dataset} {useKpi : Bool} {currency : Text} {ip iq nonPaid : Bool}
    {rows : List Row} (h : summaryTable paid all useKpi currency ip iq nonPaid = .ok rows)
    (hnd : (if nonPaid then all else paid).names.Nodup) {r : Row} (hr : r ∈ rows) {c : ℕ}
    (hc : (if nonPaid then all else paid).names[c]? = some r.channel) :
    (ip = true ∨ iq = true) ∧ r.text = rowText (if nonPaid then all else paid) nonPaid (!useKpi) currency
      (distributions ip iq) c r.dist := by
  unfold summaryTable at h
  by_cases h0 : (!(iq || ip)) = true
  · rw [if_pos h0] at h
    cases h
  · rw [if_neg h0] at h
    have h' := (Except.ok.inj h).symm
    subst h'
    constructor
    · cases ip <;> cases iq <;> simp_all
    · simp only [List.mem_flatMap, List.mem_range, List.mem_map] at hr
      obtain ⟨c', hc', dist, hdist, rfl⟩ := hr
      simp only at hc ⊢
      have hlt : c < (if nonPaid then all else paid).names.length := by
        by_contra hge
        rw [List.getElem?_eq_none (not_lt.1 hge)] at hc
        cases hc
      have : c = c' := by
        rw [List.getElem?_eq_getElem hlt, List.getD_eq_getElem?_getD, List.getElem?_eq_getElem hc',
          Option.getD_some] at hc
        exact (List.Nodup.getElem_inj_iff hnd).1 (Option.some.inj hc)
      rw [this]

/-- **C84 (cells).** For every quantity there is a number `p` of decimals such that every cell shows its
numbers with `p` decimals, commas, and units: what the data say as one number, an estimate as its central
value and the bounds of its interval.  The central value is the median for the cost per incremental KPI and
the mean otherwise.  `p` is two for effectiveness.  For another quantity without NaN it is one if some number
of the table is below one in absolute value, and zero otherwise. -/
theorem table_cells {paid all : Dataset} {useKpi : Bool} {currency : Text} {ip iq nonPaid : Bool}
    {rows : List Row} (h : summaryTable paid all useKpi currency ip iq nonPaid = .ok rows)
    (hnd : (if nonPaid then all else paid).names.Nodup) :
    ∃ p : Var → ℕ, p .effectiveness = 2 ∧
      (∀ v, v ≠ .effectiveness → (Given nonPaid v ∨ Estimated nonPaid v) →
        (∀ x, Value (if nonPaid then all else paid).names.length (if nonPaid then all else paid).input
          (if nonPaid then all else paid).result ip iq nonPaid v x → x ≠ none) →
        (p v = 1 ∧ ∃ x : ℚ, Value (if nonPaid then all else paid).names.length
            (if nonPaid then all else paid).input (if nonPaid then all else paid).result ip iq nonPaid v
            (some x) ∧ |x| < 1) ∨
        (p v = 0 ∧ ∀ x : ℚ, Value (if nonPaid then all else paid).names.length
            (if nonPaid then all else paid).input (if nonPaid then all else paid).result ip iq nonPaid v
            (some x) → 1 ≤ |x|)) ∧
      ∀ r ∈ rows, ∀ c : ℕ, (if nonPaid then all else paid).names[c]? = some r.channel → ∀ v,
        (Given nonPaid v → ∃ s, r.text v = some s ∧
          ShowsNum (!useKpi) currency v (p v) s ((if nonPaid then all else paid).input v c)) ∧
        (Estimated nonPaid v → ∃ a b d, r.text v = some (a ++ [' ', '('] ++ b ++ [',', ' '] ++ d ++ [')']) ∧
          ShowsNum (!useKpi) currency v (p v) a
            ((if nonPaid then all else paid).result v r.dist (central v) c) ∧
          ShowsNum (!useKpi) currency v (p v) b ((if nonPaid then all else paid).result v r.dist .ciLo c) ∧
          ShowsNum (!useKpi) currency v (p v) d
            ((if nonPaid then all else paid).result v r.dist .ciHi c)) ∧
        (¬ Given nonPaid v → ¬ Estimated nonPaid v → r.text v = none) := by
  set ds := if nonPaid then all else paid with hds
  have hd : ip = true ∨ iq = true := by
    by_contra hc
    push Not at hc
    have h1 : ip = false := by simpa using hc.1
    have h2 : iq = false := by simpa using hc.2
    subst h1 h2
    cases h
  refine ⟨decimals ds nonPaid (distributions ip iq), rfl, ?_, ?_⟩
  · intro v hv hge hnan
    have hin : v ∈ inputVars nonPaid ∨ v ∈ resultVars nonPaid := by
      rw [given_iff, estimated_iff]
      exact hge
    have hcol := belowOne_iff (column ds nonPaid (distributions ip iq) v) (by
      intro x hx
      exact hnan x ((mem_column ds nonPaid ip iq v hin hd x).1 hx))
    unfold decimals
    rw [if_neg hv]
    by_cases hb : belowOne (column ds nonPaid (distributions ip iq) v) = true
    · rw [if_pos hb]
      obtain ⟨x, hx, hlt⟩ := hcol.1 hb
      exact Or.inl ⟨rfl, x, (mem_column ds nonPaid ip iq v hin hd _).1 hx, hlt⟩
    · rw [if_neg hb]
      refine Or.inr ⟨rfl, fun x hx => ?_⟩
      by_contra hlt
      exact hb (hcol.2 ⟨x, (mem_column ds nonPaid ip iq v hin hd _).2 hx, not_le.1 hlt⟩)
  · intro r hr c hc v
    obtain ⟨-, e⟩ := row_eq h hnd hr hc
    rw [e]
    unfold rowText
    refine ⟨fun hg => ?_, fun he => ?_, fun hg he => ?_⟩
    · have hi := (given_iff nonPaid v).2 hg
      rw [if_pos hi]
      exact ⟨_, rfl, component _ _ _ _ _ _ (Or.inl hi)⟩
    · have hi := (estimated_iff nonPaid v).2 he
      have hn : v ∉ inputVars nonPaid := by
        intro hin
        have := (given_iff _ _).1 hin
        revert he this
        unfold Given Estimated
        cases v <;> simp
      rw [if_neg hn, if_pos hi, statsOf_eq]
      exact ⟨_, _, _, rfl, component _ _ _ _ _ _ (Or.inr hi), component _ _ _ _ _ _ (Or.inr hi),
        component _ _ _ _ _ _ (Or.inr hi)⟩
    · rw [if_neg (fun hin => hg ((given_iff _ _).1 hin)), if_neg (fun hin => he ((estimated_iff _ _).1 hin))]

/-- **C84 (order).** What is shown keeps the order of the numbers: a central value inside its interval is
shown inside its interval, in every cell. -/
theorem interval_order {paid all : Dataset} {useKpi : Bool} {currency : Text} {ip iq nonPaid : Bool}
    {rows : List Row} (h : summaryTable paid all useKpi currency ip iq nonPaid = .ok rows)
    (hnd : (if nonPaid then all else paid).names.Nodup) {r : Row} (hr : r ∈ rows) {c : ℕ}
    (hc : (if nonPaid then all else paid).names[c]? = some r.channel) {v : Var} (hv : Estimated nonPaid v)
    {x lo hi : ℚ} (hx : (if nonPaid then all else paid).result v r.dist (central v) c = some x)
    (hlo : (if nonPaid then all else paid).result v r.dist .ciLo c = some lo)
    (hhi : (if nonPaid then all else paid).result v r.dist .ciHi c = some hi)
    (h1 : lo ≤ x) (h2 : x ≤ hi) :
    ∃ p a b d va vb vd, r.text v = some (a ++ [' ', '('] ++ b ++ [',', ' '] ++ d ++ [')']) ∧
      Shows (!useKpi) currency v p a x va ∧ Shows (!useKpi) currency v p b lo vb ∧
      Shows (!useKpi) currency v p d hi vd ∧ vb ≤ va ∧ va ≤ vd := by
  obtain ⟨-, e⟩ := row_eq h hnd hr hc
  have hi' := (estimated_iff nonPaid v).2 hv
  have hn : v ∉ inputVars nonPaid := by
    intro hin
    have := (given_iff _ _).1 hin
    revert hv this
    unfold Given Estimated
    cases v <;> simp
  set ds := if nonPaid then all else paid with hds
  set p := decimals ds nonPaid (distributions ip iq) v with hp
  refine ⟨p, _, _, _, shown x p, shown lo p, shown hi p, ?_, ⟨_, rfl, withCommas_reads x p, shown_close x p⟩,
    ⟨_, rfl, withCommas_reads lo p, shown_close lo p⟩, ⟨_, rfl, withCommas_reads hi p, shown_close hi p⟩,
    shown_mono h1 p, shown_mono h2 p⟩
  rw [e]
  unfold rowText
  rw [if_neg hn, if_pos hi', statsOf_eq]
  simp only [List.map_cons, List.map_nil, hx, hlo, hhi, ← hp]
  rw [affixed_eq _ _ _ _ _ (Or.inr hi'), affixed_eq _ _ _ _ _ (Or.inr hi'), affixed_eq _ _ _ _ _ (Or.inr hi')]
  rfl

/-- The columns of the table are the variables of the summary. -/
theorem columns_reported (a : Args) (h : a.aggregateTimes = true) :
    inputVars a.includeNonPaid ++ resultVars a.includeNonPaid = reported a false := by
  unfold reported inputVars resultVars
  cases a.includeNonPaid <;> simp [h]

/-! ### Examples and findings -/

/-- Two channels and the total. -/
def demo : Dataset where
  names := ["tv", "radio", "All Channels"]
  input := fun v c => match v with
    | .spend => [some 1000, some 2000, some 3000].getD c none
    | .pctOfSpend => [some (100 / 3), some (200 / 3), some 100].getD c none
    | _ => some 12345678
  result := fun v _ st c => match v, st with
    | .roi, .mean => [some (3 / 2), some (249 / 100), some (43 / 20)].getD c none
    | .roi, .ciLo => [some 1, some (6 / 5), some (11 / 10)].getD c none
    | .roi, _ => [some 2, some 4, some 3].getD c none
    | .incrementalOutcome, .mean => [some (-1500), some 4980, some 3480].getD c none
    | .cpik, .mean => some 100
    | .cpik, .median => some (1 / 2)
    | .cpik, _ => some 7
    | .effectiveness, _ => if c = 2 then none else some (1 / 8)
    | .mroi, _ => if c = 0 then none else some (2 / 5)
    | _, _ => some 5

/-- The texts of a column of the posterior. -/
def demoColumn (useKpi : Bool) (v : Var) : List (Option String) :=
  match summaryTable demo demo useKpi ['$'] true true false with
  | .ok rows => (rows.filter fun r => r.dist = .posterior).map fun r => (r.text v).map String.ofList
  | .error _ => []

example : demo.names.Nodup := by decide
example : demoColumn false .spend = [some "$1,000", some "$2,000", some "$3,000"] := by decide +kernel
example : demoColumn false .impressions = [some "12,345,678", some "12,345,678", some "12,345,678"] := by
  decide +kernel
example : demoColumn false .pctOfSpend = [some "33%", some "67%", some "100%"] := by decide +kernel
example : demoColumn false .cpik = [some "$0.5 ($7.0, $7.0)", some "$0.5 ($7.0, $7.0)",
    some "$0.5 ($7.0, $7.0)"] := by decide +kernel
example : demoColumn false .effectiveness = [some "0.12 (0.12, 0.12)", some "0.12 (0.12, 0.12)",
    some "nan (nan, nan)"] := by decide +kernel
example : ∃ rows, summaryTable demo demo false ['$'] true true false = .ok rows ∧ rows.length = 6 :=
  ⟨_, rfl, by decide +kernel⟩

/-- **C84 (finding).** Different returns are shown as equal: returns of 1.5 and 2.49 per unit of spend are
both shown as 2, because all numbers of the column are at least one. -/
theorem returns_shown_equal : demoColumn false .roi = [some "2 (1, 2)", some "2 (1, 4)", some "2 (1, 3)"] ∧
    demo.result .roi .posterior .mean 0 = some (3 / 2) ∧
    demo.result .roi .posterior .mean 1 = some (249 / 100) := by decide +kernel

/-- **C84 (finding).** If the first number of a column is NaN, as for a channel without spend, no decimals
are shown: a marginal return of 0.4 is shown as 0. -/
theorem nan_hides_decimals : demoColumn false .mroi = [some "nan (nan, nan)", some "0 (0, 0)",
    some "0 (0, 0)"] ∧ demo.result .mroi .posterior .mean 1 = some (2 / 5) := by decide +kernel

/-- **C84 (finding).** If the outcome is not revenue, spend is shown without the currency, although the cost
per thousand impressions and the cost per incremental KPI are shown with it. -/
theorem spend_without_currency : demoColumn true .spend = [some "1,000", some "2,000", some "3,000"] ∧
    demoColumn true .cpm = [some "$12,345,678", some "$12,345,678", some "$12,345,678"] := by
  decide +kernel

/-- **C84 (finding).** The sign of a negative amount is after the currency, unlike in the reports. -/
theorem sign_after_currency : (demoColumn false .incrementalOutcome).head? = some (some "$-1,500 ($5, $5)") ∧
    Formatter.compact (-1500) 1 ['$'] = "-$1.5k".toList := by decide +kernel

end Verif.SummaryTable.Props
