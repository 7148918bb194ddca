import Verif.Model.Currency
import Verif.Spec.Currency
import Verif.Props.ResultCharts
import Mathlib.Tactic.Linarith
import Mathlib.Tactic.FieldSimp
import Mathlib.Data.List.TakeWhile

/-!
# The currency of the data is the currency of the reports
-/

namespace Verif.Currency.Props

open Verif Verif.Formatter Verif.ResultCharts Verif.Currency Verif.Currency.Spec

/-! ### Codes -/

theorem space_iff (c : Char) : space c = true ↔ White c := by
  unfold space White
  simp [List.contains_iff_mem]

theorem toUpper_cases (c : Char) : c.toUpper = c ∨ (97 ≤ c.toNat ∧ c.toNat ≤ 122 ∧
    c.toUpper.toNat = c.toNat - 32) := by
  unfold Char.toUpper
  split
  · rename_i h
    right
    have h1 : 97 ≤ c.val.toNat := h.1
    have h2 : c.val.toNat ≤ 122 := h.2
    refine ⟨h1, h2, ?_⟩
    change (c.val + ('A'.val - 'a'.val)).toNat = c.val.toNat - 32
    rw [UInt32.toNat_add, show ('A'.val - 'a'.val).toNat = 4294967264 by decide]
    omega
  · exact .inl rfl

theorem white_toUpper (c : Char) : White c.toUpper ↔ White c := by
  rcases toUpper_cases c with h | ⟨h1, h2, h3⟩
  · rw [h]
  · unfold White
    rw [h3]
    simp only [List.mem_cons, List.not_mem_nil, or_false]
    omega

theorem space_toUpper (c : Char) : space c.toUpper = space c := by
  have h := white_toUpper c
  rw [← space_iff, ← space_iff] at h
  exact Bool.eq_iff_iff.mpr h

theorem dropWhile_upper (s : Text) : (upper s).dropWhile space = upper (s.dropWhile space) := by
  unfold upper
  induction s with
  | nil => rfl
  | cons a l ih =>
    rw [List.map_cons, List.dropWhile_cons, List.dropWhile_cons, space_toUpper]
    split
    · exact ih
    · rfl

theorem strip_upper (s : Text) : strip (upper s) = upper (strip s) := by
  have hr : ∀ t : Text, (upper t).reverse = upper t.reverse := fun t => by
    unfold upper; rw [List.map_reverse]
  unfold strip
  rw [dropWhile_upper, hr, dropWhile_upper, hr]

theorem dropWhile_blank_append {l : Text} (h : ∀ c ∈ l, space c = true) (x : Text) :
    (l ++ x).dropWhile space = x.dropWhile space := by
  induction l with
  | nil => rfl
  | cons a l ih =>
    rw [List.cons_append, List.dropWhile_cons, if_pos (h a (by simp))]
    exact ih fun c hc => h c (by simp [hc])

theorem dropWhile_blank {l : Text} (h : ∀ c ∈ l, space c = true) : l.dropWhile space = [] := by
  have := dropWhile_blank_append h []
  simpa using this

/-- Dropping white space on the right end. -/
def rdrop (s : Text) : Text := (s.reverse.dropWhile space).reverse

theorem strip_eq (s : Text) : strip s = rdrop (s.dropWhile space) := rfl

theorem rdrop_append_blank (x : Text) {r : Text} (h : ∀ c ∈ r, space c = true) :
    rdrop (x ++ r) = rdrop x := by
  unfold rdrop
  rw [List.reverse_append, dropWhile_blank_append]
  intro c hc
  exact h c (by simpa using hc)

theorem strip_pad {l r : Text} (hl : ∀ c ∈ l, space c = true) (hr : ∀ c ∈ r, space c = true) (m : Text) :
    strip (l ++ m ++ r) = strip m := by
  rw [strip_eq, List.append_assoc, dropWhile_blank_append hl, strip_eq]
  by_cases hm : ∀ c ∈ m, space c = true
  · rw [dropWhile_blank_append hm, dropWhile_blank hr, dropWhile_blank hm]
  · have : (m ++ r).dropWhile space = m.dropWhile space ++ r := by
      clear hl
      induction m with
      | nil => simp at hm
      | cons a m ih =>
        rw [List.cons_append, List.dropWhile_cons, List.dropWhile_cons]
        split
        · rename_i ha
          apply ih
          intro h
          apply hm
          intro c hc
          rcases List.mem_cons.mp hc with rfl | hc
          · exact ha
          · exact h c hc
        · rfl
    rw [this, rdrop_append_blank _ hr]

theorem strip_nil_iff (s : Text) : strip s = [] ↔ Blank s := by
  have key : ∀ t : Text, t.dropWhile space = [] ↔ ∀ c ∈ t, space c = true := by
    intro t
    constructor
    · intro h
      induction t with
      | nil => simp
      | cons a t ih =>
        rw [List.dropWhile_cons] at h
        split at h
        · rename_i ha
          intro c hc
          rcases List.mem_cons.mp hc with rfl | hc
          · exact ha
          · exact ih h c hc
        · cases h
    · exact dropWhile_blank
  unfold strip Blank
  rw [List.reverse_eq_nil_iff, key]
  constructor
  · intro h c hc
    rw [← space_iff]
    have hall : ∀ c ∈ s.dropWhile space, space c = true := fun c hc => h c (by simpa using hc)
    by_cases hs : s.dropWhile space = []
    · exact (key s).mp hs c hc
    · exfalso
      obtain ⟨a, t, ht⟩ := List.exists_cons_of_ne_nil hs
      have h1 := hall a (by rw [ht]; simp)
      have h2 := List.head_dropWhile_not (p := space) (l := s) hs
      simp [ht, h1] at h2
  · intro h c hc
    rw [space_iff]
    exact h c ((List.dropWhile_sublist _).subset (by simpa using hc))

theorem canonical_str (s : Text) : canonical (.str s) =
    if strip (upper s) = [] then none else some (strip (upper s)) := by
  unfold canonical
  rw [strip_upper]
  by_cases h : strip s = []
  · simp [h, upper]
  · have : upper (strip s) ≠ [] := by unfold upper; simpa using h
    simp [h, this]

theorem canonical_variant {s t : Text} (h : Variant s t) : canonical (.str s) = canonical (.str t) := by
  obtain ⟨l, m, r, l', m', r', rfl, rfl, hw, hm⟩ := h
  have hsp : ∀ c ∈ l ++ r ++ l' ++ r', space c = true := fun c hc => (space_iff c).mpr (hw c hc)
  have hup : ∀ x : Text, (∀ c ∈ x, space c = true) → ∀ c ∈ upper x, space c = true := by
    intro x hx c hc
    unfold upper at hc
    obtain ⟨d, hd, rfl⟩ := List.mem_map.mp hc
    rw [space_toUpper]
    exact hx d hd
  have happ : ∀ a b : Text, upper (a ++ b) = upper a ++ upper b := fun a b => by
    unfold upper; rw [List.map_append]
  have hmm : upper m = upper m' := by
    unfold upper
    clear hw hsp
    induction hm with
    | nil => rfl
    | cons h _ ih => rw [List.map_cons, List.map_cons, ih, h]
  rw [canonical_str, canonical_str, happ, happ, happ, happ,
    strip_pad (hup l fun c hc => hsp c (by simp [hc])) (hup r fun c hc => hsp c (by simp [hc])),
    strip_pad (hup l' fun c hc => hsp c (by simp [hc])) (hup r' fun c hc => hsp c (by simp [hc])), hmm]

/-- White space around a code and small letters in it make no difference: the symbol, the recognition and the
normal form are the same. -/
theorem code_variants (b : Babel) {s t : Text} (h : Variant s t) :
    symbol b (.str s) = symbol b (.str t) ∧ valid b (.str s) = valid b (.str t) ∧
    normalize b (.str s) = normalize b (.str t) ∧ check b (.str s) = check b (.str t) := by
  have hc := canonical_variant h
  have hv : valid b (.str s) = valid b (.str t) := by simp only [valid, hc]
  refine ⟨?_, hv, ?_, ?_⟩
  · simp only [symbol, hc]
  · simp only [normalize, hc]
  · simp only [check, hv]

example : Variant " usd\n".toList "Usd".toList := by
  refine ⟨[' '], "usd".toList, ['\n'], [], "Usd".toList, [], by decide, by decide, ?_, ?_⟩
  · intro c hc
    simp at hc
    rcases hc with rfl | rfl <;> (unfold White; decide)
  · simp [SameLetter]

theorem strip_clean (s : Text) : (∀ c ∈ (strip s).head?, ¬ White c) ∧
    (∀ c ∈ (strip s).getLast?, ¬ White c) := by
  have hd : ∀ t : Text, ∀ c ∈ (t.dropWhile space).head?, ¬ White c := by
    intro t c hc
    have hne : t.dropWhile space ≠ [] := by
      intro h; simp [h] at hc
    have h2 := List.head_dropWhile_not (p := space) (l := t) hne
    rw [List.head?_eq_some_head hne] at hc
    simp only [Option.mem_def, Option.some.injEq] at hc
    rw [hc] at h2
    rw [← space_iff, h2]
    simp
  constructor
  · intro c hc
    unfold strip at hc
    rw [List.head?_reverse] at hc
    have hsub : ((s.dropWhile space).reverse.dropWhile space) <:+ (s.dropWhile space).reverse :=
      List.dropWhile_suffix _
    have hne : ((s.dropWhile space).reverse.dropWhile space) ≠ [] := by
      intro h; simp [h] at hc
    obtain ⟨x, hx⟩ := hsub
    apply hd s c
    have : (s.dropWhile space).reverse.getLast? = some c := by
      rw [← hx, List.getLast?_append_of_ne_nil _ hne]
      exact hc
    rwa [List.getLast?_reverse] at this
  · intro c hc
    unfold strip at hc
    rw [List.getLast?_reverse] at hc
    exact hd _ c hc

theorem toUpper_idem (c : Char) : c.toUpper.toUpper = c.toUpper := by
  rcases toUpper_cases c.toUpper with h | ⟨h1, h2, -⟩
  · exact h
  · rcases toUpper_cases c with h | ⟨h3, h4, h5⟩
    · rw [h, h]
    · omega

theorem canonical_clean {c : Code} {k : Text} (h : canonical c = some k) : Clean k := by
  cases c with
  | none => simp [canonical] at h
  | other => simp [canonical] at h
  | str s =>
    rw [canonical_str] at h
    split at h
    · cases h
    · rename_i hne
      simp only [Option.some.injEq] at h
      subst h
      obtain ⟨h1, h2⟩ := strip_clean (upper s)
      refine ⟨hne, h1, h2, ?_⟩
      intro c hc
      rw [strip_upper] at hc
      unfold upper at hc
      obtain ⟨d, -, rfl⟩ := List.mem_map.mp hc
      exact toUpper_idem d

theorem strip_of_ends {s : Text} (hne : s ≠ []) (h1 : ∀ c ∈ s.head?, ¬ White c)
    (h2 : ∀ c ∈ s.getLast?, ¬ White c) : strip s = s := by
  have hd : ∀ t : Text, t ≠ [] → (∀ c ∈ t.head?, ¬ White c) → t.dropWhile space = t := by
    intro t ht h
    obtain ⟨a, u, rfl⟩ := List.exists_cons_of_ne_nil ht
    have : space a ≠ true := fun ha => h a (by simp) ((space_iff a).mp ha)
    rw [List.dropWhile_cons, if_neg this]
  unfold strip
  rw [hd s hne h1, hd s.reverse (by simpa using hne), List.reverse_reverse]
  intro c hc
  rw [List.head?_reverse] at hc
  exact h2 c hc

theorem canonical_of_clean {k : Text} (h : Clean k) : canonical (.str k) = some k := by
  obtain ⟨h0, h1, h2, h3⟩ := h
  have hs := strip_of_ends h0 h1 h2
  simp only [canonical, hs, h0, if_false]
  congr 1
  unfold upper
  conv_rhs => rw [← List.map_id k]
  exact List.map_congr_left h3

/-- The normal form of a code exists exactly for recognised codes; it is a clean code of the table, a variant
with the same symbol, and its own normal form. -/
theorem normal_form (b : Babel) (c : Code) :
    (valid b c = true ↔ ∃ k, normalize b c = some k) ∧
    ∀ k, normalize b c = some k → Clean k ∧ b.known k = true ∧ symbol b (.str k) = symbol b c ∧
      normalize b (.str k) = some k := by
  constructor
  · unfold valid normalize
    cases h : canonical c with
    | none => simp
    | some k => by_cases hk : b.known k = true <;> simp [hk]
  · intro k hk
    unfold normalize at hk
    cases h : canonical c with
    | none => simp [h] at hk
    | some k' =>
      rw [h] at hk
      by_cases hb : b.known k' = true
      · simp only [hb, if_true, Option.some.injEq] at hk
        subst hk
        have hc := canonical_clean h
        have hk' := canonical_of_clean hc
        refine ⟨hc, hb, ?_, ?_⟩
        · simp only [symbol, hk', h]
        · simp [normalize, hk', hb]
      · simp [hb] at hk

/-- Without a code, or with a blank one, the dollar sign is used; such a code is not recognised. -/
theorem no_code (b : Babel) (c : Code) (h : c = .none ∨ c = .other ∨ ∃ s, c = .str s ∧ Blank s) :
    symbol b c = ['$'] ∧ valid b c = false ∧ normalize b c = none := by
  have : canonical c = none := by
    rcases h with rfl | rfl | ⟨s, rfl, hs⟩
    · rfl
    · rfl
    · simp only [canonical, (strip_nil_iff s).mpr hs, if_true]
  refine ⟨?_, ?_, ?_⟩
  · simp only [symbol, this]; rfl
  · simp only [valid, this]
  · simp only [normalize, this]

/-- For a clean code the symbol is the one of the table, and the code itself if the table has none. -/
theorem symbol_of_clean (b : Babel) {k : Text} (h : Clean k) :
    symbol b (.str k) = if b.symbol k = [] then k else b.symbol k := by
  simp only [symbol, canonical_of_clean h]

/-- Every code is blank or a variant of a clean one. -/
theorem blank_or_clean (s : Text) : Blank s ∨ ∃ k, Clean k ∧ Variant s k := by
  by_cases hb : Blank s
  · exact .inl hb
  · right
    have hs : strip s ≠ [] := fun h => hb ((strip_nil_iff s).mp h)
    have hc : canonical (.str s) = some (upper (strip s)) := by
      simp only [canonical, hs, if_false]
    refine ⟨_, canonical_clean hc, ?_⟩
    have hpre : ∀ t : Text, ∃ l, t = l ++ t.dropWhile space ∧ ∀ c ∈ l, White c := by
      intro t
      refine ⟨t.takeWhile space, (List.takeWhile_append_dropWhile).symm, ?_⟩
      intro c hc
      exact (space_iff c).mp (List.mem_takeWhile_imp hc)
    obtain ⟨l, hl, hlw⟩ := hpre s
    obtain ⟨r, hr, hrw⟩ := hpre (s.dropWhile space).reverse
    refine ⟨l, strip s, r.reverse, [], upper (strip s), [], ?_, by simp, ?_, ?_⟩
    · have := congrArg List.reverse hr
      rw [List.reverse_reverse, List.reverse_append] at this
      unfold strip
      rw [List.append_assoc, ← this]
      exact hl
    · intro c hc
      simp only [List.append_nil, List.mem_append, List.mem_reverse] at hc
      rcases hc with hc | hc
      · exact hlw c hc
      · exact hrw c hc
    · unfold upper
      rw [List.forall₂_map_right_iff]
      exact List.forall₂_same.mpr fun c _ => (toUpper_idem c).symm

/-- A symbol is never empty. -/
theorem symbol_not_empty (b : Babel) (c : Code) : symbol b c ≠ [] := by
  unfold symbol
  cases h : canonical c with
  | none => simp [dollar]
  | some k =>
    simp only
    split
    · exact (canonical_clean h).1
    · assumption

example : Clean "EUR".toList := by
  refine ⟨by decide, ?_, ?_, by decide⟩ <;> · intro c hc; simp at hc; subst hc; unfold White; decide

/-! ### The data -/

/-- Data is rejected exactly if the code is given and no string; a string that is not recognised gives one
warning, and nothing else does. -/
theorem code_checked (b : Babel) (c : Code) :
    (check b c = none ↔ c = .other) ∧
    (check b c = some 1 ↔ ∃ s, c = .str s ∧ valid b c = false) ∧
    (check b c = some 0 ↔ c = .none ∨ ∃ s, c = .str s ∧ valid b c = true) := by
  cases c with
  | none => simp [check]
  | other => simp [check]
  | str s => cases h : valid b (.str s) <;> simp [check, h]

/-- Loaded data has the code given to the loader. -/
theorem loader_keeps_code (c : Code) : built c = c := by cases c <;> rfl

/-- Saving and loading keeps the symbol and the recognition of the code, and the code itself unless it is the
empty string. -/
theorem saving_keeps_symbol (b : Babel) (c : Code) (h : check b c ≠ none) :
    symbol b (loaded (saved c)) = symbol b c ∧ valid b (loaded (saved c)) = valid b c ∧
    (c ≠ .str [] → loaded (saved c) = c) := by
  cases c with
  | other => simp [check] at h
  | none => simp [saved, loaded]
  | str s =>
    by_cases hs : s = []
    · subst hs
      refine ⟨rfl, rfl, fun h => absurd rfl h⟩
    · simp [saved, loaded, hs]

/-- Finding: an empty code gives a warning when the data is made, but is no code any more after saving and
loading, without a warning. -/
theorem empty_code_lost (b : Babel) : check b (.str []) = some 1 ∧ loaded (saved (.str [])) = .none ∧
    check b (loaded (saved (.str []))) = some 0 := by
  refine ⟨?_, rfl, rfl⟩
  simp [check, valid, canonical, strip]

/-! ### The reports -/

/-- A report without the deprecated argument shows what it shows with the symbol of the data as argument, for
the report of an optimization, the chart of changes of spend and the table of results. -/
theorem default_is_symbol_of_data (b : Babel) (code : Code) (r : Results) :
    (report b code r none).1 = (report b code r (some (symbol b code))).1 ∧
    (∀ v, (plotSpendDelta b code r none v).1 = (plotSpendDelta b code r (some (symbol b code)) v).1) ∧
    (∀ paid all k p q n, (table b code paid all k none p q n).1 =
      (table b code paid all k (some (symbol b code)) p q n).1) :=
  ⟨rfl, fun _ => rfl, fun _ _ _ _ _ _ => rfl⟩

/-- The amounts of the table of results are written with the argument if given, otherwise with the symbol of
the data. -/
theorem table_currency (b : Babel) (code : Code) (arg : Option Text) (paid all : SummaryTable.Dataset)
    (k p q n : Bool) : (table b code paid all k arg p q n).1 =
      SummaryTable.summaryTable paid all k (arg.getD (symbol b code)) p q n := by
  cases arg <;> rfl

theorem compact_carries (n : ℚ) (p : ℕ) (cur : Text) : Carries cur (compact n p cur) := by
  unfold compact
  simp only
  split
  · exact ⟨_, _, rfl⟩
  · exact ⟨[], _, rfl⟩

theorem carries_prepend {cur t : Text} (h : Carries cur t) (l : Text) : Carries cur (l ++ t) := by
  obtain ⟨a, c, rfl⟩ := h
  exact ⟨l ++ a, c, by simp⟩

/-- The currency of the report of an optimization: the argument if given, otherwise the symbol of the data. -/
def inUse (b : Babel) (code : Code) (arg : Option Text) : Text := arg.getD (symbol b code)

/-- Every amount of money of the report carries the same symbol: the budgets and their change, the costs per
KPI unit and their change, the revenue and its change, and the axis of the chart. -/
theorem report_amounts (b : Babel) (code : Code) (r : Results) (arg : Option Text) :
    let f := (report b code r arg).1.figures
    let cur := inUse b code arg
    (Carries cur f.budget.1 ∧ Carries cur f.budget.2.stat ∧ Carries cur f.budget.2.delta) ∧
    (r.revenue = false → Carries cur f.performance.1 ∧ Carries cur f.performance.2.stat ∧
      Carries cur f.performance.2.delta) ∧
    (r.revenue = true → Carries cur f.outcome.1 ∧ Carries cur f.outcome.2.stat ∧
      Carries cur f.outcome.2.delta) ∧
    (report b code r arg).1.delta.axisTitle = cur := by
  have hcur : (resolve b code arg).1 = inUse b code arg := by cases arg <;> rfl
  simp only [report, sections, figures, plotSpendDelta, hcur]
  refine ⟨⟨compact_carries _ _ _, compact_carries _ _ _, carries_prepend (compact_carries _ _ _) _⟩, ?_, ?_, rfl⟩
  · intro h
    simp only [h, Bool.false_eq_true, if_false, cpikStats]
    exact ⟨⟨[], _, rfl⟩, ⟨[], _, rfl⟩, compact_carries _ _ _⟩
  · intro h
    simp only [h, if_true, outcomeStats]
    exact ⟨compact_carries _ _ _, compact_carries _ _ _, carries_prepend (compact_carries _ _ _) _⟩

/-- Numbers that are no amounts of money do not depend on the currency: returns on investment, and the
incremental KPI. -/
theorem other_figures (b b' : Babel) (code code' : Code) (r : Results) (arg arg' : Option Text) :
    (r.revenue = true → (report b code r arg).1.figures.performance =
      (report b' code' r arg').1.figures.performance) ∧
    (r.revenue = false → (report b code r arg).1.figures.outcome =
      (report b' code' r arg').1.figures.outcome) ∧
    (report b code r arg).1.pie = (report b' code' r arg').1.pie ∧
    (report b code r arg).1.delta.bars = (report b' code' r arg').1.delta.bars := by
  refine ⟨?_, ?_, rfl, rfl⟩ <;> intro h <;> simp [report, sections, figures, h]

/-- The chart of changes of spend and the table of results warn exactly if the deprecated argument is given. -/
theorem warns_iff_given (b : Babel) (code : Code) (r : Results) (arg : Option Text) :
    (∀ v, (plotSpendDelta b code r arg v).2 = if arg.isSome then 1 else 0) ∧
    ∀ paid all k p q n, (table b code paid all k arg p q n).2 = if arg.isSome then 1 else 0 := by
  cases arg <;> exact ⟨fun _ => rfl, fun _ _ _ _ _ _ => rfl⟩

/-- Finding: the report of an optimization warns that the argument is deprecated although it was not given,
and warns twice if it was. -/
theorem report_always_warns (b : Babel) (code : Code) (r : Results) (arg : Option Text) :
    (report b code r arg).2 = if arg.isSome then 2 else 1 := by
  cases arg <;> rfl

/-! ### The charts of the spend -/

/-- The bars are the changes of spend, one for each channel, decreases first, each group from the largest
change to the smallest; a bar is blue exactly for an increase; its number stands at the end of an increase
and at zero for a decrease; the changes add up to the change of the total. -/
theorem spend_bars (b : Babel) (code : Code) (r : Results) (arg : Option Text) (v : Bool)
    (h : r.spendOpt.map (·.1) = r.spendNon.map (·.1)) :
    let bars := (plotSpendDelta b code r arg v).1.bars
    (bars.map fun x => (x.channel, x.spend)).Perm (changes r.spendOpt r.spendNon) ∧
    (bars.map fun x => (x.channel, x.spend)).Pairwise ResultCharts.Spec.Before ∧
    (∀ x ∈ bars, (x.cyan = true ↔ 0 < x.spend) ∧ x.textAt = max x.spend 0) ∧
    (bars.map (·.spend)).sum = (r.spendOpt.map (·.2)).sum - (r.spendNon.map (·.2)).sum ∧
    bars.length = r.spendNon.length := by
  have hr : ∀ rows : List Row, ((rows.map deltaBar).map fun x => (x.channel, x.spend)) = rows := by
    intro rows
    rw [List.map_map]
    conv_rhs => rw [← List.map_id rows]
    exact List.map_congr_left fun x _ => rfl
  have hs : ∀ rows : List Row, ((rows.map deltaBar).map (·.spend)) = rows.map (·.2) := by
    intro rows
    rw [List.map_map]
    exact List.map_congr_left fun x _ => rfl
  obtain ⟨h1, h2⟩ := ResultCharts.Props.changes_add_up r.spendOpt r.spendNon h
  have h3 := (ResultCharts.Props.changes_table (ResultCharts.Spec.known r.spendOpt)
    (ResultCharts.Spec.known r.spendNon)).2
  simp only [plotSpendDelta]
  refine ⟨?_, ?_, ?_, ?_, ?_⟩
  · rw [hr]; exact h1
  · rw [hr]; exact h3
  · intro x hx
    obtain ⟨y, -, rfl⟩ := List.mem_map.mp hx
    simp only [deltaBar, decide_eq_true_eq, true_and]
    split
    · rw [max_eq_right (by linarith)]
    · rw [max_eq_left (by linarith)]
  · rw [hs]; exact h2
  · rw [List.length_map]
    have := h1.length_eq
    have hl := congrArg List.length h
    simp only [List.length_map] at hl
    rw [show (deltaData (r.spendOpt.map fun x => (x.1, some x.2)) (r.spendNon.map fun x => (x.1, some x.2)))
      = deltaData (ResultCharts.Spec.known r.spendOpt) (ResultCharts.Spec.known r.spendNon) from rfl, this]
    simp [ResultCharts.Spec.changes, hl]

/-- The side of the chart along the channels grows with their number, the other side is fixed. -/
theorem chart_size (b : Babel) (code : Code) (r : Results) (arg : Option Text)
    (h : r.spendOpt.map (·.1) = r.spendNon.map (·.1)) :
    ((plotSpendDelta b code r arg true).1.width = 62 * (r.spendNon.length + 2) ∧
      (plotSpendDelta b code r arg true).1.height = 400) ∧
    ((plotSpendDelta b code r arg false).1.width = 600 ∧
      (plotSpendDelta b code r arg false).1.height = 62 * (r.spendNon.length + 2)) := by
  have hl := (spend_bars b code r arg true h).2.2.2.2
  simp only [plotSpendDelta, List.length_map] at hl
  simp [plotSpendDelta, barChartWidth, hl]

/-- The slices of the pie: for a positive total they are the shares of the channels in the spend and add up
to the full circle. -/
theorem pie_shares (r : Results) (o : Bool) (spend : List (String × ℚ))
    (hs : spend = if o then r.spendOpt else r.spendNon) (ht : 0 < (spend.map (·.2)).sum) :
    (pie r o).map (·.1) = spend.map (·.1) ∧
    (∀ (i : ℕ) (x : String × ℚ), spend[i]? = some x → (pie r o)[i]? = some (x.1, x.2 / (spend.map (·.2)).sum)) ∧
    ((pie r o).map (·.2)).sum = 1 := by
  subst hs
  set spend := if o then r.spendOpt else r.spendNon with hs
  have hp : pie r o = spend.map fun x => (x.1, x.2 / (spend.map (·.2)).sum) := rfl
  refine ⟨?_, ?_, ?_⟩
  · rw [hp, List.map_map]; rfl
  · intro i x hx
    rw [hp, List.getElem?_map, hx]; rfl
  · rw [hp, List.map_map]
    have key : ∀ (l : List (String × ℚ)) (t : ℚ),
        (l.map ((fun x => x.2) ∘ fun x => (x.1, x.2 / t))).sum = (l.map (·.2)).sum / t := by
      intro l t
      induction l with
      | nil => simp
      | cons a l ih =>
        rw [List.map_cons, List.sum_cons, ih, List.map_cons, List.sum_cons, add_div]
        rfl
    rw [key]
    exact div_self (ne_of_gt ht)

/-- Three channels with a decrease, an increase and no change. -/
def demoResults : Results :=
  ⟨[("tv", 300), ("radio", 300), ("web", 400)], [("tv", 500), ("radio", 300), ("web", 200)], 1000, 1000,
    11 / 10, 13 / 10, 2, 3 / 2, 1100, 1300, true⟩

example : demoResults.spendOpt.map (·.1) = demoResults.spendNon.map (·.1) ∧
    0 < (demoResults.spendOpt.map (·.2)).sum := by
  refine ⟨by decide, ?_⟩
  simp [demoResults]; norm_num

example : (plotSpendDelta ⟨id, fun _ => false⟩ .none demoResults none true).1 =
    ⟨['$'], [⟨"web", -200, 0, false⟩, ⟨"tv", 200, 200, true⟩, ⟨"radio", 0, 0, false⟩], 310, 400⟩ := by
  decide +kernel

example : pie demoResults true = [("tv", 1 / 2), ("radio", 3 / 10), ("web", 1 / 5)] := by decide +kernel

/-- Finding: a channel whose spend does not change is drawn in the colour of a decrease. -/
theorem unchanged_channel_red (b : Babel) (code : Code) (arg : Option Text) (v : Bool) : ∃ r : Results,
    ∃ x ∈ (plotSpendDelta b code r arg v).1.bars, x.spend = 0 ∧ x.cyan = false := by
  refine ⟨⟨[("tv", 5)], [("tv", 5)], 5, 5, 1, 1, 1, 1, 1, 1, true⟩, ⟨"tv", 0, 0, false⟩, ?_, rfl, rfl⟩
  have : (plotSpendDelta b code ⟨[("tv", 5)], [("tv", 5)], 5, 5, 1, 1, 1, 1, 1, 1, true⟩ arg v).1.bars =
      [⟨"tv", 0, 0, false⟩] := by
    simp only [plotSpendDelta]
    decide +kernel
  rw [this]; simp

/-! ### The results page -/

/-- Finding: the amounts of money in the sentences of the results page carry the dollar sign whatever the
currency of the data. -/
theorem results_page_in_dollars (b : Babel) (code : Code) (i : Page.Insights) :
    ∀ t ∈ cardAmounts b code i, Carries ['$'] t := by
  intro t ht
  unfold cardAmounts at ht
  simp only [List.mem_cons, List.not_mem_nil, or_false] at ht
  rcases ht with rfl | rfl | rfl | rfl <;> exact ⟨[], _, rfl⟩

/-- A table with the euro. -/
def demo : Babel where
  symbol k := if k = "EUR".toList then "€".toList else if k = "USD".toList then "$".toList else k
  known k := decide (k = "EUR".toList ∨ k = "USD".toList)

/-- A page on data in euros writes its amounts in dollars, while the report of an optimization on the same
data uses the euro. -/
theorem page_and_report_differ : ∃ (b : Babel) (code : Code) (i : Page.Insights) (r : Results),
    check b code = some 0 ∧ symbol b code = "€".toList ∧
    cardAmounts b code i = ["$1".toList, "$2.50".toList, "$0.40".toList, "$0.40".toList] ∧
    (report b code r none).1.figures.budget = ("€1.5k".toList, ⟨"€2.0k".toList, "+€500".toList⟩) := by
  refine ⟨demo, .str " eur".toList, ⟨"Tv".toList, "2.5".toList, "2.50".toList, "Tv".toList, "Tv".toList,
    "1.10".toList, "Tv".toList, "0.40".toList⟩,
    ⟨[("tv", 1500)], [("tv", 2000)], 1500, 2000, 1, 1, 1, 1, 1, 1, true⟩, ?_, ?_, ?_, ?_⟩ <;>
  decide +kernel

end Verif.Currency.Props
