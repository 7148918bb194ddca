import Verif.Spec.Multi
import Mathlib.Probability.Independence.Basic
import Mathlib.Tactic

/-!
# C58: joint distributions of independent elements
-/

namespace Verif.Multi.Props

open Verif.Multi Verif.Multi.Spec

variable {R σ : Type}

theorem component_ok_iff (d : Dist R σ) (c : Comp R σ) :
    component d = .ok c ↔ d.batch ≠ .higher ∧ c = ⟨elemsOf d, d.draw⟩ := by
  unfold component elemsOf
  cases h : d.batch <;> simp [eq_comm]

theorem components_ok_iff (l : List (Dist R σ)) (cs : List (Comp R σ)) :
    components l = .ok cs ↔
      (∀ d ∈ l, d.batch ≠ .higher) ∧ cs = l.map fun d => ⟨elemsOf d, d.draw⟩ := by
  induction l generalizing cs with
  | nil => simp [components, eq_comm]
  | cons d rest ih =>
    unfold components
    cases hc : component d with
    | error e =>
      have : d.batch = .higher := by
        by_contra h
        have := (component_ok_iff d ⟨elemsOf d, d.draw⟩).2 ⟨h, rfl⟩
        rw [this] at hc; cases hc
      simp [this]
    | ok c =>
      obtain ⟨h1, h2⟩ := (component_ok_iff d c).1 hc
      cases hr : components rest with
      | error e =>
        simp only [reduceCtorEq, false_iff]
        rintro ⟨h, -⟩
        have := (ih _).2 ⟨fun x hx => h x (List.mem_cons_of_mem _ hx), rfl⟩
        rw [this] at hr; cases hr
      | ok r =>
        obtain ⟨h3, h4⟩ := (ih r).1 hr
        subst h2 h4
        simp only [Except.ok.injEq, List.map_cons, List.mem_cons, forall_eq_or_imp]
        exact ⟨fun h => ⟨⟨h1, h3⟩, h.symm⟩, fun h => h.2.symm⟩

theorem sameDtypes_iff (l : List (Dist R σ)) (hl : l ≠ []) :
    sameDtypes l = true ↔ ∀ d ∈ l, ∀ e ∈ l, d.dtype = e.dtype := by
  cases l with
  | nil => exact absurd rfl hl
  | cons d rest =>
    simp only [sameDtypes, List.all_eq_true, decide_eq_true_eq]
    constructor
    · intro h a ha b hb
      have key : ∀ x ∈ d :: rest, x.dtype = d.dtype := by
        intro x hx
        rcases List.mem_cons.1 hx with rfl | hx
        · rfl
        · exact h x hx
      rw [key a ha, key b hb]
    · intro h e he
      exact h e (List.mem_cons_of_mem _ he) d List.mem_cons_self

/-- **C58.** Distributions can be combined exactly if there is at least one, none is `Deterministic`,
none has a batch of two or more dimensions, and all have the same dtype. -/
theorem accepted_iff (l : List (Dist R σ)) :
    (∃ cs, make l = .ok cs) ↔ Combinable l := by
  unfold make Combinable
  by_cases hd : l.any (fun d => d.deterministic) = true
  · rw [if_pos hd]
    simp only [reduceCtorEq, exists_false, false_iff]
    rintro ⟨-, h, -⟩
    obtain ⟨d, hm, hdd⟩ := List.any_eq_true.1 hd
    rw [h d hm] at hdd; cases hdd
  · rw [if_neg hd]
    have hd' : ∀ d ∈ l, d.deterministic = false := by
      intro d hm
      by_contra h
      exact hd (List.any_eq_true.2 ⟨d, hm, by simpa using h⟩)
    cases hc : components l with
    | error e =>
      simp only [reduceCtorEq, exists_false, false_iff]
      rintro ⟨-, -, h, -⟩
      have := (components_ok_iff l _).2 ⟨h, rfl⟩
      rw [this] at hc; cases hc
    | ok cs =>
      obtain ⟨h1, rfl⟩ := (components_ok_iff l cs).1 hc
      by_cases hl : l = []
      · subst hl; simp
      · have he : (l.map fun d => (⟨elemsOf d, d.draw⟩ : Comp R σ)).isEmpty = false := by
          cases l with
          | nil => exact absurd rfl hl
          | cons _ _ => rfl
        simp only [he, Bool.false_eq_true, if_false]
        by_cases hs : sameDtypes l = true
        · rw [if_pos hs]
          simp only [Except.ok.injEq, exists_eq', true_iff]
          exact ⟨hl, hd', h1, (sameDtypes_iff l hl).1 hs⟩
        · rw [if_neg hs]
          simp only [reduceCtorEq, exists_false, false_iff]
          rintro ⟨-, -, -, h⟩
          exact hs ((sameDtypes_iff l hl).2 h)

theorem make_ok (l : List (Dist R σ)) (cs : List (Comp R σ)) (h : make l = .ok cs) :
    cs = l.map fun d => ⟨elemsOf d, d.draw⟩ := by
  unfold make at h
  split at h
  · cases h
  · cases hc : components l with
    | error e => rw [hc] at h; cases h
    | ok c =>
      rw [hc] at h
      simp only at h
      split at h
      · cases h
      · split at h
        · cases h
          exact ((components_ok_iff l _).1 hc).2
        · cases h

theorem allElems_eq (l : List (Dist R σ)) (cs : List (Comp R σ)) (h : make l = .ok cs) :
    allElems l = cs.flatMap fun c => c.elems := by
  rw [make_ok l cs h, allElems, List.flatMap_map]

theorem batchSize_eq (cs : List (Comp R σ)) :
    batchSize cs = (cs.flatMap fun c => c.elems).length := by
  simp [batchSize, sizes, List.length_flatMap]

/-- **C58.** The batch has one element for every element of the given distributions. -/
theorem batch_shape (l : List (Dist R σ)) (cs : List (Comp R σ)) (h : make l = .ok cs) :
    batchSize cs = (allElems l).length := by
  rw [allElems_eq l cs h, batchSize_eq]

theorem evalRow_eq (f : Elem R → R → R) (cs : List (Comp R σ)) (row : List R)
    (h : row.length = batchSize cs) :
    evalRow f cs row = List.zipWith f (cs.flatMap fun c => c.elems) row := by
  induction cs generalizing row with
  | nil => simp [evalRow, sizes, splitRow]
  | cons c rest ih =>
    have hlen : batchSize (c :: rest) = c.elems.length + batchSize rest := by
      simp [batchSize, sizes]
    have hr : (row.drop c.elems.length).length = batchSize rest := by
      rw [List.length_drop]; omega
    have := ih (row.drop c.elems.length) hr
    unfold evalRow at this ⊢
    simp only [sizes, List.map_cons, splitRow, List.zipWith_cons_cons, List.flatten_cons,
      List.flatMap_cons] at this ⊢
    rw [this]
    have htake : (row.take c.elems.length).length = c.elems.length := by
      rw [List.length_take]; omega
    conv_rhs => rw [← List.take_append_drop c.elems.length row]
    rw [List.zipWith_append htake.symm]
    rfl

theorem flatMap_singleton_width (n : ℕ) (r : List R) (h : r.length = 1) :
    ∃ x, r[0]? = some x ∧ r.flatMap (fun x => List.replicate n x) = List.replicate n x := by
  match r, h with
  | [x], _ => exact ⟨x, rfl, by simp⟩

/-- Evaluation of a function element by element. -/
theorem eval_elementwise (f : Elem R → R → R) (l : List (Dist R σ)) (cs : List (Comp R σ))
    (h : make l = .ok cs) (v : Value R) (hv : WellFormed v) (hf : Fits (allElems l).length v) :
    ∃ out, eval f cs v = .ok out ∧ Elementwise f (allElems l) v out := by
  have hn := batch_shape l cs h
  have hE := allElems_eq l cs h
  have row_spec : ∀ row : List R, row.length = batchSize cs →
      (evalRow f cs row).length = (allElems l).length ∧
      ∀ (j : ℕ) e, (allElems l)[j]? = some e → ∃ x, row[j]? = some x ∧
        (evalRow f cs row)[j]? = some (f e x) := by
    intro row hrow
    rw [evalRow_eq f cs row hrow, ← hE]
    refine ⟨by simp [hrow, hn], ?_⟩
    intro j e he
    have hj : j < (allElems l).length := (List.getElem?_eq_some_iff.1 he).1
    have hj' : j < row.length := by omega
    refine ⟨row[j], List.getElem?_eq_getElem hj', ?_⟩
    rw [List.getElem?_zipWith, he, List.getElem?_eq_getElem hj']
  cases v with
  | scalar x =>
    refine ⟨[evalRow f cs (List.replicate (batchSize cs) x)], ?_, rfl, ?_⟩
    · simp [eval, broadcastValue, batchSize]
    · intro i row hi
      match i, hi with
      | 0, hi =>
        have : evalRow f cs (List.replicate (batchSize cs) x) = row := by simpa using hi
        subst this
        obtain ⟨h1, h2⟩ := row_spec (List.replicate (batchSize cs) x) (by simp)
        refine ⟨h1, fun j e he => ?_⟩
        obtain ⟨y, hy, hr⟩ := h2 j e he
        have hyx : y = x := by
          have := List.mem_of_getElem? hy
          exact List.eq_of_mem_replicate this
        subst hyx
        exact ⟨y, rfl, hr⟩
      | (k + 1), hi => simp at hi
  | rows w rws =>
    have hv' : ∀ r ∈ rws, r.length = w := hv
    by_cases hw : w = batchSize cs
    · subst hw
      refine ⟨rws.map (evalRow f cs), ?_, by simp [nRows], ?_⟩
      · simp [eval, broadcastValue, batchSize]
      · intro i row hi
        rw [List.getElem?_map] at hi
        cases hr : rws[i]? with
        | none => rw [hr] at hi; cases hi
        | some r =>
          rw [hr] at hi
          have : evalRow f cs r = row := by simpa using hi
          subst this
          obtain ⟨h1, h2⟩ := row_spec r (hv' r (List.mem_of_getElem? hr))
          refine ⟨h1, fun j e he => ?_⟩
          obtain ⟨y, hy, hyr⟩ := h2 j e he
          refine ⟨y, ?_, hyr⟩
          simp only [entry, hr, Option.bind_some]
          split
          · rename_i h1'
            have hj : j < (allElems l).length := (List.getElem?_eq_some_iff.1 he).1
            have : j = 0 := by omega
            subst this; exact hy
          · exact hy
    · have hw1 : w = 1 := by
        rcases hf with h1 | h1
        · exact h1
        · exact absurd (h1.trans hn.symm) hw
      subst hw1
      refine ⟨(rws.map fun r => r.flatMap fun x => List.replicate (batchSize cs) x).map
        (evalRow f cs), ?_, by simp [nRows], ?_⟩
      · have hs : (sizes cs).sum = batchSize cs := rfl
        simp only [eval, broadcastValue, if_neg hw, if_true, hs]
      · intro i row hi
        rw [List.getElem?_map, List.getElem?_map] at hi
        cases hr : rws[i]? with
        | none => rw [hr] at hi; cases hi
        | some r =>
          rw [hr] at hi
          obtain ⟨x, hx, hrep⟩ := flatMap_singleton_width (batchSize cs) r
            (hv' r (List.mem_of_getElem? hr))
          have : evalRow f cs (List.replicate (batchSize cs) x) = row := by
            rw [← hrep]; simpa using hi
          subst this
          obtain ⟨h1, h2⟩ := row_spec (List.replicate (batchSize cs) x) (by simp)
          refine ⟨h1, fun j e he => ?_⟩
          obtain ⟨y, hy, hyr⟩ := h2 j e he
          have hyx : y = x := List.eq_of_mem_replicate (List.mem_of_getElem? hy)
          subst hyx
          refine ⟨y, ?_, hyr⟩
          simp [entry, hr, hx]

theorem eval_refused (f : Elem R → R → R) (l : List (Dist R σ)) (cs : List (Comp R σ))
    (h : make l = .ok cs) (v : Value R) (hf : ¬ Fits (allElems l).length v) :
    ∃ e, eval f cs v = .error e := by
  have hn := batch_shape l cs h
  cases v with
  | scalar x => exact absurd trivial hf
  | rows w rws =>
    simp only [Fits, not_or] at hf
    have hw : ¬ w = batchSize cs := fun h => hf.2 (h.trans hn)
    unfold eval broadcastValue
    simp only [if_neg hw, if_neg hf.1]
    by_cases h1 : batchSize cs = 1
    · have h2 : ¬ (sizes cs).sum = w := fun h => hw (by rw [← h]; rfl)
      exact ⟨.split, by simp [h1, h2]⟩
    · exact ⟨.broadcast, by simp [h1]⟩

/-- **C58.** Log density, quantiles and log distribution function are those of each element at the
number given for it, for all values with one number per row or one for each element; other values
are refused. -/
theorem elementwise (l : List (Dist R σ)) (cs : List (Comp R σ)) (h : make l = .ok cs)
    (v : Value R) (hv : WellFormed v) :
    (Fits (allElems l).length v →
      (∃ out, logProb cs v = .ok out ∧ Elementwise Elem.logProb (allElems l) v out) ∧
      (∃ out, quantile cs v = .ok out ∧ Elementwise Elem.quantile (allElems l) v out) ∧
      ∃ out, logCdf cs v = .ok out ∧ Elementwise Elem.logCdf (allElems l) v out) ∧
    (¬ Fits (allElems l).length v →
      (∃ e, logProb cs v = .error e) ∧ (∃ e, quantile cs v = .error e) ∧
        ∃ e, logCdf cs v = .error e) :=
  ⟨fun hf => ⟨eval_elementwise _ l cs h v hv hf, eval_elementwise _ l cs h v hv hf,
    eval_elementwise _ l cs h v hv hf⟩,
   fun hf => ⟨eval_refused _ l cs h v hf, eval_refused _ l cs h v hf, eval_refused _ l cs h v hf⟩⟩

/-- **C58.** Mean and variance are those of the elements. -/
theorem moments (l : List (Dist R σ)) (cs : List (Comp R σ)) (h : make l = .ok cs) :
    mean cs = (allElems l).map Elem.mean ∧ variance cs = (allElems l).map Elem.variance := by
  rw [allElems_eq l cs h, mean, variance, List.map_flatMap, List.map_flatMap]
  exact ⟨rfl, rfl⟩

/-- **C58.** A sample has a number for each element: those of a distribution are the numbers it draws
itself from the seed. -/
theorem sample_by_distribution (before after : List (Dist R σ)) (d : Dist R σ)
    (cs : List (Comp R σ)) (h : make (before ++ d :: after) = .ok cs) (seed : σ) (n i : ℕ)
    (hi : i < n) :
    ∃ row, (sample cs seed n)[i]? = some row ∧
      row.length = (allElems (before ++ d :: after)).length ∧
      ∀ j < (elemsOf d).length,
        row[(allElems before).length + j]? = some (d.draw seed n i j) := by
  have hcs := make_ok _ cs h
  refine ⟨sampleRow cs seed n i, by simp [sample, hi], ?_, ?_⟩
  · rw [hcs]
    simp [sampleRow, allElems, List.length_flatMap, List.map_map, Function.comp_def]
  · intro j hj
    rw [hcs]
    simp only [sampleRow, List.map_append, List.map_cons, List.flatMap_append, List.flatMap_cons]
    have hlen : (List.flatMap (fun c : Comp R σ => (List.range c.elems.length).map
        fun j => c.draw seed n i j) (before.map fun d => ⟨elemsOf d, d.draw⟩)).length =
        (allElems before).length := by
      simp [allElems, List.length_flatMap, List.map_map, Function.comp_def]
    rw [List.getElem?_append_right (by omega), hlen, Nat.add_sub_cancel_left,
      List.getElem?_append_left (by simpa using hj)]
    simp [hj]

/-- **C58, violated.** The elements are not independent: all distributions draw from the same seed, so
two distributions with the same sampler always draw the same numbers. -/
theorem equal_distributions_equal_draws (a b c : List (Dist R σ)) (d e : Dist R σ)
    (hde : d.draw = e.draw) (cs : List (Comp R σ)) (h : make (a ++ d :: b ++ e :: c) = .ok cs)
    (seed : σ) (n i : ℕ) (hi : i < n) (j : ℕ) (hj : j < (elemsOf d).length)
    (hj' : j < (elemsOf e).length) :
    ∃ row, (sample cs seed n)[i]? = some row ∧ ∃ x,
      row[(allElems a).length + j]? = some x ∧
      row[(allElems (a ++ d :: b)).length + j]? = some x := by
  have h' : make (a ++ d :: (b ++ e :: c)) = .ok cs := by simpa using h
  obtain ⟨row, hr, -, h1⟩ := sample_by_distribution a (b ++ e :: c) d cs h' seed n i hi
  obtain ⟨row', hr', -, h2⟩ := sample_by_distribution (a ++ d :: b) c e cs h seed n i hi
  rw [hr] at hr'
  cases hr'
  exact ⟨row, hr, d.draw seed n i j, h1 j hj, by rw [h2 j hj', hde]⟩

open MeasureTheory ProbabilityTheory in
/-- **C58, violated.** For a random seed, the two numbers drawn for two scalar distributions with the
same sampler are not independent random variables, unless they are constant (every event has
probability 0 or 1). -/
theorem not_independent [MeasurableSpace σ] (P : Measure σ) [IsProbabilityMeasure P]
    (d e : Dist ℝ σ) (hde : d.draw = e.draw) (hd : (elemsOf d).length = 1)
    (he : (elemsOf e).length = 1) (cs : List (Comp ℝ σ)) (h : make [d, e] = .ok cs) (n i : ℕ)
    (hi : i < n) (S : Set ℝ) (hS : MeasurableSet S)
    (h0 : P {s | d.draw s n i 0 ∈ S} ≠ 0) (h1 : P {s | d.draw s n i 0 ∈ S} ≠ 1) :
    ¬ IndepFun (fun s => ((sample cs s n)[i]?.bind (·[0]?)).getD 0)
      (fun s => ((sample cs s n)[i]?.bind (·[1]?)).getD 0) P := by
  have key : ∀ s, ((sample cs s n)[i]?.bind (·[0]?)).getD 0 = d.draw s n i 0 ∧
      ((sample cs s n)[i]?.bind (·[1]?)).getD 0 = d.draw s n i 0 := by
    intro s
    obtain ⟨row, hr, x, hx1, hx2⟩ := equal_distributions_equal_draws [] [] [] d e hde cs
      (by simpa using h) s n i hi 0 (by omega) (by omega)
    obtain ⟨row', hr', -, hx3⟩ := sample_by_distribution [] [e] d cs (by simpa using h) s n i hi
    rw [hr] at hr'; cases hr'
    have e1 := hx3 0 (by omega)
    simp only [allElems, List.flatMap_nil, List.length_nil, Nat.add_zero, List.nil_append,
      List.flatMap_cons, List.append_nil, hd] at hx1 hx2 e1
    rw [hx1] at e1
    cases e1
    simp [hr, hx1, hx2]
  intro hind
  have hind' : IndepFun (fun s => d.draw s n i 0) (fun s => d.draw s n i 0) P := by
    have e1 : (fun s => ((sample cs s n)[i]?.bind (·[0]?)).getD 0) = fun s => d.draw s n i 0 :=
      funext fun s => (key s).1
    have e2 : (fun s => ((sample cs s n)[i]?.bind (·[1]?)).getD 0) = fun s => d.draw s n i 0 :=
      funext fun s => (key s).2
    rw [e1, e2] at hind
    exact hind
  have := hind'.measure_inter_preimage_eq_mul S S hS hS
  rw [Set.inter_self] at this
  have hfin : P ((fun s => d.draw s n i 0) ⁻¹' S) ≠ ⊤ := measure_ne_top _ _
  have hne : P ((fun s => d.draw s n i 0) ⁻¹' S) ≠ 0 := h0
  apply h1
  change P ((fun s => d.draw s n i 0) ⁻¹' S) = 1
  have h2 : P ((fun s => d.draw s n i 0) ⁻¹' S) * 1 =
      P ((fun s => d.draw s n i 0) ⁻¹' S) * P ((fun s => d.draw s n i 0) ⁻¹' S) := by
    rw [mul_one]; exact this
  exact ((ENNReal.mul_right_inj hne hfin).1 h2).symm

/-! ### A concrete case -/

/-- A triangular-like element on integers, for the examples. -/
def el (k : ℤ) : Elem ℤ := ⟨fun x => -(x - k) ^ 2, fun p => p + k, fun x => x - k, k, k ^ 2⟩

/-- Two scalar distributions and one of three elements. -/
def given : List (Dist ℤ ℕ) :=
  [⟨false, "float32", .scalar (el 1), fun s n i j => s + n + i + j⟩,
   ⟨false, "float32", .vec [el 2, el 3, el 4], fun s _ i j => s * i + j⟩,
   ⟨false, "float32", .scalar (el 1), fun s n i j => s + n + i + j⟩]

example : Combinable given := by
  refine ⟨by simp [given], ?_, ?_, ?_⟩ <;> simp [given]

example : (make given).isOk = true := by decide +kernel

example : (allElems given).length = 5 := by decide +kernel

example : ((make given).bind fun cs => logProb cs (.rows 5 [[1, 2, 3, 4, 5], [0, 0, 0, 0, 0]])) =
    .ok [[0, 0, 0, 0, -16], [-1, -4, -9, -16, -1]] := by decide +kernel

example : ((make given).bind fun cs => quantile cs (.rows 1 [[7], [8]])) =
    .ok [[8, 9, 10, 11, 8], [9, 10, 11, 12, 9]] := by decide +kernel

example : ((make given).bind fun cs => quantile cs (.rows 2 [[7, 7]])) = .error .broadcast := by
  decide +kernel

example : ((make given).map fun cs => sample cs 7 2) = .ok [[9, 0, 1, 2, 9], [10, 7, 8, 9, 10]] := by
  decide +kernel

end Verif.Multi.Props
