import Mathlib.Tactic
import Verif.Spec.Rhat

/-!
# C65: the R-hat summary and the convergence check
-/

namespace Verif.Rhat.Props

open Verif.Accuracy (Fl nanmean nansum present)
open Verif.Rhat Verif.Rhat.Spec

/-! ## The order -/

theorem lt_iff (a b : Fl) : lt a b = true ↔ Below a b := by
  cases a <;> cases b <;> simp [lt, Below]

theorem gt_iff (a b : Fl) : gt a b = true ↔ Below b a := lt_iff b a

theorem Below.irrefl (a : Fl) : ¬ Below a a := by cases a <;> simp [Below]

theorem Below.trans {a b c : Fl} (h1 : Below a b) (h2 : Below b c) : Below a c := by
  cases a <;> cases b <;> cases c <;> simp_all [Below]
  exact lt_trans h1 h2

theorem not_below_trans {a b c : Fl} (hb : b.isNan = false) (h1 : ¬ Below b a) (h2 : ¬ Below c b) :
    ¬ Below c a := by
  cases a <;> cases b <;> cases c <;> simp_all [Below, Fl.isNan]
  exact le_trans h1 h2

theorem below_of_le_of_below {x m c : Fl} (hx : x.isNan = false) (h : ¬ Below m x)
    (hm : Below m c) : Below x c := by
  cases x <;> cases m <;> cases c <;> simp_all [Below, Fl.isNan]
  exact lt_of_le_of_lt h hm

theorem below_of_below_of_le {m c d : Fl} (hd : d.isNan = false) (h : ¬ Below d c)
    (hm : Below m c) : Below m d := by
  cases m <;> cases c <;> cases d <;> simp_all [Below, Fl.isNan]
  exact lt_of_lt_of_le hm h

theorem below_nan_right (a : Fl) : ¬ Below a .nan := by cases a <;> simp [Below]

theorem below_nan_left (a : Fl) : ¬ Below .nan a := by cases a <;> simp [Below]

theorem le_of_not_below {a b : Fl} (ha : a.isNan = false) (hb : b.isNan = false)
    (h : ¬ Below b a) : le a b = true := by
  cases a <;> cases b <;> simp_all [Below, le, lt, Fl.isNan]
  exact lt_or_eq_of_le h

theorem mem_known {l : List Fl} {x : Fl} : x ∈ known l ↔ x ∈ l ∧ x.isNan = false := by
  simp [known]

/-! ## The maximum -/

theorem nanmax_fold (l : List Fl) (b : Fl) :
    let m := l.foldl (fun b x => if b.isNan then x else if lt b x then x else b) b
    (b.isNan = false → IsLargest (b :: l) m) ∧
    (b.isNan = true → (known l = [] ∧ m.isNan = true) ∨ IsLargest l m) := by
  induction l generalizing b with
  | nil =>
    refine ⟨fun h => ⟨mem_known.2 ⟨by simp, by simpa using h⟩, fun x hx => ?_⟩,
      fun h => .inl ⟨rfl, h⟩⟩
    simp only [List.mem_singleton] at hx
    subst hx; exact Below.irrefl x
  | cons a l ih =>
    simp only [List.foldl_cons]
    constructor
    · intro hb
      simp only [hb, Bool.false_eq_true, if_false]
      by_cases h : lt b a
      · simp only [h, if_true]
        have h' := (lt_iff b a).1 h
        have ha : a.isNan = false := by
          cases a <;> simp_all [Below, Fl.isNan]
        obtain ⟨h1, h2⟩ := (ih a).1 ha
        refine ⟨mem_known.2 ⟨List.mem_cons_of_mem _ (mem_known.1 h1).1, (mem_known.1 h1).2⟩,
          fun x hx => ?_⟩
        rcases List.mem_cons.1 hx with rfl | hx
        · exact fun h3 => h2 a (by simp) (Below.trans h3 h')
        · exact h2 x hx
      · simp only [h, Bool.false_eq_true, if_false]
        obtain ⟨h1, h2⟩ := (ih b).1 hb
        have h' : ¬ Below b a := fun hc => h ((lt_iff b a).2 hc)
        refine ⟨mem_known.2 ⟨?_, (mem_known.1 h1).2⟩, fun x hx => ?_⟩
        · rcases List.mem_cons.1 (mem_known.1 h1).1 with h3 | h3
          · rw [h3]; simp
          · exact List.mem_cons_of_mem _ (List.mem_cons_of_mem _ h3)
        · simp only [List.mem_cons] at hx
          rcases hx with rfl | rfl | hx
          · exact h2 _ (by simp)
          · exact not_below_trans hb h' (h2 b (by simp))
          · exact h2 _ (by simp [hx])
    · intro hb
      simp only [hb, if_true]
      cases ha : a.isNan with
      | false => exact .inr ((ih a).1 ha)
      | true =>
        rcases (ih a).2 ha with ⟨h1, h2⟩ | ⟨h1, h2⟩
        · refine .inl ⟨?_, h2⟩
          unfold known at h1 ⊢
          rw [List.filter_cons_of_neg (by simp [ha]), h1]
        · refine .inr ⟨mem_known.2 ⟨List.mem_cons_of_mem _ (mem_known.1 h1).1, (mem_known.1 h1).2⟩,
            fun x hx => ?_⟩
          rcases List.mem_cons.1 hx with rfl | hx
          · cases x <;> simp_all [Fl.isNan, below_nan_right]
          · exact h2 x hx

/-- The reported maximum is the largest value that is a number; it is NaN exactly if there is no
such value. -/
theorem nanmax_spec (l : List Fl) :
    (known l = [] → nanmax l = .nan) ∧ (known l ≠ [] → IsLargest l (nanmax l)) := by
  rcases (nanmax_fold l .nan).2 rfl with ⟨h1, h2⟩ | h
  · refine ⟨fun _ => ?_, fun h => absurd h1 h⟩
    unfold nanmax
    revert h2
    generalize List.foldl _ _ _ = m
    cases m <;> simp [Fl.isNan]
  · refine ⟨fun h' => ?_, fun _ => h⟩
    have := h.1
    rw [h'] at this
    cases this

theorem nanmax_isNan (l : List Fl) : (nanmax l).isNan = true ↔ known l = [] := by
  constructor
  · intro h
    by_contra hc
    have := (mem_known.1 ((nanmax_spec l).2 hc).1).2
    rw [h] at this; cases this
  · intro h
    rw [(nanmax_spec l).1 h]; rfl

example : nanmax [.nan, .fin 1, .fin (3 / 2), .nan, .fin 0] = .fin (3 / 2) := by decide +kernel

/-! ## The mask -/

theorem lookup_mapping (c : Ctx) (k : Kind) (hn : 0 < c.n k) {p : String} (hp : p ∈ hillNames k) :
    (maskMapping c).lookup p = some (linearMask c k) := by
  have hn' : c.n k ≠ 0 := by omega
  have key : ∀ k', ((if c.n k' = 0 then [] else (hillNames k').map fun p => (p, linearMask c k'))
      : List (String × List Bool)).lookup p =
      if c.n k' = 0 then none else if p ∈ hillNames k' then some (linearMask c k') else none := by
    intro k'
    split
    · rfl
    · cases k' <;> simp only [hillNames, List.map_cons, List.map_nil, List.mem_cons,
        List.not_mem_nil, or_false, List.lookup_cons, List.lookup_nil] <;>
      (split <;> [skip; split]) <;> simp_all
  unfold maskMapping kinds
  simp only [List.flatMap_cons, List.flatMap_nil, List.append_nil, List.lookup_append, key]
  cases k <;> simp only [hillNames, List.mem_cons, List.not_mem_nil, or_false] at hp <;>
    rcases hp with rfl | rfl <;> simp [hillNames, hn']

theorem lookup_mapping_none (c : Ctx) {p : String} (hp : ∀ k, 0 < c.n k → p ∉ hillNames k) :
    (maskMapping c).lookup p = none := by
  rw [List.lookup_eq_none_iff]
  intro q hq
  unfold maskMapping at hq
  obtain ⟨k, -, hk⟩ := List.mem_flatMap.1 hq
  split at hk
  · cases hk
  · rename_i h0
    obtain ⟨r, hr, rfl⟩ := List.mem_map.1 hk
    have := hp k (by omega)
    simp only [ne_eq, bne_iff_ne]
    rintro rfl
    exact this hr

theorem linearMask_get (c : Ctx) (k : Kind) (i : ℕ) (hi : i < (linearMask c k).length) :
    (linearMask c k)[i] = true ↔ Linear c k i := by
  have h2 : (linearMask c k)[i] = true ↔ (linearMask c k)[i]? = some true := by
    rw [List.getElem?_eq_getElem hi, Option.some.injEq]
  rw [h2]
  clear hi h2
  unfold linearMask Linear
  cases h : c.sat k with
  | all s =>
    simp only [List.getElem?_replicate]
    by_cases hi : i < c.n k <;> simp [hi]
  | each l =>
    simp only [List.getElem?_map]
    cases l[i]? <;> simp

theorem linearMask_length {c : Ctx} (hc : WellFormed c) (k : Kind) :
    (linearMask c k).length = c.n k := by
  unfold linearMask
  cases h : c.sat k with
  | all s => simp
  | each l => simpa using hc k l h

/-- The parameters keep their names and order. -/
theorem masked_names (c : Ctx) (rhat : List (String × Tensor)) :
    (masked c rhat).map Prod.fst = rhat.map Prod.fst := by
  unfold masked
  rw [List.map_map]
  refine List.map_congr_left fun p _ => ?_
  simp only [Function.comp]
  split <;> rfl

/-- Exactly the saturation parameters of channels without saturation are masked: they become NaN,
and every other R-hat value is reported as computed. -/
theorem masked_exactly {c : Ctx} (hc : WellFormed c) (rhat : List (String × Tensor)) :
    (∀ k, 0 < c.n k → ∀ p ∈ hillNames k, ∀ l : List Fl, l.length = c.n k → (p, .vec l) ∈ rhat →
      ∃ l' : List Fl, (p, .vec l') ∈ masked c rhat ∧ l'.length = l.length ∧
        ∀ i, (Linear c k i → i < c.n k → l'[i]? = some .nan) ∧
          (¬ Linear c k i → l'[i]? = l[i]?)) ∧
    (∀ p t, (∀ k, 0 < c.n k → p ∉ hillNames k) → (p, t) ∈ rhat → (p, t) ∈ masked c rhat) := by
  constructor
  · intro k hk p hp l hl hm
    refine ⟨((linearMask c k).zip l).map fun p => if p.1 then .nan else p.2,
      List.mem_map.2 ⟨_, hm, ?_⟩, ?_, fun i => ?_⟩
    · simp only [lookup_mapping c k hk hp, maskTensor]
    · simp [linearMask_length hc k, hl]
    · by_cases hi : i < c.n k
      · have hi1 : i < (linearMask c k).length := by rw [linearMask_length hc k]; exact hi
        have hi2 : i < l.length := by omega
        have e : (((linearMask c k).zip l).map fun p => if p.1 then Fl.nan else p.2)[i]? =
            some (if (linearMask c k)[i] then .nan else l[i]) := by
          rw [List.getElem?_map, List.getElem?_eq_getElem (by simp; omega)]
          simp
        rw [e]
        refine ⟨fun h _ => ?_, fun h => ?_⟩
        · rw [if_pos ((linearMask_get c k i hi1).2 h)]
        · rw [if_neg (fun h' => h ((linearMask_get c k i hi1).1 h')), List.getElem?_eq_getElem hi2]
      · refine ⟨fun _ h => absurd h hi, fun _ => ?_⟩
        rw [List.getElem?_eq_none (by simp [linearMask_length hc k]; omega), List.getElem?_eq_none (by omega)]
  · intro p t hp hm
    refine List.mem_map.2 ⟨_, hm, ?_⟩
    simp only [lookup_mapping_none c hp]

/-- A model with three media channels, the second without saturation. -/
def exCtx : Ctx :=
  ⟨fun k => if k = .media then 3 else 0,
    fun k => if k = .media then .each ["hill", "none", "hill"] else .all "hill", fun p => p == "xi_c"⟩

theorem exCtx_wf : WellFormed exCtx := by
  intro k l h
  cases k <;> simp_all [exCtx]
  subst h; rfl

def exRhat : List (String × Tensor) :=
  [("tau_g", .vec [.fin 1, .fin 2]), ("ec_m", .vec [.fin 1, .fin 3, .fin 2]), ("xi_c", .vec [.nan]),
    ("beta_gm", .mat [[.fin 1, .fin 2], [.fin 3, .nan]]), ("sigma", .scalar (.fin 5))]

example : Linear exCtx .media 1 ∧ ¬ Linear exCtx .media 0 := by simp [Linear, exCtx]

/-! ## The summary -/

theorem sum_asNum (l : List Bool) : Verif.Accuracy.sum (l.map asNum) =
    .fin (l.count true : ℚ) := by
  induction l with
  | nil => rfl
  | cons b l ih =>
    have : Verif.Accuracy.sum ((b :: l).map asNum) =
      (asNum b).add (Verif.Accuracy.sum (l.map asNum)) := rfl
    rw [this, ih]
    cases b <;> simp [asNum, Fl.add]
    ring

/-- The reported share of bad values is the number of values above the threshold over the number of
all values, masked ones included. -/
theorem percent_eq (thr : Fl) {l : List Fl} (hl : l ≠ []) :
    nanmean (l.map fun x => asNum (gt x thr)) =
      .fin ((l.filter fun x => gt x thr).length / l.length) := by
  have e : present (l.map fun x => asNum (gt x thr)) = l.map fun x => asNum (gt x thr) := by
    unfold present
    rw [List.filter_eq_self]
    intro x hx
    obtain ⟨y, -, rfl⟩ := List.mem_map.1 hx
    rfl
  have e2 : (l.map fun x => asNum (gt x thr)) = (l.map fun x => gt x thr).map asNum := by
    rw [List.map_map]; rfl
  have e3 : (l.map fun x => gt x thr).count true = (l.filter fun x => gt x thr).length := by
    rw [List.count, List.countP_map, List.countP_eq_length_filter]
    congr 1
    refine List.filter_congr fun x _ => ?_
    simp
  unfold nanmean nansum
  rw [e]
  conv_lhs => rw [e2]
  rw [sum_asNum, e3]
  have h0 : (l.length : ℚ) ≠ 0 := by
    have := List.length_pos_iff.2 hl
    exact_mod_cast this.ne'
  simp only [Fl.div, List.length_map, if_neg h0]

theorem getD_eq {α : Type} {l : List α} {i : ℕ} {d : α} (h : i < l.length) : l.getD i d = l[i] := by
  simp [h]

theorem mem_badIdx {thr : Fl} {l : List Fl} {i : ℕ} :
    i ∈ badIdx thr l ↔ ∃ x, l[i]? = some x ∧ Below thr x := by
  unfold badIdx
  simp only [List.mem_filter, List.mem_range, gt_iff]
  constructor
  · rintro ⟨h1, h2⟩
    refine ⟨l[i], List.getElem?_eq_getElem h1, ?_⟩
    rwa [getD_eq h1] at h2
  · rintro ⟨x, h1, h2⟩
    obtain ⟨h3, rfl⟩ := List.getElem?_eq_some_iff.1 h1
    refine ⟨h3, ?_⟩
    rwa [getD_eq h3]

/-- What a row of the summary says about the values of its parameter. -/
structure Describes (thr : Fl) (t : Tensor) (r : Row) : Prop where
  /-- The number of values. -/
  count : r.nParams = t.flat.length
  /-- The average of the values that are numbers. -/
  average : ∀ l : List ℚ, known t.flat = l.map .fin → l ≠ [] → r.avg = .fin (l.sum / l.length)
  /-- The largest of the values that are numbers. -/
  largest : known t.flat ≠ [] → IsLargest t.flat r.max
  /-- The share of values above the threshold. -/
  share : t.flat ≠ [] →
    r.percentBad = .fin ((t.flat.filter fun x => gt x thr).length / t.flat.length)
  /-- For a parameter with one dimension: the positions of the values above the threshold. -/
  positions : ∀ l, t = .vec l → r.colIdx = [] ∧ r.rowIdx.Pairwise (· < ·) ∧
    ∀ i, i ∈ r.rowIdx ↔ ∃ x, l[i]? = some x ∧ Below thr x
  /-- For a parameter with two dimensions: the rows and columns of these values. -/
  cells : ∀ m, t = .mat m → r.rowIdx.length = r.colIdx.length ∧
    ∀ i j, (i, j) ∈ r.rowIdx.zip r.colIdx ↔ ∃ l x, m[i]? = some l ∧ l[j]? = some x ∧ Below thr x

theorem sum_fin (l : List ℚ) : Verif.Accuracy.sum (l.map .fin) = .fin l.sum := by
  induction l with
  | nil => rfl
  | cons a l ih =>
    have : Verif.Accuracy.sum ((a :: l).map .fin) =
      (Fl.fin a).add (Verif.Accuracy.sum (l.map .fin)) := rfl
    rw [this, ih]
    simp [Fl.add]

theorem average_of {l : List Fl} {q : List ℚ} (h : known l = q.map .fin) (hq : q ≠ []) :
    nanmean l = .fin (q.sum / q.length) := by
  have h' : present l = q.map .fin := h
  have h0 : (q.length : ℚ) ≠ 0 := by
    have := List.length_pos_iff.2 hq
    exact_mod_cast this.ne'
  unfold nanmean nansum
  rw [h', sum_fin]
  simp only [Fl.div, List.length_map, if_neg h0]

theorem badIdx_sorted (thr : Fl) (l : List Fl) : (badIdx thr l).Pairwise (· < ·) :=
  List.Pairwise.filter _ List.pairwise_lt_range

theorem mem_badPairs {thr : Fl} {m : List (List Fl)} {i j : ℕ} :
    (i, j) ∈ badPairs thr m ↔ ∃ l x, m[i]? = some l ∧ l[j]? = some x ∧ Below thr x := by
  unfold badPairs
  simp only [List.mem_flatMap, List.mem_range, List.mem_map, Prod.mk.injEq]
  constructor
  · rintro ⟨i', h1, j', h2, rfl, rfl⟩
    obtain ⟨x, h3, h4⟩ := mem_badIdx.1 h2
    rw [getD_eq h1] at h3
    exact ⟨_, x, List.getElem?_eq_getElem h1, h3, h4⟩
  · rintro ⟨l, x, h1, h2, h3⟩
    obtain ⟨h4, rfl⟩ := List.getElem?_eq_some_iff.1 h1
    refine ⟨i, h4, j, mem_badIdx.2 ⟨x, ?_, h3⟩, rfl, rfl⟩
    rwa [getD_eq h4]

theorem zip_unzip' {α β : Type} (l : List (α × β)) : (l.map Prod.fst).zip (l.map Prod.snd) = l := by
  induction l with
  | nil => rfl
  | cons a l ih => simp [ih]

theorem rowOf_spec {thr : Fl} {p : String} {t : Tensor} {r : Row} (h : rowOf thr p t = .ok r) :
    r.param = p ∧ Describes thr t r := by
  cases t with
  | scalar x =>
    simp only [rowOf, Except.ok.injEq] at h
    subst h
    refine ⟨rfl, ⟨rfl, fun l h1 h2 => average_of h1 h2, (nanmax_spec _).2, percent_eq thr,
      fun l hl => (by cases hl), fun m hm => by cases hm⟩⟩
  | vec l =>
    simp only [rowOf, Except.ok.injEq] at h
    subst h
    refine ⟨rfl, ⟨rfl, fun l h1 h2 => average_of h1 h2, (nanmax_spec _).2, percent_eq thr,
      fun l' hl => ?_, fun m hm => by cases hm⟩⟩
    cases hl
    exact ⟨rfl, badIdx_sorted thr l, fun i => mem_badIdx⟩
  | mat m =>
    simp only [rowOf, Except.ok.injEq] at h
    subst h
    refine ⟨rfl, ⟨rfl, fun l h1 h2 => average_of h1 h2, (nanmax_spec _).2, percent_eq thr,
      fun l' hl => (by cases hl), fun m' hm => ?_⟩⟩
    cases hm
    refine ⟨by simp, fun i j => ?_⟩
    rw [zip_unzip']
    exact mem_badPairs
  | deep l => simp [rowOf] at h

theorem priorName_eq (p : String) : priorName p = priorOf p := by
  unfold priorName priorOf
  split <;> split <;> simp_all

theorem rows_spec {c : Ctx} {thr : Fl} {l : List (String × Tensor)} {rs : List Row}
    (h : rows c thr l = .ok rs) :
    List.Forall₂ (fun p r => r.param = p.1 ∧ Describes thr p.2 r)
      (l.filter fun p => !c.deterministic (priorOf p.1)) rs := by
  induction l generalizing rs with
  | nil =>
    simp only [rows, Except.ok.injEq] at h
    subst h; exact .nil
  | cons a l ih =>
    obtain ⟨p, t⟩ := a
    simp only [rows, priorName_eq] at h
    by_cases hd : c.deterministic (priorOf p) = true
    · rw [if_pos hd] at h
      rw [List.filter_cons_of_neg (by simp [hd])]
      exact ih h
    · rw [if_neg hd] at h
      rw [List.filter_cons_of_pos (by simpa using hd)]
      cases hr : rowOf thr p t with
      | error e => rw [hr] at h; cases h
      | ok r =>
        rw [hr] at h
        cases hrs : rows c thr l with
        | error e => rw [hrs] at h; cases h
        | ok rs' =>
          rw [hrs] at h
          simp only [Except.ok.injEq] at h
          subst h
          exact .cons (rowOf_spec hr) (ih hrs)

/-- The summary has a row for every parameter whose prior is not deterministic, in order, and the row
describes the (masked) R-hat values of this parameter. -/
theorem summary_describes {c : Ctx} {thr : Fl} {rhat : List (String × Tensor)} {rs : List Row}
    (h : summary c thr rhat = .ok rs) :
    List.Forall₂ (fun p r => r.param = p.1 ∧ Describes thr p.2 r)
      ((masked c rhat).filter fun p => !c.deterministic (priorOf p.1)) rs := rows_spec h

theorem rows_ok_iff (c : Ctx) (thr : Fl) (l : List (String × Tensor)) :
    (∃ rs, rows c thr l = .ok rs) ↔
      ∀ p v, (p, Tensor.deep v) ∈ l → c.deterministic (priorOf p) = true := by
  induction l with
  | nil => simp [rows]
  | cons a l ih =>
    obtain ⟨p, t⟩ := a
    simp only [rows, priorName_eq]
    by_cases hd : c.deterministic (priorOf p) = true
    · rw [if_pos hd, ih]
      constructor
      · intro h q v hq
        rcases List.mem_cons.1 hq with e | hq
        · cases e; exact hd
        · exact h q v hq
      · exact fun h q v hq => h q v (List.mem_cons_of_mem _ hq)
    · rw [if_neg hd]
      have step : ∀ (x : Except Err Row) (y : Except Err (List Row)), (∃ rs : List Row, (match x with
          | .error e => (.error e : Except Err (List Row))
          | .ok r => (match y with
            | .error e => .error e
            | .ok rs => .ok (r :: rs) : Except Err (List Row))) = .ok rs) ↔
          (∃ r, x = .ok r) ∧ ∃ rs, y = .ok rs := by
        intro x y
        cases x <;> cases y <;> simp
      refine (step _ _).trans ?_
      rw [ih]
      cases t with
      | deep v =>
        simp only [rowOf, reduceCtorEq, exists_false, false_and, false_iff]
        exact fun h => hd (h p v (by simp))
      | scalar x => simp [rowOf]
      | vec x => simp [rowOf]
      | mat x => simp [rowOf]

theorem deep_masked {c : Ctx} {rhat : List (String × Tensor)} {p : String} {v : List Fl} :
    (p, Tensor.deep v) ∈ masked c rhat ↔ (p, Tensor.deep v) ∈ rhat := by
  unfold masked
  constructor
  · intro h
    obtain ⟨⟨q, t⟩, hq, e⟩ := List.mem_map.1 h
    simp only at e
    split at e
    · rename_i m hm
      cases t <;> simp [maskTensor] at e
      obtain ⟨rfl, rfl⟩ := e
      exact hq
    · cases e; exact hq
  · intro h
    refine List.mem_map.2 ⟨_, h, ?_⟩
    simp only
    split <;> rfl

/-- The summary is refused exactly if a parameter with a prior that is not deterministic has more
than two dimensions. -/
theorem summary_refused_iff (c : Ctx) (thr : Fl) (rhat : List (String × Tensor)) :
    summary c thr rhat = .error .unexpectedDimension ↔
      ∃ p v, (p, Tensor.deep v) ∈ rhat ∧ c.deterministic (priorOf p) = false := by
  have h := rows_ok_iff c thr (masked c rhat)
  have e : summary c thr rhat = .error .unexpectedDimension ↔ ¬ ∃ rs, summary c thr rhat = .ok rs := by
    cases hs : summary c thr rhat with
    | error e => cases e; simp
    | ok r => simp
  rw [e]
  unfold summary
  rw [h]
  push Not
  simp only [deep_masked, ne_eq, Bool.not_eq_true]

example : summary exCtx (.fin (6 / 5)) exRhat = .ok
    [⟨"tau_g", 2, .fin (3 / 2), .fin 2, .fin (1 / 2), [1], []⟩,
      ⟨"ec_m", 3, .fin (3 / 2), .fin 2, .fin (1 / 3), [2], []⟩,
      ⟨"beta_gm", 4, .fin 2, .fin 3, .fin (1 / 2), [0, 1], [1, 0]⟩,
      ⟨"sigma", 1, .fin 5, .fin 5, .fin 1, [], []⟩] := by decide +kernel

/-- A channel without saturation is never listed as bad, whatever its R-hat value is. -/
theorem linear_never_listed {c : Ctx} (hc : WellFormed c) {thr : Fl}
    {rhat : List (String × Tensor)} {k : Kind} (hk : 0 < c.n k) {p : String} (hp : p ∈ hillNames k)
    {l : List Fl} (hl : l.length = c.n k) (hm : (p, Tensor.vec l) ∈ rhat)
    {i : ℕ} (hi : i < c.n k) (hlin : Linear c k i) :
    ∃ l', (p, Tensor.vec l') ∈ masked c rhat ∧ ∀ r, rowOf thr p (.vec l') = .ok r →
      i ∉ r.rowIdx := by
  obtain ⟨l', h1, h2, h3⟩ := (masked_exactly hc rhat).1 k hk p hp l hl hm
  refine ⟨l', h1, fun r hr hir => ?_⟩
  obtain ⟨x, hx, hb⟩ := (((rowOf_spec hr).2.positions l' rfl).2.2 i).1 hir
  rw [(h3 i).1 hlin hi] at hx
  cases hx
  exact below_nan_right _ hb

/-- The share of bad values is the share among all the channels, not among those that have the
parameter: masked channels dilute it. With one saturated channel out of `n`, which has a bad R-hat
value, the reported share is `1 / n`, and the number of parameters is reported as `n`. -/
theorem masked_dilute (n : ℕ) (thr : ℚ) (x : ℚ) (hx : thr < x) :
    ∃ r, rowOf (.fin thr) "ec_m" (.vec (.fin x :: List.replicate n .nan)) = .ok r ∧
      r.nParams = n + 1 ∧ r.percentBad = .fin (1 / (n + 1)) ∧ r.avg = .fin x := by
  refine ⟨_, rfl, by simp [Tensor.flat], ?_, ?_⟩
  · change nanmean _ = _
    rw [percent_eq _ (by simp [Tensor.flat])]
    have h1 : gt (.fin x) (.fin thr) = true := (gt_iff _ _).2 hx
    have h2 : (List.replicate n Fl.nan).filter (fun y => gt y (.fin thr)) = [] := by
      rw [List.filter_eq_nil_iff]
      intro y hy
      rw [(List.mem_replicate.1 hy).2]
      simp [gt, lt]
    simp only [Tensor.flat]
    rw [List.filter_cons_of_pos (p := fun y => gt y (.fin thr)) h1, h2]
    simp
  · change nanmean _ = _
    rw [average_of (q := [x]) _ (by simp)]
    · simp
    · simp [known, Tensor.flat, Fl.isNan]

/-! ## The convergence check -/

theorem known_flatMap (rhat : List (String × Tensor)) :
    known (values rhat) = [] ↔ ∀ p ∈ maxima rhat, p.2.isNan = true := by
  unfold maxima values
  constructor
  · intro h p hp
    obtain ⟨q, hq, rfl⟩ := List.mem_map.1 hp
    rw [nanmax_isNan, List.eq_nil_iff_forall_not_mem]
    intro x hx
    have : x ∈ known (rhat.flatMap fun p => p.2.flat) :=
      mem_known.2 ⟨List.mem_flatMap.2 ⟨q, hq, (mem_known.1 hx).1⟩, (mem_known.1 hx).2⟩
    rw [h] at this; cases this
  · intro h
    rw [List.eq_nil_iff_forall_not_mem]
    intro x hx
    obtain ⟨h1, h2⟩ := mem_known.1 hx
    obtain ⟨q, hq, hxq⟩ := List.mem_flatMap.1 h1
    have := (nanmax_isNan q.2.flat).1 (h _ (List.mem_map.2 ⟨q, hq, rfl⟩))
    have hm : x ∈ known q.2.flat := mem_known.2 ⟨hxq, h2⟩
    rw [this] at hm; cases hm

theorem pyMax_nan (a : String × Fl) (l : List (String × Fl)) (h : a.2 = .nan) : pyMax a l = a := by
  unfold pyMax
  induction l with
  | nil => rfl
  | cons b l ih =>
    have : gt b.2 a.2 = false := by
      rw [h]; cases b.2 <;> rfl
    simp only [List.foldl_cons, this, Bool.false_eq_true, if_false, ih]

theorem pyMax_spec (a : String × Fl) (l : List (String × Fl)) (h : a.2.isNan = false) :
    pyMax a l ∈ a :: l ∧ (pyMax a l).2.isNan = false ∧ ∀ p ∈ a :: l, ¬ Below (pyMax a l).2 p.2 := by
  unfold pyMax
  induction l generalizing a with
  | nil =>
    refine ⟨by simp, h, fun p hp => ?_⟩
    simp only [List.mem_singleton] at hp
    subst hp; exact Below.irrefl _
  | cons b l ih =>
    simp only [List.foldl_cons]
    by_cases hg : gt b.2 a.2 = true
    · simp only [hg, if_true]
      have hb' := (gt_iff _ _).1 hg
      have hb : b.2.isNan = false := by
        revert hb'; cases b.2 <;> simp [below_nan_right, Fl.isNan]
      obtain ⟨h1, h2, h3⟩ := ih b hb
      refine ⟨List.mem_cons_of_mem _ h1, h2, fun p hp => ?_⟩
      rcases List.mem_cons.1 hp with rfl | hp
      · exact fun hc => h3 b (by simp) (Below.trans hc hb')
      · exact h3 p hp
    · simp only [hg, Bool.false_eq_true, if_false]
      obtain ⟨h1, h2, h3⟩ := ih a h
      have hb' : ¬ Below a.2 b.2 := fun hc => hg ((gt_iff _ _).2 hc)
      refine ⟨?_, h2, fun p hp => ?_⟩
      · rcases List.mem_cons.1 h1 with h4 | h4
        · rw [h4]; simp
        · simp [h4]
      · simp only [List.mem_cons] at hp
        rcases hp with rfl | rfl | hp
        · exact h3 _ (by simp)
        · exact not_below_trans h hb' (h3 a (by simp))
        · exact h3 p (by simp [hp])

/-- If no R-hat value is a number (for example for a fit with a single chain), the check says that
the model converged. -/
theorem nothing_known (cfg : Config) (rhat : List (String × Tensor)) (h : known (values rhat) = []) :
    check cfg rhat = ⟨.converged, .nan, none⟩ := by
  unfold check
  rw [if_pos]
  rw [List.all_eq_true]
  exact (known_flatMap rhat).1 h

theorem check_cons {cfg : Config} {p : String × Tensor} {l : List (String × Tensor)}
    (h : known (values (p :: l)) ≠ []) :
    check cfg (p :: l) = ⟨caseOf cfg (pyMax (p.1, nanmax p.2.flat) (maxima l)).2,
      (pyMax (p.1, nanmax p.2.flat) (maxima l)).2,
      some (pyMax (p.1, nanmax p.2.flat) (maxima l)).1⟩ := by
  unfold check
  rw [if_neg]
  · rfl
  · rw [List.all_eq_true]
    exact fun hc => h ((known_flatMap _).2 hc)

theorem caseOf_spec {cfg : Config} {m : Fl} (hm : m.isNan = false)
    (hc : cfg.convergence.isNan = false) :
    (caseOf cfg m = .converged ↔ Below m cfg.convergence) ∧
    (caseOf cfg m = .notFullyConverged ↔ ¬ Below m cfg.convergence ∧ Below m cfg.notFully) ∧
    (caseOf cfg m = .notConverged ↔ ¬ Below m cfg.convergence ∧ ¬ Below m cfg.notFully) := by
  unfold caseOf
  by_cases h1 : Below m cfg.convergence
  · rw [if_pos ((lt_iff _ _).2 h1)]
    simp [h1]
  · rw [if_neg (fun h => h1 ((lt_iff _ _).1 h))]
    have hl : le cfg.convergence m = true := le_of_not_below hc hm h1
    by_cases h2 : Below m cfg.notFully
    · rw [if_pos (by rw [hl, (lt_iff _ _).2 h2]; rfl)]
      simp [h1, h2]
    · rw [if_neg (by
        rw [Bool.and_eq_true]
        exact fun h => h2 ((lt_iff _ _).1 h.2))]
      simp [h1, h2]

/-- If the first parameter has an R-hat value that is a number, the check reports the largest value
of all parameters, a parameter that has it, and: convergence exactly if all values are below the
first threshold; no convergence exactly if some value is at or above both thresholds; and otherwise
incomplete convergence. -/
theorem check_spec {cfg : Config} (hc : cfg.convergence.isNan = false)
    (ho : ¬ Below cfg.notFully cfg.convergence) (hn : cfg.notFully.isNan = false)
    {p : String × Tensor} {l : List (String × Tensor)}
    (h : known p.2.flat ≠ []) :
    IsLargest (values (p :: l)) (check cfg (p :: l)).maxRhat ∧
    (∃ q ∈ p :: l, (check cfg (p :: l)).maxParameter = some q.1 ∧
      (check cfg (p :: l)).maxRhat ∈ q.2.flat) ∧
    ((check cfg (p :: l)).case = .converged ↔
      ∀ x ∈ known (values (p :: l)), Below x cfg.convergence) ∧
    ((check cfg (p :: l)).case = .notConverged ↔
      ∃ x ∈ known (values (p :: l)), ¬ Below x cfg.notFully) := by
  have hne : known (values (p :: l)) ≠ [] := by
    obtain ⟨x, hx⟩ := List.exists_mem_of_ne_nil _ h
    have : x ∈ known (values (p :: l)) :=
      mem_known.2 ⟨List.mem_flatMap.2 ⟨p, by simp, (mem_known.1 hx).1⟩, (mem_known.1 hx).2⟩
    exact fun hc => by rw [hc] at this; cases this
  rw [check_cons hne]
  have ha : (p.1, nanmax p.2.flat).2.isNan = false := by
    by_contra hh
    exact h ((nanmax_isNan _).1 (by simpa using hh))
  obtain ⟨h1, h2, h3⟩ := pyMax_spec (p.1, nanmax p.2.flat) (maxima l) ha
  generalize hM : pyMax (p.1, nanmax p.2.flat) (maxima l) = M at h1 h2 h3 ⊢
  have h1' : M ∈ maxima (p :: l) := h1
  obtain ⟨q, hq, hqM⟩ := List.mem_map.1 h1'
  have hqk : known q.2.flat ≠ [] := by
    intro hc'
    have := (nanmax_isNan q.2.flat).2 hc'
    rw [← hqM] at h2
    rw [this] at h2; cases h2
  have hqL := (nanmax_spec q.2.flat).2 hqk
  have hMq : M.2 ∈ q.2.flat := by
    rw [← hqM]; exact (mem_known.1 hqL.1).1
  have hlarge : IsLargest (values (p :: l)) M.2 := by
    refine ⟨mem_known.2 ⟨List.mem_flatMap.2 ⟨q, hq, hMq⟩, h2⟩, fun x hx => ?_⟩
    obtain ⟨r, hr, hxr⟩ := List.mem_flatMap.1 hx
    cases hxn : x.isNan with
    | true =>
      cases x <;> simp [Fl.isNan] at hxn
      exact below_nan_right _
    | false =>
      have hrk : known r.2.flat ≠ [] := by
        intro hc'
        have : x ∈ known r.2.flat := mem_known.2 ⟨hxr, hxn⟩
        rw [hc'] at this; cases this
      have hrL := (nanmax_spec r.2.flat).2 hrk
      have hrm : (r.1, nanmax r.2.flat) ∈ maxima (p :: l) := List.mem_map.2 ⟨r, hr, rfl⟩
      exact not_below_trans (mem_known.1 hrL.1).2 (hrL.2 x hxr)
        (h3 (r.1, nanmax r.2.flat) hrm)
  have hcase := caseOf_spec (cfg := cfg) (m := M.2) h2 hc
  refine ⟨hlarge, ⟨q, hq, ?_, hMq⟩, ?_, ?_⟩
  · rw [← hqM]
  · simp only [hcase.1]
    constructor
    · intro hb x hx
      obtain ⟨hx1, hx2⟩ := mem_known.1 hx
      exact below_of_le_of_below hx2 (hlarge.2 x hx1) hb
    · intro hb
      exact hb _ hlarge.1
  · simp only [hcase.2.2]
    constructor
    · rintro ⟨-, hb⟩
      exact ⟨M.2, hlarge.1, hb⟩
    · rintro ⟨x, hx, hb⟩
      obtain ⟨hx1, hx2⟩ := mem_known.1 hx
      have hMn : ¬ Below M.2 cfg.notFully := fun hb2 =>
        hb (below_of_le_of_below hx2 (hlarge.2 x hx1) hb2)
      exact ⟨fun hb2 => hMn (below_of_below_of_le hn ho hb2), hMn⟩

def exCfg : Config := ⟨.fin (6 / 5), .fin 10⟩

example : known (Tensor.flat (.vec [.fin 1, .nan])) ≠ [] ∧
    check exCfg [("a", .vec [.fin 1, .nan]), ("b", .scalar (.fin (11 / 10)))] =
      ⟨.converged, .fin (11 / 10), some "b"⟩ := by decide +kernel

/-- If no R-hat value of the first parameter is a number, but some other is, the check says that the
model did not converge, whatever the other values are. -/
theorem first_unknown {cfg : Config} {p : String × Tensor} {l : List (String × Tensor)}
    (h : known p.2.flat = []) (hne : known (values l) ≠ []) :
    check cfg (p :: l) = ⟨.notConverged, .nan, some p.1⟩ := by
  have hne' : known (values (p :: l)) ≠ [] := by
    obtain ⟨x, hx⟩ := List.exists_mem_of_ne_nil _ hne
    have : x ∈ known (values (p :: l)) := by
      obtain ⟨h1, h2⟩ := mem_known.1 hx
      obtain ⟨q, hq, hxq⟩ := List.mem_flatMap.1 h1
      exact mem_known.2 ⟨List.mem_flatMap.2 ⟨q, List.mem_cons_of_mem _ hq, hxq⟩, h2⟩
    exact fun hc => by rw [hc] at this; cases this
  rw [check_cons hne', pyMax_nan _ _ ((nanmax_spec _).1 h)]
  have : caseOf cfg (nanmax p.2.flat) = .notConverged := by
    rw [(nanmax_spec _).1 h]
    unfold caseOf
    have e1 : lt .nan cfg.convergence = false := rfl
    have e2 : lt .nan cfg.notFully = false := rfl
    rw [e1, e2, Bool.and_false]
    rfl
  rw [(nanmax_spec _).1 h] at this ⊢
  simp only [this]

/-- So a perfectly converged model, in which only the first parameter is fixed by its prior, is
reported as not converged. -/
theorem fixed_first_parameter_fails :
    check exCfg [("knot_values", .vec [.nan, .nan]), ("tau_g", .vec [.fin 1, .fin 1]),
      ("sigma", .scalar (.fin 1))] = ⟨.notConverged, .nan, some "knot_values"⟩ ∧
    check exCfg [("tau_g", .vec [.fin 1, .fin 1]), ("knot_values", .vec [.nan, .nan]),
      ("sigma", .scalar (.fin 1))] = ⟨.converged, .fin 1, some "tau_g"⟩ := by decide +kernel

end Verif.Rhat.Props
