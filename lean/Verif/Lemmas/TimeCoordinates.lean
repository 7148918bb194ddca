import Verif.Model.TimeCoordinates
import Verif.Spec.TimeCoordinates
import Verif.Lemmas.Calendar
import Verif.Lemmas.Num
import Mathlib.Tactic.FieldSimp
import Mathlib.Tactic.Push

namespace Verif.TimeCoordinates

open Verif Verif.Calendar Spec

theorem mem_pairs {α : Type} {l : List α} {a b : α} :
    (a, b) ∈ pairs l ↔ ∃ i : ℕ, l[i]? = some a ∧ l[i + 1]? = some b := by
  unfold pairs
  rw [List.mem_iff_getElem?]
  constructor
  · rintro ⟨i, hi⟩
    rw [List.getElem?_zip_eq_some] at hi
    refine ⟨i, hi.1, ?_⟩
    have := hi.2
    rw [List.getElem?_tail] at this
    exact this
  · rintro ⟨i, h1, h2⟩
    refine ⟨i, ?_⟩
    rw [List.getElem?_zip_eq_some]
    refine ⟨h1, ?_⟩
    rw [List.getElem?_tail]
    exact h2

theorem mem_pairs_next {l : List CDate} {a b : CDate} : (a, b) ∈ pairs l ↔ Next l a b := mem_pairs

theorem length_pairs {α : Type} (l : List α) : (pairs l).length = l.length - 1 := by
  simp [pairs]

theorem pairs_cons {α : Type} (a b : α) (l : List α) :
    pairs (a :: b :: l) = (a, b) :: pairs (b :: l) := rfl

theorem nonDecreasing_iff {l : List CDate} (hv : ∀ d ∈ l, d.Valid) :
    ((pairs l).all fun p => p.1.le p.2) = true ↔ NonDecreasing l := by
  induction l with
  | nil => simp [pairs, NonDecreasing]
  | cons a t ih =>
    cases t with
    | nil => simp [pairs, NonDecreasing]
    | cons b t =>
      rw [pairs_cons, List.all_cons, Bool.and_eq_true, ih (fun d hd => hv d (List.mem_cons_of_mem _ hd)),
        le_iff_ordinal (hv a (by simp)) (hv b (by simp))]
      unfold NonDecreasing
      rw [List.pairwise_cons (a := a)]
      constructor
      · rintro ⟨h1, h2⟩
        refine ⟨?_, h2⟩
        intro x hx
        rcases List.mem_cons.1 hx with rfl | hx
        · exact h1
        · exact le_trans h1 ((List.pairwise_cons.1 h2).1 x hx)
      · rintro ⟨h1, h2⟩
        exact ⟨h1 b (by simp), h2⟩

theorem increasing_iff {l : List CDate} (hv : ∀ d ∈ l, d.Valid) :
    ((pairs l).all fun p => p.1.lt p.2) = true ↔ Increasing l := by
  induction l with
  | nil => simp [pairs, Increasing]
  | cons a t ih =>
    cases t with
    | nil => simp [pairs, Increasing]
    | cons b t =>
      rw [pairs_cons, List.all_cons, Bool.and_eq_true, ih (fun d hd => hv d (List.mem_cons_of_mem _ hd)),
        lt_iff_ordinal (hv a (by simp)) (hv b (by simp))]
      unfold Increasing
      rw [List.pairwise_cons (a := a)]
      constructor
      · rintro ⟨h1, h2⟩
        refine ⟨?_, h2⟩
        intro x hx
        rcases List.mem_cons.1 hx with rfl | hx
        · exact h1
        · exact lt_trans h1 ((List.pairwise_cons.1 h2).1 x hx)
      · rintro ⟨h1, h2⟩
        exact ⟨h1 b (by simp), h2⟩

theorem foldMin {l : List CDate} {h : CDate} (hv : ∀ d ∈ l, d.Valid) (hh : h.Valid) :
    (l.foldl (fun a b => if b.lt a then b else a) h = h ∨
      l.foldl (fun a b => if b.lt a then b else a) h ∈ l) ∧
    (l.foldl (fun a b => if b.lt a then b else a) h).Valid ∧
    (l.foldl (fun a b => if b.lt a then b else a) h).ordinal ≤ h.ordinal ∧
    ∀ d ∈ l, (l.foldl (fun a b => if b.lt a then b else a) h).ordinal ≤ d.ordinal := by
  induction l generalizing h with
  | nil => exact ⟨.inl rfl, hh, le_rfl, by simp⟩
  | cons x t ih =>
    rw [List.foldl_cons]
    have hx := hv x (by simp)
    have ht : ∀ d ∈ t, d.Valid := fun d hd => hv d (List.mem_cons_of_mem _ hd)
    by_cases hlt : x.lt h = true
    · rw [if_pos hlt]
      obtain ⟨a, b, c, d⟩ := ih ht hx
      have := (lt_iff_ordinal hx hh).1 hlt
      refine ⟨.inr ?_, b, by omega, ?_⟩
      · rcases a with a | a
        · rw [a]; simp
        · exact List.mem_cons_of_mem _ a
      · intro z hz
        rcases List.mem_cons.1 hz with rfl | hz
        · exact c
        · exact d z hz
    · rw [if_neg hlt]
      obtain ⟨a, b, c, d⟩ := ih ht hh
      have := mt (lt_iff_ordinal hx hh).2 hlt
      refine ⟨?_, b, c, ?_⟩
      · rcases a with a | a
        · exact .inl a
        · exact .inr (List.mem_cons_of_mem _ a)
      · intro z hz
        rcases List.mem_cons.1 hz with rfl | hz
        · omega
        · exact d z hz

theorem foldMax {l : List CDate} {h : CDate} (hv : ∀ d ∈ l, d.Valid) (hh : h.Valid) :
    (l.foldl (fun a b => if a.lt b then b else a) h = h ∨
      l.foldl (fun a b => if a.lt b then b else a) h ∈ l) ∧
    (l.foldl (fun a b => if a.lt b then b else a) h).Valid ∧
    h.ordinal ≤ (l.foldl (fun a b => if a.lt b then b else a) h).ordinal ∧
    ∀ d ∈ l, d.ordinal ≤ (l.foldl (fun a b => if a.lt b then b else a) h).ordinal := by
  induction l generalizing h with
  | nil => exact ⟨.inl rfl, hh, le_rfl, by simp⟩
  | cons x t ih =>
    rw [List.foldl_cons]
    have hx := hv x (by simp)
    have ht : ∀ d ∈ t, d.Valid := fun d hd => hv d (List.mem_cons_of_mem _ hd)
    by_cases hlt : h.lt x = true
    · rw [if_pos hlt]
      obtain ⟨a, b, c, d⟩ := ih ht hx
      have := (lt_iff_ordinal hh hx).1 hlt
      refine ⟨.inr ?_, b, by omega, ?_⟩
      · rcases a with a | a
        · rw [a]; simp
        · exact List.mem_cons_of_mem _ a
      · intro z hz
        rcases List.mem_cons.1 hz with rfl | hz
        · exact c
        · exact d z hz
    · rw [if_neg hlt]
      obtain ⟨a, b, c, d⟩ := ih ht hh
      have := mt (lt_iff_ordinal hh hx).2 hlt
      refine ⟨?_, b, c, ?_⟩
      · rcases a with a | a
        · exact .inl a
        · exact .inr (List.mem_cons_of_mem _ a)
      · intro z hz
        rcases List.mem_cons.1 hz with rfl | hz
        · omega
        · exact d z hz

theorem minDate_spec {l : List CDate} (hne : l ≠ []) (hv : ∀ d ∈ l, d.Valid) :
    ∃ m, minDate l = some m ∧ m ∈ l ∧ ∀ d ∈ l, m.ordinal ≤ d.ordinal := by
  cases l with
  | nil => exact absurd rfl hne
  | cons a t =>
    obtain ⟨h1, h2, h3, h4⟩ := foldMin (h := a) hv (hv a (by simp))
    refine ⟨_, rfl, ?_, h4⟩
    rcases h1 with h1 | h1
    · show List.foldl _ _ _ ∈ _
      rw [h1]; simp
    · exact h1

theorem maxDate_spec {l : List CDate} (hne : l ≠ []) (hv : ∀ d ∈ l, d.Valid) :
    ∃ m, maxDate l = some m ∧ m ∈ l ∧ ∀ d ∈ l, d.ordinal ≤ m.ordinal := by
  cases l with
  | nil => exact absurd rfl hne
  | cons a t =>
    obtain ⟨h1, h2, h3, h4⟩ := foldMax (h := a) hv (hv a (by simp))
    refine ⟨_, rfl, ?_, h4⟩
    rcases h1 with h1 | h1
    · show List.foldl _ _ _ ∈ _
      rw [h1]; simp
    · exact h1

/-- Everything `expand_selected_time_dims` does, for a non-empty list of valid dates. -/
theorem expandSelected_spec {dates : List CDate} (hne : dates ≠ []) (hv : ∀ d ∈ dates, d.Valid)
    (s e : Option CDate) :
    ((∃ r, expandSelected dates s e = .ok r) ↔
      (∀ a ∈ s, a ∈ dates) ∧ (∀ b ∈ e, b ∈ dates) ∧ ∀ a ∈ s, ∀ b ∈ e, a.ordinal ≤ b.ordinal) ∧
    ∀ r, expandSelected dates s e = .ok r →
      r.getD dates = dates.filter (fun d => decide (Within s e d)) := by
  obtain ⟨lo, hlo, hlom, hlol⟩ := minDate_spec hne hv
  obtain ⟨hi, hhi, hhim, hhil⟩ := maxDate_spec hne hv
  unfold expandSelected
  rw [hlo, hhi]
  simp only
  have hall : ∀ s' e' : Option CDate, (∀ d ∈ dates, Within s' e' d) →
      dates = dates.filter (fun d => decide (Within s' e' d)) := by
    intro s' e' h
    rw [List.filter_eq_self.2]
    intro d hd; simpa using h d hd
  split_ifs with h1 h2 h3 h4 h5
  · obtain ⟨rfl, rfl⟩ := h1
    refine ⟨⟨fun _ => by simp, fun _ => ⟨_, rfl⟩⟩, ?_⟩
    rintro r ⟨⟩
    exact hall none none (by simp [Within])
  · refine ⟨⟨by simp, ?_⟩, by simp⟩
    rintro ⟨ha, -, -⟩
    cases s with
    | none => simp at h2
    | some a => simp at h2; exact absurd (ha a rfl) h2
  · refine ⟨⟨by simp, ?_⟩, by simp⟩
    rintro ⟨-, ha, -⟩
    cases e with
    | none => simp at h3
    | some a => simp at h3; exact absurd (ha a rfl) h3
  all_goals
    have hs : ∀ a ∈ s, a ∈ dates := by
      intro a ha
      cases ha
      by_contra hc; apply h2; simpa using hc
    have he : ∀ a ∈ e, a ∈ dates := by
      intro a ha
      cases ha
      by_contra hc; apply h3; simpa using hc
    have hsm : s.getD lo ∈ dates := by
      cases s with
      | none => exact hlom
      | some a => exact hs a rfl
    have hem : e.getD hi ∈ dates := by
      cases e with
      | none => exact hhim
      | some a => exact he a rfl
  · refine ⟨⟨by simp, ?_⟩, by simp⟩
    rintro ⟨-, -, h⟩
    have hlt := (lt_iff_ordinal (hv _ hem) (hv _ hsm)).1 h4
    cases s with
    | none =>
      have := hlol _ hem
      simp at hlt this
      omega
    | some a =>
      cases e with
      | none => have := hhil _ hsm; simp at hlt this; omega
      | some b => have := h a rfl b rfl; simp at hlt; omega
  · have hle := mt (lt_iff_ordinal (hv _ hem) (hv _ hsm)).2 h4
    refine ⟨⟨fun _ => ⟨hs, he, ?_⟩, fun _ => ⟨_, rfl⟩⟩, ?_⟩
    · intro a ha b hb
      cases ha; cases hb
      simp at hle; exact hle
    · rintro r ⟨⟩
      apply hall
      intro d hd
      refine ⟨?_, ?_⟩
      · intro a ha; cases ha
        have := h5.1; simp at this; subst this; exact hlol d hd
      · intro a ha; cases ha
        have := h5.2; simp at this; subst this; exact hhil d hd
  · have hle := mt (lt_iff_ordinal (hv _ hem) (hv _ hsm)).2 h4
    refine ⟨⟨fun _ => ⟨hs, he, ?_⟩, fun _ => ⟨_, rfl⟩⟩, ?_⟩
    · intro a ha b hb
      cases ha; cases hb
      simp at hle; exact hle
    · rintro r ⟨⟩
      simp only [Option.getD_some]
      apply List.filter_congr
      intro d hd
      rw [Bool.eq_iff_iff, Bool.and_eq_true, le_iff_ordinal (hv _ hsm) (hv d hd),
        le_iff_ordinal (hv d hd) (hv _ hem), decide_eq_true_eq]
      unfold Within
      constructor
      · rintro ⟨a, b⟩
        refine ⟨?_, ?_⟩
        · intro x hx; cases hx; simpa using a
        · intro x hx; cases hx; simpa using b
      · rintro ⟨a, b⟩
        refine ⟨?_, ?_⟩
        · cases s with
          | none => exact hlol d hd
          | some x => exact a x rfl
        · cases e with
          | none => exact hhil d hd
          | some x => exact b x rfl

/-! ### gaps -/

theorem mem_intervalDays {dates : List CDate} {g : ℤ} :
    g ∈ intervalDays dates ↔ ∃ a b, Next dates a b ∧ days a b = g := by
  unfold intervalDays days
  rw [List.mem_map]
  constructor
  · rintro ⟨⟨a, b⟩, h, rfl⟩
    exact ⟨a, b, mem_pairs_next.1 h, rfl⟩
  · rintro ⟨a, b, h, rfl⟩
    exact ⟨(a, b), mem_pairs_next.2 h, rfl⟩

theorem allIn_iff {dates : List CDate} {set : List ℤ} :
    allIn (intervalDays dates) set = true ↔ ∀ a b, Next dates a b → days a b ∈ set := by
  unfold allIn
  rw [List.all_eq_true]
  constructor
  · intro h a b hn
    simpa using h _ (mem_intervalDays.2 ⟨a, b, hn, rfl⟩)
  · intro h g hg
    obtain ⟨a, b, hn, rfl⟩ := mem_intervalDays.1 hg
    simpa using h a b hn

theorem allEq_iff {gaps : List ℤ} :
    (gaps.all fun g => decide (g = gaps.headD 0)) = true ↔ ∃ k, ∀ g ∈ gaps, g = k := by
  rw [List.all_eq_true]
  constructor
  · intro h; exact ⟨_, fun g hg => by simpa using h g hg⟩
  · rintro ⟨k, h⟩ g hg
    cases gaps with
    | nil => cases hg
    | cons a t =>
      rw [decide_eq_true_eq, List.headD_cons, h g hg, h a (by simp)]

theorem isRegular_iff (dates : List CDate) : isRegular dates = true ↔
    (∃ k, ∀ g ∈ intervalDays dates, g = k) ∨ allIn (intervalDays dates) monthly = true ∨
    allIn (intervalDays dates) quarterly = true ∨ allIn (intervalDays dates) yearly = true := by
  unfold isRegular
  simp only
  rw [← allEq_iff]
  split_ifs with h1 h2 h3 h4
  · simp only [h1, true_or]
  · simp only [h2, true_or, or_true]
  · simp only [h3, true_or, or_true]
  · simp only [h4, or_true]
  · simp only [h1, h2, h3, h4, Bool.false_eq_true, or_self]

theorem sum_const {l : List ℤ} {k : ℤ} (h : ∀ g ∈ l, g = k) : l.sum = l.length * k := by
  induction l with
  | nil => simp
  | cons a t ih =>
    rw [List.sum_cons, h a (by simp), ih (fun g hg => h g (by simp [hg]))]
    push_cast [List.length_cons]; ring

theorem npRound_int (k : ℤ) : npRound (k : ℚ) 0 = k := by
  unfold npRound; simp

theorem sum_bounds {l : List ℤ} {a b : ℤ} (h : ∀ g ∈ l, a ≤ g ∧ g ≤ b) :
    l.length * a ≤ l.sum ∧ l.sum ≤ l.length * b := by
  induction l with
  | nil => simp
  | cons x t ih =>
    obtain ⟨i1, i2⟩ := ih (fun g hg => h g (by simp [hg]))
    obtain ⟨h1, h2⟩ := h x (by simp)
    rw [List.sum_cons, List.length_cons]
    push_cast
    constructor <;> linarith

theorem meanInterval_bounds {dates : List CDate} {a b k : ℤ} (hne : intervalDays dates ≠ [])
    (h : ∀ g ∈ intervalDays dates, a ≤ g ∧ g ≤ b) (hk : meanInterval dates = .ok k) :
    a ≤ k ∧ k ≤ b := by
  unfold meanInterval at hk
  split_ifs at hk
  simp only [Except.ok.injEq] at hk
  obtain ⟨h1, h2⟩ := sum_bounds h
  have hl : (0 : ℚ) < ((intervalDays dates).length : ℚ) := by
    exact_mod_cast List.length_pos_iff.2 hne
  have q1 : (a : ℚ) ≤ ((intervalDays dates).sum : ℚ) / (intervalDays dates).length := by
    rw [le_div_iff₀ hl]
    have : (((intervalDays dates).length * a : ℤ) : ℚ) ≤ ((intervalDays dates).sum : ℤ) := by
      exact_mod_cast h1
    push_cast at this; linarith
  have q2 : ((intervalDays dates).sum : ℚ) / (intervalDays dates).length ≤ (b : ℚ) := by
    rw [div_le_iff₀ hl]
    have : ((intervalDays dates).sum : ℚ) ≤ (((intervalDays dates).length * b : ℤ) : ℚ) := by
      exact_mod_cast h2
    push_cast at this; linarith
  have r1 := npRound_mono 0 q1
  have r2 := npRound_mono 0 q2
  rw [npRound_int] at r1 r2
  have e : ∃ z : ℤ, npRound (((intervalDays dates).sum : ℚ) / (intervalDays dates).length) 0 = z := by
    unfold npRound; simp
  obtain ⟨z, hz⟩ := e
  rw [hz] at r1 r2 hk
  rw [truncInt_intCast] at hk
  subst hk
  exact ⟨by exact_mod_cast r1, by exact_mod_cast r2⟩

theorem meanInterval_const {dates : List CDate} {k : ℤ} (hne : intervalDays dates ≠ [])
    (h : ∀ g ∈ intervalDays dates, g = k) : meanInterval dates = .ok k := by
  have hr : isRegular dates = true := (isRegular_iff dates).2 (.inl ⟨k, h⟩)
  have : ∃ z, meanInterval dates = .ok z := by unfold meanInterval; rw [if_pos hr]; exact ⟨_, rfl⟩
  obtain ⟨z, hz⟩ := this
  have := meanInterval_bounds hne (a := k) (b := k) (fun g hg => by rw [h g hg]; exact ⟨le_rfl, le_rfl⟩) hz
  rw [hz]; congr 1; omega

/-! ### period bounds -/

theorem boundsLoop_ok {dates sel : List CDate} (hr : isRegular dates = true) :
    ∃ bs, boundsLoop dates sel = .ok bs := by
  induction sel with
  | nil => exact ⟨_, rfl⟩
  | cons a t ih =>
    cases t with
    | nil =>
      unfold boundsLoop
      have : ∃ z, finalEnd dates a = .ok z := by
        unfold finalEnd
        simp only
        split_ifs
        · exact ⟨_, rfl⟩
        · exact ⟨_, rfl⟩
        · exact ⟨_, rfl⟩
        · unfold meanInterval; rw [if_pos hr]; exact ⟨_, rfl⟩
      obtain ⟨z, hz⟩ := this
      rw [hz]; exact ⟨_, rfl⟩
    | cons b t =>
      obtain ⟨bs, hbs⟩ := ih
      unfold boundsLoop
      rw [hbs]; exact ⟨_, rfl⟩

/-- Shape of the returned bounds. -/
theorem boundsLoop_spec {dates sel : List CDate} {bs} (h : boundsLoop dates sel = .ok bs) :
    bs.map Prod.fst = sel ∧
    ∀ a e, (a, e) ∈ bs → (∃ b, Next sel a b ∧ e = b.ordinal) ∨
      (sel.getLast? = some a ∧ finalEnd dates a = .ok e) := by
  induction sel generalizing bs with
  | nil => unfold boundsLoop at h; cases h; simp
  | cons a t ih =>
    cases t with
    | nil =>
      unfold boundsLoop at h
      cases hf : finalEnd dates a with
      | error _ => rw [hf] at h; cases h
      | ok z =>
        rw [hf] at h; cases h
        refine ⟨rfl, ?_⟩
        intro x e hx
        simp at hx
        obtain ⟨rfl, rfl⟩ := hx
        exact .inr ⟨rfl, hf⟩
    | cons b t =>
      unfold boundsLoop at h
      cases hb : boundsLoop dates (b :: t) with
      | error _ => rw [hb] at h; cases h
      | ok z =>
        rw [hb] at h; cases h
        obtain ⟨i1, i2⟩ := ih hb
        refine ⟨by simp [i1], ?_⟩
        intro x e hx
        rcases List.mem_cons.1 hx with hx | hx
        · cases hx
          exact .inl ⟨b, ⟨0, rfl, rfl⟩, rfl⟩
        · rcases i2 x e hx with ⟨y, ⟨i, h1, h2⟩, he⟩ | ⟨h1, h2⟩
          · exact .inl ⟨y, ⟨i + 1, by simpa using h1, by simpa using h2⟩, he⟩
          · exact .inr ⟨by simpa using h1, h2⟩

/-- Consecutive entries share their boundary. -/
theorem boundsLoop_contiguous {dates sel : List CDate} {bs} (h : boundsLoop dates sel = .ok bs)
    (i : ℕ) (p q : CDate × ℤ) (hp : bs[i]? = some p) (hq : bs[i + 1]? = some q) :
    p.2 = q.1.ordinal := by
  induction sel generalizing bs i with
  | nil => unfold boundsLoop at h; cases h; simp at hp
  | cons a t ih =>
    cases t with
    | nil =>
      unfold boundsLoop at h
      cases hf : finalEnd dates a with
      | error _ => rw [hf] at h; cases h
      | ok z => rw [hf] at h; cases h; simp at hq
    | cons b t =>
      unfold boundsLoop at h
      cases hb : boundsLoop dates (b :: t) with
      | error _ => rw [hb] at h; cases h
      | ok z =>
        rw [hb] at h; cases h
        cases i with
        | zero =>
          simp at hp hq
          subst hp
          have := (boundsLoop_spec hb).1
          have h0 : (z.map Prod.fst)[0]? = some b := by rw [this]; rfl
          rw [List.getElem?_map, hq] at h0
          simp at h0
          simp [h0]
        | succ i => exact ih hb i (by simpa using hp) (by simpa using hq)

theorem next_mem {l : List CDate} {a b : CDate} (h : Next l a b) : a ∈ l ∧ b ∈ l := by
  obtain ⟨i, h1, h2⟩ := h
  exact ⟨List.mem_of_getElem? h1, List.mem_of_getElem? h2⟩

theorem increasing_getElem {l : List CDate} (h : Increasing l) {i j : ℕ} {a b : CDate}
    (ha : l[i]? = some a) (hb : l[j]? = some b) (hij : i < j) : a.ordinal < b.ordinal := by
  obtain ⟨hi, rfl⟩ := List.getElem?_eq_some_iff.1 ha
  obtain ⟨hj, rfl⟩ := List.getElem?_eq_some_iff.1 hb
  exact List.pairwise_iff_getElem.1 h i j hi hj hij

theorem next_lt {l : List CDate} (h : Increasing l) {a b : CDate} (hn : Next l a b) :
    a.ordinal < b.ordinal := by
  obtain ⟨i, h1, h2⟩ := hn
  exact increasing_getElem h h1 h2 (Nat.lt_succ_self i)

/-- Nothing of the list lies strictly between neighbours. -/
theorem next_le {l : List CDate} (h : Increasing l) {a b c : CDate} (hn : Next l a b)
    (hc : c ∈ l) (hac : a.ordinal < c.ordinal) : b.ordinal ≤ c.ordinal := by
  obtain ⟨i, h1, h2⟩ := hn
  obtain ⟨j, hj⟩ := List.mem_iff_getElem?.1 hc
  rcases Nat.lt_trichotomy j (i + 1) with hlt | heq | hgt
  · exfalso
    rcases Nat.lt_or_ge j i with h' | h'
    · have := increasing_getElem h hj h1 h'; omega
    · have : j = i := by omega
      subst this
      rw [h1] at hj; cases hj; omega
  · subst heq; rw [h2] at hj; cases hj; exact le_rfl
  · exact (increasing_getElem h h2 hj hgt).le

theorem getSelectedDates_spec {dates sel : List CDate} (hne : dates ≠ [])
    (hv : ∀ d ∈ dates, d.Valid) {iv} (h : getSelectedDates dates iv = .ok sel) :
    ∃ s e, sel = dates.filter fun d => decide (Within s e d) := by
  unfold getSelectedDates at h
  match iv with
  | none =>
    cases h
    refine ⟨none, none, ?_⟩
    rw [List.filter_eq_self.2]; simp [Within]
  | some (some s, some e) =>
    simp only at h
    cases hx : expandSelected dates (some s) (some e) with
    | error _ => rw [hx] at h; cases h
    | ok r =>
      rw [hx] at h; cases h
      exact ⟨some s, some e, (expandSelected_spec hne hv _ _).2 r hx⟩
  | some (none, _) => simp at h
  | some (some _, none) => simp at h

/-- The whole question is the end of the last selected period. -/
theorem tiles_of_finalEnd {dates sel : List CDate} {bs} (hinc : Increasing dates)
    (s e : Option CDate) (hsel : sel = dates.filter fun d => decide (Within s e d))
    (hbs : boundsLoop dates sel = .ok bs)
    (hlast : ∀ a b z, Next dates a b → finalEnd dates a = .ok z → z = b.ordinal) :
    Tiles dates bs := by
  intro a b z hn hmem
  have hincs : Increasing sel := by rw [hsel]; exact hinc.sublist List.filter_sublist
  rcases (boundsLoop_spec hbs).2 a z hmem with ⟨c, hc, rfl⟩ | ⟨-, hf⟩
  · have hab := next_lt hinc hn
    have hac := next_lt hincs hc
    obtain ⟨ha', hc'⟩ := next_mem hc
    rw [hsel, List.mem_filter] at ha' hc'
    have wa : Within s e a := by simpa using ha'.2
    have wc : Within s e c := by simpa using hc'.2
    have h1 : b.ordinal ≤ c.ordinal := next_le hinc hn hc'.1 hac
    have wb : Within s e b := ⟨fun x hx => le_trans (wa.1 x hx) hab.le,
      fun x hx => le_trans h1 (wc.2 x hx)⟩
    have hb : b ∈ sel := by rw [hsel, List.mem_filter]; exact ⟨(next_mem hn).2, by simpa using wb⟩
    have h2 : c.ordinal ≤ b.ordinal := next_le hincs hc hb hab
    omega
  · exact hlast a b z hn hf

theorem getPeriodBounds_ok {dates : List CDate} {iv} {bs} (h : getPeriodBounds dates iv = .ok bs) :
    isRegular dates = true ∧ ∃ sel, getSelectedDates dates iv = .ok sel ∧ 2 ≤ sel.length ∧
      boundsLoop dates sel = .ok bs := by
  unfold getPeriodBounds at h
  split_ifs at h with hr
  cases hs : getSelectedDates dates iv with
  | error _ => rw [hs] at h; cases h
  | ok sel =>
    rw [hs] at h
    simp only at h
    split_ifs at h with hl
    exact ⟨by simpa using hr, sel, rfl, by omega, h⟩

/-! ### calendar steps -/

theorem addMonths_one_ordinal {a : CDate} (h : a.Valid) (hd : a.d ≤ 28) :
    (a.addMonths 1).ordinal = a.ordinal + daysInMonth a.y a.m := by
  obtain ⟨h1, h2, h3, h4, h5⟩ := h
  have b1 := daysInMonth_bounds ((a.y * 12 + (a.m - 1) + 1) / 12) ((a.y * 12 + (a.m - 1) + 1) % 12 + 1)
  unfold CDate.addMonths CDate.ordinal
  simp only
  rw [Nat.min_eq_left (show a.d ≤ _ by omega)]
  rcases Nat.lt_or_ge a.m 12 with hm | hm
  · have e1 : (a.y * 12 + (a.m - 1) + 1) / 12 = a.y := by omega
    have e2 : (a.y * 12 + (a.m - 1) + 1) % 12 + 1 = a.m + 1 := by omega
    rw [e1, e2, daysBeforeMonth_succ _ _ h2]
    omega
  · have hm : a.m = 12 := by omega
    have e1 : (a.y * 12 + (a.m - 1) + 1) / 12 = a.y + 1 := by omega
    have e2 : (a.y * 12 + (a.m - 1) + 1) % 12 + 1 = 1 := by omega
    rw [e1, e2, hm, daysBeforeYear_succ h1]
    have := daysBeforeMonth_succ a.y 12 (by norm_num)
    rw [daysBeforeMonth_13] at this
    have h0 : daysBeforeMonth (a.y + 1) 1 = 0 := rfl
    omega

theorem addMonths_d {a : CDate} (_ : a.Valid) (hd : a.d ≤ 28) (k : ℕ) : (a.addMonths k).d = a.d := by
  have := daysInMonth_bounds ((a.y * 12 + (a.m - 1) + k) / 12) ((a.y * 12 + (a.m - 1) + k) % 12 + 1)
  unfold CDate.addMonths
  simp only
  omega

theorem gap_month {a : CDate} (h : a.Valid) (hd : a.d ≤ 28) : days a (a.addMonths 1) ∈ monthly := by
  unfold days
  rw [addMonths_one_ordinal h hd]
  have := daysInMonth_bounds a.y a.m
  simp only [monthly, List.mem_cons, List.not_mem_nil, or_false]
  push_cast
  omega

theorem gap_three {a : CDate} (h : a.Valid) (hd : a.d ≤ 28) :
    (a.addMonths 3).ordinal = a.ordinal + daysInMonth a.y a.m
      + daysInMonth (a.addMonths 1).y (a.addMonths 1).m
      + daysInMonth (a.addMonths 2).y (a.addMonths 2).m := by
  have e1 := addMonths_one_ordinal h hd
  have v1 := addMonths_valid h 1
  have e2 := addMonths_one_ordinal v1 (by rw [addMonths_d h hd]; exact hd)
  rw [addMonths_add h hd] at e2
  have v2 := addMonths_valid h 2
  have e3 := addMonths_one_ordinal v2 (by rw [addMonths_d h hd]; exact hd)
  rw [addMonths_add h hd] at e3
  simp only [Nat.reduceAdd] at e2 e3
  omega

theorem gap_quarter {a : CDate} (h : a.Valid) (hd : a.d ≤ 28) (hm : a.m % 3 ≠ 2) :
    days a (a.addMonths 3) ∈ quarterly := by
  unfold days
  rw [gap_three h hd]
  obtain ⟨h1, h2, h3, h4, h5⟩ := h
  have key : 90 ≤ daysInMonth a.y a.m + daysInMonth (a.addMonths 1).y (a.addMonths 1).m
      + daysInMonth (a.addMonths 2).y (a.addMonths 2).m ∧
      daysInMonth a.y a.m + daysInMonth (a.addMonths 1).y (a.addMonths 1).m
      + daysInMonth (a.addMonths 2).y (a.addMonths 2).m ≤ 92 := by
    obtain ⟨y, m, d⟩ := a
    simp only at h2 h3 hm
    unfold CDate.addMonths
    simp only
    interval_cases m <;> simp only [Nat.reduceSub, Nat.reduceMod, ne_eq, not_true] at hm ⊢ <;>
      first
      | exact absurd rfl hm
      | (rw [show (y * 12 + 0 + 1) % 12 = 1 by omega, show (y * 12 + 0 + 2) % 12 = 2 by omega]
         simp [daysInMonth]; split_ifs <;> omega)
      | (rw [show (y * 12 + 2 + 1) % 12 = 3 by omega, show (y * 12 + 2 + 2) % 12 = 4 by omega]
         simp [daysInMonth])
      | (rw [show (y * 12 + 3 + 1) % 12 = 4 by omega, show (y * 12 + 3 + 2) % 12 = 5 by omega]
         simp [daysInMonth])
      | (rw [show (y * 12 + 5 + 1) % 12 = 6 by omega, show (y * 12 + 5 + 2) % 12 = 7 by omega]
         simp [daysInMonth])
      | (rw [show (y * 12 + 6 + 1) % 12 = 7 by omega, show (y * 12 + 6 + 2) % 12 = 8 by omega]
         simp [daysInMonth])
      | (rw [show (y * 12 + 8 + 1) % 12 = 9 by omega, show (y * 12 + 8 + 2) % 12 = 10 by omega]
         simp [daysInMonth])
      | (rw [show (y * 12 + 9 + 1) % 12 = 10 by omega, show (y * 12 + 9 + 2) % 12 = 11 by omega]
         simp [daysInMonth])
      | (rw [show (y * 12 + 11 + 1) % 12 = 0 by omega, show (y * 12 + 11 + 2) % 12 = 1 by omega]
         simp [daysInMonth]; split_ifs <;> omega)
  simp only [quarterly, List.mem_cons, List.not_mem_nil, or_false]
  push_cast
  omega

theorem not_both_leap (y : ℕ) : ¬ (isLeap y = true ∧ isLeap (y + 1) = true) := by
  rw [isLeap_iff, isLeap_iff]; omega

theorem gap_year {a : CDate} (h : a.Valid) (hd : a.d ≤ 28) :
    days a (a.addMonths 12) ∈ yearly := by
  unfold days
  obtain ⟨h1, h2, h3, h4, h5⟩ := h
  have b1 := daysInMonth_bounds ((a.y * 12 + (a.m - 1) + 12) / 12) ((a.y * 12 + (a.m - 1) + 12) % 12 + 1)
  unfold CDate.addMonths CDate.ordinal
  simp only
  rw [Nat.min_eq_left (show a.d ≤ _ by omega)]
  have e1 : (a.y * 12 + (a.m - 1) + 12) / 12 = a.y + 1 := by omega
  have e2 : (a.y * 12 + (a.m - 1) + 12) % 12 + 1 = a.m := by omega
  rw [e1, e2, daysBeforeYear_succ h1]
  have hb := not_both_leap a.y
  simp only [yearly, List.mem_cons, List.not_mem_nil, or_false]
  have key : yearLen a.y + daysBeforeMonth (a.y + 1) a.m = 365 + daysBeforeMonth a.y a.m ∨
      yearLen a.y + daysBeforeMonth (a.y + 1) a.m = 366 + daysBeforeMonth a.y a.m := by
    obtain ⟨y, m, d⟩ := a
    simp only at h2 h3 hb ⊢
    unfold yearLen daysBeforeMonth daysInMonth
    cases hl : isLeap y <;> cases hl' : isLeap (y + 1) <;>
      simp only [hl, hl', Bool.false_eq_true, and_true, and_false, not_true, not_false_iff] at hb <;>
      first
      | exact absurd trivial hb
      | (interval_cases m <;> simp [List.range_succ])
  push_cast
  omega

end Verif.TimeCoordinates
