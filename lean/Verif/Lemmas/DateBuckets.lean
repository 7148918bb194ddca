import Verif.Model.DateBuckets
import Verif.Spec.DateBuckets

/-! # Lemmas on date bucketing -/

namespace Verif.DateBuckets

open Verif.Calendar Spec

theorem run_cons_same {key : CDate → ℕ} {s d : CDate} {rest : List CDate} (h : key d = key s)
    (a b : CDate) : Run key (s :: d :: rest) a b ↔ Run key (s :: rest) a b := by
  constructor
  · rintro ⟨i, j, hij, hi, hj, hne, hrun, hpre⟩
    match i with
    | 0 =>
      simp at hi; subst hi
      match j with
      | 0 => omega
      | 1 => simp at hj; subst hj; exact absurd h hne
      | j + 2 =>
        refine ⟨0, j + 1, by omega, rfl, by simpa using hj, hne, ?_, by omega⟩
        intro m x _ hm hx
        match m with
        | 0 => simp at hx; subst hx; rfl
        | m + 1 => exact hrun (m + 2) x (by omega) (by omega) (by simpa using hx)
    | 1 =>
      simp at hi; subst hi
      exact absurd h.symm (hpre 0 s rfl rfl)
    | i + 2 =>
      match j with
      | 0 => omega
      | 1 => omega
      | j + 2 =>
        refine ⟨i + 1, j + 1, by omega, by simpa using hi, by simpa using hj, hne, ?_, ?_⟩
        · intro m x h1 hm hx
          match m with
          | 0 => omega
          | m + 1 => exact hrun (m + 2) x (by omega) (by omega) (by simpa using hx)
        · intro m x hm hx
          match m with
          | 0 =>
            simp at hx; subst hx
            rw [← h]
            exact hpre 1 d (by omega) rfl
          | m + 1 => exact hpre (m + 2) x (by omega) (by simpa using hx)
  · rintro ⟨i, j, hij, hi, hj, hne, hrun, hpre⟩
    match i with
    | 0 =>
      simp at hi; subst hi
      match j with
      | 0 => omega
      | j + 1 =>
        refine ⟨0, j + 2, by omega, rfl, by simpa using hj, hne, ?_, by omega⟩
        intro m x _ hm hx
        match m with
        | 0 => simp at hx; subst hx; rfl
        | 1 => simp at hx; subst hx; exact h
        | m + 2 => exact hrun (m + 1) x (by omega) (by omega) (by simpa using hx)
    | i + 1 =>
      match j with
      | 0 => omega
      | j + 1 =>
        refine ⟨i + 2, j + 2, by omega, by simpa using hi, by simpa using hj, hne, ?_, ?_⟩
        · intro m x h1 hm hx
          match m with
          | 0 => omega
          | 1 => omega
          | m + 2 => exact hrun (m + 1) x (by omega) (by omega) (by simpa using hx)
        · intro m x hm hx
          match m with
          | 0 => omega
          | 1 =>
            simp at hx; subst hx
            rw [h]
            exact hpre 0 s (by omega) rfl
          | m + 2 => exact hpre (m + 1) x (by omega) (by simpa using hx)

theorem run_cons_diff {key : CDate → ℕ} {s d : CDate} {rest : List CDate} (h : key d ≠ key s)
    (a b : CDate) : Run key (s :: d :: rest) a b ↔ (a = s ∧ b = d) ∨ Run key (d :: rest) a b := by
  constructor
  · rintro ⟨i, j, hij, hi, hj, hne, hrun, hpre⟩
    match i with
    | 0 =>
      simp at hi; subst hi
      match j with
      | 0 => omega
      | 1 => simp at hj; exact .inl ⟨rfl, hj.symm⟩
      | j + 2 => exact absurd (hrun 1 d (by omega) (by omega) rfl) h
    | i + 1 =>
      match j with
      | 0 => omega
      | j + 1 =>
        refine .inr ⟨i, j, by omega, by simpa using hi, by simpa using hj, hne, ?_, ?_⟩
        · intro m x h1 hm hx
          exact hrun (m + 1) x (by omega) (by omega) (by simpa using hx)
        · intro m x hm hx
          exact hpre (m + 1) x (by omega) (by simpa using hx)
  · rintro (⟨rfl, rfl⟩ | ⟨i, j, hij, hi, hj, hne, hrun, hpre⟩)
    · refine ⟨0, 1, by omega, rfl, rfl, h, ?_, by omega⟩
      intro m x _ hm hx
      have : m = 0 := by omega
      subst this; simp at hx; subst hx; rfl
    · refine ⟨i + 1, j + 1, by omega, by simpa using hi, by simpa using hj, hne, ?_, ?_⟩
      · intro m x h1 hm hx
        match m with
        | 0 => omega
        | m + 1 => exact hrun m x (by omega) (by omega) (by simpa using hx)
      · intro m x hm hx
        match m with
        | 0 =>
          have hi0 : i = 0 := by omega
          subst hi0
          simp at hx hi; subst hx; subst hi
          exact h.symm
        | m + 1 => exact hpre m x (by omega) (by simpa using hx)

theorem run_single {key : CDate → ℕ} {s a b : CDate} : ¬ Run key [s] a b := by
  rintro ⟨i, j, hij, hi, hj, -⟩
  have := (List.getElem?_eq_some_iff.1 hj).1
  simp at this; omega

theorem mem_loop (c : Cadence) (s : CDate) (l : List CDate) (a b : CDate) :
    (a, b) ∈ loop c s l ↔ c.startsBucket a = true ∧ Run c.key (s :: l) a b := by
  induction l generalizing s with
  | nil => simp [loop, run_single]
  | cons d rest ih =>
    unfold loop
    by_cases h : c.key d = c.key s
    · rw [if_neg (by simpa using h), ih, run_cons_same h]
    · rw [if_pos h, run_cons_diff h]
      split_ifs with hs
      · rw [List.mem_cons, ih, Prod.mk.injEq]
        constructor
        · rintro (⟨rfl, rfl⟩ | ⟨h1, h2⟩)
          · exact ⟨hs, .inl ⟨rfl, rfl⟩⟩
          · exact ⟨h1, .inr h2⟩
        · rintro ⟨h1, h2 | h2⟩
          · exact .inl h2
          · exact .inr ⟨h1, h2⟩
      · rw [ih]
        constructor
        · rintro ⟨h1, h2⟩; exact ⟨h1, .inr h2⟩
        · rintro ⟨h1, ⟨rfl, rfl⟩ | h2⟩
          · exact absurd h1 hs
          · exact ⟨h1, h2⟩

end Verif.DateBuckets
