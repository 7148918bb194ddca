import Mathlib.Data.Rat.Defs
import Mathlib.Algebra.Order.Ring.Rat
import Mathlib.Algebra.BigOperators.Group.List.Basic

/-!
# Currency codes and amounts of money

Independent of the model.
-/

namespace Verif.Currency.Spec

/-- White space. -/
def White (c : Char) : Prop :=
  c.toNat ∈ [9, 10, 11, 12, 13, 28, 29, 30, 31, 32, 133, 160]

/-- The same letter, small or capital, or the same character. -/
def SameLetter (a b : Char) : Prop := a.toUpper = b.toUpper

/-- Two texts that differ in white space around them and in small and capital letters only. -/
def Variant (s t : List Char) : Prop :=
  ∃ l m r l' m' r', s = l ++ m ++ r ∧ t = l' ++ m' ++ r' ∧ (∀ c ∈ l ++ r ++ l' ++ r', White c) ∧
    List.Forall₂ SameLetter m m'

/-- Nothing but white space. -/
def Blank (s : List Char) : Prop := ∀ c ∈ s, White c

/-- A clean code: not empty, no white space at its ends, no small letters. -/
def Clean (s : List Char) : Prop :=
  s ≠ [] ∧ (∀ c ∈ s.head?, ¬ White c) ∧ (∀ c ∈ s.getLast?, ¬ White c) ∧ ∀ c ∈ s, c.toUpper = c

/-- The text carries the symbol. -/
def Carries (symbol text : List Char) : Prop := ∃ l r, text = l ++ symbol ++ r

/-- The change of spend of each channel. -/
def changes (opt non : List (String × ℚ)) : List (String × ℚ) :=
  List.zipWith (fun a b => (a.1, a.2 - b.2)) opt non

end Verif.Currency.Spec
