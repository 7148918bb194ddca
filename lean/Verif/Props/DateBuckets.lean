import Verif.Lemmas.DateBuckets
import Verif.Lemmas.TimeCoordinates

/-!
# Date bucketing: property C45
-/

namespace Verif.DateBuckets.Props

open Verif.Calendar Verif.TimeCoordinates Verif.TimeCoordinates.Spec Verif.DateBuckets Spec

/-- **C45 (acceptance).** Exactly the non-empty strictly ascending lists of dates are accepted. -/
theorem buckets_accepted_iff (c : Cadence) (dates : List CDate) (hv : ∀ d ∈ dates, d.Valid) :
    (∃ r, generate c dates = .ok r) ↔ dates ≠ [] ∧ Increasing dates := by
  unfold generate
  rw [← increasing_iff hv]
  cases dates with
  | nil => simp [pairs]
  | cons d rest =>
    split_ifs with h
    · exact ⟨fun _ => ⟨by simp, h⟩, fun _ => ⟨_, rfl⟩⟩
    · exact ⟨fun h' => by simp at h', fun h' => absurd h'.2 h⟩

theorem generate_ok {c : Cadence} {dates : List CDate} {r} (h : generate c dates = .ok r) :
    ∃ d rest, dates = d :: rest ∧ r = loop c d rest := by
  unfold generate at h
  split_ifs at h
  cases dates with
  | nil => cases h
  | cons d rest =>
    simp only [Except.ok.injEq] at h
    refine ⟨d, rest, rfl, ?_⟩
    rw [← h]
    conv_lhs => unfold loop
    rw [if_neg (by simp)]

/-- **C45 (exactly the complete runs).** The pairs reported are exactly the maximal runs of dates
with the same month number / quarter number / year that begin in the first seven days of the
bucket and are followed by a later date: the start is the first date of the run, the end the first
date after it. -/
theorem buckets_exact (c : Cadence) (dates : List CDate) (hv : ∀ d ∈ dates, d.Valid) (r)
    (h : generate c dates = .ok r) (a b : CDate) :
    (a, b) ∈ r ↔ Run c.key dates a b ∧ a.d ≤ 7 ∧
      (c = .quarter → a.m = 1 ∨ a.m = 4 ∨ a.m = 7 ∨ a.m = 10) ∧ (c = .year → a.m = 1) := by
  obtain ⟨d, rest, rfl, rfl⟩ := generate_ok h
  rw [mem_loop, and_comm]
  apply and_congr_right
  intro hrun
  obtain ⟨i, j, -, hi, -⟩ := hrun
  have hm := (hv a (List.mem_of_getElem? hi)).2
  cases c with
  | month => simp [Cadence.startsBucket]
  | quarter =>
    simp only [Cadence.startsBucket, Bool.and_eq_true, decide_eq_true_eq, forall_const,
      reduceCtorEq, false_implies, and_true]
    apply and_congr_right
    intro _
    omega
  | year => simp [Cadence.startsBucket]

theorem loop_sorted {c : Cadence} {s : CDate} {l : List CDate} (h : Increasing (s :: l)) :
    (loop c s l).Pairwise (fun p q => p.2.ordinal ≤ q.1.ordinal) ∧
    ∀ p ∈ loop c s l, s.ordinal ≤ p.1.ordinal ∧ p.1.ordinal < p.2.ordinal := by
  induction l generalizing s with
  | nil => simp [loop]
  | cons d rest ih =>
    have hd : Increasing (d :: rest) := (List.pairwise_cons.1 h).2
    have hsd : s.ordinal < d.ordinal := (List.pairwise_cons.1 h).1 d (by simp)
    have hsr : Increasing (s :: rest) := by
      refine List.pairwise_cons.2 ⟨fun x hx => (List.pairwise_cons.1 h).1 x (by simp [hx]), ?_⟩
      exact (List.pairwise_cons.1 hd).2
    unfold loop
    split_ifs with h1 h2
    · obtain ⟨i1, i2⟩ := ih hd
      refine ⟨List.pairwise_cons.2 ⟨fun p hp => (i2 p hp).1, i1⟩, ?_⟩
      intro p hp
      rcases List.mem_cons.1 hp with rfl | hp
      · exact ⟨le_rfl, hsd⟩
      · exact ⟨by have := (i2 p hp).1; omega, (i2 p hp).2⟩
    · obtain ⟨i1, i2⟩ := ih hd
      exact ⟨i1, fun p hp => ⟨by have := (i2 p hp).1; omega, (i2 p hp).2⟩⟩
    · exact ih hsr

/-- **C45 (ordered and disjoint).** Every interval is non-empty, and each one ends no later than the
next one begins. -/
theorem buckets_disjoint (c : Cadence) (dates : List CDate) (hv : ∀ d ∈ dates, d.Valid) (r)
    (h : generate c dates = .ok r) :
    (∀ p ∈ r, p.1.ordinal < p.2.ordinal) ∧ r.Pairwise fun p q => p.2.ordinal ≤ q.1.ordinal := by
  have hi := ((buckets_accepted_iff c dates hv).1 ⟨r, h⟩).2
  obtain ⟨d, rest, rfl, rfl⟩ := generate_ok h
  obtain ⟨h1, h2⟩ := loop_sorted (c := c) hi
  exact ⟨fun p hp => (h2 p hp).2, h1⟩

/-- Same bucket of the calendar. -/
def SameBucket : Cadence → CDate → CDate → Prop
  | .month => SameMonth
  | .quarter => SameQuarter
  | .year => SameYear

theorem key_year {c : Cadence} {a b : CDate} (ha : a.Valid) (hb : b.Valid)
    (hlt : a.ordinal < b.ordinal) (hgap : days a b < 270) (hk : c.key a = c.key b) :
    a.y = b.y := by
  have hle : a.y ≤ b.y := by
    by_contra hc
    have : b.lt a = true := (lt_iff b a).2 (.inl (by omega))
    have := ordinal_lt_of_lt hb ha this
    omega
  rcases Nat.lt_or_eq_of_le hle with hy | hy
  · exfalso
    have hq : (a.m - 1) / 3 = (b.m - 1) / 3 := by
      cases c with
      | month => simp only [Cadence.key] at hk; rw [hk]
      | quarter => simp only [Cadence.key] at hk; omega
      | year => simp only [Cadence.key] at hk; omega
    have h1 := daysBeforeYear_mono ha.1 hy
    obtain ⟨a1, a2, a3, a4, a5⟩ := ha
    obtain ⟨b1, b2, b3, b4, b5⟩ := hb
    unfold days CDate.ordinal at hgap
    have key : daysBeforeMonth a.y a.m + daysInMonth a.y a.m ≤ daysBeforeMonth b.y b.m + 93 := by
      have e : ∀ y m, daysInMonth y m ≤ 31 := fun y m => (daysInMonth_bounds y m).2
      obtain ⟨ay, am, ad⟩ := a
      obtain ⟨by', bm, bd⟩ := b
      simp only at a2 a3 b2 b3 hq ⊢
      unfold daysBeforeMonth daysInMonth
      interval_cases am <;> interval_cases bm <;> simp only [Nat.reduceSub, Nat.reduceDiv] at hq <;>
        first
        | omega
        | (cases isLeap ay <;> cases isLeap by' <;> simp [List.range_succ])
    have h2 : 365 ≤ yearLen a.y := by unfold yearLen; split_ifs <;> omega
    push_cast at hgap
    omega
  · exact hy

/-- **C45 (whole buckets).** If neighbouring input dates are less than 270 days apart, all input
dates inside a reported interval lie in the same calendar month / quarter / year as its start, and
the end lies in another one. -/
theorem buckets_one_calendar_bucket (c : Cadence) (dates : List CDate) (hv : ∀ d ∈ dates, d.Valid)
    (hgap : ∀ x y, Next dates x y → days x y < 270) (r) (h : generate c dates = .ok r)
    (a b : CDate) (hab : (a, b) ∈ r) :
    ¬ SameBucket c a b ∧
    ∀ x ∈ dates, a.ordinal ≤ x.ordinal → x.ordinal < b.ordinal → SameBucket c a x := by
  have hinc := ((buckets_accepted_iff c dates hv).1 ⟨r, h⟩).2
  obtain ⟨⟨i, j, hij, hi, hj, hne, hrun, hpre⟩, -⟩ := (buckets_exact c dates hv r h a b).1 hab
  constructor
  · intro hs
    apply hne
    cases c with
    | month => simpa [Cadence.key] using hs.2.symm
    | quarter => simp only [Cadence.key]; rw [hs.2]
    | year => simpa [Cadence.key] using Eq.symm hs
  · -- all positions from i to j-1 have the year of a
    have hyear : ∀ m, i ≤ m → m < j → ∀ x, dates[m]? = some x → x.y = a.y := by
      intro m him
      induction m, him using Nat.le_induction with
      | base => intro _ x hx; rw [hi] at hx; cases hx; rfl
      | succ m him ih =>
        intro hmj x hx
        have hm : m < dates.length := by
          have := (List.getElem?_eq_some_iff.1 hx).1; omega
        have hp : dates[m]? = some dates[m] := List.getElem?_eq_getElem hm
        have e1 := ih (by omega) _ hp
        have e2 := hrun m _ him (by omega) hp
        have e3 := hrun (m + 1) x (by omega) hmj hx
        rw [← e1]
        exact (key_year (c := c) (hv _ (List.mem_of_getElem? hp)) (hv _ (List.mem_of_getElem? hx))
          (increasing_getElem hinc hp hx (Nat.lt_succ_self m)) (hgap _ _ ⟨m, hp, hx⟩)
          (by rw [e2, e3])).symm
    intro x hx hax hxb
    obtain ⟨m, hm⟩ := List.mem_iff_getElem?.1 hx
    have him : i ≤ m := by
      by_contra hc
      have := increasing_getElem hinc hm hi (by omega); omega
    have hmj : m < j := by
      by_contra hc
      rcases Nat.lt_or_eq_of_le (Nat.le_of_not_lt hc) with hc | hc
      · have := increasing_getElem hinc hj hm hc; omega
      · subst hc; rw [hj] at hm; cases hm; omega
    have ey := hyear m him hmj x hm
    have ek := hrun m x him hmj hm
    cases c with
    | month => exact ⟨ey.symm, by simpa [Cadence.key] using ek.symm⟩
    | quarter => exact ⟨ey.symm, by simp only [Cadence.key] at ek; omega⟩
    | year => exact ey.symm

/-- Weekly dates over three months: January is reported, February is reported, the incomplete last
month is not. -/
example : generate .month [⟨2024, 1, 1⟩, ⟨2024, 1, 15⟩, ⟨2024, 2, 5⟩, ⟨2024, 2, 26⟩, ⟨2024, 3, 4⟩] =
    .ok [(⟨2024, 1, 1⟩, ⟨2024, 2, 5⟩), (⟨2024, 2, 5⟩, ⟨2024, 3, 4⟩)] := by decide +kernel

/-- A run that starts late in its quarter is skipped. -/
example : generate .quarter [⟨2024, 2, 5⟩, ⟨2024, 4, 1⟩, ⟨2024, 6, 3⟩, ⟨2024, 7, 1⟩] =
    .ok [(⟨2024, 4, 1⟩, ⟨2024, 7, 1⟩)] := by decide +kernel

/-- **C45 (negation without the gap condition).** The monthly generator compares month numbers
only: January 2020 and January 2021 end up in one "month" when no date lies between them. -/
theorem month_number_merges_years : ∃ (dates : List CDate) (r : _) (a b x : CDate),
    (∀ d ∈ dates, d.Valid) ∧ generate .month dates = .ok r ∧ (a, b) ∈ r ∧ x ∈ dates ∧
    a.ordinal ≤ x.ordinal ∧ x.ordinal < b.ordinal ∧ ¬ SameBucket .month a x :=
  ⟨[⟨2020, 1, 6⟩, ⟨2021, 1, 4⟩, ⟨2021, 2, 1⟩], [(⟨2020, 1, 6⟩, ⟨2021, 2, 1⟩)],
    ⟨2020, 1, 6⟩, ⟨2021, 2, 1⟩, ⟨2021, 1, 4⟩, by decide, by decide +kernel, by simp, by simp,
    by decide +kernel, by decide +kernel, by
      rintro ⟨h, -⟩
      exact absurd h (by decide)⟩

end Verif.DateBuckets.Props
