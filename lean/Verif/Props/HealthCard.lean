import Verif.Model.HealthCard
import Verif.Spec.HealthCard
import Mathlib.Data.List.Perm.Basic
import Mathlib.Tactic.Ring

namespace Verif.HealthCard.Props

open Verif.Formatter Verif.Review Verif.Page Verif.HealthCard Verif.HealthCard.Spec
open Verif.Accuracy (Fl)

/-! ### Texts in texts -/

theorem says_refl (t : Text) : Says t t := ⟨[], [], by simp⟩

theorem says_left {a t : Text} (b : Text) (h : Says a t) : Says (a ++ b) t := by
  obtain ⟨x, y, rfl⟩ := h
  exact ⟨x, y ++ b, by simp⟩

theorem says_right {b t : Text} (a : Text) (h : Says b t) : Says (a ++ b) t := by
  obtain ⟨x, y, rfl⟩ := h
  exact ⟨a ++ x, y, by simp⟩

theorem says_trans {a b c : Text} (h : Says a b) (k : Says b c) : Says a c := by
  obtain ⟨x, y, rfl⟩ := h
  obtain ⟨u, v, rfl⟩ := k
  exact ⟨x ++ u, v ++ y, by simp⟩

theorem says_join (sep : Text) (l : List Text) (t : Text) (h : t ∈ l) : Says (joinWith sep l) t := by
  induction l with
  | nil => simp at h
  | cons a l ih =>
    cases l with
    | nil =>
      rw [List.mem_singleton] at h
      subst h
      exact says_refl _
    | cons b l =>
      rw [List.mem_cons] at h
      simp only [joinWith]
      rcases h with rfl | h
      · rw [List.append_assoc]
        exact says_left _ (says_refl _)
      · exact says_right _ (ih h)

theorem says_flatten (l : List Text) (t : Text) (h : t ∈ l) : Says l.flatten t := by
  induction l with
  | nil => simp at h
  | cons a l ih =>
    rw [List.mem_cons] at h
    rw [List.flatten_cons]
    rcases h with rfl | h
    · exact says_left _ (says_refl _)
    · exact says_right _ (ih h)

theorem names_of_mem (l : List String) (n : String) (h : n ∈ l) : Names (nameList l) n :=
  says_join _ _ _ (List.mem_map.2 ⟨n, h, rfl⟩)

/-! ### The rows of the card -/

/-- The rows are those of the results: those on the model first, in the order of the results, then those on
the channels.  Nothing is left out or shown twice. -/
theorem one_row_each (l : List Res) :
    (rows l).Perm (l.map row) ∧
      (rows l).filter (·.channels.isNone) = (l.map row).filter (·.channels.isNone) ∧
      (rows l).filter (·.channels.isSome) = (l.map row).filter (·.channels.isSome) := by
  have hrow : ∀ r, (row r).channels.isSome = byChannel r := by
    intro r; by_cases h : byChannel r = true <;> simp [row, h]
  have hrow' : ∀ r, (row r).channels.isNone = !byChannel r := by
    intro r; by_cases h : byChannel r = true <;> simp [row, h]
  refine ⟨?_, ?_, ?_⟩
  · unfold rows
    rw [← List.map_append]
    apply List.Perm.map
    have := List.filter_append_perm (fun r => !byChannel r) l
    simpa using this
  · unfold rows
    rw [List.filter_append, List.filter_map, List.filter_map, List.filter_map, List.filter_filter,
      List.filter_filter, ← List.map_append]
    congr 1
    have h1 : (l.filter fun r => ((fun x : Row => x.channels.isNone) ∘ row) r && byChannel r) = [] := by
      rw [List.filter_eq_nil_iff]
      intro a _
      simp [hrow']
    rw [h1, List.append_nil]
    congr 1
    funext r
    simp [hrow']
  · unfold rows
    rw [List.filter_append, List.filter_map, List.filter_map, List.filter_map, List.filter_filter,
      List.filter_filter, ← List.map_append]
    congr 1
    have h1 : (l.filter fun r => ((fun x : Row => x.channels.isSome) ∘ row) r && !byChannel r) = [] := by
      rw [List.filter_eq_nil_iff]
      intro a _
      simp [hrow]
    rw [h1, List.nil_append]
    congr 1
    funext r
    simp [hrow]

/-- The class of a result can be read off the name in its row. -/
theorem check_names_distinct (a b : CheckId) (h : checkName a = checkName b) : a = b := by
  cases a <;> cases b <;> first | rfl | (exfalso; revert h; decide)

/-- A result has been made by the reviewer: the two checks of channels never fail. -/
def Made : Res → Prop
  | .pps s .. => s ≠ .fail
  | .roi s .. => s ≠ .fail
  | _ => True

/-- A row has the name of its check, the action is the text of the result, and the chip is the status. -/
theorem row_shows (r : Res) (h : Made r) :
    (row r).name = checkName r.id ∧ (row r).action = recommendation r ∧
      ((row r).chip = "Pass" ↔ r.status = .pass) ∧ ((row r).chip = "Review" ↔ r.status = .review) ∧
      ((row r).chip = "Fail" ↔ r.status = .fail) ∧ ((row r).chipClass = "fail" ↔ r.status = .fail) ∧
      ((row r).chipClass = "pass" ↔ r.status = .pass) ∧ ((row r).chipClass = "review" ↔ r.status = .review) := by
  by_cases hb : byChannel r = true
  · have hf : r.status ≠ .fail := by
      cases r <;> simp_all [byChannel, Made, Res.status]
    cases hs : r.status <;> simp_all [row]
  · cases hs : r.status <;> simp [row, hb, hs, statusTitle, statusLower]

/-- What the two checks of channels make has been made. -/
theorem made (param : Group → Text) (c : ChannelConfig) (l : List (String × Bool)) (gs : List Group) :
    Made (shiftRes c l) ∧ Made (roiRes param c gs) := by
  constructor
  · show shiftStatus c l ≠ .fail
    unfold shiftStatus
    split <;> decide
  · show roiStatus c gs ≠ .fail
    unfold roiStatus
    split
    · decide
    · split
      · split <;> decide
      · decide

/-- The counts in the row of the shift: the channels that shifted, of all. -/
theorem shift_counts (c : ChannelConfig) (l : List (String × Bool)) :
    ∃ p n, (row (shiftRes c l)).channels = some (p, n) ∧ n = l.length ∧
      p + (l.filter fun x => x.2 = false).length = n := by
  refine ⟨l.countP (·.2), l.length, rfl, rfl, ?_⟩
  rw [List.countP_eq_length_filter, List.length_eq_length_filter_add (l := l) (fun x : String × Bool => x.2)]
  congr 2
  apply List.filter_congr
  intro x _
  cases x.2 <;> simp

/-- The counts in the row of the ROI: the channels with the case of a pass, of all channels with a result. -/
theorem roi_counts (param : Group → Text) (c : ChannelConfig) (gs : List Group) :
    ∃ p n, (row (roiRes param c gs)).channels = some (p, n) ∧ n = (roiChannels gs).length ∧
      p + ((roiChannels gs).filter fun x => decide (x.2 ≠ .pass)).length = n := by
  refine ⟨(roiChannels gs).countP fun p => p.2 == .pass, (roiChannels gs).length, rfl, rfl, ?_⟩
  rw [List.countP_eq_length_filter, List.length_eq_length_filter_add (l := roiChannels gs) (fun x : String × RoiCase => x.2 == .pass)]
  congr 2
  apply List.filter_congr
  intro x _
  cases x.2 <;> rfl

/-- Without limits, a check of the shift that passes has all channels passed, and one that does not pass
names exactly the channels that did not shift. -/
theorem shift_row (l : List (String × Bool)) :
    ((shiftRes ⟨none, none⟩ l).status = .pass ↔
        (row (shiftRes ⟨none, none⟩ l)).channels = some (l.length, l.length)) ∧
      ∀ c, (shiftRes c l).status = .review → ∀ n, (n, false) ∈ l → Names (recommendation (shiftRes c l)) n := by
  constructor
  · have hc : (row (shiftRes ⟨none, none⟩ l)).channels = some (l.countP (·.2), l.length) := rfl
    rw [hc]
    show shiftStatus ⟨none, none⟩ l = .pass ↔ _
    have hl : l.countP (·.2) + (noShift l).length = l.length := by
      rw [noShift, List.length_map, List.countP_eq_length_filter,
        List.length_eq_length_filter_add (l := l) (fun x : String × Bool => x.2)]
    have hle : (noShift l).length ≤ l.length := by omega
    unfold shiftStatus ChannelConfig.within
    by_cases h0 : (noShift l).length = 0
    · have : l.countP (·.2) = l.length := by omega
      rw [if_pos h0, this]
      simp
    · have hl0 : l.length ≠ 0 := by omega
      have : l.countP (·.2) ≠ l.length := by omega
      rw [if_neg h0, if_neg hl0]
      simp [this]
  · intro c hs n hn
    have hm : n ∈ noShift l := List.mem_map.2 ⟨(n, false), List.mem_filter.2 ⟨hn, rfl⟩, rfl⟩
    have hs' : shiftStatus c l = .review := hs
    have : recommendation (shiftRes c l) = (lit "We've detected channel(s) ") ++ nameList (noShift l) ++
        (lit " where the posterior distribution did not significantly shift from the prior. This suggests the data signal for these channels was not strong enough to update the model's beliefs.")
        ++ [] ++ (lit " ") ++ (lit "Please review these channels to see if this is expected") := by
      simp only [recommendation, shiftRes, hs', advice, message, stop]
    rw [this]
    exact says_left _ (says_left _ (says_left _ (says_left _ (says_right _ (names_of_mem _ _ hm)))))

theorem says_roiNames (d : Text) (l : List String) (n : String) (h : n ∈ l) : Names (roiNames d l) n := by
  have hl : l.isEmpty = false := by cases l <;> simp_all
  unfold roiNames
  rw [hl]
  exact says_left _ (says_right _ (names_of_mem _ _ h))

theorem isEmpty_of_names {t : Text} {n : String} (h : Names t n) : (!t.isEmpty) = true := by
  obtain ⟨a, b, rfl⟩ := h
  simp

theorem says_lowHigh (low high : List String) (n : String) (h : n ∈ low ∨ n ∈ high) :
    Names (lowHighMsg low high) n := by
  have hne : (low.isEmpty && high.isEmpty) = false := by
    rcases h with h | h
    · cases low <;> simp_all
    · cases high <;> simp_all
  unfold lowHighMsg
  rw [hne]
  apply says_left
  apply says_right
  rcases h with h | h
  · refine says_trans (says_join _ _ (roiNames (lit "low") low) ?_) (says_roiNames _ _ _ h)
    rw [List.mem_filter]
    exact ⟨by simp, isEmpty_of_names (says_roiNames _ _ _ h)⟩
  · refine says_trans (says_join _ _ (roiNames (lit "high") high) ?_) (says_roiNames _ _ _ h)
    rw [List.mem_filter]
    exact ⟨by simp, isEmpty_of_names (says_roiNames _ _ _ h)⟩

theorem roi_review_text (param : Group → Text) (c : ChannelConfig) (gs : List Group)
    (h : (roiRes param c gs).status = .review) :
    recommendation (roiRes param c gs) =
      (undefinedMsg ((gs.filter (·.quantiles.isNone)).map param) ++ infiniteMsg (infNames (gs.flatMap Group.entries)) ++
        lowHighMsg (lowNames (gs.flatMap Group.entries)) (highNames (gs.flatMap Group.entries))) ++ [] ++
        (lit " ") ++ (lit "Please review this result") := by
  have h' : roiStatus c gs = .review := h
  simp only [recommendation, roiRes, h', advice, message, stop]

/-- A check of the ROI that does not pass says the name of every channel with a low, high or infinite case.
The names of the infinite ones are without quotes. -/
theorem roi_review_names (param : Group → Text) (c : ChannelConfig) (gs : List Group)
    (h : (roiRes param c gs).status = .review) (n : String) (k : RoiCase) (hn : (n, k) ∈ roiChannels gs) :
    (k = .low ∨ k = .high → Names (recommendation (roiRes param c gs)) n) ∧
      (k = .infinite → Says (recommendation (roiRes param c gs)) n.toList) := by
  rw [roi_review_text param c gs h]
  simp only [roiChannels, List.mem_append, List.mem_map, Prod.mk.injEq] at hn
  have key : (k = .low → n ∈ lowNames (gs.flatMap Group.entries)) ∧
      (k = .high → n ∈ highNames (gs.flatMap Group.entries)) ∧
      (k = .infinite → n ∈ infNames (gs.flatMap Group.entries)) := by
    rcases hn with ⟨a, -, -, rfl⟩ | ⟨e, -, rfl, hk⟩
    · refine ⟨?_, ?_, ?_⟩ <;> intro h <;> cases h
    · split at hk
      · next h1 => subst hk; exact ⟨(by intro h; cases h), (by intro h; cases h), fun _ => h1⟩
      · split at hk
        · next h1 => subst hk; exact ⟨fun _ => h1, (by intro h; cases h), (by intro h; cases h)⟩
        · split at hk
          · next h1 => subst hk; exact ⟨(by intro h; cases h), fun _ => h1, (by intro h; cases h)⟩
          · subst hk; refine ⟨?_, ?_, ?_⟩ <;> intro h <;> cases h
  constructor
  · intro hk
    apply says_left
    apply says_left
    apply says_left
    apply says_right
    apply says_lowHigh
    rcases hk with hk | hk
    · exact Or.inl (key.1 hk)
    · exact Or.inr (key.2.1 hk)
  · intro hk
    have hm := key.2.2 hk
    have hne : (infNames (gs.flatMap Group.entries)).isEmpty = false := by
      cases hc : infNames (gs.flatMap Group.entries) <;> simp_all
    apply says_left
    apply says_left
    apply says_left
    apply says_left
    apply says_right
    unfold infiniteMsg
    rw [hne]
    exact says_right _ (says_join _ _ _ (List.mem_map.2 ⟨n, hm, rfl⟩))

/-- The other texts name every channel of their lists. -/
theorem names_listed (n : String) (high low l : List String) :
    (n ∈ high ∨ n ∈ low → Names (recommendation (.implausible .review high low)) n) ∧
      (n ∈ l → Names (recommendation (.highVariance .review l)) n) ∧
      (n ∈ l → Names (recommendation (.bias .review true l)) n) := by
  refine ⟨?_, ?_, ?_⟩
  · intro h
    have hne : (high.isEmpty && low.isEmpty) = false := by
      rcases h with h | h
      · cases high <;> simp_all
      · cases low <;> simp_all
    show Says (implausibleMsg high low ++ [] ++ (lit " ") ++ _) _
    apply says_left
    apply says_left
    apply says_left
    unfold implausibleMsg
    rw [hne]
    apply says_left
    apply says_right
    rcases h with h | h
    · have he : high.isEmpty = false := by cases high <;> simp_all
      refine says_trans (says_join _ _ ((lit "high ROI estimates (for channel(s) ") ++ nameList high ++ (lit ")")) ?_)
        (says_left _ (says_right _ (names_of_mem _ _ h)))
      simp [he]
    · have he : low.isEmpty = false := by cases low <;> simp_all
      refine says_trans (says_join _ _ ((lit "low ROI estimates (for channel(s) ") ++ nameList low ++ (lit ")")) ?_)
        (says_left _ (says_right _ (names_of_mem _ _ h)))
      simp [he]
  · intro h
    show Says ((lit "We've detected channel(s) ") ++ nameList l ++ _ ++ [] ++ (lit " ") ++ _) _
    exact says_left _ (says_left _ (says_left _ (says_left _ (says_right _ (names_of_mem _ _ h)))))
  · intro h
    show Says ((lit "We've detected channel(s) ") ++ nameList l ++ _ ++ [] ++ (lit " ") ++ _) _
    exact says_left _ (says_left _ (says_left _ (says_left _ (says_right _ (names_of_mem _ _ h)))))

/-! ### The verdict and the banner -/

/-- The verdict fails if and only if some check failed, and the first words of the message say it. -/
theorem verdict_iff (l : List Res) :
    ((verdict l).1 = .fail ↔ ∃ r ∈ l, r.status = .fail) ∧
      ((verdict l).1 = .pass ↔ ∀ r ∈ l, r.status ≠ .fail) ∧
      ((lit "Failed: ") <+: (verdict l).2 ↔ ∃ r ∈ l, r.status = .fail) ∧
      ((lit "Passed: ") <+: (verdict l).2 ↔ ∀ r ∈ l, r.status = .pass) ∧
      ((lit "Passed with reviews: ") <+: (verdict l).2 ↔
        (∀ r ∈ l, r.status ≠ .fail) ∧ ∃ r ∈ l, r.status = .review) := by
  have hf : (l.any fun r => r.status == .fail) = true ↔ ∃ r ∈ l, r.status = .fail := by simp
  have hr : (l.any fun r => r.status == .review) = true ↔ ∃ r ∈ l, r.status = .review := by simp
  have hp : (∀ r ∈ l, r.status = .pass) ↔ ¬ (∃ r ∈ l, r.status = .fail) ∧ ¬ ∃ r ∈ l, r.status = .review := by
    constructor
    · intro h
      exact ⟨fun ⟨r, hr, hs⟩ => by simp [h r hr] at hs, fun ⟨r, hr, hs⟩ => by simp [h r hr] at hs⟩
    · rintro ⟨h1, h2⟩ r hr
      cases hs : r.status
      · rfl
      · exact absurd ⟨r, hr, hs⟩ h2
      · exact absurd ⟨r, hr, hs⟩ h1
  have hnf : (∀ r ∈ l, r.status ≠ .fail) ↔ ¬ ∃ r ∈ l, r.status = .fail := by push Not; rfl
  rw [hp, hnf]
  unfold verdict
  cases hA : (l.any fun r => r.status == .fail) <;> cases hB : (l.any fun r => r.status == .review)
  · have a : ¬ ∃ r ∈ l, r.status = .fail := by rw [← hf, hA]; simp
    have b : ¬ ∃ r ∈ l, r.status = .review := by rw [← hr, hB]; simp
    simp only [a, b]
    decide +kernel
  · have a : ¬ ∃ r ∈ l, r.status = .fail := by rw [← hf, hA]; simp
    have b : ∃ r ∈ l, r.status = .review := by rw [← hr, hB]
    simp only [a, b]
    decide +kernel
  · have a : ∃ r ∈ l, r.status = .fail := by rw [← hf, hA]
    have b : ¬ ∃ r ∈ l, r.status = .review := by rw [← hr, hB]; simp
    simp only [a, b]
    decide +kernel
  · have a : ∃ r ∈ l, r.status = .fail := by rw [← hf, hA]
    have b : ∃ r ∈ l, r.status = .review := by rw [← hr, hB]
    simp only [a, b]
    decide +kernel

/-! ### The printed review -/

theorem flatMap_get (l : List Res) : ∀ i j, j < 4 →
    (l.flatMap block)[4 * i + j]? = (l[i]?).bind fun r => (block r)[j]? := by
  induction l with
  | nil => intro i j _; simp
  | cons r l ih =>
    intro i j hj
    have hlen : (block r).length = 4 := rfl
    rw [List.flatMap_cons]
    cases i with
    | zero =>
      rw [List.getElem?_append_left (by omega)]
      simp
    | succ i =>
      rw [List.getElem?_append_right (by omega), hlen]
      have : 4 * (i + 1) + j - 4 = 4 * i + j := by omega
      rw [this, ih i j hj]
      simp

/-- The printed review has seven lines at the top and four for each result: a rule, its title, its status and
the text. -/
theorem printed_lines (s : Summary) :
    (printed s).length = 7 + 4 * s.results.length ∧
      (printed s)[3]? = some ((lit "Overall Status: ") ++ (statusName s.overall).toList) ∧
      (printed s)[4]? = some ((lit "Summary: ") ++ s.message) ∧
      (printed s)[5]? = some ((lit "Health Score: ") ++ flText 1 s.score) ∧
      ∀ i r, s.results[i]? = some r →
        (∃ title, className r.id = String.ofList (title ++ (lit "CheckResult")) ∧
          (printed s)[7 + 4 * i + 1]? = some (title ++ (lit " Check:"))) ∧
        (printed s)[7 + 4 * i + 2]? = some ((lit "  Status: ") ++ (statusName r.status).toList) ∧
        (printed s)[7 + 4 * i + 3]? = some ((lit "  Recommendation: ") ++ recommendation r) := by
  have hget : ∀ i j, j < 4 → (printed s)[7 + 4 * i + j]? = (s.results[i]?).bind fun r => (block r)[j]? := by
    intro i j hj
    unfold printed
    rw [List.getElem?_append_right (by simp; omega), ← flatMap_get s.results i j hj]
    congr 1
    simp
    omega
  refine ⟨?_, rfl, rfl, rfl, ?_⟩
  · unfold printed
    rw [List.length_append, List.length_flatMap]
    have : (s.results.map fun r => (block r).length).sum = 4 * s.results.length := by
      induction s.results with
      | nil => rfl
      | cons a l ih =>
        rw [List.map_cons, List.sum_cons, ih, List.length_cons]
        show 4 + 4 * l.length = _
        ring
    rw [this]
    rfl
  · intro i r hr
    refine ⟨⟨printTitle (className r.id), ?_, ?_⟩, ?_, ?_⟩
    · cases r.id <;> decide +kernel
    · rw [hget i 1 (by omega), hr]; rfl
    · rw [hget i 2 (by omega), hr]; rfl
    · rw [hget i 3 (by omega), hr]; rfl

/-- The titles can be told apart. -/
theorem class_names_distinct (a b : CheckId) (h : className a = className b) : a = b := by
  cases a <;> cases b <;> first | rfl | (exfalso; revert h; decide)

/-- With at most one result of each class, the statuses by name are those of the results. -/
theorem checks_status (l : List Res) (hd : (l.map Res.id).Nodup) (k : CheckId) (v : String) :
    checksStatus l (className k) = some v ↔ ∃ r ∈ l, r.id = k ∧ statusName r.status = v := by
  unfold checksStatus
  constructor
  · intro h
    rw [Option.map_eq_some_iff] at h
    obtain ⟨r, hr, hv⟩ := h
    have hm := List.mem_of_find?_eq_some hr
    have hp := List.find?_some hr
    exact ⟨r, List.mem_reverse.1 hm, class_names_distinct _ _ (by simpa using hp), hv⟩
  · rintro ⟨r, hr, hk, hv⟩
    cases hf : l.reverse.find? (fun r => className r.id == className k) with
    | none =>
      rw [List.find?_eq_none] at hf
      have := hf r (List.mem_reverse.2 hr)
      simp [hk] at this
    | some q =>
      have hm := List.mem_reverse.1 (List.mem_of_find?_eq_some hf)
      have hp := List.find?_some hf
      have hq : q.id = k := class_names_distinct _ _ (by simpa using hp)
      have : q = r := List.inj_on_of_nodup_map hd hm hr (by rw [hq, hk])
      rw [this, Option.map_some, hv]

/-! ### The page -/

/-- A template is escaped if and only if its name ends in one of three ways; none of those of Meridian does. -/
theorem autoescape_iff (t : String) :
    autoescape t = true ↔ ∃ s, t.toList.map Char.toLower = s ++ (lit ".html") ∨
      t.toList.map Char.toLower = s ++ (lit ".htm") ∨ t.toList.map Char.toLower = s ++ (lit ".xml") := by
  unfold autoescape
  simp only [List.any_cons, List.any_nil, Bool.or_false, Bool.or_eq_true, List.isSuffixOf_iff_suffix]
  constructor
  · rintro (⟨s, h⟩ | ⟨s, h⟩ | ⟨s, h⟩)
    · exact ⟨s, Or.inl h.symm⟩
    · exact ⟨s, Or.inr (Or.inl h.symm)⟩
    · exact ⟨s, Or.inr (Or.inr h.symm)⟩
  · rintro ⟨s, h | h | h⟩
    · exact Or.inl ⟨s, h.symm⟩
    · exact Or.inr (Or.inl ⟨s, h.symm⟩)
    · exact Or.inr (Or.inr ⟨s, h.symm⟩)

/-- A name that ends in `.jinja` is not escaped. -/
theorem jinja_not_escaped (t : String) (h : (lit ".jinja") <:+ t.toList) : autoescape t = false := by
  rw [← Bool.not_eq_true, autoescape_iff]
  obtain ⟨u, hu⟩ := h
  rintro ⟨s, hs⟩
  rw [← hu, List.map_append] at hs
  have hl : ∀ (a b : Text) (x y : Char), a ++ [x] = b ++ [y] → x = y := by
    intro a b x y hxy
    have := congrArg List.getLast? hxy
    simpa using this
  have e0 : (lit ".jinja").map Char.toLower = (lit ".jinj") ++ ['a'] := by decide +kernel
  have e1 : (lit ".html") = (lit ".htm") ++ ['l'] := by decide +kernel
  have e2 : (lit ".htm") = (lit ".ht") ++ ['m'] := by decide +kernel
  have e3 : (lit ".xml") = (lit ".xm") ++ ['l'] := by decide +kernel
  rw [e0] at hs
  rcases hs with hs | hs | hs
  · have := hl (u.map Char.toLower ++ (lit ".jinj")) (s ++ (lit ".htm")) 'a' 'l'
      (by rw [List.append_assoc, List.append_assoc]; rw [e1] at hs; exact hs)
    exact absurd this (by decide)
  · have := hl (u.map Char.toLower ++ (lit ".jinj")) (s ++ (lit ".ht")) 'a' 'm'
      (by rw [List.append_assoc, List.append_assoc]; rw [e2] at hs; exact hs)
    exact absurd this (by decide)
  · have := hl (u.map Char.toLower ++ (lit ".jinj")) (s ++ (lit ".xm")) 'a' 'l'
      (by rw [List.append_assoc, List.append_assoc]; rw [e3] at hs; exact hs)
    exact absurd this (by decide)

theorem put_card (v : Text) : put cardTemplate v = v := by
  have : autoescape cardTemplate = false := by decide +kernel
  simp [put, this]

theorem put_page (v : Text) : put pageTemplate v = v := by
  have : autoescape pageTemplate = false := by decide +kernel
  simp [put, this]

theorem put_chips (v : Text) : put "chips.html.jinja" v = v := by
  have : autoescape "chips.html.jinja" = false := by decide +kernel
  simp [put, this]

theorem page_says_card (s : Summary) : Says (pageHtml s) (cardHtml s) := by
  unfold pageHtml
  rw [put_page]
  exact says_left _ (says_right _ (says_refl _))

theorem card_says_row (s : Summary) (r : Row) (h : r ∈ rows s.results) : Says (cardHtml s) (rowHtml r) := by
  unfold cardHtml
  exact says_left _ (says_right _ (says_flatten _ _ (List.mem_map.2 ⟨r, h, rfl⟩)))

theorem row_mem (l : List Res) (r : Res) (h : r ∈ l) : row r ∈ rows l :=
  (one_row_each l).1.symm.subset (List.mem_map.2 ⟨r, h, rfl⟩)

/-- The page has the score, the message, and for each result its name, its chip and its text, in one row. -/
theorem page_shows (s : Summary) :
    Says (pageHtml s) (flText 1 s.score) ∧
      (Says (pageHtml s) ((lit "<div class=\"status-banner-strip fail\"><span>") ++ s.message ++ (lit "</span>"))
        ∨ s.overall ≠ .fail) ∧
      (Says (pageHtml s) ((lit "<div class=\"status-banner-strip info\"><span>") ++ s.message ++ (lit "</span>"))
        ∨ s.overall = .fail) ∧
      ∀ r ∈ s.results, ∃ tr, Says (pageHtml s) tr ∧
        InOrder tr [(lit "<tr>"), (checkName r.id).toList, (lit "<chip class=\""), (row r).chip.toList,
          (lit "</chip>"), recommendation r, (lit "</tr>")] ∧
        ∀ p n, (row r).channels = some (p, n) →
          Says tr ((Nat.repr p).toList ++ (lit "/") ++ (Nat.repr n).toList ++ (lit " channels passed")) := by
  have hban : Says (pageHtml s) (banner s) := by
    refine says_trans (page_says_card s) ?_
    unfold cardHtml
    exact says_left _ (says_left _ (says_left _ (says_right _ (says_refl _))))
  refine ⟨?_, ?_, ?_, ?_⟩
  · refine says_trans (page_says_card s) ?_
    unfold cardHtml
    exact says_left _ (says_left _ (says_left _ (says_left _ (says_left _ (says_right _ (says_refl _))))))
  · by_cases h : s.overall = .fail
    · left
      refine says_trans hban ⟨[], (lit "</div>"), ?_⟩
      have e1 : (lit "<div class=\"status-banner-strip fail\"><span>") =
          (lit "<div class=\"status-banner-strip ") ++ (lit "fail") ++ (lit "\"><span>") := by decide +kernel
      have e2 : (lit "<div class=\"status-banner-strip info\"><span>") =
          (lit "<div class=\"status-banner-strip ") ++ (lit "info") ++ (lit "\"><span>") := by decide +kernel
      have e3 : (lit "</span></div>") = (lit "</span>") ++ (lit "</div>") := by decide +kernel
      first | rw [e1] | rw [e2]
      simp [banner, h, put_card, e3]
    · exact Or.inr h
  · by_cases h : s.overall = .fail
    · exact Or.inr h
    · left
      refine says_trans hban ⟨[], (lit "</div>"), ?_⟩
      have e1 : (lit "<div class=\"status-banner-strip fail\"><span>") =
          (lit "<div class=\"status-banner-strip ") ++ (lit "fail") ++ (lit "\"><span>") := by decide +kernel
      have e2 : (lit "<div class=\"status-banner-strip info\"><span>") =
          (lit "<div class=\"status-banner-strip ") ++ (lit "info") ++ (lit "\"><span>") := by decide +kernel
      have e3 : (lit "</span></div>") = (lit "</span>") ++ (lit "</div>") := by decide +kernel
      first | rw [e1] | rw [e2]
      simp [banner, h, put_card, e3]
  · intro r hr
    have hname : (row r).name = checkName r.id := by by_cases h : byChannel r = true <;> simp [row, h]
    have hact : (row r).action = recommendation r := by by_cases h : byChannel r = true <;> simp [row, h]
    refine ⟨rowHtml (row r), says_trans (page_says_card s) (card_says_row s _ (row_mem _ _ hr)), ?_, ?_⟩
    · unfold rowHtml
      rw [put_card, put_card, hname, hact]
      generalize countHtml (row r).channels = mid
      have e1 : (lit "<tr><td>") = (lit "<tr>") ++ (lit "<td>") := by decide +kernel
      have e2 : (lit "</td><td><chip class=\"") = (lit "</td><td>") ++ (lit "<chip class=\"") := by decide +kernel
      have e3 : (lit "</td></tr>") = (lit "</td>") ++ (lit "</tr>") := by decide +kernel
      refine ⟨[], (lit "<td>") ++ ((checkName r.id).toList ++ ((lit "</td><td><chip class=\"") ++
        ((row r).chipClass.toList ++ ((lit "\">") ++ ((row r).chip.toList ++ ((lit "</chip>") ++ (mid ++
        ((lit "</td><td>") ++ (recommendation r ++ (lit "</td></tr>")))))))))), ?_, ?_⟩
      · rw [e1]
        simp only [List.append_assoc, List.nil_append]
      refine ⟨(lit "<td>"), (lit "</td><td><chip class=\"") ++
        ((row r).chipClass.toList ++ ((lit "\">") ++ ((row r).chip.toList ++ ((lit "</chip>") ++ (mid ++
        ((lit "</td><td>") ++ (recommendation r ++ (lit "</td></tr>")))))))), by simp, ?_⟩
      refine ⟨(lit "</td><td>"), 
        ((row r).chipClass.toList ++ ((lit "\">") ++ ((row r).chip.toList ++ ((lit "</chip>") ++ (mid ++
        ((lit "</td><td>") ++ (recommendation r ++ (lit "</td></tr>")))))))), by simp [e2], ?_⟩
      refine ⟨(row r).chipClass.toList ++ (lit "\">"), ((lit "</chip>") ++ (mid ++
        ((lit "</td><td>") ++ (recommendation r ++ (lit "</td></tr>"))))), by simp, ?_⟩
      refine ⟨[], mid ++ ((lit "</td><td>") ++ (recommendation r ++ (lit "</td></tr>"))), by simp, ?_⟩
      refine ⟨mid ++ (lit "</td><td>"), (lit "</td></tr>"), by simp, ?_⟩
      exact ⟨(lit "</td>"), [], by rw [e3]; simp, trivial⟩
    · intro p n hpn
      unfold rowHtml
      rw [hpn]
      unfold countHtml
      refine says_left _ (says_left _ (says_left _ (says_right _ ?_)))
      refine ⟨(lit "<div class=\"stats-text\">"), (lit "</div>"), ?_⟩
      have e : (lit " channels passed</div>") = (lit " channels passed") ++ (lit "</div>") := by decide +kernel
      rw [e]
      simp

/-- **Finding.**  The page is said to be sanitized, but nothing in it is escaped: whatever the name of a channel
that did not shift, or the name of a selected geo, it is in the page as it is, with its markup. -/
theorem markup_unescaped :
    (∀ (s : Summary) (c : ChannelConfig) (l : List (String × Bool)) (n : String), shiftRes c l ∈ s.results →
      (shiftRes c l).status = .review → (n, false) ∈ l → Says (pageHtml s) n.toList) ∧
    (∀ (geos : List String) (g : String), g ∈ geos → Says (chipHtml geos) g.toList) ∧
    (∀ v : Text, (∃ c ∈ v, Markup c) → v.flatMap escapeChar ≠ v) := by
  refine ⟨?_, ?_, ?_⟩
  · intro s c l n hm hs hn
    obtain ⟨tr, h1, h2, -⟩ := (page_shows s).2.2.2 _ hm
    have hnm := (shift_row l).2 c hs n hn
    have hrec : Says tr (recommendation (shiftRes c l)) := by
      obtain ⟨_, _, e1, _, _, e2, _, _, e3, _, _, e4, _, _, e5, b, a, e6, -⟩ := h2
      rw [e1, e2, e3, e4, e5, e6]
      exact says_right _ (says_right _ (says_right _ (says_right _ (says_right _ (says_left _ (says_right _ (says_refl _)))))))
    refine says_trans h1 (says_trans hrec (says_trans hnm ?_))
    exact says_left _ (says_right _ (says_refl _))
  · intro geos g hg
    have he : geos.isEmpty = false := by cases geos <;> simp_all
    unfold chipHtml geoChip
    rw [he]
    simp only [put_chips]
    exact says_left _ (says_left _ (says_left _ (says_right _ (says_join _ _ _ (List.mem_map.2 ⟨g, hg, rfl⟩)))))
  · rintro v ⟨c, hc, hm⟩ he
    have h1 : ∀ c, 1 ≤ (escapeChar c).length := by
      intro c; unfold escapeChar; split <;> first | decide +kernel | simp
    have h2 : 2 ≤ (escapeChar c).length := by
      simp only [Markup, List.mem_cons, List.not_mem_nil, or_false] at hm
      rcases hm with rfl | rfl | rfl | rfl | rfl <;> decide +kernel
    have hlen : v.length < (v.flatMap escapeChar).length := by
      rw [List.length_flatMap]
      clear he
      induction v with
      | nil => simp at hc
      | cons a v ih =>
        rw [List.map_cons, List.sum_cons, List.length_cons]
        have hge : ∀ w : Text, w.length ≤ (w.map fun c => (escapeChar c).length).sum := by
          intro w
          induction w with
          | nil => simp
          | cons b w ihw =>
            rw [List.map_cons, List.sum_cons, List.length_cons]
            have := h1 b
            omega
        rcases List.mem_cons.1 hc with rfl | hc
        · have := hge v
          omega
        · have := ih hc
          have := h1 a
          omega
    rw [he] at hlen
    exact lt_irrefl _ hlen

/-- The chip of the geos: none without a selection; up to five names in full; with more the first five and the
number of the others.  The full list is there in any case. -/
theorem geo_chip (geos : List String) :
    (geoChip geos = none ↔ geos = []) ∧
      ∀ full text, geoChip geos = some (full, text) →
        (∀ g ∈ geos, Says full g.toList) ∧ (geos.length ≤ 5 → text = full) ∧
        (5 < geos.length → (∀ g ∈ geos.take 5, Says text g.toList) ∧
          ∃ k, k + 5 = geos.length ∧ (lit ", + ") ++ (Nat.repr k).toList ++ (lit " more") <:+ text) := by
  constructor
  · unfold geoChip
    cases geos <;> simp
  · intro full text h
    unfold geoChip at h
    cases hg : geos.isEmpty with
    | true => rw [hg] at h; simp at h
    | false =>
      rw [hg] at h
      simp only [Bool.false_eq_true, if_false, Option.some.injEq, Prod.mk.injEq] at h
      obtain ⟨rfl, rfl⟩ := h
      refine ⟨fun g hg => says_join _ _ _ (List.mem_map.2 ⟨g, hg, rfl⟩), ?_, ?_⟩
      · intro hl
        rw [if_neg (by omega)]
      · intro hl
        rw [if_pos (by omega)]
        refine ⟨fun g hg => ?_, geos.length - 5, by omega, ?_⟩
        · exact says_left _ (says_left _ (says_left _ (says_join _ _ _ (List.mem_map.2 ⟨g, hg, rfl⟩))))
        · exact ⟨joinWith (lit ", ") ((geos.take 5).map String.toList), by simp⟩

/-! ### Findings on the texts -/

theorem join_last (sep : Text) (l : List Text) (t : Text) : ∃ a, joinWith sep (l ++ [t]) = a ++ t := by
  induction l with
  | nil => exact ⟨[], rfl⟩
  | cons x l ih =>
    obtain ⟨a, ha⟩ := ih
    cases l with
    | nil => exact ⟨x ++ sep, by simp [joinWith]⟩
    | cons y l =>
      refine ⟨x ++ sep ++ a, ?_⟩
      simp only [List.cons_append, joinWith] at ha ⊢
      rw [ha]
      simp

/-- **Finding.**  The parts of the text on the ROI are written one after the other with nothing between: with
a channel whose prior has infinite quantiles and one with a low or high estimate, the last name of the first
sentence is glued to the first word of the second. -/
theorem parts_run_together (param : Group → Text) (c : ChannelConfig) (gs : List Group)
    (hi : infNames (gs.flatMap Group.entries) ≠ [])
    (hl : lowNames (gs.flatMap Group.entries) ≠ [] ∨ highNames (gs.flatMap Group.entries) ≠ []) :
    ∃ n, n ∈ infNames (gs.flatMap Group.entries) ∧
      Says (recommendation (roiRes param c gs)) (n.toList ++ (lit "We've detected")) := by
  have hs : (roiRes param c gs).status = .review := by
    show roiStatus c gs = .review
    unfold roiStatus
    rw [if_pos]
    simp [hi]
  rw [roi_review_text param c gs hs]
  refine ⟨(infNames (gs.flatMap Group.entries)).getLast hi, List.getLast_mem hi, ?_⟩
  set inf := infNames (gs.flatMap Group.entries) with hinf
  obtain ⟨a, ha⟩ := join_last (lit ", ") ((inf.dropLast).map String.toList) (inf.getLast hi).toList
  have hj : joinWith (lit ", ") (inf.map String.toList) = a ++ (inf.getLast hi).toList := by
    rw [← ha]
    conv_lhs => rw [← List.dropLast_append_getLast hi]
    rw [List.map_append]
    rfl
  have he : inf.isEmpty = false := by cases h : inf <;> simp_all
  have hn : ((lowNames (gs.flatMap Group.entries)).isEmpty && (highNames (gs.flatMap Group.entries)).isEmpty) = false := by
    rcases hl with h | h
    · cases h' : lowNames (gs.flatMap Group.entries) <;> simp_all
    · cases h' : highNames (gs.flatMap Group.entries) <;> simp_all
  apply says_left
  apply says_left
  apply says_left
  unfold infiniteMsg lowHighMsg
  rw [he, hn, hj]
  simp only [Bool.false_eq_true, if_false]
  generalize undefinedMsg _ = u
  generalize joinWith _ _ = w
  refine ⟨u ++ (lit "Prior ROI quantiles are infinite for channels: ") ++ a, (lit " ") ++ w ++
    (lit " where the posterior point estimate falls into the extreme tail of your custom prior."), ?_⟩
  have : (lit "We've detected ") = (lit "We've detected") ++ (lit " ") := by decide +kernel
  rw [this]
  simp only [List.append_assoc]
  rfl

/-- **Finding.**  With a limit on the channels, a check that passes says the same whatever the channels: those
that did not pass are counted in the row and named nowhere. -/
theorem passing_names_nothing (param : Group → Text) (c : ChannelConfig) (l : List (String × Bool)) (gs : List Group) :
    ((shiftRes c l).status = .pass →
      recommendation (shiftRes c l) = (lit "The model has successfully learned from the data. This is a positive sign that your data was informative.")) ∧
    ((roiRes param c gs).status = .pass →
      recommendation (roiRes param c gs) = (lit "The posterior distribution of the ROI is within a reasonable range, aligning with the custom priors you provided.")) ∧
    (∃ c' l', (shiftRes c' l').status = .pass ∧ (row (shiftRes c' l')).channels = some (1, 3)) := by
  refine ⟨?_, ?_, ⟨none, some (2 / 3)⟩, [("TV", false), ("Radio", false), ("Web", true)], by decide +kernel, by decide +kernel⟩
  · intro h
    have h' : shiftStatus c l = .pass := h
    simp only [recommendation, shiftRes, h', advice, message]
  · intro h
    have h' : roiStatus c gs = .pass := h
    simp only [recommendation, roiRes, h', advice, message]

/-- **Finding.**  If no R-hat is a number, the text says that all of them are below the threshold. -/
theorem nan_reported_converged (cfg : Rhat.Config) (rhat : List (String × Rhat.Tensor)) (thr : Text) (p : String)
    (h : ∀ q ∈ rhat, ∀ x ∈ q.2.flat, x = Fl.nan) :
    recommendation (.convergence (Rhat.check cfg rhat).case thr p (Rhat.check cfg rhat).maxRhat) =
      (lit "The model has likely converged, as all parameters have R-hat values < ") ++ thr ++ (lit ".") := by
  have hn : ∀ l : List Fl, (∀ x ∈ l, x = Fl.nan) → Rhat.nanmax l = .nan := by
    intro l hl
    unfold Rhat.nanmax
    induction l with
    | nil => rfl
    | cons a l ih =>
      rw [List.foldl_cons, hl a List.mem_cons_self]
      exact ih fun x hx => hl x (List.mem_cons_of_mem _ hx)
  have ha : ((Rhat.maxima rhat).all fun p => p.2.isNan) = true := by
    rw [List.all_eq_true]
    intro q hq
    simp only [Rhat.maxima, List.mem_map] at hq
    obtain ⟨r, hr, rfl⟩ := hq
    simp only [hn _ (h r hr)]
    rfl
  unfold Rhat.check
  rw [if_pos ha]
  rfl

/-! ### Non-vacuity -/

/-- Two groups: a prior with an infinite quantile, a low and a high estimate. -/
def exGroups : List Group :=
  [⟨["TV", "Radio"], true, true, some ([.fin 1, .fin 5], [.pinf, .fin 6]), [[2, 2], [1, 1]], none, none, none, none⟩]

/-- A review with the two checks of channels. -/
def exSummary : Summary :=
  ⟨.fail, (verdict [.baseline .fail (.fin (9 / 10))]).2,
    [.convergence .converged (lit "1.2") "" .nan, shiftRes ⟨none, none⟩ [("<b>TV</b>", false), ("Web", true)],
      .baseline .fail (.fin (9 / 10)), roiRes (fun _ => []) ⟨none, none⟩ exGroups], .fin 62⟩

example : (rows exSummary.results).map (fun r => (r.name, r.chip, r.channels)) =
    [("Convergence", "Pass", none), ("Baseline", "Fail", none), ("Prior-posterior shift", "Review", some (1, 2)),
      ("ROI consistency", "Review", some (0, 2))] := by decide +kernel

example : String.ofList (recommendation (roiRes (fun _ => []) ⟨none, none⟩ exGroups)) =
    "Prior ROI quantiles are infinite for channels: TVWe've detected an unusually low ROI estimate (for channel `Radio`) where the posterior point estimate falls into the extreme tail of your custom prior. Please review this result" := by
  decide +kernel

example : (lit "<b>TV</b>").flatMap escapeChar = (lit "&lt;b&gt;TV&lt;/b&gt;") := by decide +kernel

example : (exSummary.results.map Res.id).Nodup ∧ ("<b>TV</b>", false) ∈ [("<b>TV</b>", false), ("Web", true)] := by
  decide +kernel

example : (geoChip ["a", "b", "c", "d", "e", "f", "g"]).map (fun p => String.ofList p.2) =
    some "a, b, c, d, e, + 2 more" := by decide +kernel

end Verif.HealthCard.Props
