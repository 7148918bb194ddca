import Verif.Spec.Tables

/-! # Lemmas about the tables of the dashboard -/

namespace Verif.Tables

open Verif Verif.Calendar

theorem mapE_ok {α β : Type} {f : α → Except Err β} {l : List α} {r : List β} :
    mapE f l = .ok r ↔ List.Forall₂ (fun a b => f a = .ok b) l r := by
  induction l generalizing r with
  | nil => cases r <;> simp [mapE, eq_comm]
  | cons a l ih =>
    simp only [mapE]
    cases h : f a with
    | error e =>
      constructor
      · intro h2; cases h2
      · intro h2
        cases h2 with
        | cons h3 _ => rw [h] at h3; cases h3
    | ok b =>
      cases h' : mapE f l with
      | error e =>
        constructor
        · intro h; cases h
        · intro h2
          cases h2 with
          | cons h3 h4 => rw [ih.2 h4] at h'; cases h'
      | ok bs =>
        have := ih.1 h'
        constructor
        · intro h2
          cases h2
          exact .cons h this
        · intro h2
          cases h2 with
          | cons h3 h4 =>
            rw [h] at h3
            cases h3
            have := ih.2 h4
            rw [h'] at this
            cases this
            rfl

/-- A loop whose body succeeds exactly under a condition, with a known value. -/
theorem mapE_iff {α β : Type} {f : α → Except Err β} {P : α → Prop} {g : α → β} {l : List α} {r : List β}
    (h : ∀ a ∈ l, ∀ b, f a = .ok b ↔ P a ∧ b = g a) :
    mapE f l = .ok r ↔ (∀ a ∈ l, P a) ∧ r = l.map g := by
  rw [mapE_ok]
  induction l generalizing r with
  | nil => cases r <;> simp
  | cons a l ih =>
    have ih' := fun r => ih (r := r) (fun x hx => h x (List.mem_cons_of_mem _ hx))
    have ha := h a List.mem_cons_self
    cases r with
    | nil => simp
    | cons b r =>
      rw [List.forall₂_cons, ha, ih']
      simp only [List.mem_cons, forall_eq_or_imp, List.map_cons, List.cons.injEq]
      tauto

theorem put_keys {β : Type} (d : List (String × β)) (k : String) (v : β) (h : k ∉ d.map Prod.fst) :
    put d k v = d ++ [(k, v)] := by
  simp only [put]
  rw [if_neg]
  simp only [List.any_eq_true, not_exists, not_and, beq_iff_eq]
  intro p hp hk
  exact h (List.mem_map.2 ⟨p, hp, hk⟩)

theorem foldl_put {β : Type} (l d : List (String × β)) (h : ((d ++ l).map Prod.fst).Nodup) :
    l.foldl (fun d p => put d p.1 p.2) d = d ++ l := by
  induction l generalizing d with
  | nil => simp
  | cons p l ih =>
    simp only [List.foldl_cons]
    rw [put_keys]
    · rw [ih]
      · simp
      · simpa using h
    · intro hm
      rw [List.map_append, List.nodup_append] at h
      exact h.2.2 p.1 hm p.1 (by simp) rfl

theorem dictOf_nodup {β : Type} (l : List (String × β)) (h : (l.map Prod.fst).Nodup) : dictOf l = l := by
  simp only [dictOf]
  rw [foldl_put]
  · simp
  · simpa using h

theorem dictOf_map {α β : Type} (l : List α) (k : α → String) (f : α → β) (h : (l.map k).Nodup) :
    dictOf (l.map fun a => (k a, f a)) = l.map fun a => (k a, f a) := by
  apply dictOf_nodup
  simpa [Function.comp_def] using h

theorem dictOf_isEmpty {β : Type} (l : List (String × β)) : (dictOf l).isEmpty = l.isEmpty := by
  cases l with
  | nil => rfl
  | cons p l =>
    have h : ∀ (l d : List (String × β)), d ≠ [] → l.foldl (fun d p => put d p.1 p.2) d ≠ [] := by
      intro l
      induction l with
      | nil => intro d h; exact h
      | cons p l ih =>
        intro d h
        apply ih
        simp only [put]
        split
        · simpa using h
        · simp
    have := h l (put [] p.1 p.2) (by simp [put])
    simp only [List.isEmpty_cons]
    simpa [dictOf] using this

theorem get_map {α β : Type} (l : List α) (k : α → String) (f : α → β) (n : String) :
    get (l.map fun a => (k a, f a)) n = ((l.filter fun a => k a = n).head?).map f := by
  simp only [get]
  induction l with
  | nil => rfl
  | cons a l ih =>
    by_cases h : k a = n
    · simp [h]
    · have h' : (k a == n) = false := by simpa using h
      simp only [List.map_cons, List.find?_cons, h', h, decide_false, List.filter_cons, Bool.false_eq_true,
        if_false]
      exact ih

theorem get_put {β : Type} (d : List (String × β)) (k n : String) (v : β) :
    get (put d k v) n = if n = k then some v else get d n := by
  have key : ∀ d : List (String × β), get (d.map fun p => if p.1 == k then (k, v) else p) n =
      if n = k then (if d.any (fun p => p.1 == k) then some v else none) else get d n := by
    intro d
    induction d with
    | nil => simp [get]
    | cons p d ih =>
      simp only [get] at ih ⊢
      simp only [List.map_cons, List.find?_cons, List.any_cons]
      by_cases hp : p.1 = k
      · by_cases hn : n = k
        · subst hn
          simp [hp]
        · have h1 : (k == n) = false := by simpa using fun e => hn (Eq.symm e)
          have h2 : (p.1 == n) = false := by rw [hp]; exact h1
          rw [if_neg hn] at ih ⊢
          simp only [hp, beq_self_eq_true, if_true, h1]
          exact ih
      · have h1 : (p.1 == k) = false := by simpa using hp
        simp only [h1, Bool.false_eq_true, if_false, Bool.false_or]
        by_cases h2 : p.1 = n
        · have : n ≠ k := fun e => hp (h2.trans e)
          simp [h2, this]
        · have h3 : (p.1 == n) = false := by simpa using h2
          simp only [h3]
          exact ih
  simp only [put]
  by_cases h : d.any (fun p => p.1 == k) = true
  · rw [if_pos h, key, h]
    simp
  · rw [if_neg h]
    have hk : ∀ p ∈ d, p.1 ≠ k := by
      intro p hp e
      apply h
      rw [List.any_eq_true]
      exact ⟨p, hp, by simpa using e⟩
    simp only [get, List.find?_append]
    by_cases hn : n = k
    · subst hn
      have : d.find? (fun p => p.1 == n) = none := by
        rw [List.find?_eq_none]
        intro p hp
        simpa using hk p hp
      simp [this]
    · have : (k == n) = false := by simpa using fun e => hn (Eq.symm e)
      simp only [List.find?_cons, this, List.find?_nil, hn, if_false, Option.or_none]

theorem get_foldl_put {β : Type} (l : List String) (g : String → β) (d : List (String × β)) (n : String) :
    get ((l.map fun ch => (ch, g ch)).foldl (fun acc p => put acc p.1 p.2) d) n =
      if n ∈ l then some (g n) else get d n := by
  induction l generalizing d with
  | nil => simp
  | cons ch l ih =>
    simp only [List.map_cons, List.foldl_cons]
    rw [ih, get_put]
    by_cases h1 : n ∈ l
    · simp [h1]
    · by_cases h2 : n = ch
      · subst h2; simp
      · simp [h1, h2]

theorem toDate_ok {d x : CDate} : toDate d = .ok x ↔ d.Valid ∧ x = d := by
  simp only [toDate]
  split <;> simp_all [eq_comm]

theorem toDates_ok {s t : CDate} {x : CDate × CDate} :
    toDates s t = .ok x ↔ (s.Valid ∧ t.Valid) ∧ x = (s, t) := by
  simp only [toDates, toDate]
  by_cases h1 : s.Valid <;> by_cases h2 : t.Valid <;> simp [h1, h2, eq_comm]

theorem pick_eq (rev : Bool) (l : List Outcome) : pick rev l = TablesSpec.outcome rev l := by
  simp only [pick, TablesSpec.outcome]
  rw [List.head?_filter]

theorem pick_has {rev : Bool} {l : List Outcome} : (pick rev l).isSome ↔ TablesSpec.Has rev l := by
  simp only [pick, List.find?_isSome, decide_eq_true_eq, TablesSpec.Has]

theorem pick_none {rev : Bool} {l : List Outcome} : pick rev l = none ↔ ¬ TablesSpec.Has rev l := by
  rw [← pick_has]
  cases pick rev l <;> simp

theorem mediaMap_eq (l : List Media) (h : (l.map (·.name)).Nodup) :
    mediaMap l = l.map fun c => (c.name, c) := dictOf_map l _ _ h

theorem channels_eq (l : List Media) (h : (l.map (·.name)).Nodup) :
    channels l = (TablesSpec.ordinary l).map fun c => (c.name, c) := by
  simp only [channels, mediaMap_eq l h, TablesSpec.ordinary, allChannels, List.filter_map, Function.comp_def]
  congr 1
  apply List.filter_congr
  intro c _
  by_cases h : c.name = "All Channels" <;> simp [h]

/-! ### Spend -/

theorem addTo_eq (d : List (String × ℚ)) (p : String × ℚ) :
    addTo d p = d.map fun q => (q.1, q.2 + if p.1 = q.1 then p.2 else 0) := by
  simp only [addTo]
  apply List.map_congr_left
  intro q _
  by_cases h : q.1 = p.1
  · simp [h]
  · have h' : ¬ p.1 = q.1 := fun e => h e.symm
    simp [h, h']

theorem foldl_addTo (l d : List (String × ℚ)) : l.foldl addTo d =
    d.map fun q => (q.1, q.2 + ((l.filter fun v => v.1 = q.1).map Prod.snd).sum) := by
  induction l generalizing d with
  | nil => simp
  | cons p l ih =>
    rw [List.foldl_cons, ih, addTo_eq, List.map_map]
    apply List.map_congr_left
    intro q _
    simp only [Function.comp, List.filter_cons]
    by_cases h : p.1 = q.1
    · simp [h, add_assoc]
    · simp [h]

theorem addPoints_ok {sel : Point → List (String × ℚ)} {s t : CDate} {d r : List (String × ℚ)}
    {l : List Point} : addPoints sel s t d l = .ok r ↔ (∀ p ∈ l, p.start.Valid ∧ p.stop.Valid) ∧
      r = d.map fun q => (q.1, q.2 + ((l.filter fun p => s.le p.start && p.start.lt t).map fun p =>
        (((sel p).filter fun v => v.1 = q.1).map Prod.snd).sum).sum) := by
  induction l generalizing d with
  | nil => simp [addPoints, eq_comm]
  | cons p l ih =>
    simp only [addPoints, addPoint]
    cases h : toDates p.start p.stop with
    | error e =>
      constructor
      · intro h; cases h
      · rintro ⟨hv, _⟩
        rw [toDates_ok.2 ⟨hv p List.mem_cons_self, rfl⟩] at h
        cases h
    | ok i =>
      obtain ⟨hv, rfl⟩ := toDates_ok.1 h
      by_cases hc : (s.le p.start && p.start.lt t) = true
      · simp only [hc, if_true, List.filter_cons, List.map_cons, List.sum_cons]
        rw [ih, foldl_addTo, List.map_map]
        simp only [List.mem_cons, forall_eq_or_imp, hv, true_and, and_self, Function.comp_def, add_assoc]
      · simp only [hc, Bool.false_eq_true, if_false, List.filter_cons]
        rw [ih]
        simp only [List.mem_cons, forall_eq_or_imp, hv, true_and, and_self]

/-- The points have dates. -/
def PointsOk (m : Mmm) : Prop := ∀ p ∈ m.points, p.start.Valid ∧ p.stop.Valid

theorem channelSpends_ok {sel : Point → List (String × ℚ)} {m : Mmm} {s t : CDate} {r : List (String × ℚ)} :
    channelSpends sel m s t = .ok r ↔ PointsOk m ∧
      r = (channelNames sel m).map fun ch => (ch, TablesSpec.spent sel m s t ch) := by
  simp only [channelSpends, addPoints_ok, List.map_map, Function.comp_def, zero_add, PointsOk, TablesSpec.spent]

theorem mem_channelNames {sel : Point → List (String × ℚ)} {m : Mmm} {n : String} :
    n ∈ channelNames sel m ↔ TablesSpec.Occurs sel m n := by
  simp only [channelNames, List.mem_insertionSort, List.mem_dedup, List.mem_flatMap, List.mem_map,
    TablesSpec.Occurs]

theorem channelNames_isChannels (sel : Point → List (String × ℚ)) (m : Mmm) :
    TablesSpec.IsChannels sel m (channelNames sel m) := by
  refine ⟨?_, fun n => mem_channelNames⟩
  have h1 : (channelNames sel m).Pairwise (· ≤ ·) := List.pairwise_insertionSort _ _
  have h2 : (channelNames sel m).Pairwise (· ≠ ·) :=
    (List.perm_insertionSort _ _).symm.nodup (List.nodup_dedup _)
  exact (h1.and h2).imp fun h => lt_of_le_of_ne h.1 h.2

theorem spent_absent {sel : Point → List (String × ℚ)} {m : Mmm} {s t : CDate} {n : String}
    (h : ¬ TablesSpec.Occurs sel m n) : TablesSpec.spent sel m s t n = 0 := by
  simp only [TablesSpec.spent]
  apply List.sum_eq_zero
  intro x hx
  obtain ⟨p, hp, rfl⟩ := List.mem_map.1 hx
  have : (sel p).filter (fun v => v.1 = n) = [] := by
    rw [List.filter_eq_nil_iff]
    intro v hv
    simp only [decide_eq_true_eq]
    intro e
    exact h ⟨p, (List.mem_filter.1 hp).1, v, hv, e⟩
  simp [this]

theorem head_filter_eq (l : List String) (n : String) :
    (l.filter fun a => a = n).head? = if n ∈ l then some n else none := by
  induction l with
  | nil => rfl
  | cons a l ih =>
    by_cases h : a = n
    · subst h
      simp
    · have h' : ¬ n = a := fun e => h e.symm
      simp only [List.filter_cons, h, decide_false, Bool.false_eq_true, if_false, ih, List.mem_cons, h', false_or]

theorem get_spends {sel : Point → List (String × ℚ)} {m : Mmm} {s t : CDate} {n : String} :
    get ((channelNames sel m).map fun ch => (ch, TablesSpec.spent sel m s t ch)) n =
      if n ∈ channelNames sel m then some (TablesSpec.spent sel m s t n) else none := by
  rw [get_map _ (fun ch => ch), head_filter_eq]
  split <;> rfl

theorem allSpends_ok {m : Mmm} {s t : CDate} {r : List (String × ℚ)} (h : allSpends m s t = .ok r) :
    PointsOk m ∧ ∀ n, (get r n).getD 0 = if n ∈ channelNames Point.media m then
      TablesSpec.spent Point.media m s t n else TablesSpec.spent Point.rf m s t n := by
  simp only [allSpends] at h
  cases h1 : channelSpends Point.rf m s t with
  | error e => rw [h1] at h; cases h
  | ok x =>
    cases h2 : channelSpends Point.media m s t with
    | error e => rw [h1, h2] at h; cases h
    | ok y =>
      rw [h1, h2] at h
      cases h
      obtain ⟨hp, rfl⟩ := channelSpends_ok.1 h1
      obtain ⟨_, rfl⟩ := channelSpends_ok.1 h2
      refine ⟨hp, fun n => ?_⟩
      rw [get_foldl_put]
      split
      · rfl
      · rw [get_spends]
        split
        · rfl
        · rename_i h
          rw [mem_channelNames] at h
          exact (spent_absent h).symm

theorem allSpends_some {m : Mmm} (h : PointsOk m) (s t : CDate) : ∃ r, allSpends m s t = .ok r := by
  simp only [allSpends, channelSpends_ok.2 ⟨h, rfl⟩]
  exact ⟨_, rfl⟩

/-! ### Names of tables -/

theorem underscores_true (w l : List Char) (hw : ∀ c ∈ w, isSpace c = true) :
    underscores true (w ++ l) = underscores true l := by
  induction w with
  | nil => rfl
  | cons c w ih =>
    simp only [List.cons_append, underscores, hw c List.mem_cons_self, if_true]
    exact ih fun x hx => hw x (List.mem_cons_of_mem _ hx)

theorem underscores_head (l : List Char) (h : ∀ c ∈ l.head?, isSpace c = false) :
    underscores true l = underscores false l := by
  cases l with
  | nil => rfl
  | cons c l =>
    have : isSpace c = false := h c (by simp)
    simp [underscores, this]

theorem normal_underscores {x z : List Char} (h : TablesSpec.Normal x z) : z = underscores false x := by
  induction h with
  | nil => rfl
  | other c l r hc _ ih => simp [underscores, hc, ih]
  | space w l r hw hs hl _ ih =>
    cases w with
    | nil => exact absurd rfl hw
    | cons c w =>
      simp only [List.cons_append, underscores, hs c List.mem_cons_self, if_true, Bool.false_eq_true, if_false]
      rw [underscores_true w l fun x hx => hs x (List.mem_cons_of_mem _ hx), underscores_head l hl, ← ih]

theorem underscores_normal (n : ℕ) : ∀ x : List Char, x.length ≤ n → TablesSpec.Normal x (underscores false x) := by
  induction n with
  | zero =>
    intro x hx
    cases x with
    | nil => exact .nil
    | cons c l => simp at hx
  | succ n ih =>
    intro x hx
    cases x with
    | nil => exact .nil
    | cons c l =>
      by_cases hc : isSpace c = true
      · have e : (c :: l) = (c :: l.takeWhile isSpace) ++ l.dropWhile isSpace := by
          simp [List.takeWhile_append_dropWhile]
        have hs : ∀ x ∈ c :: l.takeWhile isSpace, isSpace x = true := by
          intro x hx
          rcases List.mem_cons.1 hx with rfl | hx
          · exact hc
          · exact List.all_eq_true.1 List.all_takeWhile x hx
        have hd : ∀ x ∈ (l.dropWhile isSpace).head?, isSpace x = false := by
          intro x hx
          have := List.head?_dropWhile_not isSpace l
          rw [Option.mem_def.1 hx] at this
          simpa using this
        have hn : TablesSpec.Normal (l.dropWhile isSpace) (underscores false (l.dropWhile isSpace)) := by
          apply ih
          have h1 := (List.dropWhile_sublist (l := l) isSpace).length_le
          simp only [List.length_cons] at hx
          omega
        have := TablesSpec.Normal.space _ _ _ (by simp) hs hd hn
        rw [← e] at this
        have e2 := normal_underscores this
        rw [e2] at this
        exact this
      · have hc' : isSpace c = false := by simpa using hc
        simp only [underscores, hc', Bool.false_eq_true, if_false]
        refine .other c l _ hc' (ih l ?_)
        simp only [List.length_cons] at hx
        omega

theorem normal_iff {x z : List Char} : TablesSpec.Normal x z ↔ underscores false x = z :=
  ⟨fun h => (normal_underscores h).symm, fun h => h ▸ underscores_normal _ x le_rfl⟩

theorem sameName_iff {x y : List Char} :
    TablesSpec.SameName x y ↔ underscores false x = underscores false y := by
  simp only [TablesSpec.SameName, normal_iff]
  constructor
  · rintro ⟨z, h1, h2⟩
    exact h1.trans h2.symm
  · intro h
    exact ⟨_, h, rfl⟩

theorem gridTable_inj {pre : String} {x y : List Char} :
    gridTable pre x = gridTable pre y ↔ TablesSpec.SameName x y := by
  rw [sameName_iff]
  simp only [gridTable]
  constructor
  · intro h
    have := congrArg String.toList h
    simpa using this
  · intro h
    rw [h]

end Verif.Tables
