import Verif.Spec.Views
import Mathlib.Tactic

/-! # Properties of the objects of the visualizer (C82) -/

namespace Verif.Views.Props

open Verif.Views

variable {ε α : Type}

/-- The cache of a method. -/
theorem exec_snoc (run : Call → Except ε α) (h : List Op) (o : Op) :
    exec run (h ++ [o]) = (step run (exec run h) o).1 := by
  simp [exec, List.foldl_append]

theorem current_snoc (i : ℕ) (h : List Op) (o : Op) :
    Spec.current i (h ++ [o]) = (match o with
    | .new j t => if j = i ∧ Spec.current i h = none then some t else Spec.current i h
    | .update j l ts r b =>
      if j = i then (Spec.current i h).map fun t =>
        ⟨if l = none ∨ l = some 0 then t.level else l.getD 0, ts, r, b, t.useKpi⟩
      else Spec.current i h
    | .get _ _ _ => Spec.current i h) := by
  unfold Spec.current
  rw [List.foldl_append]
  cases o <;> rfl

theorem updated_eq (s : Settings) (l : Option ℚ) (ts : Option (List String)) (r : Bool)
    (b : Option (List ℚ)) :
    updated s l ts r b =
      ⟨if l = none ∨ l = some 0 then s.level else l.getD 0, ts, r, b, s.useKpi⟩ := by
  cases l with
  | none => simp [updated]
  | some l =>
    by_cases hl : l = 0
    · simp [updated, hl]
    · simp [updated, hl]

/-- The settings of every object are what its own history says, whatever is requested and whatever
happens to other objects. -/
theorem settings_current (run : Call → Except ε α) (h : List Op) (i : ℕ) :
    (exec run h).objs i = Spec.current i h := by
  induction h using List.reverseRecOn generalizing i with
  | nil => rfl
  | append_singleton h o ih =>
    rw [exec_snoc, current_snoc]
    cases o with
    | new j t =>
      simp only [step]
      have := ih i
      rcases hj : (exec run h).objs j with _ | s
      · simp only [World.set]
        by_cases hij : j = i
        · subst hij
          rw [hj] at this
          simp [← this]
        · rw [if_neg (fun e => hij e.symm), if_neg (fun e => hij e.1), this]
      · by_cases hij : j = i
        · subst hij
          simp only
          rw [if_neg (by rw [← this, hj]; simp), this]
        · simp only
          rw [if_neg (fun e => hij e.1), this]
    | update j l ts r b =>
      simp only [step]
      have := ih i
      rcases hj : (exec run h).objs j with _ | s
      · by_cases hij : j = i
        · subst hij
          rw [if_pos rfl, ← this, hj]; simp [hj]
        · simp only
          rw [if_neg hij, this]
      · simp only [World.set]
        by_cases hij : j = i
        · subst hij
          rw [if_pos rfl, if_pos rfl, ← this, hj, updated_eq]; rfl
        · rw [if_neg (fun e => hij e.symm), if_neg hij, this]
    | get m j st =>
      simp only [step]
      rw [← ih i]
      rcases hj : (exec run h).objs j with _ | s
      · rfl
      · cases m <;> rfl

/-- An entry of a cache after a call is an old one, or the called one with the value returned. -/
theorem mem_lru {body : Except ε α} {k : ℕ × Style} {c : Cache α} {e : (ℕ × Style) × α}
    (he : e ∈ (lruCall body k c).2) : e ∈ c ∨ (e.1 = k ∧ body = .ok e.2) := by
  unfold lruCall at he
  rcases hf : c.find k with _ | v
  · rw [hf] at he
    cases body with
    | error x => exact Or.inl he
    | ok v =>
      have := List.mem_of_mem_take he
      rcases List.mem_cons.mp this with h | h
      · right; rw [h]; exact ⟨rfl, rfl⟩
      · exact Or.inl h
  · rw [hf] at he
    rcases List.mem_cons.mp he with h | h
    · left
      unfold Cache.find at hf
      rw [Option.map_eq_some_iff] at hf
      obtain ⟨a, ha, hav⟩ := hf
      have h1 := List.find?_some ha
      have h2 := List.mem_of_find?_eq_some ha
      have : a = (k, v) := by
        have h1' : a.1 = k := by simpa using h1
        rw [← h1', ← hav]
      rw [h, ← this]; exact h2
    · exact Or.inl (List.mem_of_mem_filter h)

/-- A stored value is returned. -/
theorem lru_hit {body : Except ε α} {k : ℕ × Style} {c : Cache α} {v : α} (h : c.find k = some v) :
    (lruCall body k c).1 = .ok v := by
  unfold lruCall; rw [h]

/-- A value found is an entry. -/
theorem find_mem {k : ℕ × Style} {c : Cache α} {v : α} (h : c.find k = some v) : (k, v) ∈ c := by
  unfold Cache.find at h
  rw [Option.map_eq_some_iff] at h
  obtain ⟨a, ha, hav⟩ := h
  have h1 := List.find?_some ha
  have h2 := List.mem_of_find?_eq_some ha
  have : a = (k, v) := by
    have h1' : a.1 = k := by simpa using h1
    rw [← h1', ← hav]
  rw [← this]; exact h2

/-- After a successful call the value is stored under its key. -/
theorem find_after {body : Except ε α} {k : ℕ × Style} {c : Cache α} {v : α}
    (h : (lruCall body k c).1 = .ok v) : (lruCall body k c).2.find k = some v := by
  unfold lruCall at *
  rcases hf : c.find k with _ | w
  · rw [hf] at h
    cases body with
    | error x => simp at h
    | ok w =>
      simp only [Except.ok.injEq] at h
      subst h
      simp [Cache.find]
  · rw [hf] at h
    simp only [Except.ok.injEq] at h
    subst h
    simp [Cache.find]

/-- The cache a method uses. -/
def cacheOf (w : World α) : Method → Cache α
  | .paid => w.paid
  | .all => w.all

theorem step_get (run : Call → Except ε α) (w : World α) (m : Method) (i : ℕ) (st : Style) (s : Settings)
    (hs : w.objs i = some s) :
    (step run w (.get m i st)).2 =
      some (lruCall (run (callOf s m st.aggregate)) (i, st) (cacheOf w m)).1 ∧
    cacheOf (step run w (.get m i st)).1 m =
      (lruCall (run (callOf s m st.aggregate)) (i, st) (cacheOf w m)).2 ∧
    (step run w (.get m i st)).1.objs = w.objs ∧
    ∀ m', m' ≠ m → cacheOf (step run w (.get m i st)).1 m' = cacheOf w m' := by
  simp only [step, hs]
  cases m
  · refine ⟨rfl, rfl, rfl, ?_⟩
    intro m' hm'; cases m'
    · exact absurd rfl hm'
    · rfl
  · refine ⟨rfl, rfl, rfl, ?_⟩
    intro m' hm'; cases m'
    · rfl
    · exact absurd rfl hm'

theorem callOf_question (s : Settings) (m : Method) (b : Bool) : callOf s m b = Spec.question s m b := by
  cases m <;> rfl

/-- Operations other than requests leave the caches alone. -/
theorem cache_keep (run : Call → Except ε α) (w : World α) (o : Op) (ho : ∀ m i st, o ≠ .get m i st)
    (m : Method) : cacheOf (step run w o).1 m = cacheOf w m := by
  cases o with
  | new j t =>
    simp only [step]
    split <;> cases m <;> rfl
  | update j l ts r b =>
    simp only [step]
    split <;> cases m <;> rfl
  | get m' j st => exact absurd rfl (ho m' j st)

/-- The invariant: whatever is stored for an object is the analyzer's answer for its settings, and the
object was asked. -/
theorem invariant (run : Call → Except ε α) (h : List Op) (hh : Spec.UpdatedFirst h) (m : Method)
    (e : (ℕ × Style) × α) (he : e ∈ cacheOf (exec run h) m) :
    (∃ m' st, Op.get m' e.1.1 st ∈ h) ∧
    ∃ s, (exec run h).objs e.1.1 = some s ∧ run (callOf s m e.1.2.aggregate) = .ok e.2 := by
  induction h using List.reverseRecOn generalizing m e with
  | nil => cases m <;> simp [exec, World.init, cacheOf] at he
  | append_singleton h o ih =>
    have hh' : Spec.UpdatedFirst h := by
      intro a b i l ts r bl hab
      exact hh a (b ++ [o]) i l ts r bl (by rw [hab]; simp)
    rw [exec_snoc] at he ⊢
    cases o with
    | new j t =>
      rw [cache_keep run _ _ (by intro m i st hc; cases hc)] at he
      obtain ⟨⟨m', st, hm⟩, s, hs, hr⟩ := ih hh' m e he
      refine ⟨⟨m', st, by simp [hm]⟩, s, ?_, hr⟩
      simp only [step]
      rcases hj : (exec run h).objs j with _ | t'
      · simp only [World.set]
        rw [if_neg, hs]
        intro hc; rw [hc, hj] at hs; simp at hs
      · exact hs
    | update j l ts r b =>
      rw [cache_keep run _ _ (by intro m i st hc; cases hc)] at he
      obtain ⟨⟨m', st, hm⟩, s, hs, hr⟩ := ih hh' m e he
      refine ⟨⟨m', st, by simp [hm]⟩, s, ?_, hr⟩
      have hne : e.1.1 ≠ j := by
        intro hc
        exact hh h [] j l ts r b rfl m' st (hc ▸ hm)
      simp only [step]
      rcases hj : (exec run h).objs j with _ | t'
      · exact hs
      · simp only [World.set]
        rw [if_neg hne, hs]
    | get m' j st =>
      rcases hj : (exec run h).objs j with _ | t
      · have hw : (step run (exec run h) (.get m' j st)).1 = exec run h := by simp [step, hj]
        rw [hw] at he ⊢
        obtain ⟨⟨m', st', hm⟩, s, hs, hr⟩ := ih hh' m e he
        exact ⟨⟨m', st', by simp [hm]⟩, s, hs, hr⟩
      · obtain ⟨-, h2, h3, h4⟩ := step_get run (exec run h) m' j st t hj
        rw [h3]
        by_cases hmm : m = m'
        · subst hmm
          rw [h2] at he
          rcases mem_lru he with he | ⟨hk, hb⟩
          · obtain ⟨⟨m'', st', hm⟩, s, hs, hr⟩ := ih hh' m e he
            exact ⟨⟨m'', st', by simp [hm]⟩, s, hs, hr⟩
          · rw [hk]
            exact ⟨⟨m, st, by simp⟩, t, hj, hb⟩
        · rw [h4 m hmm] at he
          obtain ⟨⟨m'', st', hm⟩, s, hs, hr⟩ := ih hh' m e he
          exact ⟨⟨m'', st', by simp [hm]⟩, s, hs, hr⟩

/-- **C82 (requests answer the current settings, while nothing is changed after a request).**  In every
history, of any number of objects, in which no object is updated after it was asked, every request is
answered with the analyzer's answer to the question of the current settings, exception or value: the cache
is not observable. -/
theorem get_current (run : Call → Except ε α) (h : List Op) (hh : Spec.UpdatedFirst h) (m : Method) (i : ℕ)
    (st : Style) (s : Settings) (hs : Spec.current i h = some s) :
    (step run (exec run h) (.get m i st)).2 = some (run (Spec.question s m st.aggregate)) := by
  have hs' : (exec run h).objs i = some s := by rw [settings_current, hs]
  rw [(step_get run _ m i st s hs').1, ← callOf_question]
  congr 1
  rcases hf : (cacheOf (exec run h) m).find (i, st) with _ | v
  · unfold lruCall
    rw [hf]
    cases run (callOf s m st.aggregate) <;> rfl
  · rw [lru_hit hf]
    obtain ⟨-, t, ht, hr⟩ := invariant run h hh m ((i, st), v) (find_mem hf)
    simp only at ht hr
    rw [hs'] at ht
    cases ht
    exact hr.symm

/-- Requests never answer with another object's value: in *every* history the stored entries of an object
were computed by the analyzer for a question of that object's own earlier settings. -/
theorem stored_own (run : Call → Except ε α) (h : List Op) (m : Method) (e : (ℕ × Style) × α)
    (he : e ∈ cacheOf (exec run h) m) :
    ∃ a b s, h = a ++ b ∧ Spec.current e.1.1 a = some s ∧
      run (Spec.question s m e.1.2.aggregate) = .ok e.2 := by
  induction h using List.reverseRecOn generalizing m e with
  | nil => cases m <;> simp [exec, World.init, cacheOf] at he
  | append_singleton h o ih =>
    rw [exec_snoc] at he
    have old : e ∈ cacheOf (exec run h) m → ∃ a b s, h ++ [o] = a ++ b ∧
        Spec.current e.1.1 a = some s ∧ run (Spec.question s m e.1.2.aggregate) = .ok e.2 := by
      intro he
      obtain ⟨a, b, s, hab, hs, hr⟩ := ih m e he
      exact ⟨a, b ++ [o], s, by rw [hab]; simp, hs, hr⟩
    cases o with
    | new j t =>
      rw [cache_keep run _ _ (by intro m i st hc; cases hc)] at he; exact old he
    | update j l ts r b =>
      rw [cache_keep run _ _ (by intro m i st hc; cases hc)] at he; exact old he
    | get m' j st =>
      rcases hj : (exec run h).objs j with _ | t
      · have hw : (step run (exec run h) (.get m' j st)).1 = exec run h := by simp [step, hj]
        rw [hw] at he; exact old he
      · obtain ⟨-, h2, h3, h4⟩ := step_get run (exec run h) m' j st t hj
        by_cases hmm : m = m'
        · subst hmm
          rw [h2] at he
          rcases mem_lru he with he | ⟨hk, hb⟩
          · exact old he
          · refine ⟨h, [.get m j st], t, rfl, ?_, ?_⟩
            · rw [hk, ← settings_current run, hj]
            · rw [hk, ← callOf_question]; exact hb
        · rw [h4 m hmm] at he; exact old he

/-- **C82 (every answer was right at some time).**  In every history a request that returns a value returns
the analyzer's answer to the same question put with settings this object had then or earlier. -/
theorem get_some_time (run : Call → Except ε α) (h : List Op) (m : Method) (i : ℕ) (st : Style) (v : α)
    (hv : (step run (exec run h) (.get m i st)).2 = some (.ok v)) :
    ∃ a b s, h = a ++ b ∧ Spec.current i a = some s ∧
      run (Spec.question s m st.aggregate) = .ok v := by
  rcases hj : (exec run h).objs i with _ | t
  · simp [step, hj] at hv
  · rw [(step_get run _ m i st t hj).1] at hv
    rcases hf : (cacheOf (exec run h) m).find (i, st) with _ | w
    · have hv := Option.some.inj hv
      unfold lruCall at hv
      rw [hf] at hv
      refine ⟨h, [], t, by simp, by rw [← settings_current run, hj], ?_⟩
      rw [← callOf_question]
      cases hb : run (callOf t m st.aggregate) with
      | error x => rw [hb] at hv; simp at hv
      | ok w => rw [hb] at hv; simpa using hv
    · rw [lru_hit hf] at hv
      have := Option.some.inj hv
      have := Except.ok.inj this
      subst this
      exact stored_own run h m ((i, st), w) (find_mem hf)

theorem exec_append_noreq (run : Call → Except ε α) (h q : List Op) (hq : Spec.NoRequest q) (m : Method) :
    cacheOf (exec run (h ++ q)) m = cacheOf (exec run h) m := by
  induction q using List.reverseRecOn with
  | nil => simp
  | append_singleton q o ih =>
    rw [← List.append_assoc, exec_snoc, cache_keep, ih]
    · intro m i st hc; exact hq m i st (by simp [hc])
    · intro m i st hc; exact hq m i st (by simp [hc])

theorem exists_append (run : Call → Except ε α) (h q : List Op) (i : ℕ) (s : Settings)
    (hs : (exec run h).objs i = some s) : ∃ t, (exec run (h ++ q)).objs i = some t := by
  induction q using List.reverseRecOn with
  | nil => exact ⟨s, by simpa using hs⟩
  | append_singleton q o ih =>
    obtain ⟨t, ht⟩ := ih
    rw [settings_current] at ht
    rw [settings_current, ← List.append_assoc, current_snoc]
    cases o with
    | new j u => exact ⟨t, by simp [ht]⟩
    | update j l ts r b =>
      by_cases hij : j = i
      · simp only [hij, if_true, ht, Option.map_some]; exact ⟨_, rfl⟩
      · simp only [hij, if_false, ht]; exact ⟨_, rfl⟩
    | get _ _ _ => exact ⟨t, ht⟩

/-- **C82 (finding: an update after a request has no effect on the same request).**  After *every* history:
if a request has returned a value, then it returns this value again after any sequence of updates (and new
objects): `update_summary_metrics` does not clear the cache. -/
theorem update_ignored (run : Call → Except ε α) (h q : List Op) (hq : Spec.NoRequest q) (m : Method)
    (i : ℕ) (st : Style) (v : α) (hv : (step run (exec run h) (.get m i st)).2 = some (.ok v)) :
    (step run (exec run (h ++ Op.get m i st :: q)) (.get m i st)).2 = some (.ok v) := by
  rcases hj : (exec run h).objs i with _ | t
  · simp [step, hj] at hv
  · obtain ⟨h1, h2, h3, -⟩ := step_get run _ m i st t hj
    rw [h1] at hv
    have hfind := find_after (Option.some.inj hv)
    rw [← h2, ← exec_snoc] at hfind
    rw [← exec_append_noreq run _ q hq m] at hfind
    have e : h ++ Op.get m i st :: q = (h ++ [Op.get m i st]) ++ q := by simp
    rw [e]
    obtain ⟨u, hu⟩ := exists_append run (h ++ [Op.get m i st]) q i t (by rw [exec_snoc, h3, hj])
    rw [(step_get run _ m i st u hu).1, lru_hit hfind]

/-- An analyzer that answers with the question. -/
def echo : Call → Except Unit Call := fun c => .ok c

/-- The default settings. -/
def dflt : Settings := ⟨9/10, none, true, none, false⟩

/-- **C82 (finding, concrete).**  The metrics are requested, then the selected times are changed, then they
are requested again: the answer is for the old times, although the settings are the new ones.  A request
that spells out the default, `aggregate_times=True`, gives the answer for the new times: two spellings of
the same request disagree. -/
theorem stale_after_update :
    let h := [Op.new 0 dflt, .get .paid 0 .omitted, .update 0 none (some ["2024-01-01"]) true none]
    Spec.current 0 h = some { dflt with times := some ["2024-01-01"] } ∧
    (step echo (exec echo h) (.get .paid 0 .omitted)).2 = some (.ok (Spec.question dflt .paid true)) ∧
    (step echo (exec echo h) (.get .paid 0 (.keyword true))).2 =
      some (.ok (Spec.question { dflt with times := some ["2024-01-01"] } .paid true)) ∧
    Spec.question dflt .paid true ≠ Spec.question { dflt with times := some ["2024-01-01"] } .paid true := by
  decide +kernel

/-- **C82 (finding: the chart title gives the level of the settings, not of the intervals).**  With the
level changed from 90% to 50% after a request, the title of the ROI chart says 50 while the intervals are
those of 90%. -/
theorem title_not_intervals :
    let h := [Op.new 0 dflt, .get .paid 0 .omitted, .update 0 (some (1/2)) none true none]
    (Spec.current 0 h).map titleLevel = some 50 ∧
    ∃ c, (step echo (exec echo h) (.get .paid 0 .omitted)).2 = some (.ok c) ∧ c.level = 9/10 := by
  refine ⟨by decide +kernel, Spec.question dflt .paid true, by decide +kernel, rfl⟩

/-- **C82 (finding: the title cuts the level to a whole percentage).**  Exactly the whole percentages are
shown as they are; 97.5% is shown as 97%. -/
theorem title_cuts (s : Settings) :
    ((titleLevel s : ℚ) ≤ s.level * 100 ∧ s.level * 100 < titleLevel s + 1) ∧
    ((titleLevel s : ℚ) = s.level * 100 ↔ ∃ n : ℤ, s.level * 100 = n) ∧
    titleLevel { s with level := 39/40 } = 97 := by
  refine ⟨⟨Int.floor_le _, Int.lt_floor_add_one _⟩, ⟨fun h => ⟨titleLevel s, h.symm⟩, ?_⟩, ?_⟩
  · rintro ⟨n, hn⟩
    unfold titleLevel
    rw [hn]
    exact_mod_cast Int.floor_intCast (R := ℚ) n
  · show ((39/40 : ℚ) * 100).floor = 97
    decide +kernel

/-- The first request of the first property is met by a history with two objects, updates before the
requests, and repeated requests. -/
example :
    let h := [Op.new 0 dflt, .update 0 (some (1/2)) (some ["a"]) false none, .new 1 dflt,
      .get .paid 0 .omitted, .get .all 1 (.keyword false), .get .paid 0 .omitted]
    Spec.UpdatedFirst h ∧ Spec.current 0 h = some ⟨1/2, some ["a"], false, none, false⟩ ∧
    Spec.current 1 h = some dflt ∧
    (step echo (exec echo h) (.get .paid 0 .omitted)).2 =
      some (.ok ⟨some ["a"], false, false, 1/2, false, none, true⟩) := by
  refine ⟨?_, by decide +kernel, by decide +kernel, by decide +kernel⟩
  intro a b i l ts r bl hab m st hm
  rcases a with _ | ⟨x1, _ | ⟨x2, _ | ⟨x3, _ | ⟨x4, _ | ⟨x5, _ | ⟨x6, a⟩⟩⟩⟩⟩⟩ <;> simp at hab
  · obtain ⟨hx, -⟩ := hab
    rw [← hx] at hm
    simp at hm

/-- `lru_cache` forgets: a key that is not among the 127 most recently used is gone after a new one is
stored, so that a stale answer can also disappear. -/
theorem evicted {body : Except ε α} {k k' : ℕ × Style} {c : Cache α} {v : α} (hne : k ≠ k')
    (hb : body = .ok v) (hnew : c.find k' = none)
    (hlast : (c.take 127).find? (fun e => e.1 = k) = none) :
    (lruCall body k' c).2.find k = none := by
  unfold lruCall
  rw [hnew, hb]
  simp only [Cache.find, List.take_succ_cons, Option.map_eq_none_iff]
  rw [List.find?_cons_of_neg (by simpa using fun e => hne e.symm)]
  exact hlast

/-! ### `ReachAndFrequency` -/

/-- **C82 (reach and frequency: the data always belong to the selected times).**  After the constructor and
any number of successful updates the data are the analyzer's for the last selected times and the KPI choice
of the constructor. -/
theorem rf_current (run : Option (List String) → Bool → Except ε α) (t₀ : Option (List String)) (k : Bool)
    (r₀ : Rf α) (h₀ : Rf.new run t₀ k = .ok r₀) (ts : List (Option (List String))) (r : Rf α)
    (h : ts.foldlM (fun r t => r.update run t) r₀ = .ok r) :
    run ((t₀ :: ts).getLast (by simp)) k = .ok r.data ∧ r.times = (t₀ :: ts).getLast (by simp) ∧
      r.useKpi = k := by
  induction ts using List.reverseRecOn generalizing r with
  | nil =>
    simp only [List.foldlM_nil, pure, Except.pure, Except.ok.injEq] at h
    subst h
    unfold Rf.new at h₀
    rcases hr : run t₀ k with e | d
    · rw [hr] at h₀; simp at h₀
    · rw [hr] at h₀
      simp only [Except.ok.injEq] at h₀
      subst h₀
      exact ⟨hr, rfl, rfl⟩
  | append_singleton ts t ih =>
    rw [List.foldlM_append] at h
    rcases hm : ts.foldlM (fun r t => r.update run t) r₀ with e | r'
    · rw [hm] at h; simp [bind, Except.bind] at h
    · rw [hm] at h
      have hk := (ih r' hm).2.2
      simp only [bind, Except.bind, List.foldlM_cons, List.foldlM_nil, Rf.update, hk] at h
      rcases hr : run t k with e | d
      · rw [hr] at h; simp at h
      · rw [hr] at h
        simp only [pure, Except.pure, Except.ok.injEq] at h
        subst h
        have hl : (t₀ :: (ts ++ [t])).getLast (by simp) = t := by simp
        rw [hl]
        exact ⟨hr, rfl, rfl⟩

example : ∃ r₀ r : Rf (Option (List String) × Bool),
    Rf.new (ε := Unit) (fun t k => .ok (t, k)) none true = .ok r₀ ∧
    [some ["a"], some ["b"]].foldlM (fun r t => Rf.update (ε := Unit) (fun t k => .ok (t, k)) r t) r₀ = .ok r ∧
    r.data = (some ["b"], true) := ⟨⟨none, true, (none, true)⟩, ⟨some ["b"], true, (some ["b"], true)⟩,
      rfl, rfl, rfl⟩

/-! ### `MediaEffects` -/

/-- **C82 (finding: `MediaEffects(by_reach=…)` has no effect).**  The response curves of an object do not
depend on the `by_reach` it was made with; unless the argument is repeated in the call they are by reach. -/
theorem by_reach_ignored (run : ℚ → Option (List String) → Bool → Bool → Except ε α) (o : Effects)
    (b : Bool) (level : ℚ) (times : Option (List String)) :
    ({ o with byReach := b } : Effects).responseCurves run level times =
      o.responseCurves run level times ∧
    o.responseCurves run level times = run level times true o.useKpi := ⟨rfl, rfl⟩

/-- **C82 (number of response curves).**  Drawn together, between one and ten, and no more than there are
channels: the number asked for if it is in this range, otherwise the nearer end; without a number, seven,
or all if there are fewer. -/
theorem num_displayed (total : ℕ) (ht : 1 ≤ total) (asked : Option ℤ) :
    let n := numDisplayed total false asked
    1 ≤ n ∧ n ≤ 10 ∧ n ≤ total ∧
    (∀ k, asked = some k → n = max 1 (min k (min (total : ℤ) 10))) ∧
    (asked = none → n = min (total : ℤ) 7) := by
  cases asked with
  | none =>
    simp only [numDisplayed, Bool.false_eq_true, if_false]
    refine ⟨?_, ?_, ?_, by simp, fun _ => ?_⟩ <;> split_ifs <;> omega
  | some k =>
    simp only [numDisplayed, Bool.false_eq_true, if_false]
    refine ⟨?_, ?_, ?_, fun k' hk => ?_, by simp⟩
    · split_ifs <;> omega
    · split_ifs <;> omega
    · split_ifs <;> omega
    · cases hk; split_ifs <;> omega

example : numDisplayed 12 false (some 20) = 10 ∧ numDisplayed 12 false (some (-3)) = 1 ∧
    numDisplayed 12 false none = 7 ∧ numDisplayed 4 false none = 4 ∧ numDisplayed 12 true (some 2) = 12 := by
  decide

/-- **C82 (the curves shown are those of the largest spends).**  The channels shown are different channels
with spend, as many as asked for or all, in the order of falling spend, and none that is left out has a
larger spend than one that is shown. -/
theorem top_channels (spend : ℕ → ℚ) (nPaid n : ℕ) :
    (topChannels spend nPaid n).Nodup ∧ (topChannels spend nPaid n).length = min n nPaid ∧
    (∀ c ∈ topChannels spend nPaid n, c < nPaid) ∧
    (topChannels spend nPaid n).Pairwise (fun a b => spend b ≤ spend a) ∧
    ∀ c, c < nPaid → c ∉ topChannels spend nPaid n → ∀ d ∈ topChannels spend nPaid n,
      spend c ≤ spend d := by
  set s := (List.range nPaid).insertionSort (fun a b => spend a ≤ spend b) with hs
  have hp : s.Perm (List.range nPaid) := List.perm_insertionSort _ _
  have htrans : IsTrans ℕ (fun a b => spend a ≤ spend b) := ⟨fun _ _ _ h1 h2 => le_trans h1 h2⟩
  have htotal : Std.Total (fun a b : ℕ => spend a ≤ spend b) := ⟨fun a b => le_total _ _⟩
  have hsort : s.Pairwise (fun a b => spend a ≤ spend b) := List.pairwise_insertionSort _ _
  have hrev : s.reverse.Pairwise (fun a b => spend b ≤ spend a) := List.pairwise_reverse.mpr hsort
  have hnd : s.reverse.Nodup := List.nodup_reverse.mpr (hp.nodup_iff.mpr List.nodup_range)
  have htop : topChannels spend nPaid n = s.reverse.take n := rfl
  rw [htop]
  refine ⟨hnd.sublist (List.take_sublist _ _), ?_, ?_, hrev.sublist (List.take_sublist _ _), ?_⟩
  · rw [List.length_take, List.length_reverse, hp.length_eq, List.length_range]
  · intro c hc
    have := List.mem_of_mem_take hc
    rw [List.mem_reverse, hp.mem_iff] at this
    exact List.mem_range.mp this
  · intro c hc hnot d hd
    have hmem : c ∈ s.reverse := by rw [List.mem_reverse, hp.mem_iff]; exact List.mem_range.mpr hc
    rw [← List.take_append_drop n s.reverse] at hmem hrev
    rcases List.mem_append.mp hmem with h | h
    · exact absurd h hnot
    · exact (List.pairwise_append.mp hrev).2.2 d hd c h

/-- **C82 (finding: the title counts channels that have no curve).**  The number in the title comes from all
channels, organic and non-media ones too, but only paid channels have curves: with three paid and five
organic channels the title says "(top 7)" and three curves are shown. -/
theorem title_counts_all :
    numDisplayed (3 + 5) false none = 7 ∧ ∀ spend, (topChannels spend 3 7).length = 3 := by
  refine ⟨by decide, fun spend => ?_⟩
  rw [(top_channels spend 3 7).2.1]; rfl

example : topChannels (fun c => ([5, 9, 2, 7] : List ℚ).getD c 0) 4 2 = [1, 3] := by decide +kernel

end Verif.Views.Props
