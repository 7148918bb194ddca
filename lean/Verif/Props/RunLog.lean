import Verif.Spec.RunLog
import Mathlib.Tactic

/-!
# C104: what automatic logging records, and that it changes nothing else
-/

namespace Verif.RunLog.Props

open Verif.RunLog Verif.RunLog.Spec

variable {σ α ε μ : Type}

/-! ## The text of an array determines the array -/

theorem sep_inj {W : List Char → Prop}
    (hcode : ∀ x y s t, W x → W y → x ++ s = y ++ t → x = y)
    (hhead : ∀ x, W x → ∃ c r, x = c :: r ∧ c ≠ ']') :
    ∀ xs ys s t, (∀ x ∈ xs, W x) → (∀ y ∈ ys, W y) →
      sepItems xs ++ ']' :: s = sepItems ys ++ ']' :: t → xs = ys ∧ s = t := by
  intro xs
  induction xs with
  | nil =>
    intro ys s t _ hy h
    match ys with
    | [] => simpa [sepItems] using h
    | [y] =>
      obtain ⟨c, r, rfl, hc⟩ := hhead y (hy y (by simp))
      simp [sepItems] at h
      exact absurd h.1.symm hc
    | y :: y' :: r' =>
      obtain ⟨c, r, rfl, hc⟩ := hhead y (hy y (by simp))
      simp [sepItems] at h
      exact absurd h.1.symm hc
  | cons x xs ih =>
    intro ys s t hx hy h
    match xs, ys with
    | [], [] =>
      obtain ⟨c, r, rfl, hc⟩ := hhead x (hx x (by simp))
      simp [sepItems] at h
      exact absurd h.1 hc
    | x' :: r, [] =>
      obtain ⟨c, r, rfl, hc⟩ := hhead x (hx x (by simp))
      simp [sepItems] at h
      exact absurd h.1 hc
    | [], [y] =>
      simp only [sepItems] at h
      have e := hcode x y _ _ (hx x (by simp)) (hy y (by simp)) h
      subst e
      have := List.append_cancel_left h
      simp at this
      exact ⟨rfl, this⟩
    | [], y :: y' :: r' =>
      simp only [sepItems, List.append_assoc] at h
      have e := hcode x y _ _ (hx x (by simp)) (hy y (by simp)) h
      subst e
      have := List.append_cancel_left h
      simp at this
    | x' :: r, [y] =>
      simp only [sepItems, List.append_assoc] at h
      have e := hcode x y _ _ (hx x (by simp)) (hy y (by simp)) h
      subst e
      have := List.append_cancel_left h
      simp at this
    | x' :: r, y :: y' :: r' =>
      simp only [sepItems, List.append_assoc] at h
      have e := hcode x y _ _ (hx x (by simp)) (hy y (by simp)) h
      subst e
      have h2 := List.append_cancel_left (List.append_cancel_left h)
      obtain ⟨h3, h4⟩ := ih (y' :: r') s t (fun z hz => hx z (List.mem_cons_of_mem _ hz))
        (fun z hz => hy z (List.mem_cons_of_mem _ hz)) h2
      exact ⟨by rw [h3], h4⟩

/-- The words of JSON flags and of JSON lists of flags. -/
def Word (x : List Char) : Prop := (∃ b, x = dumpFlag b) ∨ ∃ l : List Bool, x = dumpList (l.map dumpFlag)

theorem flag_code (b b' : Bool) (s t : List Char) (h : dumpFlag b ++ s = dumpFlag b' ++ t) :
    dumpFlag b = dumpFlag b' := by
  cases b <;> cases b' <;> simp_all [dumpFlag]

theorem row_code (l l' : List Bool) (s t : List Char)
    (h : dumpList (l.map dumpFlag) ++ s = dumpList (l'.map dumpFlag) ++ t) :
    l.map dumpFlag = l'.map dumpFlag := by
  have h2 : sepItems (l.map dumpFlag) ++ ']' :: s = sepItems (l'.map dumpFlag) ++ ']' :: t := by
    simpa [dumpList] using h
  refine (sep_inj (W := fun x => ∃ b, x = dumpFlag b) ?_ ?_ _ _ s t ?_ ?_ h2).1
  · rintro x y s t ⟨b, rfl⟩ ⟨b', rfl⟩ h
    exact flag_code b b' s t h
  · rintro x ⟨b, rfl⟩
    cases b
    · exact ⟨'f', _, rfl, by decide⟩
    · exact ⟨'t', _, rfl, by decide⟩
  · intro x hx
    obtain ⟨b, _, rfl⟩ := List.mem_map.mp hx
    exact ⟨b, rfl⟩
  · intro x hx
    obtain ⟨b, _, rfl⟩ := List.mem_map.mp hx
    exact ⟨b, rfl⟩

theorem flag_ne_row (b : Bool) (l : List Bool) (s t : List Char) :
    dumpFlag b ++ s ≠ dumpList (l.map dumpFlag) ++ t := by
  cases b <;> simp [dumpFlag, dumpList]

theorem words_inj (xs ys : List (List Char)) (hx : ∀ x ∈ xs, Word x) (hy : ∀ y ∈ ys, Word y)
    (h : dumpList xs = dumpList ys) : xs = ys := by
  have h2 : sepItems xs ++ ']' :: [] = sepItems ys ++ ']' :: [] := by simpa [dumpList] using h
  refine (sep_inj (W := Word) ?_ ?_ xs ys [] [] hx hy h2).1
  · rintro x y s t (⟨b, rfl⟩ | ⟨l, rfl⟩) (⟨b', rfl⟩ | ⟨l', rfl⟩) h
    · exact flag_code b b' s t h
    · exact absurd h (flag_ne_row b l' s t)
    · exact absurd h.symm (flag_ne_row b' l t s)
    · rw [row_code l l' s t h]
  · rintro x (⟨b, rfl⟩ | ⟨l, rfl⟩)
    · cases b
      · exact ⟨'f', _, rfl, by decide⟩
      · exact ⟨'t', _, rfl, by decide⟩
    · exact ⟨'[', _, rfl, by decide⟩

theorem flag_inj : Function.Injective dumpFlag := by
  intro a b h
  cases a <;> cases b <;> simp_all [dumpFlag]

theorem row_inj : Function.Injective fun r : List Bool => dumpList (r.map dumpFlag) := by
  intro r r' h
  have h2 : dumpList (r.map dumpFlag) ++ [] = dumpList (r'.map dumpFlag) ++ [] := by simpa using h
  exact List.map_injective_iff.mpr flag_inj (row_code r r' [] [] h2)

/-- The text logged for an array determines the array: two arrays with the same text are equal, or both have no
entries at all. -/
theorem array_recoverable (a b : Flags) (h : (Value.array a).logged = (Value.array b).logged) :
    a = b ∨ (a ∈ [Flags.vec [], .mat []] ∧ b ∈ [Flags.vec [], .mat []]) := by
  have h2 : dump a = dump b := by
    have := congrArg String.toList h
    simpa [Value.logged] using this
  cases a with
  | vec l =>
    cases b with
    | vec l' =>
      have := words_inj _ _ (by
        intro x hx; obtain ⟨b, _, rfl⟩ := List.mem_map.mp hx; exact Or.inl ⟨b, rfl⟩) (by
        intro x hx; obtain ⟨b, _, rfl⟩ := List.mem_map.mp hx; exact Or.inl ⟨b, rfl⟩) h2
      exact Or.inl (by rw [List.map_injective_iff.mpr flag_inj this])
    | mat l' =>
      have := words_inj _ _ (by
        intro x hx; obtain ⟨b, _, rfl⟩ := List.mem_map.mp hx; exact Or.inl ⟨b, rfl⟩) (by
        intro x hx; obtain ⟨b, _, rfl⟩ := List.mem_map.mp hx; exact Or.inr ⟨b, rfl⟩) h2
      cases l with
      | nil =>
        cases l' with
        | nil => exact Or.inr (by simp)
        | cons r' l' => simp at this
      | cons x l =>
        cases l' with
        | nil => simp at this
        | cons r' l' =>
          simp only [List.map_cons, List.cons.injEq] at this
          exact absurd (congrArg (· ++ []) this.1) (flag_ne_row x r' [] [])
  | mat l =>
    cases b with
    | vec l' =>
      have := words_inj _ _ (by
        intro x hx; obtain ⟨b, _, rfl⟩ := List.mem_map.mp hx; exact Or.inr ⟨b, rfl⟩) (by
        intro x hx; obtain ⟨b, _, rfl⟩ := List.mem_map.mp hx; exact Or.inl ⟨b, rfl⟩) h2
      cases l with
      | nil =>
        cases l' with
        | nil => exact Or.inr (by simp)
        | cons r' l' => simp at this
      | cons x l =>
        cases l' with
        | nil => simp at this
        | cons r' l' =>
          simp only [List.map_cons, List.cons.injEq] at this
          exact absurd (congrArg (· ++ []) this.1.symm) (flag_ne_row r' x [] [])
    | mat l' =>
      have := words_inj _ _ (by
        intro x hx; obtain ⟨b, _, rfl⟩ := List.mem_map.mp hx; exact Or.inr ⟨b, rfl⟩) (by
        intro x hx; obtain ⟨b, _, rfl⟩ := List.mem_map.mp hx; exact Or.inr ⟨b, rfl⟩) h2
      exact Or.inl (by rw [List.map_injective_iff.mpr row_inj this])

example : String.ofList (dump (.mat [[true, false], [false, true]])) = "[[true, false], [false, true]]" := by
  decide +kernel

/-! ## Logging changes nothing else -/

/-- A part of a patch that only writes to the run. -/
def Quiet (p : Step σ α ε) : Prop :=
  ∀ w, (p w).1.result = w.result ∧ (p w).1.obj = w.obj ∧ (p w).1.calls = w.calls

theorem quiet_inOrder {ps : List (Step σ α ε)} (h : ∀ p ∈ ps, Quiet p) : Quiet (inOrder ps) := by
  induction ps with
  | nil => intro w; simp [inOrder]
  | cons p ps ih =>
    intro w
    have hp := h p (by simp) w
    have hi := ih (fun q hq => h q (List.mem_cons_of_mem _ hq)) (p w).1
    simp only [inOrder]
    split
    · exact hp
    · exact ⟨hi.1.trans hp.1, hi.2.1.trans hp.2.1, hi.2.2.trans hp.2.2⟩

theorem quiet_logParam (S : Service) (kv : String × String) : Quiet (logParam S kv : Step σ α ε) := by
  intro w
  unfold logParam
  split <;> simp

theorem quiet_logTableMetric (t : List Row) (n : String) : Quiet (logTableMetric t n : Step σ α ε) := by
  intro w
  unfold logTableMetric logMetric
  split <;> simp

theorem quiet_metrics (lm : Bool) (mo : σ → Option μ) (tb : μ → Option (List Row)) :
    Quiet (metricsStep lm mo tb : Step σ α ε) := by
  intro w
  unfold metricsStep
  split
  · split
    · split
      · exact quiet_inOrder (by
          intro p hp
          obtain ⟨n, _, rfl⟩ := List.mem_map.mp hp
          exact quiet_logTableMetric _ n) w
      · simp
    · simp
  · simp

theorem inOrder_append (ps qs : List (Step σ α ε)) (w : World σ α ε) :
    inOrder (ps ++ qs) w = if (inOrder ps w).2 then inOrder ps w else inOrder qs (inOrder ps w).1 := by
  induction ps generalizing w with
  | nil => simp [inOrder]
  | cons p ps ih =>
    simp only [List.cons_append, inOrder]
    by_cases h : (p w).2
    · simp [h]
    · simp [h, ih]

theorem call_facts (f : σ → Except ε α × σ) (w : World σ α ε) :
    (callOriginal f w).1.result = some (f w.obj).1 ∧ (callOriginal f w).1.obj = (f w.obj).2 ∧
      (callOriginal f w).1.calls = w.calls + 1 := ⟨rfl, rfl, rfl⟩

/-- What a patch does that logs, calls the patched method and logs again. -/
theorem safe_eq (f : σ → Except ε α × σ) (qs ps : List (Step σ α ε)) (hq : ∀ p ∈ qs, Quiet p)
    (hp : ∀ p ∈ ps, Quiet p) (w : World σ α ε) (u : World σ α ε × Bool)
    (hu : inOrder qs { w with result := none } = u) :
    safePatch f (inOrder (qs ++ callOriginal f :: ps)) w =
      if u.2 then (callOriginal f u.1).1 else if (callOriginal f u.1).2 then (callOriginal f u.1).1
      else (inOrder ps (callOriginal f u.1).1).1 := by
  have a := quiet_inOrder hq { w with result := none }
  rw [hu] at a
  simp only [safePatch, inOrder_append, hu]
  by_cases hb : u.2
  · simp [hb, a.1]
  · simp only [hb, Bool.false_eq_true, if_false, inOrder]
    have c := call_facts f u.1
    by_cases hcb : (callOriginal f u.1).2
    · simp [hcb, c.1]
    · have b := quiet_inOrder hp (callOriginal f u.1).1
      simp [hcb, b.1, c.1]

theorem single (p : Step σ α ε) (w : World σ α ε) : (inOrder [p] w).1 = (p w).1 := by
  simp only [inOrder]
  split <;> rfl

theorem pair (p q : Step σ α ε) (w : World σ α ε) :
    (inOrder [p, q] w).1 = if (p w).2 then (p w).1 else (q (p w).1).1 := by
  simp only [inOrder]
  split
  · rfl
  · split <;> rfl

theorem patched_transparent (f : σ → Except ε α × σ) (qs ps : List (Step σ α ε)) (hq : ∀ p ∈ qs, Quiet p)
    (hp : ∀ p ∈ ps, Quiet p) (w : World σ α ε) :
    Transparent f w (safePatch f (inOrder (qs ++ callOriginal f :: ps)) w) := by
  have a := quiet_inOrder hq { w with result := none }
  rw [safe_eq f qs ps hq hp w _ rfl]
  set u := inOrder qs { w with result := none }
  have c := call_facts f u.1
  have b := quiet_inOrder hp (callOriginal f u.1).1
  split
  · exact ⟨by rw [c.1, a.2.1], by rw [c.2.1, a.2.1], by rw [c.2.2, a.2.2]⟩
  · split
    · exact ⟨by rw [c.1, a.2.1], by rw [c.2.1, a.2.1], by rw [c.2.2, a.2.2]⟩
    · exact ⟨by rw [b.1, c.1, a.2.1], by rw [b.2.1, c.2.1, a.2.1], by rw [b.2.2, c.2.2, a.2.2]⟩

theorem quiet_params (S : Service) (l : List (String × String)) :
    ∀ p ∈ l.map (logParam S : _ → Step σ α ε), Quiet p := by
  intro p hp
  obtain ⟨kv, _, rfl⟩ := List.mem_map.mp hp
  exact quiet_logParam S kv

theorem quiet_model (S : Service) (specOf : σ → ModelSpec) :
    ∀ p ∈ ([fun w => inOrder ((specParams (specOf w.obj)).map (logParam S)) w,
      fun w => inOrder ((priorParams (specOf w.obj)).map (logParam S)) w] : List (Step σ α ε)), Quiet p := by
  intro p hp
  simp only [List.mem_cons, List.not_mem_nil, or_false] at hp
  rcases hp with rfl | rfl
  · intro w; exact quiet_inOrder (quiet_params S _) w
  · intro w; exact quiet_inOrder (quiet_params S _) w

theorem quiet_single (lm : Bool) (mo : σ → Option μ) (tb : μ → Option (List Row)) :
    ∀ p ∈ ([metricsStep lm mo tb] : List (Step σ α ε)), Quiet p := by
  intro p hp
  simp only [List.mem_cons, List.not_mem_nil, or_false] at hp
  subst hp
  exact quiet_metrics lm mo tb

theorem quiet_args (S : Service) (kw : Kwargs) :
    ∀ p ∈ (loggedArguments.map fun p => logParam S ("sample_posterior." ++ p, kwargsGet kw p) : List (Step σ α ε)),
      Quiet p := by
  intro p hp
  obtain ⟨n, _, rfl⟩ := List.mem_map.mp hp
  exact quiet_logParam S _

/-- Making a model, sampling the prior and sampling the posterior do with logging what they do without it: they
return the same or raise the same, change the object in the same way and run once, whatever the tracking service
refuses and whatever goes wrong with the metrics. -/
theorem logging_transparent (S : Service) (mv av : String) (specOf : σ → ModelSpec) (kw : Kwargs) (lm : Bool)
    (modelOf : σ → Option μ) (tableOf : μ → Option (List Row)) (f : σ → Except ε α × σ) (w : World σ α ε) :
    Transparent f w (safePatch f (patchInit S mv av specOf f) w) ∧
    Transparent f w (safePatch f (patchPrior S kw f) w) ∧
    Transparent f w (safePatch f (patchPosterior S lm modelOf tableOf kw f) w) := by
  refine ⟨patched_transparent f _ _ (quiet_params S _) (quiet_model S specOf) w, ?_,
    patched_transparent f _ [metricsStep lm modelOf tableOf] (quiet_args S kw) (quiet_single lm modelOf tableOf) w⟩
  exact patched_transparent f [logParam S _, logParam S _] [] (by
    intro p hp
    simp only [List.mem_cons, List.not_mem_nil, or_false] at hp
    rcases hp with rfl | rfl <;> exact quiet_logParam S _) (by simp) w

/-! ## What is recorded -/

theorem lookup_none {r : Run} {k : String} : r.lookup k = none ↔ Unrecorded r k := by
  unfold Unrecorded
  induction r with
  | nil => simp
  | cons x r ih =>
    obtain ⟨k', v'⟩ := x
    rw [List.lookup_cons]
    by_cases h : k = k'
    · subst h
      simp only [beq_self_eq_true]
      constructor
      · intro h; simp at h
      · intro h; exact absurd (List.mem_cons_self) (h v')
    · rw [beq_false_of_ne h, ih]
      constructor
      · intro hv v hm
        rcases List.mem_cons.mp hm with e | e
        · exact h (congrArg Prod.fst e)
        · exact hv v e
      · intro hv v hm
        exact hv v (List.mem_cons_of_mem _ hm)

/-- New parameters with different names are all logged, in order. -/
theorem log_new (l : List (String × String)) (hn : (l.map Prod.fst).Nodup) (w : World σ α ε)
    (hw : ∀ k ∈ l.map Prod.fst, Unrecorded w.run k) :
    inOrder (l.map (logParam mlflow)) w = ({ w with run := w.run ++ l }, false) := by
  induction l generalizing w with
  | nil => simp [inOrder]
  | cons x l ih =>
    have h1 : w.run.lookup x.1 = none := lookup_none.mpr (hw x.1 (by simp))
    have h2 : logParam mlflow x w = ({ w with run := w.run ++ [x] }, false) := by
      simp [logParam, mlflow, h1]
    simp only [List.map_cons, List.nodup_cons] at hn
    simp only [List.map_cons, inOrder, h2, Bool.false_eq_true, if_false]
    rw [ih hn.2]
    · simp
    · intro k hk v hm
      rcases List.mem_append.mp hm with e | e
      · exact hw k (List.mem_cons_of_mem _ hk) v e
      · simp only [List.mem_cons, List.not_mem_nil, or_false] at e
        apply hn.1
        rw [← e]
        exact hk

theorem recorded_of_mem {l : Run} (hn : (l.map Prod.fst).Nodup) {k v : String} (h : (k, v) ∈ l) :
    Recorded l k v := by
  refine ⟨h, ?_⟩
  intro v' h'
  have := List.inj_on_of_nodup_map hn h h' rfl
  exact (congrArg Prod.snd this).symm

theorem initKeys_nodup (mv av : String) (s : ModelSpec) :
    ((versionParams mv av ++ specParams s ++ priorParams s).map Prod.fst).Nodup := by
  have : (versionParams mv av ++ specParams s ++ priorParams s).map Prod.fst =
      ["meridian_version", "arviz_version"] ++ (specFields.filter fun n => n ∉ ["prior"]).map ("spec." ++ ·) ++
        priorFields.map ("prior." ++ ·) := by
    simp [versionParams, specParams, priorParams, Function.comp_def]
  rw [this]
  decide +kernel

/-- What making a model logs to a run that has none of its parameters. -/
theorem init_run (mv av : String) (specOf : σ → ModelSpec) (f : σ → Except ε α × σ) (w : World σ α ε)
    (a : α) (hf : (f w.obj).1 = .ok a)
    (hw : ∀ k ∈ (versionParams mv av ++ specParams (specOf (f w.obj).2) ++
      priorParams (specOf (f w.obj).2)).map Prod.fst, Unrecorded w.run k) :
    (safePatch f (patchInit mlflow mv av specOf f) w).run =
      w.run ++ (versionParams mv av ++ specParams (specOf (f w.obj).2) ++ priorParams (specOf (f w.obj).2)) := by
  have hn := initKeys_nodup mv av (specOf (f w.obj).2)
  simp only [List.map_append, List.mem_append] at hw
  rw [List.map_append, List.map_append] at hn
  obtain ⟨h12, h3, d3⟩ := List.nodup_append.mp hn
  obtain ⟨h1, h2, d2⟩ := List.nodup_append.mp h12
  have e1 := log_new (σ := σ) (α := α) (ε := ε) _ h1 { w with result := none } (fun k hk => hw k (Or.inl (Or.inl hk)))
  have e2 := log_new (σ := σ) (α := α) (ε := ε) _ h2
    ⟨w.run ++ versionParams mv av, w.metrics, (f w.obj).2, some (f w.obj).1, w.calls + 1, w.warnings⟩ (by
      intro k hk v hm
      rcases List.mem_append.mp hm with e | e
      · exact hw k (Or.inl (Or.inr hk)) v e
      · exact d2 k (List.mem_map_of_mem (f := Prod.fst) e) k hk rfl)
  have e3 := log_new (σ := σ) (α := α) (ε := ε) _ h3
    ⟨w.run ++ versionParams mv av ++ specParams (specOf (f w.obj).2), w.metrics, (f w.obj).2,
      some (f w.obj).1, w.calls + 1, w.warnings⟩ (by
      intro k hk v hm
      rcases List.mem_append.mp hm with e | e
      · rcases List.mem_append.mp e with e | e
        · exact hw k (Or.inr hk) v e
        · exact d3 k (List.mem_append_left _ (List.mem_map_of_mem (f := Prod.fst) e)) k hk rfl
      · exact d3 k (List.mem_append_right _ (List.mem_map_of_mem (f := Prod.fst) e)) k hk rfl)
  have hc : callOriginal f (⟨w.run ++ versionParams mv av, w.metrics, w.obj, none, w.calls, w.warnings⟩ : World σ α ε) =
      (⟨w.run ++ versionParams mv av, w.metrics, (f w.obj).2, some (f w.obj).1, w.calls + 1, w.warnings⟩, false) := by
    simp [callOriginal, hf]
  rw [patchInit, safe_eq f _ _ (quiet_params mlflow _) (quiet_model mlflow specOf) w _ e1]
  simp only [Bool.false_eq_true, if_false, hc]
  rw [pair, e2]
  simp only [Bool.false_eq_true, if_false]
  rw [e3]
  simp only [List.append_assoc]

/-- Making a model in a new run records the versions, every setting of the specification but the priors as a whole,
and every prior, each once and with the value it has in the model made. -/
theorem model_recorded (mv av : String) (specOf : σ → ModelSpec) (f : σ → Except ε α × σ) (obj : σ) (a : α)
    (hf : (f obj).1 = .ok a) :
    let r := (safePatch f (patchInit mlflow mv av specOf f) (fresh obj)).run
    Recorded r "meridian_version" mv ∧ Recorded r "arviz_version" av ∧
    (∀ n ∈ specFields, n ≠ "prior" → Recorded r ("spec." ++ n) ((specOf (f obj).2).field n).logged) ∧
    (∀ n ∈ priorFields, Recorded r ("prior." ++ n) ((specOf (f obj).2).prior n).logged) ∧
    Unrecorded r "spec.prior" := by
  intro r
  have hr : r = versionParams mv av ++ specParams (specOf (f obj).2) ++ priorParams (specOf (f obj).2) := by
    show (safePatch f (patchInit mlflow mv av specOf f) (fresh obj)).run = _
    rw [init_run mv av specOf f (fresh obj) a hf (by intro k _ v hm; simp [fresh] at hm)]
    simp [fresh]
  have hn := initKeys_nodup mv av (specOf (f obj).2)
  rw [← hr] at hn
  refine ⟨recorded_of_mem hn ?_, recorded_of_mem hn ?_, ?_, ?_, ?_⟩
  · rw [hr]; simp [versionParams]
  · rw [hr]; simp [versionParams]
  · intro n h1 h2
    refine recorded_of_mem hn ?_
    rw [hr]
    refine List.mem_append_left _ (List.mem_append_right _ ?_)
    exact List.mem_map.mpr ⟨n, by simp [h1, h2], rfl⟩
  · intro n h1
    refine recorded_of_mem hn ?_
    rw [hr]
    exact List.mem_append_right _ (List.mem_map.mpr ⟨n, h1, rfl⟩)
  · intro v hm
    have h2 : "spec.prior" ∈ r.map Prod.fst := List.mem_map_of_mem (f := Prod.fst) hm
    have : r.map Prod.fst =
        ["meridian_version", "arviz_version"] ++ (specFields.filter fun n => n ∉ ["prior"]).map ("spec." ++ ·) ++
          priorFields.map ("prior." ++ ·) := by
      rw [hr]
      simp [versionParams, specParams, priorParams, Function.comp_def]
    rw [this] at h2
    revert h2
    decide +kernel

/-- The text of a setting or prior that is not an array is recorded as it is. -/
theorem model_texts_recorded (mv av : String) (specOf : σ → ModelSpec) (f : σ → Except ε α × σ) (obj : σ) (a : α)
    (hf : (f obj).1 = .ok a) (n s : String) :
    let r := (safePatch f (patchInit mlflow mv av specOf f) (fresh obj)).run
    (n ∈ specFields → n ≠ "prior" → (specOf (f obj).2).field n = .other s → Recorded r ("spec." ++ n) s) ∧
    (n ∈ priorFields → (specOf (f obj).2).prior n = .other s → Recorded r ("prior." ++ n) s) := by
  intro r
  obtain ⟨-, -, h1, h2, -⟩ := model_recorded mv av specOf f obj a hf
  refine ⟨fun hn hp hs => ?_, fun hn hs => ?_⟩
  · have := h1 n hn hp
    rw [hs] at this
    exact this
  · have := h2 n hn
    rw [hs] at this
    exact this

/-- A parameter that has a value in the run never changes the run. -/
theorem log_old (l : List (String × String)) (w : World σ α ε)
    (hw : ∀ k ∈ l.map Prod.fst, ¬ Unrecorded w.run k) : (inOrder (l.map (logParam mlflow)) w).1 = w := by
  induction l with
  | nil => simp [inOrder]
  | cons x l ih =>
    have h1 : logParam mlflow x w = (w, true) ∨ logParam mlflow x w = (w, false) := by
      have h := hw x.1 (by simp)
      rw [← lookup_none] at h
      obtain ⟨v, hv⟩ := Option.ne_none_iff_exists'.mp h
      by_cases e : v = x.2
      · right; simp [logParam, mlflow, hv, e]
      · left; simp [logParam, mlflow, hv, e]
    have h2 := ih (fun k hk => hw k (List.mem_cons_of_mem _ hk))
    rcases h1 with h1 | h1
    · simp [inOrder, h1]
    · simp [inOrder, h1, h2]

/-- Finding: a run keeps the record of the first model.  Another model made in the same run is not recorded, and
nothing is said about it to the caller. -/
theorem second_model_unrecorded (mv av : String) (specOf : σ → ModelSpec) (f : σ → Except ε α × σ)
    (first second : σ) (a b : α) (h1 : (f first).1 = .ok a) (h2 : (f second).1 = .ok b) :
    let w := safePatch f (patchInit mlflow mv av specOf f) (fresh first)
    let w' := safePatch f (patchInit mlflow mv av specOf f) { w with obj := second }
    w'.run = w.run ∧ w'.result = some (.ok b) ∧ w'.warnings = w.warnings := by
  intro w w'
  have hr : w.run = versionParams mv av ++ specParams (specOf (f first).2) ++ priorParams (specOf (f first).2) := by
    show (safePatch f (patchInit mlflow mv av specOf f) (fresh first)).run = _
    rw [init_run mv av specOf f (fresh first) a h1 (by intro k _ v hm; simp [fresh] at hm)]
    simp [fresh]
  have keys : ∀ s : ModelSpec, ∀ k ∈ (versionParams mv av).map Prod.fst ++ (specParams s).map Prod.fst ++
      (priorParams s).map Prod.fst, ¬ Unrecorded w.run k := by
    intro s k hk hu
    have : k ∈ w.run.map Prod.fst := by
      rw [hr]
      simpa [versionParams, specParams, priorParams] using hk
    obtain ⟨kv, hm, rfl⟩ := List.mem_map.mp this
    exact hu kv.2 hm
  have e1 := log_old (σ := σ) (α := α) (ε := ε) (versionParams mv av) ⟨w.run, w.metrics, second, none, w.calls, w.warnings⟩
    (fun k hk => keys (specOf (f second).2) k (by simp [hk]))
  have t := (logging_transparent (μ := Unit) mlflow mv av specOf [] false (fun _ => none) (fun _ => none) f
    { w with obj := second }).1
  suffices h : w'.run = w.run ∧ w'.warnings = w.warnings from ⟨h.1, by rw [t.1, h2], h.2⟩
  have e2 := log_old (σ := σ) (α := α) (ε := ε) (specParams (specOf (f second).2))
    ⟨w.run, w.metrics, (f second).2, some (f second).1, w.calls + 1, w.warnings⟩
    (fun k hk => keys (specOf (f second).2) k (by simp only [List.mem_append]; exact Or.inl (Or.inr hk)))
  have e3 := log_old (σ := σ) (α := α) (ε := ε) (priorParams (specOf (f second).2))
    ⟨w.run, w.metrics, (f second).2, some (f second).1, w.calls + 1, w.warnings⟩
    (fun k hk => keys (specOf (f second).2) k (by simp only [List.mem_append]; exact Or.inr hk))
  have hc : (callOriginal f (⟨w.run, w.metrics, second, none, w.calls, w.warnings⟩ : World σ α ε)).1 =
      ⟨w.run, w.metrics, (f second).2, some (f second).1, w.calls + 1, w.warnings⟩ := rfl
  have hw' : w' = safePatch f (patchInit mlflow mv av specOf f) { w with obj := second } := rfl
  rw [hw', patchInit, safe_eq f _ _ (quiet_params mlflow _) (quiet_model mlflow specOf) _ _ rfl]
  simp only [e1, hc]
  split
  · exact ⟨rfl, rfl⟩
  · split
    · exact ⟨rfl, rfl⟩
    · rw [pair, e2]
      split
      · exact ⟨rfl, rfl⟩
      · rw [e3]
        exact ⟨rfl, rfl⟩

/-- Whatever the service refuses, a run only ever gains parameters of the model made, with their values. -/
theorem only_intended (S : Service) (hS : Appends S) (l : List (String × String)) (w : World σ α ε) :
    ∃ l', l'.Sublist l ∧ (inOrder (l.map (logParam S)) w).1 = { w with run := w.run ++ l' } := by
  induction l generalizing w with
  | nil => exact ⟨[], List.Sublist.refl _, by simp [inOrder]⟩
  | cons x l ih =>
    simp only [List.map_cons, inOrder]
    cases h : S w.run x.1 x.2 with
    | none =>
      have hx : logParam S x w = (w, true) := by simp [logParam, h]
      exact ⟨[], List.nil_sublist _, by simp [hx]⟩
    | some r =>
      have hx : logParam S x w = ({ w with run := r }, false) := by simp [logParam, h]
      obtain ⟨l', h1, h2⟩ := ih { w with run := r }
      simp only [hx, Bool.false_eq_true, if_false, h2]
      rcases hS _ _ _ _ h with rfl | rfl
      · exact ⟨l', h1.cons x, rfl⟩
      · exact ⟨x :: l', h1.cons_cons x, by simp⟩

/-- With any service, what making a model adds to a run are parameters of that model with their values, in order. -/
theorem model_run_sound (S : Service) (hS : Appends S) (mv av : String) (specOf : σ → ModelSpec)
    (f : σ → Except ε α × σ) (w : World σ α ε) :
    ∃ l, l.Sublist (versionParams mv av ++ specParams (specOf (f w.obj).2) ++ priorParams (specOf (f w.obj).2)) ∧
      (safePatch f (patchInit S mv av specOf f) w).run = w.run ++ l := by
  obtain ⟨l1, s1, e1⟩ := only_intended (σ := σ) (α := α) (ε := ε) S hS (versionParams mv av) { w with result := none }
  rw [patchInit, safe_eq f _ _ (quiet_params S _) (quiet_model S specOf) w _ rfl]
  simp only [e1]
  set u : World σ α ε := (callOriginal f ⟨w.run ++ l1, w.metrics, w.obj, none, w.calls, w.warnings⟩).1 with hu
  have hobj : u.obj = (f w.obj).2 := rfl
  have hrun : u.run = w.run ++ l1 := rfl
  have first : ∃ l, l.Sublist (versionParams mv av ++ specParams (specOf (f w.obj).2) ++
      priorParams (specOf (f w.obj).2)) ∧ u.run = w.run ++ l :=
    ⟨l1, (s1.trans (List.sublist_append_left _ _)).trans (List.sublist_append_left _ _), rfl⟩
  split
  · exact first
  · split
    · exact first
    · obtain ⟨l2, s2, e2⟩ := only_intended (σ := σ) (α := α) (ε := ε) S hS (specParams (specOf u.obj)) u
      rw [pair]
      rw [hobj] at s2
      split
      · refine ⟨l1 ++ l2, (s1.append s2).trans (List.sublist_append_left _ _), ?_⟩
        rw [e2, hrun, List.append_assoc]
      · obtain ⟨l3, s3, e3⟩ := only_intended (σ := σ) (α := α) (ε := ε) S hS (priorParams (specOf u.obj))
          { u with run := u.run ++ l2 }
        rw [e2, e3]
        rw [hobj] at s3
        refine ⟨l1 ++ l2 ++ l3, (s1.append s2).append s3, ?_⟩
        simp [hrun]

/-! ## Arguments of the samplers -/

/-- Sampling the prior of a model records the number of draws and the seed given, even if sampling fails. -/
theorem prior_recorded (nDraws seed : String) (f : σ → Except ε α × σ) (w : World σ α ε)
    (h1 : Unrecorded w.run "sample_prior.n_draws") (h2 : Unrecorded w.run "sample_prior.seed") :
    (safePatch f (patchPrior mlflow (priorKwargs nDraws seed) f) w).run =
      w.run ++ [("sample_prior.n_draws", nDraws), ("sample_prior.seed", seed)] := by
  have e := log_new (σ := σ) (α := α) (ε := ε) [("sample_prior.n_draws", nDraws), ("sample_prior.seed", seed)]
    (by simp) { w with result := none } (by
      intro k hk
      simp only [List.map_cons, List.map_nil, List.mem_cons, List.not_mem_nil, or_false] at hk
      rcases hk with rfl | rfl
      · exact h1
      · exact h2)
  have hk1 : kwargsGet (priorKwargs nDraws seed) "n_draws" = nDraws := by simp [kwargsGet, priorKwargs, List.lookup]
  have hk2 : kwargsGet (priorKwargs nDraws seed) "seed" = seed := by simp [kwargsGet, priorKwargs, List.lookup]
  have hp : patchPrior mlflow (priorKwargs nDraws seed) f =
      inOrder ([("sample_prior.n_draws", nDraws), ("sample_prior.seed", seed)].map (logParam mlflow) ++
        [callOriginal f]) := by
    simp [patchPrior, hk1, hk2]
  rw [hp, safe_eq f _ [] (quiet_params mlflow _) (by simp) w _ e]
  simp only [Bool.false_eq_true, if_false, inOrder, ite_self]
  rfl

theorem kwargs_arg (arg : String → String) (pins : Kwargs) (n : String)
    (h : n ∈ ["n_chains", "n_adapt", "n_burnin", "n_keep", "current_state", "init_step_size",
      "dual_averaging_kwargs", "max_tree_depth", "max_energy_diff", "unrolled_leapfrog_steps",
      "parallel_iterations", "seed", "reconstruction_batch_size"]) :
    kwargsGet (posteriorKwargs arg pins) n = arg n := by
  simp only [List.mem_cons, List.not_mem_nil, or_false] at h
  rcases h with rfl | rfl | rfl | rfl | rfl | rfl | rfl | rfl | rfl | rfl | rfl | rfl | rfl <;>
    simp [kwargsGet, posteriorKwargs, List.lookup]

theorem metrics_run (lm : Bool) (mo : σ → Option μ) (tb : μ → Option (List Row)) (w : World σ α ε) :
    ((metricsStep lm mo tb : Step σ α ε) w).1.run = w.run := by
  have hq : ∀ (t : List Row) (ns : List String) (w : World σ α ε),
      (inOrder (ns.map (logTableMetric t)) w).1.run = w.run := by
    intro t ns
    induction ns with
    | nil => intro w; simp [inOrder]
    | cons n ns ih =>
      intro w
      have h1 : (logTableMetric t n w).1.run = w.run := by
        unfold logTableMetric logMetric
        split <;> simp
      simp only [List.map_cons, inOrder]
      split
      · exact h1
      · rw [ih, h1]
  unfold metricsStep
  split
  · split
    · split
      · exact hq _ _ _
      · rfl
    · rfl
  · rfl

theorem posteriorKeys_nodup : ((loggedArguments.map fun p => "sample_posterior." ++ p)).Nodup := by
  decide +kernel

theorem loggedArguments_eq : loggedArguments = ["n_chains", "n_adapt", "n_burnin", "n_keep", "init_step_size",
    "dual_averaging_kwargs", "max_tree_depth", "max_energy_diff", "unrolled_leapfrog_steps",
    "parallel_iterations", "seed", "reconstruction_batch_size"] := by
  decide +kernel

/-- What sampling the posterior adds to a run without its parameters: the value found for each argument. -/
theorem posterior_run (lm : Bool) (modelOf : σ → Option μ) (tableOf : μ → Option (List Row)) (kw : Kwargs)
    (f : σ → Except ε α × σ) (w : World σ α ε)
    (hw : ∀ n ∈ loggedArguments, Unrecorded w.run ("sample_posterior." ++ n)) :
    (safePatch f (patchPosterior mlflow lm modelOf tableOf kw f) w).run =
      w.run ++ loggedArguments.map fun n => ("sample_posterior." ++ n, kwargsGet kw n) := by
  have e := log_new (σ := σ) (α := α) (ε := ε) (loggedArguments.map fun n => ("sample_posterior." ++ n, kwargsGet kw n))
    (by rw [List.map_map]; exact posteriorKeys_nodup) { w with result := none } (by
      intro k hk
      obtain ⟨kv, h1, rfl⟩ := List.mem_map.mp hk
      obtain ⟨n, h2, rfl⟩ := List.mem_map.mp h1
      exact hw n h2)
  rw [List.map_map] at e
  have e' : inOrder (loggedArguments.map fun p => logParam mlflow ("sample_posterior." ++ p, kwargsGet kw p))
      ({ w with result := none } : World σ α ε) = _ := e
  rw [patchPosterior, safe_eq f _ _ (quiet_args mlflow kw) (quiet_single lm modelOf tableOf) w _ e']
  simp only [Bool.false_eq_true, if_false]
  split
  · rfl
  · rw [single, metrics_run]
    rfl

/-- Sampling the posterior of a model records every argument given, or its default value, except the initial state and
the pinned parameters; even if sampling fails. -/
theorem posterior_recorded (lm : Bool) (modelOf : σ → Option μ) (tableOf : μ → Option (List Row))
    (arg : String → String) (pins : Kwargs) (f : σ → Except ε α × σ) (obj : σ) :
    let r := (safePatch f (patchPosterior mlflow lm modelOf tableOf (posteriorKwargs arg pins) f) (fresh obj)).run
    (∀ p ∈ signature, p.1 ∉ ["self", "current_state", "pins"] →
      Recorded r ("sample_posterior." ++ p.1) (arg p.1)) ∧
    Unrecorded r "sample_posterior.current_state" ∧ Unrecorded r "sample_posterior.pins" ∧
    r.length + 3 = signature.length := by
  intro r
  have hr : r = loggedArguments.map fun n => ("sample_posterior." ++ n, arg n) := by
    show (safePatch f (patchPosterior mlflow lm modelOf tableOf (posteriorKwargs arg pins) f) (fresh obj)).run = _
    rw [posterior_run lm modelOf tableOf _ f (fresh obj) (by intro n _ v hm; simp [fresh] at hm)]
    simp only [fresh, List.nil_append]
    refine List.map_congr_left ?_
    intro n hn
    rw [kwargs_arg arg pins n (by
      rw [loggedArguments_eq] at hn
      simp only [List.mem_cons, List.not_mem_nil, or_false] at hn ⊢
      rcases hn with h | h | h | h | h | h | h | h | h | h | h | h <;> simp [h])]
  have keys : r.map Prod.fst = loggedArguments.map fun p => "sample_posterior." ++ p := by
    rw [hr, List.map_map]; rfl
  have hn : (r.map Prod.fst).Nodup := by rw [keys]; exact posteriorKeys_nodup
  refine ⟨?_, ?_, ?_, ?_⟩
  · intro p hp hx
    refine recorded_of_mem hn ?_
    rw [hr]
    refine List.mem_map.mpr ⟨p.1, ?_, rfl⟩
    have : ∀ p ∈ signature, p.1 ∉ ["self", "current_state", "pins"] → p.1 ∈ loggedArguments := by decide +kernel
    exact this p hp hx
  · intro v hm
    have h2 : "sample_posterior.current_state" ∈ r.map Prod.fst := List.mem_map_of_mem (f := Prod.fst) hm
    rw [keys] at h2
    revert h2
    decide +kernel
  · intro v hm
    have h2 : "sample_posterior.pins" ∈ r.map Prod.fst := List.mem_map_of_mem (f := Prod.fst) hm
    rw [keys] at h2
    revert h2
    decide +kernel
  · rw [hr, List.length_map]
    decide +kernel

/-- Finding: an argument that is given to a sampler by position is recorded as `default`. -/
theorem positional_recorded_as_default (lm : Bool) (modelOf : σ → Option μ) (tableOf : μ → Option (List Row))
    (kw : Kwargs) (f : σ → Except ε α × σ) (obj : σ) (n : String) (hn : n ∈ loggedArguments)
    (hk : kw.lookup n = none) :
    Recorded (safePatch f (patchPosterior mlflow lm modelOf tableOf kw f) (fresh obj)).run
      ("sample_posterior." ++ n) "default" := by
  rw [posterior_run lm modelOf tableOf kw f (fresh obj) (by intro n _ v hm; simp [fresh] at hm)]
  simp only [fresh, List.nil_append]
  refine recorded_of_mem ?_ ?_
  · rw [List.map_map]; exact posteriorKeys_nodup
  · exact List.mem_map.mpr ⟨n, hn, by simp [kwargsGet, hk]⟩

example : (safePatch (fun n : ℕ => (Except.ok (n + 1), n) : ℕ → Except String ℕ × ℕ)
    (patchPosterior mlflow false (fun _ => (none : Option Unit)) (fun _ => none) [("n_keep", "500")]
      fun n => (.ok (n + 1), n)) (fresh 3)).run.take 4 =
    [("sample_posterior.n_chains", "default"), ("sample_posterior.n_adapt", "default"),
      ("sample_posterior.n_burnin", "default"), ("sample_posterior.n_keep", "500")] := by
  decide +kernel

/-! ## Metrics -/

theorem params_metrics (S : Service) (l : List (String × String)) (w : World σ α ε) :
    (inOrder (l.map (logParam S)) w).1.metrics = w.metrics ∧
    (inOrder (l.map (logParam S)) w).1.warnings = w.warnings := by
  induction l generalizing w with
  | nil => simp [inOrder]
  | cons x l ih =>
    have h1 : (logParam S x w).1.metrics = w.metrics ∧ (logParam S x w).1.warnings = w.warnings := by
      unfold logParam; split <;> simp
    simp only [List.map_cons, inOrder]
    split
    · exact h1
    · exact ⟨(ih _).1.trans h1.1, (ih _).2.trans h1.2⟩

/-- Finding: `sample_posterior` of a model never logs a metric, also if metrics are asked for as the documentation
shows: the sampler of a model does not know the model. -/
theorem no_metrics_from_model (S : Service) (lm : Bool) (tableOf : μ → Option (List Row)) (kw : Kwargs) (m : μ)
    (draw : Sampler μ → Except ε α) (w : World (Sampler μ) α ε) (hw : w.obj = samplerOfModel m) :
    (safePatch (fun s => (draw s, s)) (patchPosterior S lm Sampler.model tableOf kw fun s => (draw s, s)) w).metrics =
      w.metrics := by
  have a := params_metrics (σ := Sampler μ) (α := α) (ε := ε) S
    (loggedArguments.map fun p => ("sample_posterior." ++ p, kwargsGet kw p)) { w with result := none }
  have q := quiet_inOrder (σ := Sampler μ) (α := α) (ε := ε) (quiet_args S kw) { w with result := none }
  rw [List.map_map] at a
  rw [patchPosterior, safe_eq _ _ _ (quiet_args S kw) (quiet_single lm Sampler.model tableOf) w _ rfl]
  set u := inOrder (loggedArguments.map fun p => logParam S ("sample_posterior." ++ p, kwargsGet kw p))
    { w with result := none } with hu
  have ha : u.1.metrics = w.metrics := a.1
  have hm : u.1.obj.model = none := by rw [q.2.1, hw]; rfl
  have hc : (callOriginal (fun s => (draw s, s)) u.1).1.metrics = w.metrics := ha
  have hcm : (callOriginal (fun s => (draw s, s)) u.1).1.obj.model = none := hm
  split
  · exact hc
  · split
    · exact hc
    · rw [single]
      unfold metricsStep
      split
      · split
        · next h => rw [hcm] at h; exact absurd h (by simp)
        · exact hc
      · exact hc

/-- The metric logged under each name is the one of the first row: at the level of geos and, with a holdout, of the
training data only. -/
theorem metric_of_table (holdout : Bool) (v : String → String → Option String → String) (n : String)
    (hn : n ∈ ["R_Squared", "MAPE", "wMAPE"]) :
    getMetric (table holdout v) n = some (v n "geo" (if holdout then some "Train" else none)) := by
  simp only [List.mem_cons, List.not_mem_nil, or_false] at hn
  rcases hn with rfl | rfl | rfl <;> cases holdout <;> simp [getMetric, table]

/-- Finding: a sampler made from a model logs the metrics of the draws the model had before, since the new draws are not
in the model yet; for a first fit it logs none. -/
theorem metrics_of_previous_fit (lm : Bool) (tableOf : μ → Option (List Row)) (kw : Kwargs) (m : μ)
    (draw : Sampler μ → Except ε α) (a : α) (hd : draw ⟨some m⟩ = .ok a) (holdout : Bool)
    (v : String → String → Option String → String) (hlm : lm = true) :
    let w := safePatch (fun s => (draw s, s)) (patchPosterior mlflow lm Sampler.model tableOf kw fun s => (draw s, s))
      (fresh ⟨some m⟩)
    (tableOf m = none → w.metrics = []) ∧
    (tableOf m = some (table holdout v) → w.metrics = ["R_Squared", "MAPE", "wMAPE"].map fun n =>
      (n, v n "geo" (if holdout then some "Train" else none))) := by
  intro w
  subst hlm
  have e := log_new (σ := Sampler μ) (α := α) (ε := ε) (loggedArguments.map fun n => ("sample_posterior." ++ n, kwargsGet kw n))
    (by rw [List.map_map]; exact posteriorKeys_nodup) (fresh ⟨some m⟩) (by
      intro k _ v hm; simp [fresh] at hm)
  rw [List.map_map] at e
  have e' : inOrder (loggedArguments.map fun p => logParam mlflow ("sample_posterior." ++ p, kwargsGet kw p))
      (⟨[], [], ⟨some m⟩, none, 0, []⟩ : World (Sampler μ) α ε) = _ := e
  have hf : ({ (fresh ⟨some m⟩ : World (Sampler μ) α ε) with result := none } : World (Sampler μ) α ε) =
    ⟨[], [], ⟨some m⟩, none, 0, []⟩ := rfl
  constructor
  · intro ht
    show (safePatch _ _ _).metrics = _
    rw [safePatch, patchPosterior, inOrder_append, hf, e']
    simp [inOrder, callOriginal, fresh, hd, metricsStep, ht]
  · intro ht
    show (safePatch _ _ _).metrics = _
    rw [safePatch, patchPosterior, inOrder_append, hf, e']
    have g := metric_of_table holdout v
    have g1 := g "R_Squared" (by simp)
    have g2 := g "MAPE" (by simp)
    have g3 := g "wMAPE" (by simp)
    simp [inOrder, callOriginal, fresh, hd, metricsStep, ht, logTableMetric, g1, g2, g3, logMetric]

/-! ## Cases that meet the hypotheses -/

/-- A specification with a holdout. -/
def demoSpec : ModelSpec where
  field := fun n => if n = "holdout_id" then .array (.mat [[true, false], [false, false]]) else .other n
  prior := fun n => .other ("tfp.distributions." ++ n)

/-- Making a model with that specification. -/
def demoInit : Option ModelSpec → Except String Unit × Option ModelSpec := fun _ => (.ok (), some demoSpec)

example : Recorded (safePatch demoInit (patchInit mlflow "1.5.0" "0.20" (fun o => o.getD demoSpec) demoInit)
    (fresh none)).run "spec.holdout_id" "[[true, false], [false, false]]" := by
  have h := (model_recorded "1.5.0" "0.20" (fun o => o.getD demoSpec) demoInit none () rfl).2.2.1 "holdout_id"
    (by decide +kernel) (by decide)
  have e : ((((demoInit none).2).getD demoSpec).field "holdout_id").logged = "[[true, false], [false, false]]" := by
    decide +kernel
  rw [e] at h
  have k : "spec." ++ "holdout_id" = "spec.holdout_id" := by decide +kernel
  rwa [k] at h

example : Appends mlflow := by
  intro r k v r' h
  unfold mlflow at h
  split at h
  · right; simpa using h.symm
  · split at h
    · left; simpa using h.symm
    · simp at h

example : (safePatch (fun s => ((.ok 7 : Except String ℕ), s))
    (patchPosterior mlflow true Sampler.model (fun b : Bool => if b then some (table true fun m g p => m ++ g ++ p.getD "")
      else none) [] fun s => (.ok 7, s)) (fresh ⟨some true⟩)).metrics =
    [("R_Squared", "R_SquaredgeoTrain"), ("MAPE", "MAPEgeoTrain"), ("wMAPE", "wMAPEgeoTrain")] := by
  decide +kernel

end Verif.RunLog.Props
