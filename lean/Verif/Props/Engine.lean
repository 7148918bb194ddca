import Mathlib.Tactic.Tauto
import Verif.Spec.Engine

/-!
# C111: which backend and precision a process uses, and what its models record
-/

namespace Verif.Engine.Props

open Verif.Engine Verif.Engine.Spec

/-! ### Reading names -/

theorem lowerChar_lower {d : Char} (h : ¬ ('A' ≤ d ∧ d ≤ 'Z')) (c : Char) :
    lowerChar c = d ↔ (c = d ∨ ('A' ≤ c ∧ c ≤ 'Z' ∧ d = Char.ofNat (c.toNat + 32))) := by
  unfold lowerChar
  split_ifs with hc
  · constructor
    · intro e; exact Or.inr ⟨hc.1, hc.2, e.symm⟩
    · rintro (e | ⟨_, _, e⟩)
      · subst e; exact absurd hc h
      · exact e.symm
  · constructor
    · intro e; exact Or.inl e
    · rintro (e | ⟨h1, h2, _⟩)
      · exact e
      · exact absurd ⟨h1, h2⟩ hc

theorem map_lower {w : List Char} (hw : ∀ d ∈ w, ¬ ('A' ≤ d ∧ d ≤ 'Z')) (s : List Char) :
    s.map lowerChar = w ↔
      List.Forall₂ (fun c d : Char => c = d ∨ ('A' ≤ c ∧ c ≤ 'Z' ∧ d = Char.ofNat (c.toNat + 32))) s w := by
  induction w generalizing s with
  | nil => cases s <;> simp
  | cons d ds ih =>
    cases s with
    | nil => simp
    | cons c cs =>
      simp only [List.map_cons, List.cons.injEq, List.forall₂_cons]
      rw [lowerChar_lower (hw d (by simp)), ih (fun e he => hw e (by simp [he]))]

theorem reads_iff (s : String) (b : Backend) : Reads s (word b) ↔ lower s = (word b).toList := by
  unfold Reads lower
  rw [map_lower]
  cases b <;> decide +kernel

theorem byValue_iff (s : String) (b : Backend) : byValue (lower s) = some b ↔ Reads s (word b) := by
  rw [reads_iff]
  have hne : "jax".toList ≠ "tensorflow".toList := by decide +kernel
  unfold byValue
  cases b <;> simp only [word]
  · split_ifs with h1 h2
    · exact ⟨fun _ => h1, fun _ => rfl⟩
    · constructor
      · intro e; cases e
      · intro e; exact absurd e h1
    · constructor
      · intro e; cases e
      · intro e; exact absurd e h1
  · split_ifs with h1 h2
    · rw [h1]; simp only [Option.some.injEq, reduceCtorEq, false_iff]; exact fun h => hne h.symm
    · exact ⟨fun _ => h2, fun _ => rfl⟩
    · constructor
      · intro e; cases e
      · intro e; exact absurd e h2

theorem byValue_none (s : String) : byValue (lower s) = none ↔ ∀ b, ¬ Reads s (word b) := by
  constructor
  · intro h b hb
    rw [← byValue_iff, h] at hb
    cases hb
  · intro h
    cases e : byValue (lower s) with
    | none => rfl
    | some b => exact absurd ((byValue_iff s b).mp e) (h b)

theorem means_iff (a : Arg) (b : Backend) : a.backend = some b ↔ Means a b := by
  unfold Means
  cases a with
  | str s => simp [Arg.backend, byValue_iff]
  | enum c => simp [Arg.backend]
  | other => simp [Arg.backend]

theorem means_none (a : Arg) : a.backend = none ↔ ∀ b, ¬ Means a b := by
  constructor
  · intro h b hb
    rw [← means_iff, h] at hb
    cases hb
  · intro h
    cases e : a.backend with
    | none => rfl
    | some b => exact absurd ((means_iff a b).mp e) (h b)

theorem computationBackend_eq (p : Proc) : computationBackend p = report p.loaded.backend := by
  unfold computationBackend
  cases p.loaded.backend <;> decide +kernel

/-! ### The variable of the environment -/

/-- At the start the tensors are those of JAX iff the variable `MERIDIAN_BACKEND` is the word "jax", in letters of
any size; otherwise they are those of TensorFlow. -/
theorem env_jax_iff (env envX64 : Option String) (own : Bool) :
    (computationBackend (start env envX64 own) = .jax ↔ ∃ s, env = some s ∧ Reads s "jax") ∧
    (computationBackend (start env envX64 own) ≠ .jax →
      computationBackend (start env envX64 own) = .tensorflow) := by
  have key : (initBackend env).1 = .jax ↔ ∃ s, env = some s ∧ Reads s "jax" := by
    unfold initBackend
    cases env with
    | none => simp
    | some s =>
      simp only [Option.some.injEq, exists_eq_left']
      have hb := byValue_iff s .jax
      simp only [word] at hb
      split_ifs with h
      · constructor
        · intro e; cases e
        · intro e
          unfold Reads at e
          rw [h] at e
          have : "jax".toList ≠ [] := by decide +kernel
          cases hj : "jax".toList with
          | nil => exact absurd hj this
          | cons x y => rw [hj] at e; cases e
      · rw [← hb]
        cases hv : byValue (lower s) with
        | none => simp
        | some b => simp
  have hl : (start env envX64 own).loaded.backend = (initBackend env).1 := by
    simp only [start, load]
    cases (initBackend env).1 <;> rfl
  rw [computationBackend_eq, hl, ← key]
  cases (initBackend env).1 <;> simp [report]

/-- There is a warning at the start iff the variable is set to something that is neither empty nor one of the two
words. -/
theorem env_warns_iff (env : Option String) :
    (initBackend env).2 = true ↔
      ∃ s, env = some s ∧ s.toList ≠ [] ∧ ¬ Reads s "jax" ∧ ¬ Reads s "tensorflow" := by
  unfold initBackend
  cases env with
  | none => simp
  | some s =>
    simp only [Option.some.injEq, exists_eq_left']
    split_ifs with h
    · simp [h]
    · cases hv : byValue (lower s) with
      | none =>
        have := (byValue_none s).mp hv
        simp only [true_iff]
        exact ⟨h, this .jax, this .tensorflow⟩
      | some b =>
        have := (byValue_iff s b).mp hv
        simp only [Bool.false_eq_true, false_iff]
        rintro ⟨_, h1, h2⟩
        cases b
        · exact h2 this
        · exact h1 this

example : computationBackend (start (some "JAX") none false) = .jax ∧
    computationBackend (start (some "") none false) = .tensorflow ∧
    (initBackend (some "torch")) = (.tensorflow, true) := by decide +kernel

/-! ### Histories -/

theorem run_append (p : Proc) (xs ys : List Ev) : run p (xs ++ ys) = run (run p xs) ys := by
  simp [run]

/-- Without a reload of `meridian.backend`, nothing a user does changes the backend or the precision that is in
use: `set_backend` alone has no effect on them, even as the first statement of a program. -/
theorem only_reload (p : Proc) (es : List Ev) (h : Ev.reload ∉ es) :
    computationBackend (run p es) = computationBackend p ∧
    computationPrecision (run p es) = computationPrecision p := by
  have key : (run p es).loaded = p.loaded := by
    induction es generalizing p with
    | nil => rfl
    | cons e es ih =>
      have h1 : Ev.reload ∉ es := fun hh => h (by simp [hh])
      have h2 : e ≠ .reload := fun hh => h (by simp [hh])
      change (run (step p e) es).loaded = _
      rw [ih _ h1]
      cases e with
      | set a => simp only [step]; cases a.backend <;> rfl
      | reload => exact absurd rfl h2
      | x64 on => rfl
  simp only [computationBackend, computationPrecision, key, and_self]

/-- The backend `get_backend` names is the last one that was accepted. -/
theorem selected_last (p : Proc) (pre post : List Ev) (a : Arg) (b : Backend) (ha : Means a b)
    (hpost : ∀ a', Ev.set a' ∈ post → ∀ b', ¬ Means a' b') :
    (run p (pre ++ .set a :: post)).selected = b := by
  have key : ∀ (q : Proc) (es : List Ev), (∀ a', Ev.set a' ∈ es → ∀ b', ¬ Means a' b') →
      (run q es).selected = q.selected := by
    intro q es
    induction es generalizing q with
    | nil => intro _; rfl
    | cons e es ih =>
      intro h
      change (run (step q e) es).selected = _
      rw [ih _ (fun a' h' => h a' (by simp [h']))]
      cases e with
      | set a' =>
        have := (means_none a').mpr (h a' (by simp))
        simp only [step, this]
      | reload => rfl
      | x64 on => rfl
  rw [run_append]
  change (run (step (run p pre) (.set a)) post).selected = b
  rw [key _ _ hpost]
  simp only [step, (means_iff a b).mpr ha]

/-- A call that is refused (neither a backend nor one of the two words) changes nothing. -/
theorem refused_changes_nothing (p : Proc) (a : Arg) :
    (∀ b, ¬ Means a b) ↔ a.backend = none ∧ step p (.set a) = p := by
  rw [← means_none]
  constructor
  · intro h; exact ⟨h, by simp only [step, h]⟩
  · exact fun h => h.1

/-- After a reload the backend in use is the one named by `get_backend` at the time of the last reload, and the
precision is 64 bits iff that is JAX with 64 bits enabled at that time. -/
theorem after_reload (p : Proc) (pre post : List Ev) (h : Ev.reload ∉ post) :
    computationBackend (run p (pre ++ .reload :: post)) = report (run p pre).selected ∧
    computationPrecision (run p (pre ++ .reload :: post)) =
      some (if (run p pre).selected = .jax ∧ (run p pre).jaxX64 = true then .float64 else .float32) := by
  have e : run p (pre ++ .reload :: post) = run (step (run p pre) .reload) post := by
    rw [run_append]; rfl
  obtain ⟨h1, h2⟩ := only_reload (step (run p pre) .reload) post h
  rw [e, h1, h2, computationBackend_eq]
  simp only [step, computationPrecision]
  clear e h1 h2
  generalize run p pre = q
  obtain ⟨sel, x, l⟩ := q
  cases sel <;> cases x <;> simp [load, report]

example : Ev.reload ∉ [Ev.set (.str "Jax")] ∧
    computationBackend (run (start none none false) [.set (.str "Jax")]) = .tensorflow ∧
    (run (start none none false) [.set (.str "Jax")]).selected = .jax ∧
    computationBackend (run (start none none false) [.set (.str "Jax"), .reload]) = .jax := by decide +kernel

example : Means (.str "Jax") .jax := (means_iff _ _).mp (by decide +kernel)

theorem loaded_run (p : Proc) (es : List Ev) (hp : ∃ s x, p.loaded = load s x) :
    ∃ s x, (run p es).loaded = load s x := by
  induction es generalizing p with
  | nil => exact hp
  | cons e es ih =>
    change ∃ s x, (run (step p e) es).loaded = load s x
    apply ih
    cases e with
    | set a => simp only [step]; cases a.backend <;> exact hp
    | reload => exact ⟨p.selected, p.jaxX64, rfl⟩
    | x64 on => exact hp

theorem reachable_loaded {p : Proc} (h : Reachable p) : ∃ s x, p.loaded = load s x := by
  obtain ⟨env, envX64, own, es, rfl⟩ := h
  exact loaded_run _ _ ⟨_, _, rfl⟩

/-- In every process that occurs the precision is known, it is 64 bits only with JAX, and the backend is one of the
two. -/
theorem always_known {p : Proc} (h : Reachable p) :
    (computationPrecision p = some .float32 ∨
      (computationPrecision p = some .float64 ∧ computationBackend p = .jax)) ∧
    computationBackend p ≠ .unspecified := by
  obtain ⟨s, x, e⟩ := reachable_loaded h
  rw [computationBackend_eq]
  simp only [computationPrecision, e]
  cases s <;> cases x <;> simp [load, report]

example : Reachable (run (start (some "jax") (some "1") false) [.x64 false]) := ⟨_, _, _, _, rfl⟩

/-- Finding: the variable `MERIDIAN_ENABLE_JAX_X64` counts only if the variable `MERIDIAN_BACKEND` chooses JAX.  A
program that chooses JAX with `set_backend` and a reload works with 32 bits whatever the variable says. -/
theorem x64_variable_ignored (env envX64 : Option String) (es : List Ev)
    (henv : ∀ s, env = some s → ¬ Reads s "jax") (hes : ∀ on, Ev.x64 on ∉ es) :
    computationPrecision (run (start env envX64 false) es) = some .float32 := by
  have hb : (initBackend env).1 = .tensorflow := by
    have h1 := (env_jax_iff env envX64 false).1
    rw [computationBackend_eq] at h1
    have hl : (start env envX64 false).loaded.backend = (initBackend env).1 := by
      simp only [start, load]
      cases (initBackend env).1 <;> rfl
    rw [hl] at h1
    cases hi : (initBackend env).1 with
    | tensorflow => rfl
    | jax =>
      rw [hi] at h1
      obtain ⟨s, e1, e2⟩ := h1.mp rfl
      exact absurd e2 (henv s e1)
  have key : ∀ (es : List Ev) (p : Proc), (∀ on, Ev.x64 on ∉ es) → p.jaxX64 = false →
      p.loaded.defaultFloat = "float32" → (run p es).loaded.defaultFloat = "float32" := by
    intro es
    induction es with
    | nil => intro p _ _ h; exact h
    | cons e es ih =>
      intro p h hx hf
      change (run (step p e) es).loaded.defaultFloat = _
      have h' : ∀ on, Ev.x64 on ∉ es := fun on hh => h on (by simp [hh])
      cases e with
      | set a =>
        apply ih _ h'
        · simp only [step]; cases a.backend <;> exact hx
        · simp only [step]; cases a.backend <;> exact hf
      | reload =>
        apply ih _ h'
        · exact hx
        · simp only [step, hx]
          cases p.selected <;> rfl
      | x64 on => exact absurd (by simp) (h on)
  have hx : enablesX64 .tensorflow envX64 = false := by simp [enablesX64]
  have := key es (start env envX64 false) hes (by simp [start, hb, hx]) (by simp [start, hb, load])
  simp only [computationPrecision, this, if_true]

example : computationPrecision (run (start none (some "1") false) [.set (.enum .jax), .reload]) = some .float32 ∧
    computationPrecision (start (some "jax") (some "True") false) = some .float64 := by decide +kernel

/-- Finding: after the JAX setting is changed, the precision that is reported is that of the load, not the one in
which tensors are made. -/
theorem reported_precision_stale :
    let p := run (start (some "jax") none false) [.x64 true]
    computationPrecision p = some .float32 ∧
      jaxConvert p.jaxX64 (.ndarray .float64) none = (some (.array .float64), false) := by decide +kernel

/-! ### What models record -/

/-- A model made in a process, saved, and loaded in another process: there is a warning about the backend iff the two
processes have different backends, and about the precision iff they have different precisions. -/
theorem load_warns_iff {p q : Proc} (hp : Reachable p) (hq : Reachable q) :
    ∃ m w1 w2 m', newModel p = some m ∧ loadModel q (save m) = some (w1, w2, m') ∧
      (w1 = true ↔ computationBackend p ≠ computationBackend q) ∧
      (w2 = true ↔ computationPrecision p ≠ computationPrecision q) := by
  obtain ⟨h1, h2⟩ := always_known hp
  obtain ⟨h3, h4⟩ := always_known hq
  have : ∃ x, computationPrecision p = some x ∧ x ≠ .unspecified := by
    rcases h1 with h | ⟨h, _⟩ <;> exact ⟨_, h, by decide⟩
  obtain ⟨x, hx, hxu⟩ := this
  have : ∃ y, computationPrecision q = some y ∧ y ≠ .unspecified := by
    rcases h3 with h | ⟨h, _⟩ <;> exact ⟨_, h, by decide⟩
  obtain ⟨y, hy, hyu⟩ := this
  refine ⟨⟨some (computationBackend p), some x⟩,
    decide (computationBackend p ≠ .unspecified ∧ computationBackend p ≠ computationBackend q),
    decide (x ≠ .unspecified ∧ x ≠ y), ⟨some (computationBackend q), some y⟩, ?_, ?_, ?_⟩
  · simp [newModel, hx]
  · simp only [loadModel, save, newModel, hy, Option.map_some, Option.getD_some]
    rfl
  · simp [hx, hy, h2, hxu]

/-- A file of an earlier version, without the two entries, is loaded without these warnings. -/
theorem old_file_silent {q : Proc} (hq : Reachable q) (m : Mark) (h1 : m.backend = none) (h2 : m.precision = none) :
    ∃ m', loadModel q (save m) = some (false, false, m') := by
  obtain ⟨h3, _⟩ := always_known hq
  have : ∃ y, computationPrecision q = some y := by rcases h3 with h | ⟨h, _⟩ <;> exact ⟨_, h⟩
  obtain ⟨y, hy⟩ := this
  exact ⟨⟨some (computationBackend q), some y⟩, by simp [loadModel, save, newModel, hy, h1, h2]⟩

/-- Finding: a model that is loaded and saved again carries the backend and the precision of the process that
loaded it, not those it was trained with; no later load in such a process warns. -/
theorem provenance_lost {p q : Proc} (hp : Reachable p) (hq : Reachable q) :
    ∃ m w1 w2 m', newModel p = some m ∧ loadModel q (save m) = some (w1, w2, m') ∧
      newModel q = some m' ∧ loadModel q (save m') = some (false, false, m') := by
  obtain ⟨m, w1, w2, m', h1, h2, _⟩ := load_warns_iff hp hq
  have hm : newModel q = some m' := by
    cases hy : computationPrecision q with
    | none => simp [loadModel, hy] at h2
    | some y =>
      simp only [loadModel, newModel, hy, Option.map_some] at h2 ⊢
      have := Option.some.inj h2
      simp only [Prod.mk.injEq] at this
      rw [this.2.2]
  refine ⟨m, w1, w2, m', h1, h2, hm, ?_⟩
  obtain ⟨m2, v1, v2, m3, g1, g2, g3, g4⟩ := load_warns_iff hq hq
  rw [hm] at g1
  cases g1
  have hv1 : v1 = false := by cases v1 <;> simp_all
  have hv2 : v2 = false := by cases v2 <;> simp_all
  subst hv1 hv2
  have e3 : newModel q = some m3 := by
    cases hy : computationPrecision q with
    | none => simp [loadModel, hy] at g2
    | some y =>
      simp only [loadModel, newModel, hy, Option.map_some] at g2 ⊢
      have := Option.some.inj g2
      simp only [Prod.mk.injEq] at this
      rw [this.2.2]
  rw [hm] at e3
  cases e3
  exact g2

example :
    let p := start (some "jax") (some "1") false
    let q := start none none false
    (newModel p).bind (fun m => loadModel q (save m)) =
      some (true, true, ⟨some .tensorflow, some .float32⟩) := by decide +kernel

/-! ### Types -/

theorem contains_iff (n h : List Char) : contains n h = true ↔ n <:+: h := by
  induction h with
  | nil =>
    simp [contains, List.isPrefixOf_iff_prefix]
  | cons c cs ih =>
    simp only [contains, Bool.or_eq_true, List.isPrefixOf_iff_prefix, ih]
    exact (List.infix_cons_iff).symm

/-- The common type of some types is the float type in use iff "float" occurs in the name of one of them, and `int64`
otherwise; `None` does not count. -/
theorem result_type_iff {p : Proc} (hp : Reachable p) (ts : List (Option String)) :
    (resultType p ts = p.loaded.defaultFloat ↔ ∃ t, some t ∈ ts ∧ "float".toList <:+: t.toList) ∧
    (resultType p ts = p.loaded.defaultFloat ∨ resultType p ts = "int64") ∧
    (p.loaded.defaultFloat = "float32" ∨ p.loaded.defaultFloat = "float64") := by
  obtain ⟨s, x, e⟩ := reachable_loaded hp
  have hd : p.loaded.defaultFloat = "float32" ∨ p.loaded.defaultFloat = "float64" := by
    rw [e]; cases s <;> cases x <;> simp [load]
  have hne : "int64" ≠ p.loaded.defaultFloat := by
    rcases hd with h | h <;> rw [h] <;> decide +kernel
  have hany : ((ts.filterMap id).any fun t => contains "float".toList t.toList) = true ↔
      ∃ t, some t ∈ ts ∧ "float".toList <:+: t.toList := by
    rw [List.any_eq_true]
    constructor
    · rintro ⟨t, ht, hc⟩
      exact ⟨t, by simpa using ht, (contains_iff _ _).mp hc⟩
    · rintro ⟨t, ht, hc⟩
      exact ⟨t, by simpa using ht, (contains_iff _ _).mpr hc⟩
  refine ⟨?_, ?_, hd⟩
  · unfold resultType
    rw [← hany]
    split_ifs with h
    · exact ⟨fun _ => h, fun _ => rfl⟩
    · exact ⟨fun e => absurd e hne, fun e => absurd e h⟩
  · unfold resultType
    split_ifs <;> simp

/-- For the types of numpy: the float type in use iff one of them is floating.  Finding: complex numbers count as
whole numbers. -/
theorem result_type_numpy {p : Proc} (hp : Reachable p) (ts : List Np) :
    (resultType p (ts.map fun t => some t.name) = p.loaded.defaultFloat ↔ ∃ t ∈ ts, Floating t) ∧
    resultType p [some (Np.name .complex128)] = "int64" := by
  have hf : ∀ t : Np, "float".toList <:+: t.name.toList ↔ Floating t := by
    intro t
    rw [← contains_iff]
    cases t <;> simp only [Floating, iff_true, iff_false] <;> decide +kernel
  constructor
  · rw [(result_type_iff hp _).1]
    constructor
    · rintro ⟨t, ht, hc⟩
      obtain ⟨u, hu, e⟩ := List.mem_map.mp ht
      cases e
      exact ⟨u, hu, (hf u).mp hc⟩
    · rintro ⟨t, ht, hc⟩
      exact ⟨t.name, List.mem_map.mpr ⟨t, ht, rfl⟩, (hf t).mpr hc⟩
  · have : (([some (Np.name .complex128)].filterMap id).any fun t => contains "float".toList t.toList) = false := by
      decide +kernel
    unfold resultType
    rw [this]
    rfl

/-- The order of the types does not matter. -/
theorem result_type_order (p : Proc) {ts us : List (Option String)} (h : ts.Perm us) :
    resultType p ts = resultType p us := by
  unfold resultType
  have : ((ts.filterMap id).any fun t => contains "float".toList t.toList) =
      ((us.filterMap id).any fun t => contains "float".toList t.toList) :=
    (h.filterMap id).any_eq
  rw [this]

/-- A requested type is used as it is; without one the arguments decide, and arguments that are `None` do not
count. -/
theorem resolve_dtype (p : Proc) (d : String) (args : List (Option String)) :
    resolveDtype p (some d) args = d ∧
    resolveDtype p none args = resultType p args := by
  refine ⟨rfl, ?_⟩
  simp only [resolveDtype, resultType]
  have : (args.filter Option.isSome).filterMap id = args.filterMap id := by
    induction args with
    | nil => rfl
    | cons a as ih => cases a <;> simp_all
  rw [this]

example : resultType (start none none false) [some "int32", none, some "float64"] = "float32" ∧
    resultType (start (some "jax") (some "true") false) [some "float32"] = "float64" ∧
    resultType (start none none false) [some "bool"] = "int64" := by decide +kernel

/-! ### Making tensors on JAX -/

/-- Without 64 bits no tensor has a type of 64 bits, whatever is given and requested. -/
theorem no_wide (s : Src) (dtype : Option Np) (d : Np) (w : Bool)
    (h : jaxConvert false s dtype = (some (.array d), w)) : ¬ Wide d := by
  have ha : ∀ x y d, asarray false x y = some (.array d) → ¬ Wide d := by
    intro x y d h
    unfold asarray at h
    split at h
    · cases h
    · cases h
    · split_ifs at h
      simp only [Option.some.injEq, Out.array.injEq] at h
      subst h
      generalize (y.orElse fun _ => x).getD Np.int64 = d'
      cases d' <;> simp [canonical, Wide]
  unfold jaxConvert at h
  split_ifs at h
  · simp only [Prod.mk.injEq, Option.some.injEq, reduceCtorEq, false_and] at h
  · simp only [Prod.mk.injEq, Option.some.injEq, reduceCtorEq, false_and] at h
  · exact ha s.unwrapped.1 (some Np.float32) _ (congrArg Prod.fst h)
  · exact ha s.unwrapped.1 dtype _ (congrArg Prod.fst h)

/-- There is a warning iff no type is requested, 64 bits are off, and the data are 64-bit floats (arrays, wrapped
arrays, lists of them, or a Python float). -/
theorem warns_iff (x64 : Bool) (s : Src) (dtype : Option Np) :
    (jaxConvert x64 s dtype).2 = true ↔
      dtype = none ∧ x64 = false ∧
        (s = .wrapped .float64 ∨ s = .ndarray .float64 ∨ s = .jaxArray .float64 ∨ s = .list .float64 ∨
          s = .pyFloat) := by
  have hs : s.unwrapped.1 = some .float64 ↔
      (s = .wrapped .float64 ∨ s = .ndarray .float64 ∨ s = .jaxArray .float64 ∨ s = .list .float64 ∨
          s = .pyFloat) := by
    cases s <;> simp [Src.unwrapped]
  rw [← hs]
  unfold jaxConvert
  split_ifs with h1 h2 h3
  · simp [h1]
  · simp [h2.2]
  · simp [h3]
  · simp only [false_iff]
    rintro ⟨a, b, c⟩
    exact h3 ⟨a, c, b⟩

/-- With a warning the data are 32-bit floats afterwards. -/
theorem warned_single (x64 : Bool) (s : Src) (dtype : Option Np) (h : (jaxConvert x64 s dtype).2 = true) :
    (jaxConvert x64 s dtype).1 = some (.array .float32) := by
  obtain ⟨h1, h2, h3⟩ := (warns_iff x64 s dtype).mp h
  clear h
  subst h1 h2
  rcases h3 with rfl | rfl | rfl | rfl | rfl <;> decide

/-- With 64 bits, numbers keep the type they have and get the type that is requested. -/
theorem wide_kept (d e : Np) (hd : d ≠ .str ∧ d ≠ .object) (he : e ≠ .str ∧ e ≠ .object) :
    jaxConvert true (.ndarray d) none = (some (.array d), false) ∧
    jaxConvert true (.wrapped d) none = (some (.array d), false) ∧
    jaxConvert true (.list d) none = (some (.array d), false) ∧
    jaxConvert true (.ndarray d) (some e) = (some (.array e), false) := by
  cases d <;> cases e <;> first | decide | exact absurd rfl hd.1 | exact absurd rfl hd.2 | exact absurd rfl he.1 |
    exact absurd rfl he.2

/-- Names stay arrays of strings: whatever the setting, strings are kept when no type is requested, and made when
strings are requested; asked for numbers, they are refused. -/
theorem strings_kept (x64 : Bool) (s : Src) (e : Np) (he : e ≠ .str) :
    jaxConvert x64 (.ndarray .str) none = (some .strings, false) ∧
    jaxConvert x64 (.wrapped .str) none = (some .strings, false) ∧
    jaxConvert x64 (.list .str) none = (some .strings, false) ∧
    jaxConvert x64 s (some .str) = (some .strings, false) ∧
    (jaxConvert x64 (.ndarray .str) (some e)).1 = none := by
  refine ⟨by cases x64 <;> decide, by cases x64 <;> decide, by cases x64 <;> decide, by simp [jaxConvert], ?_⟩
  cases e <;> first | (cases x64 <;> decide) | exact absurd rfl he

/-- Finding: whole numbers of 64 bits are narrowed to 32 bits without the warning that floats give. -/
theorem whole_numbers_narrowed :
    jaxConvert false (.ndarray .int64) none = (some (.array .int32), false) ∧
    jaxConvert false (.ndarray .float64) none = (some (.array .float32), true) := by decide

/-! ### The container of tensors -/

section container

variable {K V : Type} [LinearOrder K]

theorem attr_some_iff (o : List (K × V)) (hn : (o.map Prod.fst).Nodup) (k : K) (v : V) :
    attr o k = some v ↔ (k, v) ∈ o := by
  induction o with
  | nil => simp [attr]
  | cons kv o ih =>
    obtain ⟨k', v'⟩ := kv
    simp only [List.map_cons, List.nodup_cons, List.mem_map, Prod.exists, exists_and_right, exists_eq_right,
      not_exists] at hn
    have ih := ih hn.2
    unfold attr at ih ⊢
    rw [List.find?_cons]
    by_cases e : k' = k
    · subst e
      simp only [decide_true, Option.map_some, Option.some.injEq, List.mem_cons, Prod.mk.injEq, true_and]
      constructor
      · intro e; exact Or.inl e.symm
      · rintro (e | e)
        · exact e.symm
        · exact absurd e (hn.1 v)
    · simp only [e, decide_false, ih, List.mem_cons, Prod.mk.injEq]
      constructor
      · exact Or.inr
      · rintro (⟨e', _⟩ | h)
        · exact absurd e'.symm e
        · exact h

theorem attr_perm {o o' : List (K × V)} (hn : (o.map Prod.fst).Nodup) (h : o.Perm o') (k : K) :
    attr o k = attr o' k := by
  have hn' : (o'.map Prod.fst).Nodup := (h.map Prod.fst).nodup_iff.mp hn
  apply Option.ext
  intro v
  rw [attr_some_iff o hn, attr_some_iff o' hn']
  exact h.mem_iff

theorem names_perm {o o' : List (K × V)} (h : o.Perm o') : names o = names o' := by
  unfold names
  apply List.Perm.eq_of_pairwise (le := (· ≤ ·))
  · intro a b _ _ h1 h2; exact le_antisymm h1 h2
  · exact List.pairwise_insertionSort _ _
  · exact List.pairwise_insertionSort _ _
  · exact ((List.perm_insertionSort _ _).trans (h.map Prod.fst)).trans (List.perm_insertionSort _ _).symm

/-- The parts of an object do not depend on the order in which its attributes were set. -/
theorem flatten_order (isStr : V → Bool) {o o' : List (K × V)} (hn : (o.map Prod.fst).Nodup) (h : o.Perm o') :
    flatten isStr o = flatten isStr o' := by
  unfold flatten
  rw [names_perm h]
  simp only [attr_perm hn h]

/-- The parts handed to JAX contain no strings. -/
theorem children_no_strings (isStr : V → Bool) (o : List (K × V)) :
    ∀ v ∈ (flatten isStr o).1, isStr v = false := by
  intro v hv
  simp only [flatten, List.mem_map, List.mem_filter] at hv
  obtain ⟨kv, ⟨_, h⟩, rfl⟩ := hv
  simpa using h

theorem attr_setAttr (o : List (K × V)) (k j : K) (v : V) :
    attr (setAttr o k v) j = if j = k then some v else attr o j := by
  unfold attr setAttr
  rw [List.find?_append]
  by_cases e : j = k
  · subst e
    have : (o.filter fun kv => decide (kv.1 ≠ j)).find? (fun kv => decide (kv.1 = j)) = none := by
      rw [List.find?_eq_none]
      intro x hx
      simp only [List.mem_filter, decide_eq_true_eq] at hx
      simpa using hx.2
    rw [this]
    simp
  · have h1 : (o.filter fun kv => decide (kv.1 ≠ k)).find? (fun kv => decide (kv.1 = j)) =
        o.find? (fun kv => decide (kv.1 = j)) := by
      induction o with
      | nil => rfl
      | cons x o ih =>
        by_cases hx : x.1 = k
        · have hj : x.1 ≠ j := fun h => e (h.symm.trans hx)
          rw [List.filter_cons_of_neg (by simpa using hx), ih, List.find?_cons_of_neg (by simpa using hj)]
        · rw [List.filter_cons_of_pos (by simpa using hx), List.find?_cons, List.find?_cons, ih]
    rw [h1]
    have h2 : ¬ (k = j) := fun h => e h.symm
    simp [e, h2]

theorem attr_foldl (kvs : List (K × V)) (hn : (kvs.map Prod.fst).Nodup) (o : List (K × V)) (k : K) :
    attr (kvs.foldl (fun o kv => setAttr o kv.1 kv.2) o) k = (attr kvs k).orElse fun _ => attr o k := by
  induction kvs generalizing o with
  | nil => simp [attr]
  | cons kv kvs ih =>
    obtain ⟨k', v'⟩ := kv
    simp only [List.map_cons, List.nodup_cons] at hn
    rw [List.foldl_cons, ih hn.2, attr_setAttr]
    by_cases e : k = k'
    · subst e
      have : attr kvs k = none := by
        cases h : attr kvs k with
        | none => rfl
        | some v =>
          have := (attr_some_iff kvs hn.2 k v).mp h
          exact absurd (List.mem_map.mpr ⟨_, this, rfl⟩) hn.1
      rw [this]
      simp [attr]
    · have e' : ¬ (k' = k) := fun h => e h.symm
      simp [attr, e, e']

/-- Taking an object apart and putting it together again gives every attribute its value; and if JAX replaces the
parts by others (values of a trace, results of a function), each attribute that is not a string has its own
replacement and each string is as before. -/
theorem roundtrip (isStr : V → Bool) (o : List (K × V)) (hn : (o.map Prod.fst).Nodup) (f : V → V) (k : K) :
    attr (unflatten (flatten isStr o).2.1 (flatten isStr o).2.2 ((flatten isStr o).1.map f)) k =
      (attr o k).map fun v => if isStr v then v else f v := by
  set kvs := (names o).filterMap fun k => (attr o k).map fun v => (k, v) with hk
  have hkeys : (kvs.map Prod.fst).Nodup := by
    have hnm : (names o).Nodup := (List.perm_insertionSort _ _).nodup_iff.mpr hn
    have hsub : (kvs.map Prod.fst).Sublist (names o) := by
      rw [hk]
      generalize names o = ns
      induction ns with
      | nil => simp
      | cons n ns ih =>
        simp only [List.filterMap_cons]
        cases attr o n with
        | none => exact ih.cons n
        | some v => exact ih.cons_cons n
    exact hsub.nodup hnm
  have hmem : ∀ k v, (k, v) ∈ kvs ↔ attr o k = some v := by
    intro k v
    rw [hk, List.mem_filterMap]
    constructor
    · rintro ⟨a, _, ha⟩
      cases h : attr o a with
      | none => simp [h] at ha
      | some u =>
        simp only [h, Option.map_some, Option.some.injEq, Prod.mk.injEq] at ha
        rw [← ha.1, h, ha.2]
    · intro h
      refine ⟨k, ?_, by simp [h]⟩
      have := (attr_some_iff o hn k v).mp h
      exact (List.mem_insertionSort _).mpr (List.mem_map.mpr ⟨_, this, rfl⟩)
  have hz : ((kvs.filter fun kv => !isStr kv.2).map Prod.fst).zip
      (((kvs.filter fun kv => !isStr kv.2).map Prod.snd).map f) =
      (kvs.filter fun kv => !isStr kv.2).map fun kv => (kv.1, f kv.2) := by
    generalize (kvs.filter fun kv => !isStr kv.2) = l
    induction l with
    | nil => rfl
    | cons x l ih => simp only [List.map_cons, List.zip_cons_cons, ih]
  have hs : ∀ q : K × V → Bool, ((kvs.filter q).map Prod.fst).Nodup := fun q =>
    ((List.filter_sublist).map Prod.fst).nodup hkeys
  have hs2 : (((kvs.filter fun kv => !isStr kv.2).map fun kv => (kv.1, f kv.2)).map Prod.fst).Nodup := by
    rw [List.map_map]
    exact hs fun kv => !isStr kv.2
  change attr (unflatten (kvs.filter fun kv => isStr kv.2) ((kvs.filter fun kv => !isStr kv.2).map Prod.fst)
    (((kvs.filter fun kv => !isStr kv.2).map Prod.snd).map f)) k = _
  unfold unflatten
  rw [hz, attr_foldl _ hs2]
  apply Option.ext
  intro w
  cases ho : attr o k with
  | none =>
    have e1 : attr ((kvs.filter fun kv => !isStr kv.2).map fun kv => (kv.1, f kv.2)) k = none := by
      cases h : attr ((kvs.filter fun kv => !isStr kv.2).map fun kv => (kv.1, f kv.2)) k with
      | none => rfl
      | some u =>
        have := (attr_some_iff _ hs2 k u).mp h
        obtain ⟨⟨a, b⟩, hab, e⟩ := List.mem_map.mp this
        simp only [Prod.mk.injEq] at e
        have h2 := (hmem a b).mp (List.mem_of_mem_filter hab)
        rw [e.1, ho] at h2
        cases h2
    have e2 : attr (kvs.filter fun kv => isStr kv.2) k = none := by
      cases h : attr (kvs.filter fun kv => isStr kv.2) k with
      | none => rfl
      | some u =>
        have := (attr_some_iff _ (hs _) k u).mp h
        have h2 := (hmem k u).mp (List.mem_of_mem_filter this)
        rw [ho] at h2
        cases h2
    rw [e1, e2]
    simp
  | some v =>
    have hv := (hmem k v).mpr ho
    cases hsv : isStr v with
    | false =>
      have e1 : attr ((kvs.filter fun kv => !isStr kv.2).map fun kv => (kv.1, f kv.2)) k = some (f v) := by
        rw [attr_some_iff _ hs2]
        exact List.mem_map.mpr ⟨(k, v), List.mem_filter.mpr ⟨hv, by simp [hsv]⟩, rfl⟩
      rw [e1]
      simp [hsv]
    | true =>
      have e1 : attr ((kvs.filter fun kv => !isStr kv.2).map fun kv => (kv.1, f kv.2)) k = none := by
        cases h : attr ((kvs.filter fun kv => !isStr kv.2).map fun kv => (kv.1, f kv.2)) k with
        | none => rfl
        | some u =>
          have := (attr_some_iff _ hs2 k u).mp h
          obtain ⟨⟨a, b⟩, hab, e⟩ := List.mem_map.mp this
          simp only [Prod.mk.injEq] at e
          have h2 := (hmem a b).mp (List.mem_of_mem_filter hab)
          rw [e.1, ho] at h2
          cases h2
          have := (List.mem_filter.mp hab).2
          simp [hsv] at this
      have e2 : attr (kvs.filter fun kv => isStr kv.2) k = some v := by
        rw [attr_some_iff _ (hs _)]
        exact List.mem_filter.mpr ⟨hv, hsv⟩
      rw [e1, e2]
      simp [hsv]

end container

example :
    let o : List (ℕ × (ℕ ⊕ Bool)) := [(7, .inl 3), (2, .inr true), (5, .inl 4)]
    let s : ℕ ⊕ Bool → Bool := Sum.isRight
    flatten s o = ([.inl 4, .inl 3], [(2, .inr true)], [5, 7]) ∧
      attr (unflatten (flatten s o).2.1 (flatten s o).2.2 ((flatten s o).1.map fun v => Sum.map (· + 10) id v)) 7 =
        some (.inl 13) ∧ (o.map Prod.fst).Nodup := by decide +kernel

end Verif.Engine.Props
