import Verif.Spec.Lifecycle
import Verif.Props.Batching
import Verif.Props.Thin

/-!
# C98: the samples of a model object come from one call of the sampler
-/

namespace Verif.Lifecycle.Props

open Verif.Lifecycle Verif.Lifecycle.Spec Verif.Batching.Spec

variable {S α δ τ P H : Type}

/-! ### Extending the samples -/

private theorem extend_prior (order : List Group) (fit : Fit δ τ) (o : Obj P H δ τ) :
    (extend order fit o).prior = o.prior ∧ (extend order fit o).full = o.full ∧
      (extend order fit o).health = o.health := by
  unfold extend
  induction order generalizing o with
  | nil => exact ⟨rfl, rfl, rfl⟩
  | cons g l ih =>
    obtain ⟨h1, h2, h3⟩ := ih (put fit o g)
    rw [List.foldl_cons]
    cases g <;> exact ⟨h1, h2, h3⟩

private theorem extend_posterior (order : List Group) (fit : Fit δ τ) (o : Obj P H δ τ) :
    (extend order fit o).posterior =
      if Group.posterior ∈ order then some fit.posterior else o.posterior := by
  unfold extend
  induction order generalizing o with
  | nil => rfl
  | cons g l ih =>
    rw [List.foldl_cons, ih]
    cases g <;> by_cases h : Group.posterior ∈ l <;> simp [put, h]

private theorem extend_trace (order : List Group) (fit : Fit δ τ) (o : Obj P H δ τ) :
    (extend order fit o).trace = if Group.trace ∈ order then some fit.trace else o.trace := by
  unfold extend
  induction order generalizing o with
  | nil => rfl
  | cons g l ih =>
    rw [List.foldl_cons, ih]
    cases g <;> by_cases h : Group.trace ∈ l <;> simp [put, h]

private theorem extend_stats (order : List Group) (fit : Fit δ τ) (o : Obj P H δ τ) :
    (extend order fit o).stats = if Group.stats ∈ order then some fit.stats else o.stats := by
  unfold extend
  induction order generalizing o with
  | nil => rfl
  | cons g l ih =>
    rw [List.foldl_cons, ih]
    cases g <;> by_cases h : Group.stats ∈ l <;> simp [put, h]

private theorem extend_complete {order : List Group} (ho : Complete order) (fit : Fit δ τ)
    (o : Obj P H δ τ) : extend order fit o =
      { o with posterior := some fit.posterior, trace := some fit.trace,
               stats := some fit.stats } := by
  obtain ⟨h1, h2, h3⟩ := extend_prior order fit o
  have h4 := extend_posterior order fit o
  have h5 := extend_trace order fit o
  have h6 := extend_stats order fit o
  rw [if_pos (ho _)] at h4 h5 h6
  cases he : extend order fit o
  rw [he] at h1 h2 h3 h4 h5 h6
  simp_all

private theorem final_extend (order : List Group) (fit : Fit δ τ) (o : Obj P H δ τ) :
    final o (extendStates order fit o) = extend order fit o := by
  unfold final extendStates
  rw [List.getLastD_eq_getLast?, List.getLast?_map]
  have : order.inits.getLast? = some order := by
    rw [List.getLast?_eq_getElem?, List.length_inits]
    simp
  rw [this]
  rfl

/-- The object after a call of `sample_posterior`. -/
theorem final_samplePosterior {order : List Group} (ho : Complete order) (w : World S α δ τ)
    (c : Call) (o : Obj P H δ τ) :
    (∃ fit, w.criticalIssue = false ∧ sampler w c = .ok fit ∧
      (samplePosterior w order c o).2 = .ok () ∧
      final o (samplePosterior w order c o).1 =
        { o with posterior := some fit.posterior, trace := some fit.trace,
                 stats := some fit.stats }) ∨
    (¬ Succeeds w c ∧ (∃ e, (samplePosterior w order c o).2 = .error e) ∧
      (samplePosterior w order c o).1 = [o]) := by
  unfold samplePosterior Succeeds
  cases hw : w.criticalIssue with
  | true => exact .inr ⟨by simp, ⟨_, rfl⟩, rfl⟩
  | false =>
    cases hs : sampler w c with
    | error e => exact .inr ⟨by simp, ⟨_, rfl⟩, rfl⟩
    | ok fit =>
      refine .inl ⟨fit, rfl, rfl, rfl, ?_⟩
      simp only [Bool.false_eq_true, if_false]
      rw [final_extend, extend_complete ho]

/-- **C98.** A call of `sample_posterior` that fails - because of the checks of the data, the
arguments, the kernel at any batch of chains, or the memory for the reconstruction - leaves the
object as it was. -/
theorem failure_changes_nothing (w : World S α δ τ) (order : List Group) (c : Call)
    (o : Obj P H δ τ) {e : Err} (h : (samplePosterior w order c o).2 = .error e) :
    (samplePosterior w order c o).1 = [o] := by
  unfold samplePosterior at h ⊢
  split_ifs at h ⊢
  · rfl
  · cases hs : sampler w c with
    | error e => rfl
    | ok fit =>
      rw [hs] at h
      cases h

/-- **C98.** Nor does prior sampling or a review that fails, for whatever reason, or a fit with review whose fit
fails; a fit with review whose review fails leaves the object as after the fit. -/
theorem failed_calls_change_nothing (o : Obj P H δ τ) :
    (∀ (d : Except Err P) (e : Err), (samplePrior d o).2 = .error e → (samplePrior d o).1 = o) ∧
    (∀ (checks : Thin.Posterior ℚ δ → Except Err H) (e : Err),
      (review checks o).2 = .error e → (review checks o).1 = o) ∧
    (∀ (w : World S α δ τ) (order : List Group) (c : Call) (checks : Thin.Posterior ℚ δ → Except Err H) (e : Err),
      (sampleAndReview w order c checks o).2 = .error e →
      (sampleAndReview w order c checks o).1 =
        if (samplePosterior w order c o).2 = .ok () then final o (samplePosterior w order c o).1 else o) := by
  have key : ∀ (o : Obj P H δ τ) (checks : Thin.Posterior ℚ δ → Except Err H) (e : Err),
      (review checks o).2 = .error e → (review checks o).1 = o := by
    intro o checks e h
    unfold review at h ⊢
    cases hp : o.posterior with
    | none => rfl
    | some p =>
      rw [hp] at h
      simp only at h ⊢
      cases hc : checks p with
      | error e => rfl
      | ok s =>
        rw [hc] at h
        cases h
  refine ⟨?_, key o, ?_⟩
  · intro d e h
    cases d with
    | error e => rfl
    | ok p => cases h
  · intro w order c checks e h
    unfold sampleAndReview at h ⊢
    rcases hsp : samplePosterior w order c o with ⟨l, e' | u⟩
    · have := failure_changes_nothing w order c o (e := e') (by rw [hsp])
      rw [hsp] at this
      simp only at this
      subst this
      simp [final]
    · rw [hsp] at h
      simp only [if_true]
      exact key _ checks e h

/-- **C98.** The call succeeds or fails whatever the object holds. -/
theorem success_independent (w : World S α δ τ) (order : List Group) (c : Call)
    (o : Obj P H δ τ) : (samplePosterior w order c o).2 = .ok () ↔ Succeeds w c := by
  unfold samplePosterior Succeeds
  cases hw : w.criticalIssue with
  | true => simp
  | false => cases hs : sampler w c <;> simp

/-- **C98.** In each state the object passes through during a call, and so after an interruption at
any moment, the prior samples, the preserved posterior and the review are the old ones, and each of
the posterior, the trace and the statistics is wholly the old or wholly the new one. -/
theorem interrupted (w : World S α δ τ) (order : List Group) (c : Call) (o s : Obj P H δ τ)
    (hs : s ∈ (samplePosterior w order c o).1) :
    s.prior = o.prior ∧ s.full = o.full ∧ s.health = o.health ∧
    (s = o ∨ ∃ fit, sampler w c = .ok fit ∧
      (s.posterior = o.posterior ∨ s.posterior = some fit.posterior) ∧
      (s.trace = o.trace ∨ s.trace = some fit.trace) ∧
      (s.stats = o.stats ∨ s.stats = some fit.stats)) := by
  unfold samplePosterior at hs
  split_ifs at hs
  · obtain rfl := List.mem_singleton.1 hs
    exact ⟨rfl, rfl, rfl, .inl rfl⟩
  · cases hf : sampler w c with
    | error e =>
      rw [hf] at hs
      obtain rfl := List.mem_singleton.1 hs
      exact ⟨rfl, rfl, rfl, .inl rfl⟩
    | ok fit =>
      rw [hf] at hs
      obtain ⟨l, -, rfl⟩ := List.mem_map.1 hs
      obtain ⟨h1, h2, h3⟩ := extend_prior l fit o
      refine ⟨h1, h2, h3, .inr ⟨fit, rfl, ?_, ?_, ?_⟩⟩
      · rw [extend_posterior]
        split_ifs <;> simp
      · rw [extend_trace]
        split_ifs <;> simp
      · rw [extend_stats]
        split_ifs <;> simp

/-! ### What a call writes -/

private theorem batches_ok (w : World S α δ τ) (draws : ℕ) : ∀ (ns : List ℕ) (h : Handler S)
    (outs : List (ℕ × Output α τ)), batches w draws ns h = .ok outs →
    outs.map Prod.fst = ns ∧
      ∀ i p, outs[i]? = some p → w.kernel p.1 draws (batchSeed w.rng h i) = .ok p.2
  | [], h, outs, e => by
    simp only [batches] at e
    cases e
    exact ⟨rfl, by simp⟩
  | n :: ns, h, outs, e => by
    simp only [batches] at e
    cases hk : w.kernel n draws (kernelSeed w.rng h) with
    | error e' =>
      rw [hk] at e
      cases e
    | ok out =>
      rw [hk] at e
      simp only at e
      cases hb : batches w draws ns (advance w.rng h) with
      | error e' =>
        rw [hb] at e
        cases e
      | ok outs' =>
        rw [hb] at e
        cases e
        obtain ⟨h1, h2⟩ := batches_ok w draws ns _ outs' hb
        refine ⟨by simp [h1], ?_⟩
        intro i p hi
        cases i with
        | zero =>
          simp only [List.getElem?_cons_zero, Option.some.injEq] at hi
          subst hi
          exact hk
        | succ i =>
          rw [List.getElem?_cons_succ] at hi
          have := h2 i p hi
          rwa [batchSeed, ← Function.iterate_succ_apply] at this

private theorem sampler_ok {w : World S α δ τ} {c : Call} {fit : Fit δ τ}
    (h : sampler w c = .ok fit) : ∃ hd outs latents f, 1 ≤ c.batchSize ∧
      handler w.rng w.isJax w.fresh c.seed = .ok hd ∧
      batches w (c.burnin + c.keep) c.nChains hd = .ok outs ∧
      Batching.allLatents c.burnin (outs.map fun p => p.2.run) = .ok latents ∧
      w.reconstruct = some f ∧
      fit = ⟨⟨latents.map (List.map f), c.keep, none⟩,
        Batching.traceMetric c.burnin (outs.map fun p => (p.1, p.2.trace)),
        Batching.traceMetric c.burnin (outs.map fun p => (p.1, p.2.trace))⟩ := by
  unfold sampler at h
  split_ifs at h with hb
  cases hh : handler w.rng w.isJax w.fresh c.seed with
  | error e => rw [hh] at h; cases h
  | ok hd =>
    rw [hh] at h
    simp only at h
    cases ho : batches w (c.burnin + c.keep) c.nChains hd with
    | error e => rw [ho] at h; cases h
    | ok outs =>
      rw [ho] at h
      simp only at h
      cases hl : Batching.allLatents c.burnin (outs.map fun p => p.2.run) with
      | error e => rw [hl] at h; cases h
      | ok latents =>
        rw [hl] at h
        simp only at h
        cases hr : w.reconstruct with
        | none => rw [hr] at h; cases h
        | some f =>
          rw [hr] at h
          cases h
          exact ⟨hd, outs, latents, f, not_lt.1 hb, rfl, ho, hl, rfl, rfl⟩

private theorem entry_map (f : α → δ) (x : List (List α)) (c d : ℕ) :
    entry (x.map (List.map f)) c d = (entry x c d).map f := by
  unfold entry
  rw [List.getElem?_map]
  cases x[c]? with
  | none => rfl
  | some l => simp

/-- **C98.** A successful call writes a posterior with the given number of draws for all chains of
all batches, in the order of the batches.  Draw `d` of a chain is computed from draw `burnin + d` of
that chain in the call of the kernel for its batch, with the seed of that batch; the trace and the
statistics at the same chain and draw are those of the same draw of that call. -/
theorem call_writes {w : World S α δ τ} (hw : Honest w) {order : List Group}
    (ho : Complete order) {c : Call} {o : Obj P H δ τ}
    (hok : (samplePosterior w order c o).2 = .ok ()) :
    ∃ hd f p tr, handler w.rng w.isJax w.fresh c.seed = .ok hd ∧ w.reconstruct = some f ∧
      (final o (samplePosterior w order c o).1).posterior = some p ∧
      (final o (samplePosterior w order c o).1).trace = some tr ∧
      (final o (samplePosterior w order c o).1).stats = some tr ∧
      p.attrs = none ∧ p.nDraws = c.keep ∧ Shape c.nChains.sum c.keep p.chains ∧
      Shape c.nChains.sum c.keep tr ∧
      ∀ (i n : ℕ), c.nChains[i]? = some n → ∃ out,
        w.kernel n (c.burnin + c.keep) (batchSeed w.rng hd i) = .ok out ∧
        ∀ j < n, ∀ d,
          entry p.chains ((c.nChains.take i).sum + j) d =
            (entry out.run.rows (c.burnin + d) j).map f ∧
          entry tr ((c.nChains.take i).sum + j) d = traceAt out.trace (c.burnin + d) j := by
  rcases final_samplePosterior ho w c o with ⟨fit, -, hs, -, hf⟩ | ⟨-, ⟨e, he⟩, -⟩
  swap
  · rw [hok] at he
    cases he
  obtain ⟨hd, outs, latents, f, -, h1, h2, h3, h4, rfl⟩ := sampler_ok hs
  obtain ⟨b1, b2⟩ := batches_ok w _ _ _ _ h2
  have hout : ∀ p ∈ outs, p.2.run.chains = p.1 ∧ p.2.run.rows.length = c.burnin + c.keep ∧
      (∀ r ∈ p.2.run.rows, r.length = p.1) ∧
      match p.2.trace with
      | .perDraw x => x.length = c.burnin + c.keep
      | .perChain x => x.length = c.burnin + c.keep ∧ ∀ y ∈ x, y.length = p.1 := by
    intro p hp
    obtain ⟨i, hi⟩ := List.mem_iff_getElem?.1 hp
    exact hw _ _ _ _ (b2 i p hi)
  have hne : outs.map (fun p => p.2.run) ≠ [] := by
    intro hn
    rw [hn] at h3
    cases h3
  have hchains : (outs.map fun p => p.2.run).map Batching.Run.chains = c.nChains := by
    rw [← b1, List.map_map]
    exact List.map_congr_left fun p hp => (hout p hp).1
  obtain ⟨out', e', hshape, hentry⟩ := Batching.Props.chain_batches (burnin := c.burnin)
    (keep := c.keep) hne (by
      intro r hr
      obtain ⟨p, hp, rfl⟩ := List.mem_map.1 hr
      obtain ⟨q1, q2, q3, -⟩ := hout p hp
      exact ⟨q2, fun x hx => by rw [q3 x hx, q1]⟩)
  rw [h3] at e'
  cases e'
  obtain ⟨tshape, tentry⟩ := Batching.Props.trace_aligned (burnin := c.burnin) (keep := c.keep)
    (l := outs.map fun p => (p.1, p.2.trace)) (by
      intro q hq
      obtain ⟨p, hp, rfl⟩ := List.mem_map.1 hq
      exact (hout p hp).2.2.2)
  have htr : (outs.map fun p => (p.1, p.2.trace)).map Prod.fst = c.nChains := by
    rw [← b1, List.map_map]
    rfl
  rw [hchains] at hshape
  rw [htr] at tshape
  refine ⟨hd, f, ⟨latents.map (List.map f), c.keep, none⟩, _, h1, h4, by rw [hf], by rw [hf],
    by rw [hf], rfl, rfl, ?_, tshape, ?_⟩
  · refine ⟨by simpa using hshape.1, ?_⟩
    intro l hl
    obtain ⟨l', hl', rfl⟩ := List.mem_map.1 hl
    simpa using hshape.2 l' hl'
  · intro i n hi
    have hn : (outs[i]?).map Prod.fst = some n := by
      rw [← List.getElem?_map, b1, hi]
    cases hp : outs[i]? with
    | none => simp [hp] at hn
    | some p =>
      rw [hp] at hn
      simp only [Option.map_some, Option.some.injEq] at hn
      subst hn
      have htake : ((outs.map fun p => p.2.run).take i).map Batching.Run.chains =
          c.nChains.take i := by
        rw [List.map_take, hchains]
      have htake' : ((outs.map fun p => (p.1, p.2.trace)).take i).map Prod.fst =
          c.nChains.take i := by
        rw [← htr, List.map_take]
      refine ⟨p.2, b2 i p hp, fun j hj d => ⟨?_, ?_⟩⟩
      · rw [entry_map]
        have := hentry i p.2.run (by simp [hp]) j (by
          rwa [(hout p (List.mem_of_getElem? hp)).1]) d
        rw [htake] at this
        rw [this]
      · have := tentry i (p.1, p.2.trace) (by simp [hp]) j hj d
        rw [htake'] at this
        rw [this]
        cases p.2.trace <;> rfl

/-- **C98.** What a call writes does not depend on what was sampled before. -/
theorem call_reproducible (w : World S α δ τ) {order order' : List Group} (ho : Complete order)
    (ho' : Complete order') (c : Call) (o o' : Obj P H δ τ)
    (hok : (samplePosterior w order c o).2 = .ok ()) :
    (final o (samplePosterior w order c o).1).posterior =
        (final o' (samplePosterior w order' c o').1).posterior ∧
      (final o (samplePosterior w order c o).1).trace =
        (final o' (samplePosterior w order' c o').1).trace ∧
      (final o (samplePosterior w order c o).1).stats =
        (final o' (samplePosterior w order' c o').1).stats := by
  rcases final_samplePosterior ho w c o with ⟨fit, a1, a2, -, a3⟩ | ⟨-, ⟨e, he⟩, -⟩
  swap
  · rw [hok] at he
    cases he
  rcases final_samplePosterior ho' w c o' with ⟨fit', -, b2, -, b3⟩ | ⟨hn, -, -⟩
  · rw [a2] at b2
    cases b2
    rw [a3, b3]
    exact ⟨rfl, rfl, rfl⟩
  · exact absurd ⟨a1, fit, a2⟩ hn

/-! ### Histories -/

private theorem review_samples (f : Thin.Posterior ℚ δ → Except Err H) (o : Obj P H δ τ) :
    (review f o).1.posterior = o.posterior ∧ (review f o).1.trace = o.trace ∧
      (review f o).1.stats = o.stats ∧ (review f o).1.prior = o.prior ∧
      (review f o).1.full = o.full := by
  unfold review
  split
  · exact ⟨rfl, rfl, rfl, rfl, rfl⟩
  · split <;> exact ⟨rfl, rfl, rfl, rfl, rfl⟩

private theorem step_samples (o : Obj P H δ τ) (op : Op S P H α δ τ) (hc : AllComplete [op]) :
    ((step o op).posterior, (step o op).trace, (step o op).stats) =
      match Fits op with
      | some fit => (some fit.posterior, some fit.trace, some fit.stats)
      | none => (o.posterior, o.trace, o.stats) := by
  have hc := hc op (List.mem_singleton.2 rfl)
  have key : ∀ (w : World S α δ τ) (order : List Group) (c : Call), Complete order →
      ((final o (samplePosterior w order c o).1).posterior,
        (final o (samplePosterior w order c o).1).trace,
        (final o (samplePosterior w order c o).1).stats) =
      match (if w.criticalIssue then none else (sampler w c).toOption) with
      | some fit => (some fit.posterior, some fit.trace, some fit.stats)
      | none => (o.posterior, o.trace, o.stats) := by
    intro w order c ho
    rcases final_samplePosterior ho w c o with ⟨fit, h1, h2, -, h3⟩ | ⟨hn, -, h3⟩
    · rw [h3, h1, h2]
      rfl
    · rw [h3]
      have : (if w.criticalIssue then none else (sampler w c).toOption) = none := by
        unfold Succeeds at hn
        cases hw : w.criticalIssue with
        | true => rfl
        | false =>
          cases hs : sampler w c with
          | error e => rfl
          | ok fit => exact absurd ⟨hw, fit, hs⟩ hn
      rw [this]
      rfl
  cases op with
  | prior d =>
    simp only [step, samplePrior, Fits]
    cases d <;> rfl
  | posterior w order c => exact key w order c hc
  | review f =>
    obtain ⟨h1, h2, h3, -⟩ := review_samples f o
    simp only [step, Fits, h1, h2, h3]
  | both w order c f =>
    have h := key w order c hc
    simp only [step, sampleAndReview, Fits]
    rcases hsp : samplePosterior w order c o with ⟨l, e | u⟩
    · rw [hsp] at h
      exact h
    · rw [hsp] at h
      obtain ⟨h1, h2, h3, -⟩ := review_samples f (final o l)
      simp only [h1, h2, h3]
      exact h

/-- **C98.** After any history of prior and posterior sampling and reviews, successful or not, the
posterior, the trace and the statistics are those of the last successful fit, all three together;
there are none if no fit has succeeded. -/
theorem samples_of_last_fit (h : List (Op S P H α δ τ)) (hc : AllComplete h) :
    (run new h).posterior = (lastFit h).map Fit.posterior ∧
      (run new h).trace = (lastFit h).map Fit.trace ∧
      (run new h).stats = (lastFit h).map Fit.stats := by
  induction h using List.reverseRecOn with
  | nil => exact ⟨rfl, rfl, rfl⟩
  | append_singleton h op ih =>
    obtain ⟨i1, i2, i3⟩ := ih fun o ho => hc o (by simp [ho])
    have hs := step_samples (run new h) op fun o ho => hc o (by
      rw [List.mem_singleton] at ho
      simp [ho])
    have hr : run new (h ++ [op]) = step (run new h) op := by
      unfold run
      rw [List.foldl_append]
      rfl
    rw [hr]
    have hl : lastFit (h ++ [op]) = (Fits op).or (lastFit h) := by
      unfold lastFit
      rw [List.filterMap_append, List.getLast?_append]
      cases hop : Fits op <;> simp [hop]
    rw [hl]
    simp only [Prod.ext_iff] at hs
    cases hop : Fits op with
    | none =>
      rw [hop] at hs
      exact ⟨hs.1.trans i1, hs.2.1.trans i2, hs.2.2.trans i3⟩
    | some fit =>
      rw [hop] at hs
      exact ⟨hs.1, hs.2.1, hs.2.2⟩

/-- **C98.** Sampling the posterior never changes the prior samples; sampling the prior changes
nothing else. -/
theorem groups_apart (w : World S α δ τ) (order : List Group) (c : Call) (d : Except Err P)
    (o : Obj P H δ τ) :
    (final o (samplePosterior w order c o).1).prior = o.prior ∧
      (samplePrior d o).1 = { o with prior := (samplePrior d o).1.prior } ∧
      (∀ p, d = .ok p → (samplePrior d o).1.prior = some p) := by
  refine ⟨?_, ?_, ?_⟩
  · unfold samplePosterior
    split_ifs
    · rfl
    · cases hs : sampler w c with
      | error e => rfl
      | ok fit =>
        simp only
        rw [final_extend]
        exact (extend_prior order fit o).1
  · cases d <;> rfl
  · rintro p rfl
    rfl

/-- **C98.** After a successful review, alone or with the fit, the stored summary is that of the
posterior the object holds. -/
theorem review_current (checks : Thin.Posterior ℚ δ → Except Err H) (o : Obj P H δ τ) {s : H} :
    ((review checks o).2 = .ok s → ∃ p, (review checks o).1.posterior = some p ∧
      checks p = .ok s ∧ (review checks o).1.health = some s) ∧
    ∀ (w : World S α δ τ) (order : List Group) (c : Call),
      (sampleAndReview w order c checks o).2 = .ok s →
      ∃ p, (sampleAndReview w order c checks o).1.posterior = some p ∧ checks p = .ok s ∧
        (sampleAndReview w order c checks o).1.health = some s := by
  have key : ∀ o : Obj P H δ τ, (review checks o).2 = .ok s →
      ∃ p, (review checks o).1.posterior = some p ∧
      checks p = .ok s ∧ (review checks o).1.health = some s := by
    intro o h
    unfold review at h ⊢
    cases hp : o.posterior with
    | none =>
      rw [hp] at h
      cases h
    | some p =>
      rw [hp] at h
      simp only at h ⊢
      cases hc : checks p with
      | error e =>
        rw [hc] at h
        cases h
      | ok s' =>
        rw [hc] at h
        cases h
        exact ⟨p, rfl, hc, rfl⟩
  refine ⟨key o, ?_⟩
  intro w order c h
  unfold sampleAndReview at h ⊢
  rcases hsp : samplePosterior w order c o with ⟨l, e | u⟩
  · rw [hsp] at h
    cases h
  · rw [hsp] at h
    exact key _ h

/-- **C98, not so after a new fit.** The summary of a review stays when the model is fitted again:
it is then that of a posterior the object no longer holds. -/
theorem refit_keeps_old_review (checks : Thin.Posterior ℚ δ → Except Err H) (o : Obj P H δ τ) {s : H}
    (h : (review checks o).2 = .ok s) (w : World S α δ τ) (order : List Group) (c : Call) :
    (final (review checks o).1 (samplePosterior w order c (review checks o).1).1).health =
      some s := by
  obtain ⟨p, -, -, hh⟩ := (review_current (S := S) (α := α) checks o).1 h
  rw [← hh]
  unfold samplePosterior
  split_ifs
  · rfl
  · cases hs : sampler w c with
    | error e => rfl
    | ok fit =>
      simp only
      rw [final_extend]
      exact (extend_prior order fit _).2.2

/-! ### Demonstration -/

/-- A generator for which a seed is the list of the splits that led to it. -/
def tree : Rng (ℤ × List Bool) :=
  { sanitize := fun p => (p.1, []), prngKey := fun z => (z, []), ofPair := fun p => (p.1, [])
    split := fun s => ((s.1, s.2 ++ [true]), (s.1, s.2 ++ [false])), randint := fun s => s.1 + 1 }

/-- A kernel whose draw `d` of chain `j` is `10 d + j`, and whose trace is the number of the draw. -/
def demoWorld : World (ℤ × List Bool) ℕ ℕ ℕ :=
  { rng := tree, isJax := false, fresh := 0
    kernel := fun n draws _ => .ok ⟨⟨n, (List.range draws).map fun d =>
      (List.range n).map fun j => 10 * d + j⟩, .perDraw (List.range draws)⟩
    reconstruct := some (· + 100), criticalIssue := false }

def demoCall : Call := ⟨[2, 1], 1, 3, .int 5, 4⟩

theorem demo_honest : Honest demoWorld := by
  intro n draws s out h
  cases h
  simp

def demoOrder : List Group := [.posterior, .stats, .trace]

theorem demoOrder_complete : Complete demoOrder := by
  intro g
  cases g <;> decide

example : (samplePosterior demoWorld demoOrder demoCall (new (P := Unit) (H := Unit))).2 =
    .ok () := by decide +kernel

example : ((final new (samplePosterior demoWorld demoOrder demoCall
      (new (P := Unit) (H := Unit))).1).posterior).map Thin.Posterior.chains =
    some [[110, 120, 130], [111, 121, 131], [110, 120, 130]] := by decide +kernel

/-- **C98, not so after thinning.** The trace and the statistics keep all draws of the fit and their
labels, while the kept draws of the posterior are numbered from zero: the same number then stands
for different draws. -/
theorem thinning_misaligns : ∃ (w : World (ℤ × List Bool) ℕ ℕ ℕ) (c : Call) (a : Thin.Args ℚ)
    (u : ℕ → ℚ) (p q : Thin.Posterior ℚ ℕ) (tr : List (List ℕ)),
    let o := final (new (P := Unit) (H := Unit))
      (samplePosterior w demoOrder c (new (P := Unit) (H := Unit))).1
    Honest w ∧ o.posterior = some p ∧ o.stats = some tr ∧
    (thin a u o).posterior = some q ∧ (thin a u o).stats = some tr ∧
    entry p.chains 0 1 = some 120 ∧ entry tr 0 1 = some 2 ∧
    entry q.chains 0 1 = some 130 ∧ entry p.chains 0 2 = some 130 ∧ entry tr 0 2 = some 3 := by
  refine ⟨demoWorld, ⟨[1], 1, 4, .int 5, 4⟩, ⟨none, some 2, true, true⟩, fun _ => 0,
    ⟨[[110, 120, 130, 140]], 4, none⟩, ⟨[[110, 130]], 2, some ⟨1/2, 1, 4, 2⟩⟩, [[1, 2, 3, 4]],
    demo_honest, ?_, ?_, ?_, ?_, ?_⟩
  · decide +kernel
  · decide +kernel
  · decide +kernel
  · decide +kernel
  · decide +kernel

/-! ### Seeds -/

/-- **C98.** A seed is refused exactly if it is a sequence that does not have two numbers; without a
seed TensorFlow gets none. -/
theorem seed_accepted_iff (rng : Rng S) (isJax : Bool) (fresh : ℤ) (s : SeedArg) :
    (∃ h, handler rng isJax fresh s = .ok h) ↔ ∀ l, s = .seq l → l.length = 2 := by
  match s with
  | .none => cases isJax <;> simp [handler]
  | .int z => cases isJax <;> simp [handler]
  | .seq [] => simp [handler]
  | .seq [a] => simp [handler]
  | .seq [a, b] => cases isJax <;> simp [handler]
  | .seq (a :: b :: c :: l) => simp [handler]

/-- **C98 (what a seed means).**  With TensorFlow an integer gives the samples of the pair of it with itself; with JAX,
no seed gives those of the number drawn. -/
theorem seed_meaning (w : World S α δ τ) (c : Call) (z : ℤ) :
    (w.isJax = false → sampler w { c with seed := .int z } = sampler w { c with seed := .seq [z, z] }) ∧
    (w.isJax = true → sampler w { c with seed := .none } = sampler w { c with seed := .int w.fresh }) := by
  refine ⟨fun h => ?_, fun h => ?_⟩ <;> · unfold sampler; simp only [handler, h]; rfl

private theorem descend_append (rng : Rng S) (s : S) (p q : List Bool) :
    descend rng s (p ++ q) = descend rng (descend rng s p) q := by
  induction p generalizing s with
  | nil => rfl
  | cons b p ih => exact ih _

private theorem advance_tf (rng : Rng S) (s : S) (i : ℕ) :
    (advance rng)^[i] (.tf (some s)) = .tf (some (descend rng s (List.replicate i true))) := by
  induction i generalizing s with
  | zero => rfl
  | succ i ih =>
    rw [Function.iterate_succ_apply]
    exact ih _

/-- **C98.** With a seed on TensorFlow and an ideal generator, the batches of chains get different
seeds, and none of them is a seed drawn for the reconstruction that follows. -/
theorem batch_seeds_distinct {rng : Rng S} (hi : Ideal rng) (s : S) (n : ℕ) :
    (∀ i j, batchSeed rng (.tf (some s)) i = batchSeed rng (.tf (some s)) j → i = j) ∧
    ∀ i < n, ∀ m, ∀ x ∈ nextSeeds rng m ((advance rng)^[n] (.tf (some s))),
      ∀ y, x = some y → batchSeed rng (.tf (some s)) i ≠ .state y := by
  have hb : ∀ i, batchSeed rng (.tf (some s)) i =
      .state (descend rng s (List.replicate i true)) := by
    intro i
    rw [batchSeed, advance_tf]
    rfl
  have hnext : ∀ m (t : S), ∀ x ∈ nextSeeds rng m (.tf (some t)), ∃ k,
      x = some (descend rng t (List.replicate k false ++ [true])) := by
    intro m
    induction m with
    | zero =>
      intro t x hx
      cases hx
    | succ m ih =>
      intro t x hx
      rcases List.mem_cons.1 hx with rfl | hx
      · exact ⟨0, rfl⟩
      · obtain ⟨k, hk⟩ := ih _ x hx
        exact ⟨k + 1, hk⟩
  constructor
  · intro i j h
    rw [hb, hb] at h
    have := hi s _ _ (KSeed.state.inj h)
    simpa using congrArg List.length this
  · intro i hin m x hx y hy h
    rw [advance_tf] at hx
    obtain ⟨k, hk⟩ := hnext m _ x hx
    rw [hb] at h
    have h := KSeed.state.inj h
    subst hy
    rw [Option.some.inj hk, ← descend_append] at h
    have := congrArg List.length (hi s _ _ h)
    simp at this
    omega

/-- **C98.** With a seed and an ideal generator, no two draws of the prior sampler share a seed. -/
theorem prior_seeds_distinct {rng : Rng S} (hi : Ideal rng) (h : Handler S)
    (hs : h ≠ .tf none) (n : ℕ) : (nextSeeds rng n h).Nodup := by
  have main : ∀ (b : Bool) (mk : S → Handler S), (∀ t, nextSeed rng (mk t) =
      (some (descend rng t [b]), mk (descend rng t [!b]))) → ∀ n t,
      (nextSeeds rng n (mk t)).Nodup ∧ ∀ x ∈ nextSeeds rng n (mk t), ∃ k,
        x = some (descend rng t (List.replicate k (!b) ++ [b])) := by
    intro b mk hmk n
    induction n with
    | zero => exact fun t => ⟨List.nodup_nil, by simp [nextSeeds]⟩
    | succ n ih =>
      intro t
      obtain ⟨i1, i2⟩ := ih (descend rng t [!b])
      have hcons : nextSeeds rng (n + 1) (mk t) = some (descend rng t [b]) ::
          nextSeeds rng n (mk (descend rng t [!b])) := by
        rw [nextSeeds, hmk]
      rw [hcons]
      refine ⟨List.nodup_cons.2 ⟨?_, i1⟩, ?_⟩
      · intro hm
        obtain ⟨k, hk⟩ := i2 _ hm
        rw [← descend_append] at hk
        have := hi t _ _ (Option.some.inj hk)
        simp at this
      · intro x hx
        rcases List.mem_cons.1 hx with rfl | hx
        · exact ⟨0, rfl⟩
        · obtain ⟨k, hk⟩ := i2 x hx
          refine ⟨k + 1, ?_⟩
          rw [hk, ← descend_append]
          rfl
  match h, hs with
  | .tf none, hs => exact absurd rfl hs
  | .tf (some s), _ => exact (main true (fun t => .tf (some t)) (fun t => rfl) n s).1
  | .jax k, _ => exact (main false .jax (fun t => rfl) n k).1

theorem tree_ideal : Ideal tree := by
  have : ∀ p (s : ℤ × List Bool), descend tree s p = (s.1, s.2 ++ p) := by
    intro p
    induction p with
    | nil => simp [descend]
    | cons b p ih =>
      intro s
      rw [descend, ih]
      cases b <;> simp [tree]
  intro s p q h
  rw [this, this] at h
  simpa using h

/-- **C98, a limit.** The seed of a batch of chains is determined by that of the batch before: on
TensorFlow it is the first part of its split, and on JAX the key of the handler is from then on the
very key that the kernel of the batch before made from its seed. -/
theorem next_seed_from_previous (rng : Rng S) (i : ℕ) :
    (∀ s : S, ∃ t, batchSeed rng (.tf (some s)) i = .state t ∧
      batchSeed rng (.tf (some s)) (i + 1) = .state (rng.split t).1) ∧
    ∀ k : S, ∃ z, batchSeed rng (.jax k) i = .int z ∧
      (advance rng)^[i + 1] (.jax k) = .jax (rng.prngKey z) := by
  constructor
  · intro s
    refine ⟨descend rng s (List.replicate i true), by rw [batchSeed, advance_tf]; rfl, ?_⟩
    rw [batchSeed, advance_tf, List.replicate_succ', descend_append]
    rfl
  · intro k
    have hj : ∃ k', (advance rng)^[i] (.jax k) = .jax k' := by
      induction i generalizing k with
      | zero => exact ⟨k, rfl⟩
      | succ i ih =>
        rw [Function.iterate_succ_apply]
        exact ih _
    obtain ⟨k', hk'⟩ := hj
    refine ⟨rng.randint (rng.split k').2, by rw [batchSeed, hk']; rfl, ?_⟩
    rw [Function.iterate_succ_apply', hk']
    rfl

end Verif.Lifecycle.Props
