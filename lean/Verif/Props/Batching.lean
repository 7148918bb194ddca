import Verif.Lemmas.Batching
import Verif.Model.Mmm

/-!
# Batches never change results (C34)
-/

namespace Verif.Batching.Props

open Verif.Batching Spec

variable {α β σ : Type*}

/-! ## Batches of the analyzer -/

/-- A group with two parameters, one chain, three draws. -/
def demoStore : Store ℕ := [("a", [[1, 2, 3]]), ("b", [[10, 20, 30]]), ("c", [[7, 7, 7]])]

theorem block_entry (f : ℕ → ℕ → β) {nC n c d : ℕ} (hc : c < nC) (hd : d < n) :
    entry (block f nC 0 n) c d = some (f c d) := by
  unfold entry block
  rw [List.getElem?_map, List.getElem?_range hc]
  simp [List.getElem?_range hd]

theorem block_shape (f : ℕ → ℕ → β) (nC n : ℕ) : Shape nC n (block f nC 0 n) := by
  refine ⟨by simp [block], fun l hl => ?_⟩
  obtain ⟨c, _, rfl⟩ := List.mem_map.1 hl
  simp

theorem compute_eq (f : (String → Option α) → β) {params : Store α} {names : List String}
    {nC n : ℕ} {b : ℤ} (hb : 0 < b) (hn : 0 < n)
    (h : ∀ k ∈ names, ∃ x, params.lookup k = some x) :
    compute f params names nC n b =
      .ok (block (fun c d => f (drawOf params names c d)) nC 0 n) := by
  unfold compute
  rw [if_neg (by omega), evalRounds_eq f nC n b.toNat h]
  exact concat_blocks _ nC n b.toNat (by omega) hn

/-- C34.  Computed in batches of any positive size, the result has one entry for each chain and
draw, in their order, and it is the one computed from the parameters of this draw alone. -/
theorem batched_draw_by_draw (f : (String → Option α) → β) {params : Store α} {names : List String}
    {nChains nDraws : ℕ} {batchSize : ℤ} (hb : 0 < batchSize) (hn : 0 < nDraws)
    (h : ∀ k ∈ names, ∃ x, params.lookup k = some x) :
    ∃ out, compute f params names nChains nDraws batchSize = .ok out ∧ Shape nChains nDraws out ∧
      ∀ c < nChains, ∀ d < nDraws, entry out c d = some (f (drawOf params names c d)) :=
  ⟨_, compute_eq f hb hn h, block_shape _ _ _, fun _ hc _ hd => block_entry _ hc hd⟩

example : compute (fun r => (r "a").bind fun x => (r "b").map (x + ·)) demoStore ["a", "b"] 1 3 2 =
    .ok [[some 11, some 22, some 33]] := by decide +kernel

/-- C34.  The batch size does not matter. -/
theorem batch_size_irrelevant (f : (String → Option α) → β) {params : Store α}
    {names : List String} {nChains nDraws : ℕ} {b b' : ℤ} (hb : 0 < b) (hb' : 0 < b')
    (hn : 0 < nDraws) (h : ∀ k ∈ names, ∃ x, params.lookup k = some x) :
    compute f params names nChains nDraws b = compute f params names nChains nDraws b' := by
  rw [compute_eq f hb hn h, compute_eq f hb' hn h]

example : (∀ k ∈ ["a", "b"], ∃ x, demoStore.lookup k = some x) ∧ 0 < (2 : ℤ) ∧ 0 < (7 : ℤ) := by
  refine ⟨fun k hk => ?_, by decide, by decide⟩
  exact Option.isSome_iff_exists.1 ((by decide +kernel :
    ∀ k ∈ ["a", "b"], (demoStore.lookup k).isSome = true) k hk)

/-- C34.  A batch size that is not positive is rejected. -/
theorem nonpositive_batch_rejected (f : (String → Option α) → β) (params : Store α)
    (names : List String) (nChains nDraws : ℕ) {b : ℤ} (hb : b ≤ 0) :
    compute f params names nChains nDraws b = .error .batchSize := by
  unfold compute; rw [if_pos hb]

/-- Without draws nothing is computed: the concatenation fails. -/
theorem no_draws_rejected (f : (String → Option α) → β) (params : Store α)
    (names : List String) (nChains : ℕ) {b : ℤ} (hb : 0 < b) :
    compute f params names nChains 0 b = .error .emptyConcat := by
  unfold compute arange
  rw [if_neg (by omega), Nat.div_eq_of_lt (by omega)]
  rfl

/-- C34 for `expected_outcome`: the batches compute the scaled means, and what follows is applied to
the concatenated result; this is the expected outcome of every draw. -/
theorem expected_outcome_batched (ctx : Mmm.Ctx) (dec : (String → Option α) → Mmm.Params)
    (data : Mmm.Data) (inverse useKpi : Bool) {params : Store α} {names : List String}
    {nChains nDraws : ℕ} {batchSize : ℤ} (hb : 0 < batchSize) (hn : 0 < nDraws)
    (h : ∀ k ∈ names, ∃ x, params.lookup k = some x) :
    ∃ out, compute (fun r => Mmm.kpiMeans ctx (dec r) (Mmm.scaleData ctx data)) params names
        nChains nDraws batchSize = .ok out ∧
      ∀ c < nChains, ∀ d < nDraws,
        ((entry out c d).map fun means => fun g t =>
          if inverse then
            (if Mmm.useKpi ctx useKpi then Transformers.kpiInverse ctx.kpiT means g t
            else Transformers.kpiInverse ctx.kpiT means g t * Mmm.revenue ctx data g t)
          else means g t) =
        some (Mmm.expectedOutcome ctx (dec (drawOf params names c d)) data inverse useKpi) := by
  obtain ⟨out, h1, _, h3⟩ := batched_draw_by_draw
    (fun r => Mmm.kpiMeans ctx (dec r) (Mmm.scaleData ctx data)) (nChains := nChains) hb hn h
  refine ⟨out, h1, fun c hc d hd => ?_⟩
  rw [h3 c hc d hd]
  rfl

/-! ## Chain batches -/

/-- Two calls of the sampler with 2 and 1 chains, one burn-in draw and two kept draws. -/
def demoRuns : List (Run ℕ) :=
  [⟨2, [[1, 2], [11, 12], [21, 22]]⟩, ⟨1, [[3], [13], [23]]⟩]

example : allLatents 1 demoRuns = .ok [[11, 21], [12, 22], [13, 23]] ∧ ∀ r ∈ demoRuns, r.Ok 3 := by
  refine ⟨by decide +kernel, ?_⟩
  unfold Run.Ok
  decide +kernel

/-- C34.  Sampled in several calls, the posterior has the chains of the first call, then those of
the second, and so on; chain `j` of call `i` has the draws of this chain after the burn-in. -/
theorem chain_batches {burnin keep : ℕ} {runs : List (Run α)} (h0 : runs ≠ [])
    (h : ∀ r ∈ runs, r.Ok (burnin + keep)) :
    ∃ out, allLatents burnin runs = .ok out ∧
      Shape (runs.map Run.chains).sum keep out ∧
      ∀ (i : ℕ) (r : Run α), runs[i]? = some r → ∀ j < r.chains, ∀ d,
        entry out (((runs.take i).map Run.chains).sum + j) d = entry r.rows (burnin + d) j := by
  have hs : ∀ r ∈ runs, Shape r.chains keep (swap r.chains (r.rows.drop burnin)) := fun r hr =>
    swap_shape _ _ (by rw [List.length_drop, (h r hr).1]; omega)
      (fun x hx => (h r hr).2 x (List.mem_of_mem_drop hx))
  refine ⟨_, allLatents_eq burnin h0 h, ⟨?_, fun l hl => ?_⟩, fun i r hi j hj d => ?_⟩
  · rw [List.length_flatMap]
    congr 1
    exact List.map_congr_left fun r hr => (hs r hr).1
  · obtain ⟨r, hr, hl⟩ := List.mem_flatMap.1 hl
    exact (hs r hr).2 l hl
  · have hr : r ∈ runs := List.mem_of_getElem? hi
    have e := swap_entry hj (rows := r.rows.drop burnin)
      (fun x hx => (h r hr).2 x (List.mem_of_mem_drop hx)) d
    have e2 : entry (r.rows.drop burnin) d j = entry r.rows (burnin + d) j := by
      unfold entry; rw [List.getElem?_drop]
    rw [e2] at e
    rw [← e]
    unfold entry
    rw [flatMap_getElem? (size := Run.chains) (fun y hy => (hs y hy).1) hi hj]

/-- C34.  The trace metrics (divergences, step sizes, ...) are saved at the same chain and draw as
the state they belong to; a metric without chain dimension is the same for the chains of a call. -/
theorem trace_aligned {burnin keep : ℕ} {l : List (ℕ × Trace α)}
    (h : ∀ p ∈ l, match p.2 with
      | .perDraw x => x.length = burnin + keep
      | .perChain x => x.length = burnin + keep ∧ ∀ y ∈ x, y.length = p.1) :
    Shape (l.map Prod.fst).sum keep (traceMetric burnin l) ∧
      ∀ (i : ℕ) (p : ℕ × Trace α), l[i]? = some p → ∀ j < p.1, ∀ d,
        entry (traceMetric burnin l) (((l.take i).map Prod.fst).sum + j) d =
          match p.2 with
          | .perDraw x => x[burnin + d]?
          | .perChain x => entry x (burnin + d) j := by
  have hs : ∀ p ∈ l, Shape p.1 keep (traceArray burnin p.1 p.2) := by
    rintro ⟨n, t⟩ hp
    have := h _ hp
    cases t with
    | perDraw x =>
      simp only at this
      refine ⟨by simp [traceArray], fun y hy => ?_⟩
      rw [List.eq_of_mem_replicate hy, List.length_drop, this]; omega
    | perChain x =>
      simp only at this
      exact swap_shape _ _ (by rw [List.length_drop, this.1]; omega)
        (fun y hy => this.2 y (List.mem_of_mem_drop hy))
  refine ⟨⟨?_, fun x hx => ?_⟩, fun i p hi j hj d => ?_⟩
  · unfold traceMetric
    rw [List.length_flatMap]
    congr 1
    exact List.map_congr_left fun r hr => (hs r hr).1
  · obtain ⟨r, hr, hl⟩ := List.mem_flatMap.1 hx
    exact (hs r hr).2 x hl
  · have hp : p ∈ l := List.mem_of_getElem? hi
    have hh := h p hp
    have e : entry (traceMetric burnin l) (((l.take i).map Prod.fst).sum + j) d =
        entry (traceArray burnin p.1 p.2) j d := by
      unfold entry traceMetric
      rw [flatMap_getElem? (F := fun p => traceArray burnin p.1 p.2) (size := Prod.fst)
        (fun y hy => (hs y hy).1) hi hj]
    rw [e]
    obtain ⟨n, t⟩ := p
    cases t with
    | perDraw x =>
      unfold entry traceArray
      simp only at hj ⊢
      rw [List.getElem?_replicate, if_pos hj, Option.bind_some, List.getElem?_drop]
    | perChain x =>
      simp only at hh hj ⊢
      unfold traceArray
      rw [swap_entry hj (fun y hy => hh.2 y (List.mem_of_mem_drop hy))]
      unfold entry; rw [List.getElem?_drop]

example : traceMetric 1 [(2, .perChain [[0, 0], [5, 6], [7, 8]]), (1, .perDraw [0, 1, 2])] =
    [[5, 7], [6, 8], [1, 2]] := by decide +kernel

/-! ## Batches of the reconstruction -/

/-- Two latents, a deterministic node, the likelihood, a deterministic node. -/
def demoNodes : List (Node ℕ ℕ) :=
  [⟨"x", .stochastic fun _ s => s⟩, ⟨"z", .stochastic fun _ s => s + 1⟩,
    ⟨"sum", .deterministic fun env => (env.map Prod.snd).sum⟩,
    ⟨"y", .stochastic fun _ s => s⟩,
    ⟨"twice", .deterministic fun env => 2 * (env.lookup "sum").getD 0⟩]

/-- Two chains with two draws. -/
def demoLatents : Store ℕ := [("x", [[1, 2], [3, 4]]), ("z", [[10, 20], [30, 40]])]

/-- Every random node is a latent or the likelihood. -/
def Closed (nodes : List (Node σ α)) (latents : Store α) : Prop :=
  (nodes.map Node.name).Nodup ∧
    ∀ n ∈ nodes, ∀ d, n.kind = .stochastic d → n.name ∈ latents.map Prod.fst ∨ n.name = "y"

theorem known_covered {nodes : List (Node σ α)} {latents : Store α} {nC nD : ℕ}
    (hl : ∀ p ∈ latents, Shape nC nD p.2) (hc : Closed nodes latents) (kpi : α) {c d : ℕ}
    (h1 : c < nC) (h2 : d < nD) : Covered nodes (known latents kpi c d) := by
  intro n hn dr hk
  rcases hc.2 n hn dr hk with h | h
  · obtain ⟨x, hx⟩ := lookup_isSome h
    obtain ⟨s1, s2⟩ := hl _ (lookup_mem hx)
    have hcl : c < x.length := by simp only at s1; omega
    have hdl : d < x[c].length := by rw [s2 _ (List.getElem_mem hcl)]; exact h2
    refine ⟨x[c][d], ?_⟩
    unfold known entry
    rw [hx, Option.bind_some, List.getElem?_eq_getElem hcl, Option.bind_some,
      List.getElem?_eq_getElem hdl]
  · unfold known
    cases (latents.lookup n.name).bind fun x => entry x c d with
    | some v => exact ⟨v, rfl⟩
    | none => exact ⟨kpi, by simp [h]⟩

/-- The value of a node for one draw, computed with the seed `s`. -/
def nodeValue (nodes : List (Node σ α)) (latents : Store α) (kpi : α) (s : σ) (n : String)
    (c d : ℕ) : Option α :=
  (sampleOne nodes (known latents kpi c d) s).lookup n

theorem reconstruct_eq {nodes : List (Node σ α)} {latents : Store α} (kpi : α)
    {nC nD : ℕ} (h0 : latents ≠ []) (hC : 0 < nC) (hD : 0 < nD)
    (hl : ∀ p ∈ latents, Shape nC nD p.2) (hc : Closed nodes latents) (rng : ℕ → ℕ → σ) (s : σ)
    {b : ℤ} (hb : 0 < b) :
    reconstruct nodes kpi latents rng b =
      .ok (((nodes.map Node.name).filter fun n => (latents.lookup n).isNone && n != "y").map
        fun n => (n, (List.range nC).map fun c => (List.range nD).map fun d =>
          nodeValue nodes latents kpi s n c d)) := by
  unfold reconstruct
  rw [if_neg (by omega)]
  cases latents with
  | nil => exact absurd rfl h0
  | cons p ps =>
    obtain ⟨k, ref⟩ := p
    obtain ⟨s1, s2⟩ := hl (k, ref) (by simp)
    simp only at s1 s2
    have e2 : (ref.head?.map List.length).getD 0 = nD := by
      cases ref with
      | nil => simp at s1; omega
      | cons a r => simpa using s2 a (by simp)
    simp only [s1, e2]
    rw [flattenAll_eq hl]
    simp only
    have hloop := reconstructLoop_eq (nodes := nodes) (kpi := kpi)
      (flat := ((k, ref) :: ps).map fun p => (p.1, p.2.flatten)) (total := nC * nD)
      (b := b.toNat) (rng := rng)
      (V := fun n j => nodeValue nodes ((k, ref) :: ps) kpi s n (j / nD) (j % nD))
      (by omega) (Nat.mul_pos hC hD) hc.1 (fun n j hj s' => by
        have hj1 : j / nD < nC := Nat.div_lt_of_lt_mul (by rw [Nat.mul_comm]; exact hj)
        have hj2 : j % nD < nD := Nat.mod_lt _ hD
        have ej : j = j / nD * nD + j % nD := by
          rw [Nat.mul_comm]; exact (Nat.div_add_mod j nD).symm
        have e := flatRecord_known hl kpi (j / nD) hj2
        rw [← ej] at e
        rw [e, sampleOne_seed (known_covered hl hc kpi hj1 hj2) s' s]
        rfl)
    rw [hloop]
    simp only [List.map_map]
    congr 1
    have hwn : writtenNames nodes (((k, ref) :: ps).map fun p => (p.1, p.2.flatten)) =
        (nodes.map Node.name).filter
          fun n => (((k, ref) :: ps).lookup n).isNone && n != "y" := by
      unfold writtenNames likelihoodName
      congr 1
      funext n
      rw [lookup_map]
      simp
    rw [hwn]
    refine List.map_congr_left fun n _ => ?_
    simp only [Function.comp]
    rw [reshape_range]
    congr 1
    refine List.map_congr_left fun c _ => List.map_congr_left fun d hd => ?_
    have hd := List.mem_range.1 hd
    rw [Nat.mul_comm c nD, Nat.mul_add_div hD, Nat.div_eq_of_lt hd, Nat.mul_add_mod,
      Nat.mod_eq_of_lt hd, Nat.add_zero]

/-- C34.  The reconstructed variables are those of the model that are neither latents nor the
likelihood.  Whatever the batch size and the seeds, the value for a chain and a draw is the one that
the model determines from the latents of this chain and draw. -/
theorem reconstruct_draw_by_draw {nodes : List (Node σ α)} {latents : Store α} (kpi : α)
    {nChains nDraws : ℕ} (h0 : latents ≠ []) (hC : 0 < nChains) (hD : 0 < nDraws)
    (hl : ∀ p ∈ latents, Shape nChains nDraws p.2) (hc : Closed nodes latents) (rng : ℕ → ℕ → σ)
    {batchSize : ℤ} (hb : 0 < batchSize) :
    ∃ out, reconstruct nodes kpi latents rng batchSize = .ok out ∧
      (∀ name, (∃ x, out.lookup name = some x) ↔
        name ∈ nodes.map Node.name ∧ name ∉ latents.map Prod.fst ∧ name ≠ "y") ∧
      ∀ name x, out.lookup name = some x → Shape nChains nDraws x ∧
        ∀ c < nChains, ∀ d < nDraws, ∃ env v, Determined nodes (known latents kpi c d) env ∧
          (name, v) ∈ env ∧ entry x c d = some (some v) := by
  have hnone : ∀ n, (latents.lookup n).isNone = true ↔ n ∉ latents.map Prod.fst := by
    intro n
    constructor
    · intro h hm
      obtain ⟨v, hv⟩ := lookup_isSome hm
      rw [hv] at h; cases h
    · intro h
      cases hx : latents.lookup n with
      | none => rfl
      | some x => exact absurd (List.mem_map.2 ⟨_, lookup_mem hx, rfl⟩) h
  refine ⟨_, reconstruct_eq kpi h0 hC hD hl hc rng (rng 0 0) hb, fun name => ?_,
    fun name x hx => ?_⟩
  · rw [lookup_names]
    simp only [List.mem_filter, Bool.and_eq_true, bne_iff_ne, hnone]
    split_ifs with h
    · exact ⟨fun _ => h, fun _ => ⟨_, rfl⟩⟩
    · exact ⟨fun ⟨x, hx⟩ => (by cases hx), fun h' => absurd h' h⟩
  · rw [lookup_names] at hx
    split_ifs at hx with hm
    obtain rfl : _ = x := by simpa using hx
    refine ⟨⟨by simp, fun l hl' => ?_⟩, fun c h1 d h2 => ?_⟩
    · obtain ⟨c, _, rfl⟩ := List.mem_map.1 hl'
      simp
    · have hcov := known_covered hl hc kpi h1 h2
      have hnm : name ∈ (sampleOne nodes (known latents kpi c d) (rng 0 0)).map Prod.fst := by
        rw [sampleOne_names]; exact (List.mem_filter.1 hm).1
      obtain ⟨v, hv⟩ := lookup_isSome hnm
      refine ⟨_, v, sampleOne_determined hcov (rng 0 0), lookup_mem hv, ?_⟩
      unfold entry
      rw [List.getElem?_map, List.getElem?_range h1]
      simp only [Option.map_some, Option.bind_some]
      rw [List.getElem?_map, List.getElem?_range h2]
      simp only [Option.map_some, nodeValue, hv]

example : reconstruct demoNodes 100 demoLatents (fun s i => s + i) 3 =
    .ok [("sum", [[some 11, some 22], [some 33, some 44]]),
      ("twice", [[some 22, some 44], [some 66, some 88]])] := by decide +kernel

example : demoLatents ≠ [] ∧ (∀ p ∈ demoLatents, Shape 2 2 p.2) ∧ Closed demoNodes demoLatents := by
  refine ⟨by simp [demoLatents], by unfold Shape; decide +kernel, by decide +kernel, ?_⟩
  intro n hn d hd
  simp only [demoNodes, List.mem_cons, List.not_mem_nil, or_false] at hn
  rcases hn with rfl | rfl | rfl | rfl | rfl
  · left; decide +kernel
  · left; decide +kernel
  · cases hd
  · right; rfl
  · cases hd

/-- C34.  Neither the batch size nor the randomness used matters. -/
theorem reconstruct_batch_and_seed_irrelevant {nodes : List (Node σ α)} {latents : Store α}
    (kpi : α) {nChains nDraws : ℕ} (h0 : latents ≠ []) (hC : 0 < nChains) (hD : 0 < nDraws)
    (hl : ∀ p ∈ latents, Shape nChains nDraws p.2) (hc : Closed nodes latents)
    (rng rng' : ℕ → ℕ → σ) {b b' : ℤ} (hb : 0 < b) (hb' : 0 < b') :
    reconstruct nodes kpi latents rng b = reconstruct nodes kpi latents rng' b' := by
  rw [reconstruct_eq kpi h0 hC hD hl hc rng (rng 0 0) hb,
    reconstruct_eq kpi h0 hC hD hl hc rng' (rng 0 0) hb']

/-- C34.  A reconstruction batch size that is not positive is rejected. -/
theorem reconstruct_nonpositive_rejected (nodes : List (Node σ α)) (kpi : α) (latents : Store α)
    (rng : ℕ → ℕ → σ) {b : ℤ} (hb : b ≤ 0) :
    reconstruct nodes kpi latents rng b = .error .batchSize := by
  unfold reconstruct; rw [if_pos (by omega)]

theorem lookup_filter {γ : Type*} (P : String → Bool) (k : String) : ∀ s : List (String × γ),
    (s.filter fun p => P p.1).lookup k = if P k then s.lookup k else none
  | [] => by simp
  | (a, x) :: s => by
    rw [List.filter_cons]
    by_cases hk : k = a
    · subst hk
      cases hP : P k with
      | true => simp
      | false => simp [lookup_filter P k s, hP]
    · have e : (k == a) = false := by simpa using hk
      cases hP : P a with
      | true => simp [List.lookup_cons, e, lookup_filter P k s]
      | false => simp [List.lookup_cons, e, lookup_filter P k s]

theorem lookup_append {γ : Type*} (k : String) : ∀ s t : List (String × γ),
    (s ++ t).lookup k = match s.lookup k with
      | some v => some v
      | none => t.lookup k
  | [], t => by simp
  | (a, x) :: s, t => by
    rw [List.cons_append, List.lookup_cons, List.lookup_cons]
    cases k == a with
    | true => rfl
    | false => exact lookup_append k s t

/-- C34.  The saved posterior has exactly the variables of the model other than the auxiliary ones,
and the saved value for a chain and a draw is the one that the model determines from the latents of
this chain and draw, whatever the batch size and the seeds. -/
theorem posterior_saved {nodes : List (Node σ α)} {latents : Store α} (kpi : α)
    {nChains nDraws : ℕ} (h0 : latents ≠ []) (hC : 0 < nChains) (hD : 0 < nDraws)
    (hl : ∀ p ∈ latents, Shape nChains nDraws p.2) (hc : Closed nodes latents)
    (hsub : ∀ k ∈ latents.map Prod.fst, k ∈ nodes.map Node.name) (rng : ℕ → ℕ → σ)
    {batchSize : ℤ} (hb : 0 < batchSize) :
    ∃ out, reconstruct nodes kpi latents rng batchSize = .ok out ∧
      let saved := mcmcStates (latents.map fun p => (p.1, p.2.map (List.map some))) out
      (∀ name, (∃ x, saved.lookup name = some x) ↔
        name ∈ nodes.map Node.name ∧ name ∉ unsaved) ∧
      ∀ name x, saved.lookup name = some x →
        ∀ c < nChains, ∀ d < nDraws, ∃ env v, Determined nodes (known latents kpi c d) env ∧
          (name, v) ∈ env ∧ entry x c d = some (some v) := by
  obtain ⟨out, h1, h2, h3⟩ := reconstruct_draw_by_draw kpi h0 hC hD hl hc rng hb
  refine ⟨out, h1, ?_⟩
  have hlook : ∀ name, (mcmcStates (latents.map fun p => (p.1, p.2.map (List.map some)))
      out).lookup name =
      if name ∈ unsaved then none else
        match latents.lookup name with
        | some x => some (x.map (List.map some))
        | none => out.lookup name := by
    intro name
    have hy : "y" ∈ unsaved := by decide
    unfold mcmcStates
    simp only
    rw [lookup_append, lookup_filter (fun k => !unsaved.contains k), lookup_map]
    have := lookup_filter (fun k => !unsaved.contains k && k != likelihoodName &&
      (List.lookup k (List.filter (fun p => !unsaved.contains p.1)
        (latents.map fun p => (p.1, p.2.map (List.map some))))).isNone) name out
    rw [this, lookup_filter (fun k => !unsaved.contains k), lookup_map]
    by_cases hu : name ∈ unsaved
    · simp [hu]
    · have hny : name ≠ likelihoodName := fun e => hu (by rw [e]; exact hy)
      cases hx : latents.lookup name with
      | some x => simp [hu]
      | none => simp [hu, hny]
  have hlat : ∀ name, latents.lookup name = none ↔ name ∉ latents.map Prod.fst := by
    intro name
    constructor
    · intro h hm
      obtain ⟨v, hv⟩ := lookup_isSome hm
      rw [hv] at h; cases h
    · intro h
      cases hx : latents.lookup name with
      | none => rfl
      | some x => exact absurd (List.mem_map.2 ⟨_, lookup_mem hx, rfl⟩) h
  simp only
  refine ⟨fun name => ?_, fun name x hx c hcc d hdd => ?_⟩
  · rw [hlook]
    by_cases hu : name ∈ unsaved
    · simp [hu]
    · rw [if_neg hu]
      have hny : name ≠ "y" := fun e => hu (by rw [e]; decide)
      cases hx : latents.lookup name with
      | some x =>
        simp only [hu, not_false_eq_true, and_true]
        exact ⟨fun _ => hsub name (List.mem_map.2 ⟨_, lookup_mem hx, rfl⟩), fun _ => ⟨_, rfl⟩⟩
      | none =>
        simp only [hu, not_false_eq_true, and_true]
        rw [h2 name]
        exact ⟨fun h => h.1, fun h => ⟨h, (hlat name).1 hx, hny⟩⟩
  · rw [hlook] at hx
    split_ifs at hx with hu
    cases hxl : latents.lookup name with
    | none =>
      rw [hxl] at hx
      exact (h3 name x hx).2 c hcc d hdd
    | some z =>
      rw [hxl] at hx
      obtain rfl : z.map (List.map some) = x := by simpa using hx
      obtain ⟨s1, s2⟩ := hl _ (lookup_mem hxl)
      have hcl : c < z.length := by simp only at s1; omega
      have hdl : d < z[c].length := by rw [s2 _ (List.getElem_mem hcl)]; exact hdd
      have hk : known latents kpi c d name = some z[c][d] := by
        unfold known entry
        rw [hxl, Option.bind_some, List.getElem?_eq_getElem hcl, Option.bind_some,
          List.getElem?_eq_getElem hdl]
      have hdet := sampleOne_determined (known_covered hl hc kpi hcc hdd) (rng 0 0)
      obtain ⟨i, hi⟩ := List.mem_iff_getElem?.1
        (hsub name (List.mem_map.2 ⟨_, lookup_mem hxl, rfl⟩))
      rw [List.getElem?_map] at hi
      obtain ⟨n, hn, hnn⟩ := Option.map_eq_some_iff.1 hi
      obtain ⟨v, hv, hval⟩ := hdet.2 i n hn
      rw [hnn, hk] at hval
      obtain rfl : z[c][d] = v := by
        rcases hval with h | h
        · simpa using h
        · cases h.1
      refine ⟨_, z[c][d], hdet, ?_, ?_⟩
      · rw [← hnn]; exact List.mem_of_getElem? hv
      · unfold entry
        rw [List.getElem?_map, List.getElem?_eq_getElem hcl]
        simp only [Option.map_some, Option.bind_some]
        rw [List.getElem?_map, List.getElem?_eq_getElem hdl]
        rfl

example : ∀ k ∈ demoLatents.map Prod.fst, k ∈ demoNodes.map Node.name := by decide +kernel

/-- Without kept draws the reconstruction does not fail, but the deterministic variables are missing
from the saved posterior. -/
theorem no_draws_no_deterministic_variables :
    reconstruct demoNodes 100 [("x", [[], []]), ("z", [[], []])] (fun s i => s + i) 3 = .ok [] := by
  decide +kernel

end Verif.Batching.Props
