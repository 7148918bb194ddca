import Mathlib.Data.List.Range
import Mathlib.Data.List.Basic
import Mathlib.Data.Int.Notation
import Mathlib.Algebra.Order.Group.Int

/-!
# Draws: batches of the analyzer, chain batches and batches of the posterior sampler

`meridian/analysis/analyzer.py` and `meridian/model/posterior_sampler.py`.  An array with leading
dimensions `(chain, draw)` is a list of chains, each a list of draws; the entry of one draw, whatever
its further dimensions, is a value of `α`.  The backend's kernels are draw-wise functions: the value
computed for a draw depends on the parameters of this draw only (broadcasting over the leading
dimensions).  Device memory and host memory are not distinguished.
-/

namespace Verif.Batching

inductive Err
  /-- `ValueError`: batch size not positive. -/
  | batchSize
  /-- concatenation of no arrays -/
  | emptyConcat
  /-- `KeyError`: a parameter is missing. -/
  | missing (name : String)
  /-- `ValueError`: no latents -/
  | emptyLatents
  /-- arrays whose shapes do not fit -/
  | shape
  /-- `states[0]` of an empty list -/
  | noChains
  deriving DecidableEq, Repr

/-- Arrays by name (a group of the inference data, or a dictionary of tensors). -/
abbrev Store (α : Type*) := List (String × List (List α))

variable {α β σ : Type*}

/-- `np.arange(n, step=step)` and `range(0, n, step)` for a positive step. -/
def arange (n step : ℕ) : List ℕ := (List.range ((n + step - 1) / step)).map (· * step)

/-- `x[start:stop]`. -/
def slice (start stop : ℕ) (x : List α) : List α := (x.drop start).take (stop - start)

/-- `{k: params[k][:, start:stop, ...] for k in param_list}`,
`meridian/analysis/analyzer.py:228-231`. -/
def batchStore (params : Store α) (start stop : ℕ) : List String → Except Err (Store α)
  | [] => .ok []
  | k :: ks =>
    match params.lookup k with
    | none => .error (.missing k)
    | some x =>
      match batchStore params start stop ks with
      | .error e => .error e
      | .ok s => .ok ((k, x.map (slice start stop)) :: s)

/-- The parameters of one draw. -/
def record (s : Store α) (chain draw : ℕ) : String → Option α := fun k =>
  match s.lookup k with
  | none => none
  | some x =>
    match x[chain]? with
    | none => none
    | some l => l[draw]?

/-- A draw-wise kernel applied to arrays with `nChains` chains and `len` draws
(`_get_kpi_means`, `meridian/analysis/analyzer.py:260-309`; `_incremental_outcome_impl`, 1077-1179). -/
def evalBatch (f : (String → Option α) → β) (nChains len : ℕ) (s : Store α) : List (List β) :=
  (List.range nChains).map fun c => (List.range len).map fun d => f (record s c d)

/-- `backend.concatenate([..], axis=1)`. -/
def concatDraws : List (List (List β)) → Except Err (List (List β))
  | [] => .error .emptyConcat
  | a :: as => .ok (as.foldl (fun acc b => List.zipWith (· ++ ·) acc b) a)

/-- One round of the loop over the batches, `meridian/analysis/analyzer.py:226-231` with the body
910-921. -/
def evalRound (f : (String → Option α) → β) (params : Store α) (names : List String)
    (nChains nDraws b start : ℕ) : Except Err (List (List β)) :=
  let stop := min nDraws (start + b)
  match batchStore params start stop names with
  | .error e => .error e
  | .ok s => .ok (evalBatch f nChains (stop - start) s)

/-- All rounds. -/
def evalRounds (f : (String → Option α) → β) (params : Store α) (names : List String)
    (nChains nDraws b : ℕ) : List ℕ → Except Err (List (List (List β)))
  | [] => .ok []
  | s :: ss =>
    match evalRound f params names nChains nDraws b s with
    | .error e => .error e
    | .ok x =>
      match evalRounds f params names nChains nDraws b ss with
      | .error e => .error e
      | .ok xs => .ok (x :: xs)

/-- The batched computation of `expected_outcome` and `incremental_outcome`:
`_yield_batched_distribution_tensors` (`meridian/analysis/analyzer.py:191-231`), the loops 909-922
and 1419-1441 and the concatenation of their results.  `f` is everything computed for a batch. -/
def compute (f : (String → Option α) → β) (params : Store α) (names : List String)
    (nChains nDraws : ℕ) (batchSize : ℤ) : Except Err (List (List β)) :=
  if batchSize ≤ 0 then .error .batchSize
  else
    match evalRounds f params names nChains nDraws batchSize.toNat
        (arange nDraws batchSize.toNat) with
    | .error e => .error e
    | .ok xs => concatDraws xs

/-! ## Chain batches of the posterior sampler -/

/-- The states of one call of the sampler, indexed by draw, then chain. -/
structure Run (α : Type*) where
  chains : ℕ
  rows : List (List α)

/-- `backend.einsum("ij...->ji...", x)`; `n` is the size of the second dimension. -/
def swap (n : ℕ) (rows : List (List α)) : List (List α) :=
  (List.range n).map fun c => rows.filterMap fun r => r[c]?

/-- Latents of all chain batches, `meridian/model/posterior_sampler.py:1022-1031`, one variable:
concatenation along the chains, burn-in dropped, dimensions swapped. -/
def allLatents (burnin : ℕ) : List (Run α) → Except Err (List (List α))
  | [] => .error .noChains
  | r :: rs =>
    let rows := rs.foldl (fun acc x => List.zipWith (· ++ ·) acc x.rows) r.rows
    .ok (swap ((r :: rs).map Run.chains).sum (rows.drop burnin))

/-- A trace metric of one call: one value per draw, or per draw and chain. -/
inductive Trace (α : Type*)
  | perDraw (x : List α)
  | perChain (x : List (List α))

/-- `broadcast_to(transpose(trace[n_burnin:]), [n_chains, n_keep])`,
`meridian/model/posterior_sampler.py:1070-1073`. -/
def traceArray (burnin chains : ℕ) : Trace α → List (List α)
  | .perDraw x => List.replicate chains (x.drop burnin)
  | .perChain x => swap chains (x.drop burnin)

/-- The saved trace metric, `meridian/model/posterior_sampler.py:1065-1077`. -/
def traceMetric (burnin : ℕ) (l : List (ℕ × Trace α)) : List (List α) :=
  l.flatMap fun p => traceArray burnin p.1 p.2

/-! ## Batches of the reconstruction -/

/-- A node of the joint distribution: a random variable, whose value depends on a seed, or a
deterministic function of the previous nodes. -/
inductive Kind (σ α : Type*)
  | stochastic (draw : List (String × α) → σ → α)
  | deterministic (f : List (String × α) → α)

structure Node (σ α : Type*) where
  name : String
  kind : Kind σ α

/-- `_LIKELIHOOD_NODE_NAME`, `meridian/model/posterior_sampler.py:49`. -/
def likelihoodName : String := "y"

/-- `_build_reconstruction_values` for one draw, `meridian/model/posterior_sampler.py:84-124`. -/
def givenValue (latents : String → Option α) (kpi : α) (name : String) : Option α :=
  match latents name with
  | some v => some v
  | none => if name = likelihoodName then some kpi else none

/-- One node of `joint_dist.sample(value=values, seed)`. -/
def sampleNode (given : String → Option α) (seed : σ) (env : List (String × α)) (n : Node σ α) :
    List (String × α) :=
  env ++ [(n.name,
    match given n.name with
    | some v => v
    | none =>
      match n.kind with
      | .stochastic draw => draw env seed
      | .deterministic f => f env)]

/-- `joint_dist.sample(value=values, seed)` for one draw: a node with a value takes it, the others
are sampled or computed (the documented behaviour of TensorFlow Probability). -/
def sampleOne (nodes : List (Node σ α)) (given : String → Option α) (seed : σ) :
    List (String × α) :=
  nodes.foldl (sampleNode given seed) []

/-- `_flatten_chain_and_draw_dims` of one array, `meridian/model/posterior_sampler.py:73-80`. -/
def flatten (nChains nDraws : ℕ) (x : List (List α)) : Except Err (List α) :=
  if x.flatten.length = nChains * nDraws then .ok x.flatten else .error .shape

/-- `_flatten_chain_and_draw_dims`, `meridian/model/posterior_sampler.py:73-80`. -/
def flattenAll (nChains nDraws : ℕ) : Store α → Except Err (List (String × List α))
  | [] => .ok []
  | (k, x) :: s =>
    match flatten nChains nDraws x with
    | .error e => .error e
    | .ok y =>
      match flattenAll nChains nDraws s with
      | .error e => .error e
      | .ok ys => .ok ((k, y) :: ys)

/-- `_HostResultAccumulator`, `meridian/model/posterior_sampler.py:127-153`; `none` is memory that
was never written (`np.empty`). -/
abbrev Buffers (α : Type*) := List (String × List (Option α))

/-- Assignment of a chunk to rows of a buffer. -/
def assign (buf : List (Option α)) (chunk : List (Option α)) (start : ℕ) :
    Except Err (List (Option α)) :=
  if start + chunk.length ≤ buf.length then
    .ok (buf.take start ++ chunk ++ buf.drop (start + chunk.length))
  else .error .shape

/-- `write`, `meridian/model/posterior_sampler.py:140-146`. -/
def write (total : ℕ) (name : String) (chunk : List (Option α)) (start : ℕ) :
    Buffers α → Except Err (Buffers α)
  | [] =>
    match assign (List.replicate total none) chunk start with
    | .error e => .error e
    | .ok b => .ok [(name, b)]
  | (k, b) :: bs =>
    if k = name then
      match assign b chunk start with
      | .error e => .error e
      | .ok b' => .ok ((k, b') :: bs)
    else
      match write total name chunk start bs with
      | .error e => .error e
      | .ok bs' => .ok ((k, b) :: bs')

/-- Writes of one batch, `meridian/model/posterior_sampler.py:846-849`; `vals name i` is the value
of a node for row `i` of the batch. -/
def writeAll (total start len : ℕ) (vals : String → ℕ → Option α) :
    List String → Buffers α → Except Err (Buffers α)
  | [], bs => .ok bs
  | n :: ns, bs =>
    match write total n ((List.range len).map (vals n)) start bs with
    | .error e => .error e
    | .ok bs' => writeAll total start len vals ns bs'

/-- Names of the nodes that are written: neither latents nor the likelihood. -/
def writtenNames (nodes : List (Node σ α)) (flat : List (String × List α)) : List String :=
  (nodes.map Node.name).filter fun n => (flat.lookup n).isNone && n != likelihoodName

/-- The latents of row `i` of a batch starting at `start`. -/
def chunkRecord (flat : List (String × List α)) (start stop i : ℕ) : String → Option α := fun k =>
  match flat.lookup k with
  | none => none
  | some x => (slice start stop x)[i]?

/-- One batch of the loop, `meridian/model/posterior_sampler.py:829-849`; `rng start i` is the
randomness used for row `i` of the batch. -/
def reconstructBatch (nodes : List (Node σ α)) (kpi : α) (flat : List (String × List α))
    (total b : ℕ) (rng : ℕ → ℕ → σ) (start : ℕ) (bs : Buffers α) : Except Err (Buffers α) :=
  let stop := min (start + b) total
  writeAll total start (stop - start)
    (fun n i => (sampleOne nodes (givenValue (chunkRecord flat start stop i) kpi)
      (rng start i)).lookup n)
    (writtenNames nodes flat) bs

/-- The loop over the batches. -/
def reconstructLoop (nodes : List (Node σ α)) (kpi : α) (flat : List (String × List α))
    (total b : ℕ) (rng : ℕ → ℕ → σ) : List ℕ → Buffers α → Except Err (Buffers α)
  | [], bs => .ok bs
  | s :: ss, bs =>
    match reconstructBatch nodes kpi flat total b rng s bs with
    | .error e => .error e
    | .ok bs' => reconstructLoop nodes kpi flat total b rng ss bs'

/-- `reshape` of a buffer to `(nChains, nDraws)`. -/
def reshape (nChains nDraws : ℕ) (b : List α) : List (List α) :=
  (List.range nChains).map fun c => slice (c * nDraws) (c * nDraws + nDraws) b

/-- `_reconstruct_posteriors`, `meridian/model/posterior_sampler.py:782-851`.  The shape of all
latents is the one of the first. -/
def reconstruct (nodes : List (Node σ α)) (kpi : α) (latents : Store α) (rng : ℕ → ℕ → σ)
    (batchSize : ℤ) : Except Err (Store (Option α)) :=
  if batchSize < 1 then .error .batchSize
  else
    match latents with
    | [] => .error .emptyLatents
    | (_, ref) :: _ =>
      let nChains := ref.length
      let nDraws := (ref.head?.map List.length).getD 0
      match flattenAll nChains nDraws latents with
      | .error e => .error e
      | .ok flat =>
        let total := nChains * nDraws
        match reconstructLoop nodes kpi flat total batchSize.toNat rng
            (arange total batchSize.toNat) [] with
        | .error e => .error e
        | .ok bs => .ok (bs.map fun p => (p.1, reshape nChains nDraws p.2))

/-- `UNSAVED_PARAMETERS`, `meridian/constants.py:471-480`. -/
def unsaved : List String :=
  ["beta_gm_dev", "beta_grf_dev", "beta_gom_dev", "beta_gorf_dev", "gamma_gc_dev", "gamma_gn_dev",
    "tau_g_excl_baseline", "y"]

/-- `_prepare_mcmc_states`, `meridian/model/posterior_sampler.py:853-887`. -/
def mcmcStates (latents reconstructed : List (String × β)) : List (String × β) :=
  let saved := latents.filter fun p => !unsaved.contains p.1
  saved ++ reconstructed.filter fun p =>
    !unsaved.contains p.1 && p.1 != likelihoodName && (saved.lookup p.1).isNone

end Verif.Batching
