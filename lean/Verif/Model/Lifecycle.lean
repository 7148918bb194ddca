import Verif.Model.Batching
import Verif.Model.Thin
import Mathlib.Data.Rat.Floor

/-!
# The samples of a model object over its life

`Meridian.sample_prior`, `sample_posterior`, `review`, `sample_posterior_and_review`
(`meridian/model/model.py:1018-1248`), the loop over the chain batches of
`PosteriorMCMCSampler.__call__` (`meridian/model/posterior_sampler.py:970-1122`) and the seeds
(`RNGHandler`, `meridian/backend/__init__.py:1362-1558`).

The values of all latent variables of one draw are one value of the type `α`, those of all saved
variables one value of the type `δ`, those of all trace metrics one value of the type `τ`.
-/

namespace Verif.Lifecycle

open Verif.Batching (Run Trace)

inductive Err
  | guardrail
  | seed
  | batchSize
  | kernel
  | memory
  | noChains
  | notFitted
  | checks
  | prior
  deriving DecidableEq, Repr

/-! ### Seeds -/

/-- The argument `seed`. -/
inductive SeedArg
  | none
  | int (z : ℤ)
  | seq (l : List ℤ)

/-- The functions of the random libraries: `tfp.random.sanitize_seed` of a pair and `stateless_split`
for TensorFlow; `PRNGKey`, a key from two words, `split` and `randint` for JAX. -/
structure Rng (S : Type) where
  sanitize : ℤ × ℤ → S
  prngKey : ℤ → S
  ofPair : ℤ × ℤ → S
  split : S → S × S
  randint : S → ℤ

/-- `_TFRNGHandler` with its `_seed_state`, `_JaxRNGHandler` with its `_key`. -/
inductive Handler (S : Type)
  | tf (state : Option S)
  | jax (key : S)

/-- The seed of a call of the kernel: none, a stateless seed, or an integer. -/
inductive KSeed (S : Type)
  | none
  | state (s : S)
  | int (z : ℤ)
  deriving DecidableEq

variable {S α δ τ P H : Type}

/-- The constructors, `meridian/backend/__init__.py:1503-1530` and 1426-1468; `fresh` is the number
JAX draws when no seed is given (line 1442). -/
def handler (rng : Rng S) (isJax : Bool) (fresh : ℤ) : SeedArg → Except Err (Handler S)
  | .none => if isJax then .ok (.jax (rng.prngKey fresh)) else .ok (.tf none)
  | .int z => if isJax then .ok (.jax (rng.prngKey z)) else .ok (.tf (some (rng.sanitize (z, z))))
  | .seq [a, b] =>
    if isJax then .ok (.jax (rng.ofPair (a, b))) else .ok (.tf (some (rng.sanitize (a, b))))
  | .seq _ => .error .seed

/-- `get_kernel_seed`, `meridian/backend/__init__.py:1532-1534` and 1470-1474. -/
def kernelSeed (rng : Rng S) : Handler S → KSeed S
  | .tf none => .none
  | .tf (some s) => .state s
  | .jax k => .int (rng.randint (rng.split k).2)

/-- `advance_handler`, `meridian/backend/__init__.py:1545-1551` and 1482-1494; the new handler (the
old one is dropped). -/
def advance (rng : Rng S) : Handler S → Handler S
  | .tf none => .tf none
  | .tf (some s) => .tf (some (rng.split s).1)
  | .jax k => .jax (rng.prngKey (rng.randint (rng.split k).2))

/-- `get_next_seed`, `meridian/backend/__init__.py:1536-1543` and 1476-1480: the seed and the handler
afterwards. -/
def nextSeed (rng : Rng S) : Handler S → Option S × Handler S
  | .tf none => (none, .tf none)
  | .tf (some s) => (some (rng.split s).1, .tf (some (rng.split s).2))
  | .jax k => (some (rng.split k).2, .jax (rng.split k).1)

/-- The seeds of `n` operations in turn, as in `PriorDistributionSampler.__call__`,
`meridian/model/prior_sampler.py:612-705`. -/
def nextSeeds (rng : Rng S) : ℕ → Handler S → List (Option S)
  | 0, _ => []
  | n + 1, h => (nextSeed rng h).1 :: nextSeeds rng n (nextSeed rng h).2

/-! ### The posterior sampler -/

/-- What one call of `windowed_adaptive_nuts` returns: the states of `chains` chains by draw and
chain, and the trace. -/
structure Output (α τ : Type) where
  run : Run α
  trace : Trace τ

/-- What the sampler does not control: random libraries, the kernel (by number of chains, number of
draws and seed), the memory for the reconstruction with the function from latents to saved
variables, and the checks of the data. -/
structure World (S α δ τ : Type) where
  rng : Rng S
  isJax : Bool
  fresh : ℤ
  kernel : ℕ → ℕ → KSeed S → Except Err (Output α τ)
  reconstruct : Option (α → δ)
  criticalIssue : Bool

/-- The arguments of `sample_posterior`; a single number of chains is a list of one. -/
structure Call where
  nChains : List ℕ
  burnin : ℕ
  keep : ℕ
  seed : SeedArg
  batchSize : ℤ

/-- The loop over the batches of chains, `meridian/model/posterior_sampler.py:987-1020`. -/
def batches (w : World S α δ τ) (draws : ℕ) : List ℕ → Handler S →
    Except Err (List (ℕ × Output α τ))
  | [], _ => .ok []
  | n :: ns, h =>
    match w.kernel n draws (kernelSeed w.rng h) with
    | .error e => .error e
    | .ok out =>
      match batches w draws ns (advance w.rng h) with
      | .error e => .error e
      | .ok outs => .ok ((n, out) :: outs)

/-- The result of the sampler: the posterior, and the trace, of which the sampling statistics are a
renamed part. -/
structure Fit (δ τ : Type) where
  posterior : Thin.Posterior ℚ δ
  trace : List (List τ)
  stats : List (List τ)

/-- `PosteriorMCMCSampler.__call__`, `meridian/model/posterior_sampler.py:970-1122`.  The adaptation
is left to the kernel; the reconstruction (C34) applies a function to each draw. -/
def sampler (w : World S α δ τ) (c : Call) : Except Err (Fit δ τ) :=
  if c.batchSize < 1 then .error .batchSize
  else
    match handler w.rng w.isJax w.fresh c.seed with
    | .error e => .error e
    | .ok h =>
      match batches w (c.burnin + c.keep) c.nChains h with
      | .error e => .error e
      | .ok outs =>
        match Batching.allLatents c.burnin (outs.map fun p => p.2.run) with
        | .error _ => .error .noChains
        | .ok latents =>
          match w.reconstruct with
          | none => .error .memory
          | some f =>
            let tr := Batching.traceMetric c.burnin (outs.map fun p => (p.1, p.2.trace))
            .ok ⟨⟨latents.map (List.map f), c.keep, none⟩, tr, tr⟩

/-! ### The model object -/

/-- The groups of `inference_data`, `_full_posterior` and `health_summary`. -/
structure Obj (P H δ τ : Type) where
  prior : Option P
  posterior : Option (Thin.Posterior ℚ δ)
  full : Option (Thin.Posterior ℚ δ)
  trace : Option (List (List τ))
  stats : Option (List (List τ))
  health : Option H

/-- The groups the sampler writes. -/
inductive Group
  | posterior | trace | stats
  deriving DecidableEq

/-- One group of the new data replaces the old one. -/
def put (fit : Fit δ τ) (o : Obj P H δ τ) : Group → Obj P H δ τ
  | .posterior => { o with posterior := some fit.posterior }
  | .trace => { o with trace := some fit.trace }
  | .stats => { o with stats := some fit.stats }

/-- `inference_data.extend(..., join="right")`, `meridian/model/model.py:1173`: group by group, in
an order that arviz chooses. -/
def extend (order : List Group) (fit : Fit δ τ) (o : Obj P H δ τ) : Obj P H δ τ :=
  order.foldl (put fit) o

/-- The states the object passes through while it is extended, the last one included. -/
def extendStates (order : List Group) (fit : Fit δ τ) (o : Obj P H δ τ) : List (Obj P H δ τ) :=
  order.inits.map fun l => extend l fit o

/-- `sample_posterior`, `meridian/model/model.py:1073-1173`: the states the object passes through,
and the result. -/
def samplePosterior (w : World S α δ τ) (order : List Group) (c : Call) (o : Obj P H δ τ) :
    List (Obj P H δ τ) × Except Err Unit :=
  if w.criticalIssue then ([o], .error .guardrail)
  else
    match sampler w c with
    | .error e => ([o], .error e)
    | .ok fit => (extendStates order fit o, .ok ())

/-- The object afterwards. -/
def final (o : Obj P H δ τ) (l : List (Obj P H δ τ)) : Obj P H δ τ := l.getLastD o

/-- `sample_prior`, `meridian/model/model.py:1018-1039`; `draws` is what the prior sampler does. -/
def samplePrior (draws : Except Err P) (o : Obj P H δ τ) : Obj P H δ τ × Except Err Unit :=
  match draws with
  | .error e => (o, .error e)
  | .ok p => ({ o with prior := some p }, .ok ())

/-- `review`, `meridian/model/model.py:1175-1206`; `checks` is the outcome of the battery of
checks for the samples. -/
def review (checks : Thin.Posterior ℚ δ → Except Err H) (o : Obj P H δ τ) :
    Obj P H δ τ × Except Err H :=
  match o.posterior with
  | none => (o, .error .notFitted)
  | some p =>
    match checks p with
    | .error e => (o, .error e)
    | .ok h => ({ o with health := some h }, .ok h)

/-- `sample_posterior_and_review`, `meridian/model/model.py:1208-1248`. -/
def sampleAndReview (w : World S α δ τ) (order : List Group) (c : Call)
    (checks : Thin.Posterior ℚ δ → Except Err H) (o : Obj P H δ τ) :
    Obj P H δ τ × Except Err H :=
  match samplePosterior w order c o with
  | (l, .error e) => (final o l, .error e)
  | (l, .ok ()) => review checks (final o l)

/-- `posterior_thinning`, `meridian/model/model.py:1250-1370` (see C60). -/
def thin (a : Thin.Args ℚ) (u : ℕ → ℚ) (o : Obj P H δ τ) : Obj P H δ τ :=
  let s := (Thin.thin ⟨o.posterior, o.full⟩ a u).1
  { o with posterior := s.posterior, full := s.full }

/-- A call of the object; the arguments include what happens outside. -/
inductive Op (S P H α δ τ : Type)
  | prior (draws : Except Err P)
  | posterior (w : World S α δ τ) (order : List Group) (c : Call)
  | review (checks : Thin.Posterior ℚ δ → Except Err H)
  | both (w : World S α δ τ) (order : List Group) (c : Call)
      (checks : Thin.Posterior ℚ δ → Except Err H)

/-- The object after a call. -/
def step (o : Obj P H δ τ) : Op S P H α δ τ → Obj P H δ τ
  | .prior d => (samplePrior d o).1
  | .posterior w order c => final o (samplePosterior w order c o).1
  | .review f => (review f o).1
  | .both w order c f => (sampleAndReview w order c f o).1

/-- The object after a history of calls. -/
def run (o : Obj P H δ τ) (h : List (Op S P H α δ τ)) : Obj P H δ τ := h.foldl step o

/-- A new object, `meridian/model/model.py:209-221`. -/
def new : Obj P H δ τ := ⟨none, none, none, none, none, none⟩

end Verif.Lifecycle
