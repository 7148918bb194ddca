import Mathlib.Algebra.Order.Floor.Ring
import Mathlib.Algebra.Order.Floor.Semiring
import Mathlib.Data.List.Basic

/-!
# Thinning of the posterior

`posterior_thinning`, `restore_full_posterior` and `_systematic_draw_indices`,
`meridian/model/model.py:110-122, 1250-1381`.

A posterior is the list of its chains, a chain the list of its draws; `δ` is the type of a draw, with
the values of all parameters.  `K` is the type of the numbers (exact).  The random generator gives a
number in `[0, 1)` for each chain; `rng.uniform(0, step)` is this number times `step`.
-/

namespace Verif.Thin

/-- The attributes written to a thinned posterior, lines 1350-1361 (method and seed left out). -/
structure Attrs (K : Type) where
  rate : K
  chains : ℕ
  draws : ℕ
  selected : ℕ
deriving DecidableEq

/-- A posterior; `attrs` is `none` unless it is marked as thinned. -/
structure Posterior (K δ : Type) where
  chains : List (List δ)
  nDraws : ℕ
  attrs : Option (Attrs K)
deriving DecidableEq

/-- The parts of the model object that change: `inference_data.posterior` and `_full_posterior`. -/
structure State (K δ : Type) where
  posterior : Option (Posterior K δ)
  full : Option (Posterior K δ)
deriving DecidableEq

/-- The exceptions. -/
inductive Err where
  | notFitted
  | arguments
  | method
  | alreadyThinned
  | rate
  | nDraws
  | index
  | noFull
deriving DecidableEq

/-- The arguments of `posterior_thinning` (without the seed). -/
structure Args (K : Type) where
  rate : Option K
  nDraws : Option ℤ
  systematic : Bool
  preserve : Bool
deriving DecidableEq

variable {K δ : Type} [Field K] [LinearOrder K] [IsStrictOrderedRing K] [FloorRing K]

/-- `_systematic_draw_indices`, lines 110-122; `u` is the random number. -/
def drawIndices (n m : ℕ) (u : K) : List ℕ :=
  (List.range m).map fun k : ℕ =>
    min ⌊u * ((n : K) / m) + (n : K) / m * k⌋₊ (n - 1)

/-- `isel` along the draws of one chain. -/
def pick (c : List δ) : List ℕ → Except Err (List δ)
  | [] => .ok []
  | i :: rest =>
    match c[i]? with
    | none => .error .index
    | some x =>
      match pick c rest with
      | .error e => .error e
      | .ok l => .ok (x :: l)

/-- `isel` with the indices of each chain, lines 1332-1349; `j` counts the chains. -/
def pickAll (n m : ℕ) (u : ℕ → K) : ℕ → List (List δ) → Except Err (List (List δ))
  | _, [] => .ok []
  | j, c :: rest =>
    match pick c (drawIndices n m (u j)) with
    | .error e => .error e
    | .ok l =>
      match pickAll n m u (j + 1) rest with
      | .error e => .error e
      | .ok ls => .ok (l :: ls)

/-- The number of draws to keep, lines 1314-1325. -/
def nSelected (n : ℕ) (a : Args K) : Except Err ℕ :=
  match a.rate with
  | some r => if r ≤ 0 ∨ 1 < r then .error .rate else .ok (max 1 ⌈(n : K) * r⌉.toNat)
  | none =>
    match a.nDraws with
    | none => .error .nDraws
    | some d => if d < 1 ∨ (n : ℤ) < d then .error .nDraws else .ok d.toNat

/-- The recorded rate, lines 1353-1357. -/
def recordedRate (n m : ℕ) (a : Args K) : K :=
  match a.rate with
  | some r => r
  | none => (m : K) / n

/-- `_full_posterior` after lines 1329-1330. -/
def kept (s : State K δ) (p : Posterior K δ) (a : Args K) : Option (Posterior K δ) :=
  if a.preserve && s.full.isNone then some p else s.full

/-- Lines 1327-1370, for the posterior `p` and `m` draws to keep. -/
def thinTo (s : State K δ) (p : Posterior K δ) (a : Args K) (u : ℕ → K) (m : ℕ) :
    State K δ × Except Err (Posterior K δ) :=
  if m = p.nDraws then (s, .ok p)
  else
    match pickAll p.nDraws m u 0 p.chains with
    | .error e => (⟨s.posterior, kept s p a⟩, .error e)
    | .ok cs =>
      let q : Posterior K δ :=
        ⟨cs, m, some ⟨recordedRate p.nDraws m a, p.chains.length, p.nDraws, m⟩⟩
      (⟨some q, kept s p a⟩, .ok q)

/-- `posterior_thinning`, lines 1250-1370: the new state and the result. -/
def thin (s : State K δ) (a : Args K) (u : ℕ → K) : State K δ × Except Err (Posterior K δ) :=
  match s.posterior with
  | none => (s, .error .notFitted)
  | some p =>
    if a.rate.isNone = a.nDraws.isNone then (s, .error .arguments)
    else if a.systematic = false then (s, .error .method)
    else if p.attrs.isSome then (s, .error .alreadyThinned)
    else
      match nSelected p.nDraws a with
      | .error e => (s, .error e)
      | .ok m => thinTo s p a u m

/-- `restore_full_posterior`, lines 1372-1381. -/
def restore (s : State K δ) : State K δ × Except Err (Posterior K δ) :=
  match s.full with
  | none => (s, .error .noFull)
  | some p => (⟨some p, none⟩, .ok p)

/-- `sample_posterior`, line 1179: the new posterior replaces the old one. -/
def fit (s : State K δ) (p : Posterior K δ) : State K δ := ⟨some p, s.full⟩

/-- The calls. -/
inductive Op (K δ : Type) where
  | fit (p : Posterior K δ)
  | thin (a : Args K) (u : ℕ → K)
  | restore

/-- The state after a call; an exception leaves the state it was raised in. -/
def step (s : State K δ) : Op K δ → State K δ
  | .fit p => fit s p
  | .thin a u => (thin s a u).1
  | .restore => (restore s).1

/-- The state after a history of calls. -/
def run (s : State K δ) (h : List (Op K δ)) : State K δ := h.foldl step s

end Verif.Thin
