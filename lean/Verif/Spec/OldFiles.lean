import Verif.Model.OldFiles

/-!
# What priors and thresholds of a saved model should be after loading
-/

namespace Verif.OldFiles

/-! ### One channel of a prior -/

/-- The bijector for one channel; `none` is a number that was not given. -/
inductive SingleBij where
  | shift (by_ : Option Dbl)
  | scale (by_ logBy : Option Dbl)
  | reciprocal
deriving DecidableEq, Repr

/-- The distribution of one channel. -/
inductive Single where
  | transformed (inner : Single) (bij : SingleBij)
  | deterministic (loc : Option Dbl)
  | halfNormal (scale : Option Dbl)
  | logNormal (loc scale : Option Dbl)
  | normal (loc scale : Option Dbl)
  | truncatedNormal (loc scale low high : Option Dbl)
  | uniform (low high : Option Dbl)
  | beta (alpha beta : Option Dbl)
deriving DecidableEq, Repr

/-- The number for channel `i` in a message: one number holds for every channel, otherwise there is
one for each. -/
def pick (l : List Dbl) (i : ℕ) : Option Dbl := if l.length = 1 then l.head? else l[i]?

/-- The bound for channel `i`: the list if there is one, otherwise the single number. -/
def boundAt (single : Option Dbl) (many : List Dbl) (i : ℕ) : Option Dbl :=
  if many = [] then some (single.getD (.fin 0)) else pick many i

/-- What the message of a bijector says about channel `i`, `none` without a type. -/
def BijMsg.at : BijMsg → ℕ → Option SingleBij
  | .unset, _ => none
  | .shift s, i => some (.shift (pick s i))
  | .scale s l, i => some (.scale (pick s i) (pick l i))
  | .reciprocal, _ => some .reciprocal

/-- What a message says about channel `i`, `none` if a type is missing. -/
def Msg.at : Msg → ℕ → Option Single
  | .unset _, _ => none
  | .batchBroadcast _ m _, i => m.at i
  | .transformed _ m b, i =>
    match m.at i, b.at i with
    | some d, some b' => some (.transformed d b')
    | _, _ => none
  | .deterministic _ locs, i => some (.deterministic (pick locs i))
  | .halfNormal _ scales, i => some (.halfNormal (pick scales i))
  | .logNormal _ locs scales, i => some (.logNormal (pick locs i) (pick scales i))
  | .normal _ locs scales, i => some (.normal (pick locs i) (pick scales i))
  | .truncatedNormal _ locs scales low high lows highs, i =>
    some (.truncatedNormal (pick locs i) (pick scales i) (boundAt low lows i) (boundAt high highs i))
  | .uniform _ low high lows highs, i => some (.uniform (boundAt low lows i) (boundAt high highs i))
  | .beta _ a b, i => some (.beta (pick a i) (pick b i))

/-- The parameter of channel `i`: a number is broadcast. -/
def Param.at : Param → ℕ → Option Dbl
  | .missing, _ => none
  | .scalar x, _ => some x
  | .vector l, i => l[i]?

/-- A bijector of the backend for channel `i`. -/
def Bij.at : Bij → ℕ → SingleBij
  | .shift s, i => .shift (s.at i)
  | .scale s l, i => .scale (s.at i) (l.at i)
  | .reciprocal, _ => .reciprocal

/-- A distribution of the backend for channel `i` (the last dimension of the batch; broadcasting repeats
the others). -/
def Dist.at : Dist → ℕ → Single
  | .batchBroadcast _ d _, i => d.at i
  | .transformed _ d b, i => .transformed (d.at i) (b.at i)
  | .deterministic _ loc, i => .deterministic (loc.at i)
  | .halfNormal _ s, i => .halfNormal (s.at i)
  | .logNormal _ l s, i => .logNormal (l.at i) (s.at i)
  | .normal _ l s, i => .normal (l.at i) (s.at i)
  | .truncatedNormal _ l s lo hi, i => .truncatedNormal (l.at i) (s.at i) (lo.at i) (hi.at i)
  | .uniform _ lo hi, i => .uniform (lo.at i) (hi.at i)
  | .beta _ a b, i => .beta (a.at i) (b.at i)

def SingleBij.map (f : Dbl → Dbl) : SingleBij → SingleBij
  | .shift s => .shift (s.map f)
  | .scale s l => .scale (s.map f) (l.map f)
  | .reciprocal => .reciprocal

/-- The same distribution with every number rounded. -/
def Single.map (f : Dbl → Dbl) : Single → Single
  | .transformed d b => .transformed (d.map f) (b.map f)
  | .deterministic l => .deterministic (l.map f)
  | .halfNormal s => .halfNormal (s.map f)
  | .logNormal l s => .logNormal (l.map f) (s.map f)
  | .normal l s => .normal (l.map f) (s.map f)
  | .truncatedNormal l s lo hi => .truncatedNormal (l.map f) (s.map f) (lo.map f) (hi.map f)
  | .uniform lo hi => .uniform (lo.map f) (hi.map f)
  | .beta a b => .beta (a.map f) (b.map f)

/-- Every distribution and bijector of the message has a type. -/
def Msg.Typed : Msg → Prop
  | .unset _ => False
  | .batchBroadcast _ m _ => m.Typed
  | .transformed _ m b => m.Typed ∧ b ≠ .unset
  | _ => True

/-- The names and the batch shapes from the outside in. -/
def Msg.labels : Msg → List (String × Option (List ℤ))
  | .unset n => [(n, none)]
  | .batchBroadcast n m s => (n, some s) :: m.labels
  | .transformed n m _ => (n, none) :: m.labels
  | .deterministic n _ => [(n, none)]
  | .halfNormal n _ => [(n, none)]
  | .logNormal n _ _ => [(n, none)]
  | .normal n _ _ => [(n, none)]
  | .truncatedNormal n _ _ _ _ _ _ => [(n, none)]
  | .uniform n _ _ _ _ => [(n, none)]
  | .beta n _ _ => [(n, none)]

def Dist.labels : Dist → List (String × Option (List ℤ))
  | .batchBroadcast n d s => (n, some s) :: d.labels
  | .transformed n d _ => (n, none) :: d.labels
  | .deterministic n _ => [(n, none)]
  | .halfNormal n _ => [(n, none)]
  | .logNormal n _ _ => [(n, none)]
  | .normal n _ _ => [(n, none)]
  | .truncatedNormal n _ _ _ _ => [(n, none)]
  | .uniform n _ _ => [(n, none)]
  | .beta n _ _ => [(n, none)]

/-- Somewhere in the message a bound is given twice, as a list and by the deprecated field with a number other
than zero. -/
inductive Twice : Msg → String → String → Prop
  | broadcast {n m s f d} : Twice m f d → Twice (.batchBroadcast n m s) f d
  | transformed {n m b f d} : Twice m f d → Twice (.transformed n m b) f d
  | truncatedLow {n locs scales x high lows highs} : x ≠ .fin 0 → lows ≠ [] →
      Twice (.truncatedNormal n locs scales (some x) high lows highs) "low" "TruncatedNormal"
  | truncatedHigh {n locs scales low x lows highs} : x ≠ .fin 0 → highs ≠ [] →
      Twice (.truncatedNormal n locs scales low (some x) lows highs) "high" "TruncatedNormal"
  | uniformLow {n x high lows highs} : x ≠ .fin 0 → lows ≠ [] →
      Twice (.uniform n (some x) high lows highs) "low" "Uniform"
  | uniformHigh {n low x lows highs} : x ≠ .fin 0 → highs ≠ [] →
      Twice (.uniform n low (some x) lows highs) "high" "Uniform"

/-! ### Pickling -/

mutual

/-- A distribution that can be pickled: under `distribution` it has such a distribution, under `distributions` a
list of them, and no parameter is named `distribution_type`. -/
def Obj.Plain : Obj → Prop
  | .dist _ ps => ps.Plain
  | _ => False

def Params.Plain : Params → Prop
  | .nil => True
  | .cons k x l => k ≠ "distribution_type" ∧ (k = "distribution" → x.Plain) ∧
      (k = "distributions" → x.PlainList) ∧ l.Plain

def Obj.PlainList : Obj → Prop
  | .list l => l.Plain
  | _ => False

def Objs.Plain : Objs → Prop
  | .nil => True
  | .cons x l => x.Plain ∧ l.Plain

end

mutual

/-- There is no distribution object anywhere inside. -/
def Obj.Free : Obj → Prop
  | .dist _ _ => False
  | .dict ps => ps.Free
  | .list l => l.Free
  | _ => True

def Params.Free : Params → Prop
  | .nil => True
  | .cons _ x l => x.Free ∧ l.Free

def Objs.Free : Objs → Prop
  | .nil => True
  | .cons x l => x.Free ∧ l.Free

end

mutual

/-- Distributions occur only under the names `distribution` and `distributions`. -/
def Obj.Named : Obj → Prop
  | .dist _ ps => ps.Named
  | _ => False

def Params.Named : Params → Prop
  | .nil => True
  | .cons k x l => (k = "distribution" → x.Named) ∧ (k = "distributions" → x.NamedList) ∧
      (k ≠ "distribution" → k ≠ "distributions" → x.Free) ∧ l.Named

def Obj.NamedList : Obj → Prop
  | .list l => l.Named
  | _ => False

def Objs.Named : Objs → Prop
  | .nil => True
  | .cons x l => x.Named ∧ l.Named

end

end Verif.OldFiles
