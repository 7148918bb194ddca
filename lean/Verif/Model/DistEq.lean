import Mathlib.Data.List.Basic
import Mathlib.Algebra.Order.Field.Rat
import Mathlib.Algebra.Order.Group.Unbundled.Abs
import Verif.Model.Num

/-!
# Comparison of distributions

`distributions_are_equal`, `meridian/model/prior_distribution.py:1224-1284`.

A distribution is its class and its parameters; the parameters named `distribution` and
`distributions`, which hold distributions, are kept apart from the others.  Numbers are finite or NaN;
tensors have at most one dimension.  Values that are not numbers are equal if their tags are.
-/

namespace Verif.DistEq

/-- A tensor. -/
inductive Tensor where
  | scalar (x : Num)
  | vec (l : List Num)
deriving DecidableEq

/-- The value of a parameter. -/
inductive PV where
  | num (t : Tensor)
  | other (tag : ℕ)
deriving DecidableEq

mutual

/-- A distribution. -/
inductive Dist where
  | mk (cls : String) (inner : Inner) (comps : Comps) (params : List (String × PV))

/-- The parameter `distribution`. -/
inductive Inner where
  | absent
  | given (d : Dist)

/-- The parameter `distributions`. -/
inductive Comps where
  | absent
  | given (l : Dists)

/-- A list of distributions. -/
inductive Dists where
  | nil
  | cons (d : Dist) (l : Dists)

end

/-- The error of `allclose` for shapes that cannot be broadcast. -/
inductive Err where
  | shapes
deriving DecidableEq

/-- `isclose` with `rtol=1e-5` and `atol=1e-8`. -/
def isclose : Num → Num → Bool
  | some a, some b => decide (|a - b| ≤ 1 / 10 ^ 8 + 1 / 10 ^ 5 * |b|)
  | _, _ => false

/-- `backend.allclose` of two tensors of one dimension. -/
def vecClose (l m : List Num) : Except Err Bool :=
  if l.length = m.length then .ok ((l.zip m).all fun p => isclose p.1 p.2)
  else
    match l, m with
    | [a], m => .ok (m.all fun b => isclose a b)
    | l, [b] => .ok (l.all fun a => isclose a b)
    | _, _ => .error .shapes

/-- `backend.allclose`, `meridian/backend/__init__.py:1069, 1260`: the arguments are broadcast. -/
def allclose : Tensor → Tensor → Except Err Bool
  | .scalar a, .scalar b => .ok (isclose a b)
  | .scalar a, .vec l => .ok (l.all fun b => isclose a b)
  | .vec l, .scalar b => .ok (l.all fun a => isclose a b)
  | .vec l, .vec m => vecClose l m

/-- One parameter, lines 1271-1282. -/
def valueEqual : PV → PV → Except Err Bool
  | .num a, .num b => allclose a b
  | .other s, .other t => .ok (decide (s = t))
  | _, _ => .ok false

/-- The loop over the keys, lines 1271-1282. -/
def loop (p q : List (String × PV)) : List String → Except Err Bool
  | [] => .ok true
  | k :: rest =>
    match p.lookup k, q.lookup k with
    | some v, some w =>
      match valueEqual v w with
      | .error e => .error e
      | .ok false => .ok false
      | .ok true => loop p q rest
    | _, _ => .ok false

/-- `a_params.keys() != b_params.keys()` is false. -/
def sameKeys (p q : List (String × PV)) : Bool :=
  (p.all fun x => (q.map Prod.fst).contains x.1) && q.all fun x => (p.map Prod.fst).contains x.1

/-- Lines 1262-1284. -/
def paramsEqual (p q : List (String × PV)) : Except Err Bool :=
  if sameKeys p q then loop p q (p.map Prod.fst) else .ok false

/-- `len(a_dists)`. -/
def Dists.length : Dists → ℕ
  | .nil => 0
  | .cons _ l => l.length + 1

/-- Exactly one of the two has the parameter `distribution`, line 1256. -/
def oneInner : Inner → Inner → Bool
  | .absent, .absent => false
  | .given _, .given _ => false
  | _, _ => true

/-- Exactly one of the two has the parameter `distributions`, line 1259. -/
def oneComps : Comps → Comps → Bool
  | .absent, .absent => false
  | .given _, .given _ => false
  | _, _ => true

mutual

/-- `distributions_are_equal`, `meridian/model/prior_distribution.py:1224-1284`. -/
def areEqual : Dist → Dist → Except Err Bool
  | .mk c i l p, .mk c' i' l' p' =>
    if c ≠ c' then .ok false
    else
      match innerEqual i i' with
      | .error e => .error e
      | .ok false => .ok false
      | .ok true =>
        match compsEqual l l' with
        | .error e => .error e
        | .ok false => .ok false
        | .ok true =>
          if oneInner i i' then .ok false
          else if oneComps l l' then .ok false
          else paramsEqual p p'
termination_by structural a => a

/-- Lines 1234-1240. -/
def innerEqual : Inner → Inner → Except Err Bool
  | .given d, .given e => areEqual d e
  | _, _ => .ok true
termination_by structural a => a

/-- Lines 1242-1254. -/
def compsEqual : Comps → Comps → Except Err Bool
  | .given l, .given m => if l.length = m.length then listEqual l m else .ok false
  | _, _ => .ok true
termination_by structural a => a

/-- The loop over the components, lines 1250-1252. -/
def listEqual : Dists → Dists → Except Err Bool
  | .cons d l, .cons e m =>
    match areEqual d e with
    | .error e => .error e
    | .ok false => .ok false
    | .ok true => listEqual l m
  | _, _ => .ok true
termination_by structural a => a

end

end Verif.DistEq
