import Verif.Model.Selection

/-!
# Filtering and summing tensors of any rank

`Analyzer.filter_and_aggregate_by_indices` and `Analyzer.filter_and_aggregate_geos_and_times`,
`meridian/analysis/analyzer.py:595-769`, with their checks of shapes.  Entries are exact real numbers.  An
index out of range is an error, as in TensorFlow on a CPU.
-/

namespace Verif.TensorFilter

open Verif.Selection

/-- A tensor: its shape and its entries by index. -/
structure Tensor where
  shape : List ℕ
  val : List ℕ → ℝ

/-- The numbers of geos, times and channels of a model. -/
structure Dims where
  geos : ℕ
  times : ℕ
  media : ℕ
  rf : ℕ
  nonMedia : ℕ
  organicMedia : ℕ
  organicRf : ℕ

/-- What can be refused. -/
inductive Err where
  | rank
  | shape
  | outOfRange
  | selection (e : Selection.Err)
deriving DecidableEq

/-- `allowed_n_channels`, `meridian/analysis/analyzer.py:646-656`. -/
def allowedChannels (d : Dims) : List ℕ :=
  [d.media, d.rf, d.media + d.rf, d.media + d.rf + d.nonMedia + d.organicMedia + d.organicRf]

/-- `allowed_channel_dim`, `meridian/analysis/analyzer.py:658-660`. -/
def allowedDim (d : Dims) : List ℕ := allowedChannels d ++ (allowedChannels d).map (· + 1)

/-- `expected_shapes_w_media`, `meridian/analysis/analyzer.py:661-666`. -/
def expectedMedia (d : Dims) (nTimes : ℕ) : List (List ℕ) :=
  (allowedDim d).map fun c => [d.geos, nTimes, c]

/-- Python `shape[-k:]`. -/
def lastDims (k : ℕ) (shape : List ℕ) : List ℕ := shape.drop (shape.length - k)

/-- The number of times and the presence of a channel axis, `meridian/analysis/analyzer.py:633-689`. -/
def hasChannelAxis (d : Dims) (shape : List ℕ) (flexible hasMediaDim : Bool) : Except Err Bool :=
  if flexible then
    if (hasMediaDim ∧ shape.length < 3) ∨ (!hasMediaDim ∧ shape.length < 2) then .error .rank
    else
      let nTimes := if hasMediaDim then shape.getD (shape.length - 2) 0 else shape.getD (shape.length - 1) 0
      if hasMediaDim ∧ lastDims 3 shape ∉ expectedMedia d nTimes then .error .shape
      else if !hasMediaDim ∧ lastDims 2 shape ≠ [d.geos, nTimes] then .error .shape
      else .ok hasMediaDim
  else if lastDims 3 shape ∈ expectedMedia d d.times then .ok true
  else if lastDims 2 shape = [d.geos, d.times] then .ok false
  else .error .shape

/-- `backend.gather(tensor, indices, axis)`, `meridian/analysis/analyzer.py:690-693`; nothing without
indices. -/
def gather (ax : ℕ) (idx : Option (List ℕ)) (x : Tensor) : Except Err Tensor :=
  match idx with
  | none => .ok x
  | some l =>
    if l.all fun i => decide (i < x.shape.getD ax 0) then
      .ok { shape := x.shape.set ax l.length
            val := fun k => x.val (k.set ax (l.getD (k.getD ax 0) 0)) }
    else .error .outOfRange

/-- The sum over an axis, or the entry of the result's axis: the positions summed over and the rest of the
index. -/
def positions (agg : Bool) (n : ℕ) (rest : List ℕ) : List ℕ × List ℕ :=
  if agg then (List.range n, rest) else ([rest.headD 0], rest.tail)

/-- `einsum('...gt[m]->...[g][t][m]')`, `meridian/analysis/analyzer.py:695-701`, with `b` axes before those of
geos and times. -/
def einsum (b : ℕ) (aggGeos aggTimes : Bool) (x : Tensor) : Tensor where
  shape := x.shape.take b ++ (if aggGeos then [] else [x.shape.getD b 0]) ++
    (if aggTimes then [] else [x.shape.getD (b + 1) 0]) ++ x.shape.drop (b + 2)
  val k :=
    let g := positions aggGeos (x.shape.getD b 0) (k.drop b)
    let t := positions aggTimes (x.shape.getD (b + 1) 0) g.2
    (g.1.map fun i => (t.1.map fun j => x.val (k.take b ++ [i, j] ++ t.2)).sum).sum

/-- `filter_and_aggregate_by_indices`, `meridian/analysis/analyzer.py:595-701`. -/
def byIndices (d : Dims) (x : Tensor) (gi ti : Option (List ℕ)) (aggGeos aggTimes flexible hasMediaDim : Bool) :
    Except Err Tensor :=
  match hasChannelAxis d x.shape flexible hasMediaDim with
  | .error e => .error e
  | .ok m =>
    let geoDim := x.shape.length - 2 - (if m then 1 else 0)
    let timeDim := x.shape.length - 1 - (if m then 1 else 0)
    match gather geoDim gi x with
    | .error e => .error e
    | .ok y =>
      match gather timeDim ti y with
      | .error e => .error e
      | .ok z => .ok (einsum geoDim aggGeos aggTimes z)

/-- `filter_and_aggregate_geos_and_times`, `meridian/analysis/analyzer.py:703-769`: the selections are
resolved against the geos and times of the model (`meridian/analysis/tensors.py:976-1007, 1111-1144`, without
new data). -/
def byNames (d : Dims) (norm : String → Option String) (geos times : List String) (x : Tensor)
    (selGeos : Option (List String)) (selTimes : Option (List Item))
    (aggGeos aggTimes flexible hasMediaDim : Bool) : Except Err Tensor :=
  match resolveGeos geos selGeos with
  | .error e => .error (.selection e)
  | .ok gi =>
    match resolveTimes norm times d.times selTimes with
    | .error e => .error (.selection e)
    | .ok ti => byIndices d x gi ti aggGeos aggTimes flexible hasMediaDim

end Verif.TensorFilter
