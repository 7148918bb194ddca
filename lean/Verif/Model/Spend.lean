import Verif.Model.Mmm
import Verif.Model.Selection

/-!
# Spend without geo and time detail, and tensors for optimisation

`meridian/data/input_data.py` (`_allocate_spend`, `_aggregate_spend`, `get_total_spend`),
`meridian/analysis/analyzer.py` (`_impute_and_aggregate_spend`, `get_aggregated_spend`) and
`meridian/analysis/optimizer.py` (`_expand_tensor`, `_allocate_tensor_by_population`,
`_validate_optimization_tensors`, `create_optimization_tensors`).

Values are real numbers; `none` stands for a result that is not finite (NaN or infinite).
-/

namespace Verif.Spend

open Verif.Mmm Verif.Selection Finset

/-- Errors. -/
inductive Err where
  | noChannels
  | concatRanks
  | concatShapes
  | noneIncluded
  | costMissing
  | unitsMissing
  | bothGiven
  | frequencyGiven
  | frequencyMissing
  | geoCount
  | timeCount
  | rank
  | expand
deriving DecidableEq

/-- The spend of a group of channels: one number per channel, or a `(geo, time, channel)` tensor with
`nTimes` periods.  `meridian/data/input_data.py:278-290` (`media_spend`, `rf_spend`). -/
inductive ChannelSpend where
  | totals (s : ℕ → ℝ)
  | cells (nTimes : ℕ) (s : T3)

/-- `media_units.isel(media_time=slice(-n_times, None))`, `meridian/data/input_data.py:1116`, also
`meridian/analysis/analyzer.py:4626-4632`. -/
def lastTimes (nMedia nTimes : ℕ) (x : T3) : T3 := fun g t c => x g (nMedia - nTimes + t) c

/-- `selected_media_units.sum(dim=["geo", "media_time"])` of channel `c`,
`meridian/data/input_data.py:1117-1119`. -/
noncomputable def unitTotal (nGeos nTimes : ℕ) (x : T3) (c : ℕ) : ℝ :=
  ∑ g ∈ range nGeos, ∑ t ∈ range nTimes, x g t c

/-- `InputData._allocate_spend`, `meridian/data/input_data.py:1113-1126`, channel `c`.  When the units
of the channel sum to zero every cell is `x / 0`. -/
noncomputable def allocateSpend (nGeos nTimes nMedia : ℕ) (spend : ℕ → ℝ) (units : T3) (c : ℕ) :
    Option (ℕ → ℕ → ℝ) :=
  let u := lastTimes nMedia nTimes units
  let total := unitTotal nGeos nTimes u c
  if total = 0 then none else some fun g t => spend c * (u g t c / total)

/-- `InputData.allocated_media_spend` and `allocated_rf_spend`,
`meridian/data/input_data.py:391-405`, channel `c`; for RF channels `units` is reach times
frequency. -/
noncomputable def allocated (nGeos nTimes nMedia : ℕ) (spend : ChannelSpend) (units : T3) (c : ℕ) :
    Option (ℕ → ℕ → ℝ) :=
  match spend with
  | .totals s => allocateSpend nGeos nTimes nMedia s units c
  | .cells _ s => some fun g t => s g t c

/-- `InputData.aggregate_media_spend` and `aggregate_rf_spend`, with `_aggregate_spend`
(`meridian/data/input_data.py:78-101, 407-421`), channel `c`.  The calibration period has `nMedia`
rows, of which the last `nTimes` are used. -/
noncomputable def aggregateSpend (nGeos nTimes nMedia : ℕ) (spend : ChannelSpend) (units : T3)
    (calibration : Option (ℕ → ℕ → Bool)) (c : ℕ) : Option ℝ :=
  (allocated nGeos nTimes nMedia spend units c).map fun s =>
    match calibration with
    | none => ∑ g ∈ range nGeos, ∑ t ∈ range nTimes, s g t
    | some cal => ∑ g ∈ range nGeos, ∑ t ∈ range nTimes,
        s g t * (if cal (nMedia - nTimes + t) c then 1 else 0)

/-- `Analyzer._impute_and_aggregate_spend`, `meridian/analysis/analyzer.py:4574-4656`, channel `c`.
`unitTimes` is the number of periods of the media units passed in.  The result is one number, or one
per selected time. -/
noncomputable def imputeAggregate (nGeos nTimes nMedia unitTimes : ℕ) (spend : ChannelSpend)
    (units : T3) (gi ti : Option (List ℕ)) (aggTimes : Bool) (c : ℕ) : Option (List ℝ) :=
  match spend with
  | .cells n s => (filterAggregate (fun g t => s g t c) nGeos n gi ti true aggTimes).head?
  | .totals s =>
    let n := if unitTimes = nMedia then nTimes else unitTimes
    let u := if unitTimes = nMedia then lastTimes nMedia nTimes units else units
    let total := unitTotal nGeos n u c
    if total = 0 then none
    else ((filterAggregate (fun g t => u g t c) nGeos n gi ti true aggTimes).head?).map fun l =>
      l.map fun x => x * (s c / total)

/-- One group of channels as `get_aggregated_spend` sees it: names, spend and units. -/
structure Group where
  names : List String
  spend : ChannelSpend
  units : T3

/-- The rows of one group in the result of `get_aggregated_spend`,
`meridian/analysis/analyzer.py:4509-4568`: empty if not requested or not in the model. -/
noncomputable def groupRows (nGeos nTimes nMedia unitTimes : ℕ) (gi ti : Option (List ℕ))
    (aggTimes : Bool) (include_ : Bool) (grp : Option Group) :
    List (String × Option (List ℝ)) :=
  if include_ then
    match grp with
    | none => []
    | some g => (List.range g.names.length).map fun c =>
        (g.names.getD c "",
          imputeAggregate nGeos nTimes nMedia unitTimes g.spend g.units gi ti aggTimes c)
  else []

/-- `Analyzer.get_aggregated_spend`, `meridian/analysis/analyzer.py:4443-4572`: media channels, then
RF channels, each with its name.  The indices of the selection are those of
`Verif.Model.Selection`. -/
noncomputable def getAggregatedSpend (nGeos nTimes nMedia unitTimes : ℕ) (media rf : Option Group)
    (gi ti : Option (List ℕ)) (aggTimes includeMedia includeRf : Bool) :
    Except Err (List (String × Option (List ℝ))) :=
  if !includeMedia && !includeRf then .error .noneIncluded
  else .ok (groupRows nGeos nTimes nMedia unitTimes gi ti aggTimes includeMedia media
    ++ groupRows nGeos nTimes nMedia unitTimes gi ti aggTimes includeRf rf)

/-- A tensor: its shape, and its entries at lists of indices. -/
structure Ten (α : Type) where
  shape : List ℕ
  data : List ℕ → α

/-- `np.concatenate([a, b], axis=-1)`: the ranks must agree, and all sizes but the last. -/
def concatLast {α : Type} (a b : Ten α) : Except Err (Ten α) :=
  if a.shape.length ≠ b.shape.length then .error .concatRanks
  else if a.shape.dropLast ≠ b.shape.dropLast then .error .concatShapes
  else .ok {
    shape := a.shape.dropLast ++ [a.shape.getLastD 0 + b.shape.getLastD 0]
    data := fun i =>
      if i.getLastD 0 < a.shape.getLastD 0 then a.data i
      else b.data (i.dropLast ++ [i.getLastD 0 - a.shape.getLastD 0]) }

/-- `InputData.get_total_spend`, `meridian/data/input_data.py:1094-1105`. -/
def getTotalSpend (media rf : Option (Ten ℝ)) : Except Err (Ten ℝ) :=
  match media, rf with
  | some m, some r => concatLast m r
  | none, some r => .ok r
  | some m, none => .ok m
  | none, none => .error .noChannels

/-- `backend.reshape(tensor, [1] * k + list(tensor.shape))`: `k` leading axes of size one. -/
def addAxes {α : Type} (k : ℕ) (t : Ten α) : Ten α where
  shape := List.replicate k 1 ++ t.shape
  data i := t.data (i.drop k)

/-- `backend.tile(tensor, repeats)`: every axis is repeated, so an index is taken modulo the size of
its axis. -/
def tile {α : Type} (t : Ten α) (repeats : List ℕ) : Ten α where
  shape := List.zipWith (· * ·) t.shape repeats
  data i := t.data (List.zipWith (· % ·) i t.shape)

/-- `_expand_tensor`, `meridian/analysis/optimizer.py:3239-3262`. -/
def expandTensor {α : Type} (t : Ten α) (required : List ℕ) : Except Err (Ten α) :=
  if t.shape = required then .ok t
  else if t.shape.length = 0 then .ok { shape := required, data := fun _ => t.data [] }
  else if t.shape.length ≤ required.length ∧
      t.shape = required.drop (required.length - t.shape.length) then
    let k := required.length - t.shape.length
    .ok (tile (addAxes k t) (required.take k ++ List.replicate t.shape.length 1))
  else .error .expand

/-- `BudgetOptimizer._allocate_tensor_by_population`,
`meridian/analysis/optimizer.py:2947-2979`, for `required` 2 or 3 (it is only called with 3).
`nGeos` is the length of `population`. -/
noncomputable def allocateByPopulation (nGeos : ℕ) (population : ℕ → ℝ) (t : Ten ℝ)
    (required : ℕ) : Except Err (Ten ℝ) :=
  if t.shape.length = required then .ok t
  else if t.shape.length + 1 ≠ required then .error .rank
  else .ok {
    shape := nGeos :: t.shape
    data := fun i =>
      t.data i.tail * (population i.headI / ∑ g ∈ range nGeos, population g) }

/-- Entrywise combination of two tensors of the same shape. -/
def zipTen {α β γ : Type} (f : α → β → γ) (a : Ten α) (b : Ten β) : Ten γ where
  shape := a.shape
  data i := f (a.data i) (b.data i)

/-- The tensors passed to `create_optimization_tensors`,
`meridian/analysis/optimizer.py:1813-1824`. -/
structure Flighting where
  cpmu : Option (Ten ℝ) := none
  media : Option (Ten ℝ) := none
  mediaSpend : Option (Ten ℝ) := none
  cprf : Option (Ten ℝ) := none
  rfImpressions : Option (Ten ℝ) := none
  frequency : Option (Ten ℝ) := none
  rfSpend : Option (Ten ℝ) := none
  revenuePerKpi : Option (Ten ℝ) := none

/-- The number of geos and the number of times a tensor with channels fixes,
`meridian/analysis/optimizer.py:2918-2925`. -/
def channelSizes (t : Option (Ten ℝ)) : List ℕ × List ℕ :=
  match t with
  | none => ([], [])
  | some t => match t.shape with
    | [g, n, _] => ([g], [n])
    | [n, _] => ([], [n])
    | _ => ([], [])

/-- The same for `revenue_per_kpi`, `meridian/analysis/optimizer.py:2927-2933`. -/
def revenueSizes (t : Option (Ten ℝ)) : List ℕ × List ℕ :=
  match t with
  | none => ([], [])
  | some t => match t.shape with
    | [g, n] => ([g], [n])
    | [n] => ([], [n])
    | _ => ([], [])

/-- All sizes checked, `meridian/analysis/optimizer.py:2907-2933`. -/
def allSizes (f : Flighting) : List (List ℕ × List ℕ) :=
  [f.cpmu, f.cprf, f.media, f.rfImpressions, f.frequency, f.mediaSpend, f.rfSpend].map channelSizes
    ++ [revenueSizes f.revenuePerKpi]

/-- `_validate_optimization_tensors`, `meridian/analysis/optimizer.py:2855-2945`. -/
def validateFlighting (nGeos nTimes : ℕ) (f : Flighting) (useOptimal : Bool) : Except Err Unit :=
  if (f.media.isSome || f.mediaSpend.isSome) && f.cpmu.isNone then .error .costMissing
  else if (f.media.isNone && f.mediaSpend.isNone) && f.cpmu.isSome then .error .unitsMissing
  else if (f.rfImpressions.isSome || f.rfSpend.isSome) && f.cprf.isNone then .error .costMissing
  else if (f.rfImpressions.isNone && f.rfSpend.isNone) && f.cprf.isSome then .error .unitsMissing
  else if f.media.isSome && f.mediaSpend.isSome then .error .bothGiven
  else if f.rfImpressions.isSome && f.rfSpend.isSome then .error .bothGiven
  else if useOptimal && f.frequency.isSome then .error .frequencyGiven
  else if (!useOptimal && f.frequency.isNone) && (f.rfImpressions.isSome || f.rfSpend.isSome) then
    .error .frequencyMissing
  else if (allSizes f).any (fun s => s.1.any fun n => n ≠ nGeos) then .error .geoCount
  else if (allSizes f).any (fun s => s.2.any fun n => n ≠ nTimes) then .error .timeCount
  else .ok ()

/-- The media tensors made from units or from spend, `meridian/analysis/optimizer.py:1909-1918`:
units and spend.  Plain division, `none` where the cost is zero. -/
noncomputable def mediaPart (nGeos nTimes : ℕ) (population : ℕ → ℝ) (f : Flighting) :
    Except Err (Option (Ten (Option ℝ) × Ten ℝ)) :=
  match f.media, f.mediaSpend, f.cpmu with
  | some m, _, some cpmu => do
    let cost ← expandTensor cpmu [nGeos, nTimes, m.shape.getLastD 0]
    let u ← allocateByPopulation nGeos population m 3
    return some (zipTen (fun x _ => some x) u u, zipTen (· * ·) u cost)
  | none, some s, some cpmu => do
    let cost ← expandTensor cpmu [nGeos, nTimes, s.shape.getLastD 0]
    let sp ← allocateByPopulation nGeos population s 3
    return some (zipTen (fun x k => if k = 0 then none else some (x / k)) sp cost, sp)
  | _, _, _ => .ok none

/-- `_expand_tensor(frequency, shape)`, with `ones_like(impressions)` under the optimal frequency,
`meridian/analysis/optimizer.py:1926-1928, 1937-1939`. -/
def frequencyPart (f : Flighting) (useOptimal : Bool) (imp : Ten ℝ) (shape : List ℕ) :
    Except Err (Ten ℝ) :=
  if useOptimal then expandTensor { shape := imp.shape, data := fun _ => 1 } shape
  else match f.frequency with
    | none => .error .frequencyMissing
    | some q => expandTensor q shape

/-- The RF tensors: reach, frequency and spend, `meridian/analysis/optimizer.py:1919-1942`.
`backend.divide_no_nan` gives 0 for a zero divisor, as `/` on the real numbers does in Lean. -/
noncomputable def rfPart (nGeos nTimes : ℕ) (population : ℕ → ℝ) (f : Flighting)
    (useOptimal : Bool) : Except Err (Option (Ten ℝ × Ten ℝ × Ten ℝ)) :=
  match f.rfImpressions, f.rfSpend, f.cprf with
  | some m, _, some cprf => do
    let shape := [nGeos, nTimes, m.shape.getLastD 0]
    let cost ← expandTensor cprf shape
    let imp ← allocateByPopulation nGeos population m 3
    let q ← frequencyPart f useOptimal imp shape
    return some (zipTen (· / ·) imp q, q, zipTen (· * ·) imp cost)
  | none, some s, some cprf => do
    let shape := [nGeos, nTimes, s.shape.getLastD 0]
    let cost ← expandTensor cprf shape
    let sp ← allocateByPopulation nGeos population s 3
    let imp := zipTen (· / ·) sp cost
    let q ← frequencyPart f useOptimal imp shape
    return some (zipTen (· / ·) imp q, q, sp)
  | _, _, _ => .ok none

/-- The result of `create_optimization_tensors`: media units and spend; reach, frequency and spend;
revenue per KPI. -/
structure Created where
  media : Option (Ten (Option ℝ) × Ten ℝ)
  rf : Option (Ten ℝ × Ten ℝ × Ten ℝ)
  revenuePerKpi : Option (Ten ℝ)

/-- `BudgetOptimizer.create_optimization_tensors`, `meridian/analysis/optimizer.py:1892-1948`. -/
noncomputable def createTensors (nGeos nTimes : ℕ) (population : ℕ → ℝ) (f : Flighting)
    (useOptimal : Bool) : Except Err Created := do
  validateFlighting nGeos nTimes f useOptimal
  let m ← mediaPart nGeos nTimes population f
  let r ← rfPart nGeos nTimes population f useOptimal
  match f.revenuePerKpi with
  | none => return { media := m, rf := r, revenuePerKpi := none }
  | some v => do
    let v' ← expandTensor v [nGeos, nTimes]
    return { media := m, rf := r, revenuePerKpi := some v' }

end Verif.Spend
