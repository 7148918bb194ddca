import Mathlib.Analysis.Real.Sqrt
import Mathlib.Algebra.BigOperators.Fin
import Verif.Model.InputData

/-!
# Input data as objects: construction, copies, shared arrays

`meridian/data/input_data.py`.  An input data object refers to arrays; the arrays live in a store and
others may refer to them too.  What the constructor checks is `InputData.validate` (C26); here are its
effects: object arrays are replaced by converted ones, geo labels are turned into strings in place, and
revenue per KPI is set.  Simplifications: labels of geos are whole numbers or strings; the currency code
is left out.
-/

namespace Verif.DataObject

open Verif.InputData (Arr Input)

/-- A geo label. -/
inductive Label
  | int (n : ℤ)
  | text (s : String)
deriving DecidableEq

/-- `astype(str)` of a label. -/
def Label.str : Label → String
  | .int n => toString n
  | .text s => s

/-- A Python value in an object array; `num none` for NaN and `None`. -/
inductive Val
  | num (x : Num)
  | text (s : String)
deriving DecidableEq

/-- The values of an array, of a float or of the object dtype. -/
inductive Vals
  | floats (l : List Num)
  | objects (l : List Val)
deriving DecidableEq

/-- An `xr.DataArray`. -/
structure Cell where
  name : String
  dims : List String
  geo : List Label
  coord : String → List String
  vals : Vals

/-- The arrays that exist: those with a number below `next`. -/
structure Store where
  next : ℕ
  cell : ℕ → Cell

/-- Writes an array in place. -/
def Store.write (st : Store) (a : ℕ) (c : Cell) : Store :=
  { st with cell := fun b => if b = a then c else st.cell b }

/-- A new array, and its number. -/
def Store.alloc (st : Store) (c : Cell) : Store × ℕ :=
  (⟨st.next + 1, fun b => if b = st.next then c else st.cell b⟩, st.next)

/-- The fields with arrays, `meridian/data/input_data.py:272-286`. -/
inductive Field
  | kpi | population | controls | revenuePerKpi | media | mediaSpend | reach | frequency | rfSpend
  | organicMedia | organicReach | organicFrequency | nonMedia
deriving DecidableEq

/-- `dataclasses.fields(self)`, those with arrays. -/
def fields : List Field :=
  [.kpi, .population, .controls, .revenuePerKpi, .media, .mediaSpend, .reach, .frequency, .rfSpend,
    .organicMedia, .organicReach, .organicFrequency, .nonMedia]

/-- An input data object: the type of the KPI and the arrays it refers to. -/
structure Obj where
  kpiType : String
  ref : Field → Option ℕ

def Obj.set (o : Obj) (f : Field) (a : ℕ) : Obj :=
  { o with ref := fun g => if g = f then some a else o.ref g }

/-- The number a Python value is converted to, if it is; `parse` is `float` of a string. -/
def convert (parse : String → Option Num) : Val → Option Num
  | .num x => some x
  | .text s => parse s

/-- The array as its values are read. -/
def toArr (parse : String → Option Num) (c : Cell) : Arr where
  name := c.name
  dims := c.dims
  coord d := if d = "geo" then c.geo.map Label.str else c.coord d
  vals := match c.vals with
    | .floats l => l
    | .objects l => l.map fun v => (convert parse v).getD none

/-- The data of an object. -/
def view (parse : String → Option Num) (st : Store) (o : Obj) : Input :=
  let get (f : Field) : Option Arr := (o.ref f).map fun a => toArr parse (st.cell a)
  { kpi := toArr parse (st.cell ((o.ref .kpi).getD 0))
    kpiType := o.kpiType
    population := toArr parse (st.cell ((o.ref .population).getD 0))
    controls := get .controls
    revenuePerKpi := get .revenuePerKpi
    media := get .media
    mediaSpend := get .mediaSpend
    reach := get .reach
    frequency := get .frequency
    rfSpend := get .rfSpend
    organicMedia := get .organicMedia
    organicReach := get .organicReach
    organicFrequency := get .organicFrequency
    nonMedia := get .nonMedia }

inductive Err
  | convert
  | data (e : InputData.Err)
deriving DecidableEq

/-- One pass of `_coerce_object_arrays_to_float`, `meridian/data/input_data.py:318-329`: `astype` gives a
new array; `none` if it raises. -/
def coerceField (parse : String → Option Num) (s : Store × Obj) (f : Field) : Option (Store × Obj) :=
  match s.2.ref f with
  | none => some s
  | some a =>
    match (s.1.cell a).vals with
    | .floats _ => some s
    | .objects l =>
      match l.mapM (convert parse) with
      | none => none
      | some xs =>
        let (st, b) := s.1.alloc { s.1.cell a with vals := .floats xs }
        some (st, s.2.set f b)

/-- `_coerce_object_arrays_to_float`. -/
def coerce (parse : String → Option Num) : List Field → Store × Obj → Option (Store × Obj)
  | [], s => some s
  | f :: fs, s => match coerceField parse s f with
    | none => none
    | some s' => coerce parse fs s'

/-- Strings instead of labels. -/
def stringGeos (c : Cell) : Cell := { c with geo := c.geo.map fun l => .text l.str }

/-- `_convert_geos_to_strings`, `meridian/data/input_data.py:331-336`: in place. -/
def relabel (o : Obj) : List Field → Store → Store
  | [], st => st
  | f :: fs, st => match o.ref f with
    | none => relabel o fs st
    | some a => relabel o fs
        (if "geo" ∈ (st.cell a).dims then st.write a (stringGeos (st.cell a)) else st)

/-- The array of ones of `_validate_scenarios`, `meridian/data/input_data.py:583-593`. -/
def onesCell (kpi : Cell) : Cell where
  name := "revenue_per_kpi"
  dims := ["geo", "time"]
  geo := kpi.geo
  coord := kpi.coord
  vals := .floats (List.replicate (kpi.geo.length * (kpi.coord "time").length) (some 1))

/-- `__post_init__`, `meridian/data/input_data.py:288-301`, with the store it leaves, also if it raises.
Arrays made before it raises, to which nobody refers, are left out of the store. -/
def construct (parse : String → Option Num) (isDate : String → Bool) (regular : List String → Bool)
    (st : Store) (o : Obj) : Store × Except Err Obj :=
  match coerce parse fields (st, o) with
  | none => (st, .error .convert)
  | some (st1, o1) =>
    if InputData.anyNa (view parse st1 o1) then (st1, .error (.data .na))
    else
      let st2 := relabel o1 fields st1
      match InputData.validate isDate regular (view parse st2 o1) with
      | .error e => (st2, .error (.data e))
      | .ok _ =>
        if o1.kpiType = "revenue" then
          let (st3, r) := st2.alloc (onesCell (st2.cell ((o1.ref .kpi).getD 0)))
          (st3, .ok (o1.set .revenuePerKpi r))
        else (st2, .ok o1)

/-- `copy(deep=False)`, `meridian/data/input_data.py:565-566`: `dataclasses.replace` constructs again. -/
def shallowCopy (parse : String → Option Num) (isDate : String → Bool) (regular : List String → Bool)
    (st : Store) (o : Obj) : Store × Except Err Obj := construct parse isDate regular st o

/-- The loop of `copy(deep=True)`, `meridian/data/input_data.py:568-575`. -/
def copyFields (o : Obj) : List Field → Store × Obj → Store × Obj
  | [], s => s
  | f :: fs, s => match o.ref f with
    | none => copyFields o fs s
    | some a =>
      let (st, b) := s.1.alloc (s.1.cell a)
      copyFields o fs (st, s.2.set f b)

/-- `copy(deep=True)`, `meridian/data/input_data.py:568-577`. -/
def deepCopy (parse : String → Option Num) (isDate : String → Bool) (regular : List String → Bool)
    (st : Store) (o : Obj) : Store × Except Err Obj :=
  let (st1, o1) := copyFields o fields (st, o)
  construct parse isDate regular st1 o1

/-- What a user does to an object: changes one of its arrays in place, or assigns a new one. -/
inductive Op
  | edit (f : Field) (g : Cell → Cell)
  | assign (f : Field) (c : Cell)

def step (s : Store × Obj) : Op → Store × Obj
  | .edit f g => match s.2.ref f with
    | none => s
    | some a => (s.1.write a (g (s.1.cell a)), s.2)
  | .assign f c =>
    let (st, b) := s.1.alloc c
    (st, s.2.set f b)

def run (s : Store × Obj) (ops : List Op) : Store × Obj := ops.foldl step s

/-! ## The single dataset -/

/-- The list `as_dataset` makes, `meridian/data/input_data.py:918-943`; `xr.combine_by_coords` does not take
`None`. -/
def datasetArrays (d : Input) : List (Option Arr) :=
  [some d.kpi, some d.population] ++
    (if d.controls.isSome then [d.controls] else []) ++
    (if d.revenuePerKpi.isSome then [d.revenuePerKpi] else []) ++
    (if d.media.isSome then [d.media, d.mediaSpend] else []) ++
    (if d.reach.isSome then [d.reach, d.frequency, d.rfSpend] else []) ++
    (if d.organicMedia.isSome then [d.organicMedia] else []) ++
    (if d.organicReach.isSome then [d.organicReach, d.organicFrequency] else []) ++
    (if d.nonMedia.isSome then [d.nonMedia] else [])

/-- `as_dataset`: the arrays combined, `none` if it raises. -/
def asDataset (d : Input) : Option (List Arr) := (datasetArrays d).mapM id

/-! ## The scaled and centred KPI -/

/-- The KPI per head, `meridian/data/input_data.py:534-542`. -/
noncomputable def perHead {G T : ℕ} (kpi : Fin G → Fin T → ℝ) (population : Fin G → ℝ) (g : Fin G) (t : Fin T) :
    ℝ := if population g ≠ 0 then kpi g t / population g else 0

/-- The mean over all geos and times, line 543. -/
noncomputable def overallMean {G T : ℕ} (x : Fin G → Fin T → ℝ) : ℝ := (∑ g, ∑ t, x g t) / (G * T)

/-- The standard deviation over all geos and times, line 544. -/
noncomputable def overallStd {G T : ℕ} (x : Fin G → Fin T → ℝ) : ℝ :=
  Real.sqrt ((∑ g, ∑ t, (x g t - overallMean x) ^ 2) / (G * T))

/-- `scaled_centered_kpi`, `meridian/data/input_data.py:527-553`. -/
noncomputable def scaledCentered {G T : ℕ} (kpi : Fin G → Fin T → ℝ) (population : Fin G → ℝ) (g : Fin G)
    (t : Fin T) : ℝ :=
  let x := perHead kpi population
  let scaled (g : Fin G) (t : Fin T) : ℝ :=
    if overallStd x ≠ 0 then (x g t - overallMean x) / overallStd x else 0
  scaled g t - (∑ s, scaled g s) / T

end Verif.DataObject
