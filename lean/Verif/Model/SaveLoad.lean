import Mathlib.Data.List.Basic

/-!
# Saving a model to a file and loading it

`save_meridian`, `load_meridian`, `MeridianSerde.serialize` and `MeridianSerde.deserialize`,
`meridian/schema/serde/meridian_serde.py`, and `_validate_injected_inference_data`,
`meridian/model/model.py:561-669`.

The parts of a model (input data, hyperparameters, priors, samples, EDA specification), their messages
and the functions between them are a parameter `Lib`; these functions are modelled elsewhere
(`SpecSerde`, `DistSerde`, `TensorProto`, `Registry`).  So is the protobuf library (`Codec`).  Bytes are
natural numbers.  A run of `save_meridian` is the list of the states of the file system it goes
through: a crash can leave any of them.
-/

namespace Verif.SaveLoad

/-- The exceptions. -/
inductive Err where
  /-- An exception of the operating system. -/
  | os
  | unsupported
  /-- The file is not a message. -/
  | parse
  | notMeridian
  | version
  | noPriors
  | coordinate
  /-- An exception of one of the parts. -/
  | part
deriving DecidableEq

/-- The warnings of `deserialize`. -/
inductive Warning where
  | backend
  | precision
  | noEda
deriving DecidableEq

/-- A version without pre-release tag. -/
structure Version where
  major : ℕ
  minor : ℕ
  patch : ℕ
deriving DecidableEq

/-- `<=` of `semver.VersionInfo`. -/
def Version.le (a b : Version) : Bool :=
  if a.major = b.major then
    if a.minor = b.minor then decide (a.patch ≤ b.patch) else decide (a.minor < b.minor)
  else decide (a.major < b.major)

/-- `meridian.__version__`, `meridian/version.py:17`. -/
def current : Version := ⟨1, 8, 0⟩

/-- `_LEGACY_AKS_CUTOFF_VERSION`, line 70. -/
def cutoff170 : Version := ⟨1, 7, 0⟩

/-- `_LEGACY_AKS_V1_7_1_CUTOFF_VERSION`, line 71. -/
def cutoff171 : Version := ⟨1, 7, 1⟩

/-- The groups of samples that are validated. -/
inductive Group where
  | prior
  | posterior
deriving DecidableEq

/-- The coordinates that are validated. -/
inductive Coord where
  | geo
  | control
  | knots
  | time
  | media
  | rf
  | organicMedia
  | organicRf
  | nonMedia
deriving DecidableEq

/-- The parts of a model and what is known of them here. -/
structure Lib where
  Data : Type
  Spec : Type
  Prior : Type
  Inf : Type
  Eda : Type
  Knots : Type
  Health : Type
  MData : Type
  MSpec : Type
  MPrior : Type
  MLegacy : Type
  MInf : Type
  MEda : Type
  serData : Data → Except Err MData
  deData : MData → Except Err Data
  serSpec : Spec → Except Err MSpec
  deSpec : MSpec → Except Err Spec
  serPrior : Prior → Except Err MPrior
  dePrior : MPrior → Except Err Prior
  /-- Reader of the older messages for priors. -/
  deLegacy : MLegacy → Except Err Prior
  serInf : Inf → Except Err MInf
  deInf : MInf → Except Err Inf
  serEda : Eda → Except Err MEda
  deEda : MEda → Except Err Eda
  defaultEda : Eda
  /-- The validation of the constructor of `Meridian`. -/
  accept : Data → Spec → Prior → Eda → Except Err Unit
  /-- `enable_aks`. -/
  aks : Spec → Bool
  /-- `get_knot_info`. -/
  knots : Data → Spec → Knots
  nKnots : Knots → ℕ
  /-- `legacy_aks.get_legacy_knots`. -/
  legacy170 : Data → Except Err Knots
  /-- `legacy_aks_v1_7_1.get_legacy_knots`. -/
  legacy171 : Data → Except Err Knots
  /-- The number of geos, controls, times and channels of each kind. -/
  size : Data → Coord → ℕ
  /-- The sizes of the coordinates in a group of samples, if there is such a group. -/
  coords : Inf → Group → Option (Coord → Option ℕ)

/-- A `Meridian` object; `backend` and `precision` are values of the enumerations of the message, 0
for unspecified. -/
structure Obj (L : Lib) where
  data : L.Data
  spec : L.Spec
  prior : L.Prior
  eda : L.Eda
  inf : L.Inf
  knots : L.Knots
  health : Option L.Health
  backend : ℕ
  precision : ℕ

/-- `MeridianModel`; `version` is `none` if it is not a version. -/
structure ModelMsg (L : Lib) where
  version : Option Version
  spec : L.MSpec
  legacy : Option L.MLegacy
  prior : Option L.MPrior
  inf : L.MInf
  eda : Option L.MEda
  backend : ℕ
  precision : ℕ

/-- `MmmKernel`; `model` is `none` if it is not a `MeridianModel`. -/
structure Kernel (L : Lib) where
  data : L.MData
  model : Option (ModelMsg L)

/-- Protocol buffers. -/
structure Codec (L : Lib) where
  bin : Kernel L → List ℕ
  parseBin : List ℕ → Option (Kernel L)
  text : Kernel L → List ℕ
  parseText : List ℕ → Option (Kernel L)

variable {L : Lib}

/-- `_make_meridian_model_proto`, lines 137-209 (without convergence information, as in
`save_meridian`). -/
def modelMsg (m : Obj L) : Except Err (ModelMsg L) :=
  match L.serSpec m.spec with
  | .error e => .error e
  | .ok s =>
    match L.serPrior m.prior with
    | .error e => .error e
    | .ok p =>
      match L.serInf m.inf with
      | .error e => .error e
      | .ok i =>
        match L.serEda m.eda with
        | .error e => .error e
        | .ok d => .ok ⟨some current, s, none, some p, i, some d, m.backend, m.precision⟩

/-- `serialize`, lines 84-135. -/
def serialize (m : Obj L) : Except Err (Kernel L) :=
  match modelMsg m with
  | .error e => .error e
  | .ok msg =>
    match L.serData m.data with
    | .error e => .error e
    | .ok d => .ok ⟨d, some msg⟩

/-- A coordinate of a group, `_validate_injected_inference_data_group_coord`, `meridian/model/model.py:576-605`. -/
def coordOk (f : Coord → Option ℕ) (c : Coord) (expected : ℕ) : Bool :=
  decide ((f c).getD 0 = expected)

/-- `_validate_injected_inference_data_group`, `meridian/model/model.py:607-669`. -/
def groupOk (d : L.Data) (k : L.Knots) (f : Coord → Option ℕ) : Bool :=
  coordOk f .geo (L.size d .geo) && coordOk f .control (L.size d .control) &&
    coordOk f .knots (L.nKnots k) && coordOk f .time (L.size d .time) &&
    coordOk f .media (L.size d .media) && coordOk f .rf (L.size d .rf) &&
    coordOk f .organicMedia (L.size d .organicMedia) &&
    coordOk f .organicRf (L.size d .organicRf) && coordOk f .nonMedia (L.size d .nonMedia)

/-- A group, if there. -/
def groupOk? (d : L.Data) (k : L.Knots) : Option (Coord → Option ℕ) → Bool
  | none => true
  | some f => groupOk d k f

/-- `_validate_injected_inference_data`, `meridian/model/model.py:561-574`. -/
def infOk (d : L.Data) (k : L.Knots) (i : L.Inf) : Bool :=
  groupOk? d k (L.coords i .prior) && groupOk? d k (L.coords i .posterior)

/-- The priors of a message, lines 333-351: the older field first. -/
def readPrior (m : ModelMsg L) : Except Err L.Prior :=
  match m.legacy with
  | some p => L.deLegacy p
  | none =>
    match m.prior with
    | some p => L.dePrior p
    | none => .error .noPriors

/-- The EDA specification of a message, lines 369-387. -/
def readEda (m : ModelMsg L) : Except Err L.Eda :=
  match m.eda with
  | some e => L.deEda e
  | none => .ok L.defaultEda

/-- The knots of the loaded model, lines 390-402. -/
def readKnots (v : Version) (d : L.Data) (s : L.Spec) : Except Err L.Knots :=
  if L.aks s then
    if v.le cutoff170 then L.legacy170 d
    else if v.le cutoff171 then L.legacy171 d
    else .ok (L.knots d s)
  else .ok (L.knots d s)

/-- The warnings, lines 293-325 and 387, with the current backend and precision. -/
def warnings (b p : ℕ) (m : ModelMsg L) : List Warning :=
  (if m.backend ≠ 0 ∧ m.backend ≠ b then [.backend] else []) ++
    (if m.precision ≠ 0 ∧ m.precision ≠ p then [.precision] else []) ++
    match m.eda with
    | some _ => []
    | none => [.noEda]

/-- `deserialize`, lines 256-411, with the current backend and precision. -/
def deserialize (b p : ℕ) (k : Kernel L) : Except Err (Obj L × List Warning) :=
  match k.model with
  | none => .error .notMeridian
  | some m =>
    match m.version with
    | none => .error .version
    | some v =>
      match L.deSpec m.spec with
      | .error e => .error e
      | .ok s =>
        match readPrior m with
        | .error e => .error e
        | .ok pr =>
          match L.deData k.data with
          | .error e => .error e
          | .ok d =>
            match L.deInf m.inf with
            | .error e => .error e
            | .ok i =>
              match readEda m with
              | .error e => .error e
              | .ok e =>
                match L.accept d s pr e with
                | .error e => .error e
                | .ok _ =>
                  match readKnots v d s with
                  | .error e => .error e
                  | .ok kn =>
                    if infOk d kn i then .ok (⟨d, s, pr, e, i, kn, none, b, p⟩, warnings b p m)
                    else .error .coordinate

/-- A path. -/
abbrev Path := List Char

/-- The file system. -/
structure FS where
  dirs : Path → Bool
  files : Path → Option (List ℕ)

/-- What the operating system allows: creating the directory, opening the file, and the number of bytes
that can be written, if there is a limit. -/
structure Os where
  mkdir : Bool
  opens : Bool
  space : Option ℕ

/-- `head.rstrip('/')`. -/
def rstrip (p : Path) : Path := (p.reverse.dropWhile fun c => c = '/').reverse

/-- `os.path.dirname`. -/
def dirname (p : Path) : Path :=
  let head := (p.reverse.dropWhile fun c => c ≠ '/').reverse
  if head.all fun c => c = '/' then head else rstrip head

/-- `os.path.exists`. -/
def FS.existsPath (fs : FS) (p : Path) : Bool :=
  if p = [] then false else fs.dirs p || (fs.files p).isSome

/-- `os.makedirs`: creates the directory and those above it. -/
def FS.mkdirs (fs : FS) (p : Path) : FS :=
  ⟨fun x => fs.dirs x || decide (x = p) || (decide (x ≠ []) && (x ++ ['/']).isPrefixOf p), fs.files⟩

/-- Set the contents of a file. -/
def FS.put (fs : FS) (p : Path) (c : List ℕ) : FS :=
  ⟨fs.dirs, fun x => if x = p then some c else fs.files x⟩

/-- `endswith`. -/
def endsWith (p : Path) (s : String) : Bool := s.toList.isSuffixOf p

/-- The contents to write, lines 450-455. -/
def contents (cd : Codec L) (p : Path) (k : Kernel L) : Except Err (List ℕ) :=
  if endsWith p ".binpb" then .ok (cd.bin k)
  else if endsWith p ".textproto" || endsWith p ".txtpb" then .ok (cd.text k)
  else .error .unsupported

/-- Lines 444-455, after the file was opened: the later states and the result. -/
def body (cd : Codec L) (os : Os) (fs : FS) (p : Path) (m : Obj L) : List FS × Except Err Unit :=
  match serialize m with
  | .error e => ([], .error e)
  | .ok k =>
    match contents cd p k with
    | .error e => ([], .error e)
    | .ok c =>
      match os.space with
      | none => ((List.range (c.length + 1)).map fun i => fs.put p (c.take i), .ok ())
      | some n =>
        if c.length ≤ n then ((List.range (c.length + 1)).map fun i => fs.put p (c.take i), .ok ())
        else ((List.range (n + 1)).map fun i => fs.put p (c.take i), .error .os)

/-- Lines 441-455, from the opening of the file, which empties it. -/
def openAndWrite (cd : Codec L) (os : Os) (fs : FS) (p : Path) (m : Obj L) :
    List FS × Except Err Unit :=
  if os.opens && fs.dirs (dirname p) then
    let r := body cd os (fs.put p []) p m
    (fs :: fs.put p [] :: r.1, r.2)
  else ([fs], .error .os)

/-- `save_meridian`, lines 414-455: the states of the file system, from the first to the last, and the
result. -/
def save (cd : Codec L) (os : Os) (fs : FS) (p : Path) (m : Obj L) : List FS × Except Err Unit :=
  if fs.existsPath (dirname p) then openAndWrite cd os fs p m
  else if dirname p = [] || !os.mkdir then ([fs], .error .os)
  else
    let r := openAndWrite cd os (fs.mkdirs (dirname p)) p m
    (fs :: r.1, r.2)

/-- The state at the end. -/
def final (fs : FS) (r : List FS × Except Err Unit) : FS := r.1.getLastD fs

/-- The message in a file, lines 488-497. -/
def parse (cd : Codec L) (p : Path) (c : List ℕ) : Except Err (Kernel L) :=
  if endsWith p ".binpb" then
    match cd.parseBin c with
    | none => .error .parse
    | some k => .ok k
  else if endsWith p ".textproto" || endsWith p ".txtpb" then
    match cd.parseText c with
    | none => .error .parse
    | some k => .ok k
  else .error .unsupported

/-- `load_meridian`, lines 458-503. -/
def load (cd : Codec L) (b pr : ℕ) (fs : FS) (p : Path) : Except Err (Obj L × List Warning) :=
  match fs.files p with
  | none => .error .os
  | some c =>
    match parse cd p c with
    | .error e => .error e
    | .ok k => deserialize b pr k

end Verif.SaveLoad
