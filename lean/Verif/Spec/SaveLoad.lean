import Verif.Model.SaveLoad

/-!
# What saving and loading promise
-/

namespace Verif.SaveLoad.Spec

open Verif.SaveLoad

variable {L : Lib}

/-- `v` is the version `major.minor.patch` or an earlier one. -/
def UpTo (v : Version) (major minor patch : ℕ) : Prop :=
  v.major < major ∨ (v.major = major ∧
    (v.minor < minor ∨ (v.minor = minor ∧ v.patch ≤ patch)))

/-- The file types of the documentation. -/
def Supported (p : Path) : Prop :=
  ".binpb".toList <:+ p ∨ ".textproto".toList <:+ p ∨ ".txtpb".toList <:+ p

/-- The number of entries the samples must have for a coordinate. -/
def expected (d : L.Data) (k : L.Knots) : Coord → ℕ
  | .knots => L.nKnots k
  | c => L.size d c

/-- The samples fit the data and the knots: in each of the two groups, if there, every coordinate has
the expected number of entries, absent ones counting as empty. -/
def SamplesFit (d : L.Data) (k : L.Knots) (i : L.Inf) : Prop :=
  ∀ g f, L.coords i g = some f → ∀ c, (f c).getD 0 = expected d k c

/-- A part is written and read back unchanged. -/
def RoundTrip {α μ : Type} (ser : α → Except Err μ) (de : μ → Except Err α) (x : α) : Prop :=
  ∃ m, ser x = .ok m ∧ de m = .ok x

/-- All parts of the model are written and read back unchanged. -/
def PartsRoundTrip (m : Obj L) : Prop :=
  RoundTrip L.serData L.deData m.data ∧ RoundTrip L.serSpec L.deSpec m.spec ∧
    RoundTrip L.serPrior L.dePrior m.prior ∧ RoundTrip L.serInf L.deInf m.inf ∧
    RoundTrip L.serEda L.deEda m.eda

/-- A valid model object: the constructor accepts it and its samples fit. -/
def Valid (m : Obj L) : Prop :=
  L.accept m.data m.spec m.prior m.eda = .ok () ∧ SamplesFit m.data m.knots m.inf

/-- What is known of protocol buffers: messages are read back unchanged, and an empty file is the
empty message, which holds no model. -/
structure Lawful (cd : Codec L) : Prop where
  bin : ∀ k, cd.parseBin (cd.bin k) = some k
  text : ∀ k, cd.parseText (cd.text k) = some k
  emptyBin : ∃ k, cd.parseBin [] = some k ∧ k.model = none
  emptyText : ∃ k, cd.parseText [] = some k ∧ k.model = none

/-- The operating system raises no objection. -/
def Allows (os : Os) : Prop := os.mkdir = true ∧ os.opens = true ∧ os.space = none

/-- The directory of the path can be written to: it is there, or nothing is there and the path names a
directory. -/
def Reachable (fs : FS) (p : Path) : Prop :=
  dirname p ≠ [] ∧ (fs.dirs (dirname p) = true ∨ fs.files (dirname p) = none)

end Verif.SaveLoad.Spec
