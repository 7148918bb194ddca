import Verif.Model.Lookup

/-!
# What is expected of the lookups by channel
-/

namespace Verif.Lookup.Spec

open Verif.Lookup Verif.Transformers

/-- The four types of channels with adstock and saturation. -/
inductive Kind
  | media | rf | organicMedia | organicRf
  deriving DecidableEq

/-- The array of the type. -/
def block (d : Inputs) : Kind → Option Block
  | .media => d.media
  | .rf => d.rf
  | .organicMedia => d.organicMedia
  | .organicRf => d.organicRf

/-- The suffix of the parameters of the type. -/
def suffix : Kind → String
  | .media => "m"
  | .rf => "rf"
  | .organicMedia => "om"
  | .organicRf => "orf"

/-- The dimension of the channels of the type. -/
def channelDim : Kind → String
  | .media => "media_channel"
  | .rf => "rf_channel"
  | .organicMedia => "organic_media_channel"
  | .organicRf => "organic_rf_channel"

/-- The type has reach and frequency. -/
def hasReach : Kind → Bool
  | .rf | .organicRf => true
  | _ => false

/-- The `i`-th channel of the type is called `name`. -/
def IsChannel (d : Inputs) (k : Kind) (i : ℕ) (name : String) : Prop :=
  ∃ b, block d k = some b ∧ b.names[i]? = some name

/-- `name` is the name of a non-media treatment. -/
def IsNonMedia (d : Inputs) (name : String) : Prop := ∃ l, d.nonMedia = some l ∧ name ∈ l

/-- `name` is the name of a control variable. -/
def IsControl (d : Inputs) (name : String) : Prop := ∃ l, d.controls = some l ∧ name ∈ l

/-- All channels of all types and all non-media treatments have different names. -/
structure Distinct (d : Inputs) : Prop where
  channels : ∀ k k' i i' n, IsChannel d k i n → IsChannel d k' i' n → k = k' ∧ i = i'
  nonMedia : ∀ l, d.nonMedia = some l → l.Nodup
  apart : ∀ k i n, IsChannel d k i n → ¬ IsNonMedia d n

/-- The channel has a value that is not zero in a geo with people. -/
def NotEmpty (d : Inputs) (x : Panel) : Prop :=
  ∃ g < d.geos.length, ∃ t < d.mediaTimes.length, x g t ≠ 0 ∧ d.population g ≠ 0

/-- No channel is empty. -/
def NoneEmpty (d : Inputs) : Prop :=
  ∀ k b, block d k = some b → ∀ i < b.names.length, NotEmpty d (b.volume i)

/-- The parameters that each channel of the type has. -/
def bases : Kind → List String
  | .media | .rf => ["roi", "mroi", "contribution", "beta", "eta", "alpha", "ec", "slope"]
  | _ => ["contribution", "beta", "eta", "alpha", "ec", "slope"]

end Verif.Lookup.Spec
