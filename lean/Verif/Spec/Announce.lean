import Verif.Model.Announce

/-!
# Specification: what a setting is for, and having no effect
-/

namespace Verif.Announce.Spec

variable {D : Type}

/-- When a prior distribution matters: there are channels of its kind, the prior type of the channels asks for it, and
the model has several geos if it is about the differences between them. -/
def Used (x : Data) (c : Cfg D) : Param → Prop
  | .knotValues => True
  | .sigma => True
  | .tauG => x.national = false
  | .alphaM => x.media = true
  | .ecM => x.media = true
  | .slopeM => x.media = true
  | .etaM => x.media = true ∧ x.national = false
  | .roiM => x.media = true ∧ c.media = .roi
  | .mroiM => x.media = true ∧ c.media = .mroi
  | .contributionM => x.media = true ∧ c.media = .contribution
  | .betaM => x.media = true ∧ c.media = .coefficient
  | .alphaRf => x.rf = true
  | .ecRf => x.rf = true
  | .slopeRf => x.rf = true
  | .etaRf => x.rf = true ∧ x.national = false
  | .roiRf => x.rf = true ∧ c.rf = .roi
  | .mroiRf => x.rf = true ∧ c.rf = .mroi
  | .contributionRf => x.rf = true ∧ c.rf = .contribution
  | .betaRf => x.rf = true ∧ c.rf = .coefficient
  | .alphaOm => x.organicMedia = true
  | .ecOm => x.organicMedia = true
  | .slopeOm => x.organicMedia = true
  | .etaOm => x.organicMedia = true ∧ x.national = false
  | .contributionOm => x.organicMedia = true ∧ c.organicMedia = .contribution
  | .betaOm => x.organicMedia = true ∧ c.organicMedia = .coefficient
  | .alphaOrf => x.organicRf = true
  | .ecOrf => x.organicRf = true
  | .slopeOrf => x.organicRf = true
  | .etaOrf => x.organicRf = true ∧ x.national = false
  | .contributionOrf => x.organicRf = true ∧ c.organicRf = .contribution
  | .betaOrf => x.organicRf = true ∧ c.organicRf = .coefficient
  | .gammaC => x.controls = true
  | .xiC => x.controls = true ∧ x.national = false
  | .xiN => x.nonMedia = true ∧ x.national = false
  | .gammaN => x.nonMedia = true ∧ c.nonMedia = .coefficient
  | .contributionN => x.nonMedia = true ∧ c.nonMedia = .contribution

/-- The specification with another distribution for one parameter. -/
def with_ (c : Cfg D) (p : Param) (d : D) : Cfg D := { c with prior := fun q => if q = p then d else c.prior q }

/-- Whatever distribution is given for a parameter, the outcome is the same. -/
def NoEffect {β : Type} (f : Cfg D → β) (c : Cfg D) (p : Param) : Prop := ∀ d, f (with_ c p d) = f c

/-- Not the default. -/
def Custom (w : Dists D) (c : Cfg D) (p : Param) : Prop := c.prior p ≠ w.default p

/-- A warning names the parameter. -/
def Named (ws : List (List Param)) (p : Param) : Prop := ∃ names ∈ ws, p ∈ names

/-- The comparisons of the library are right. -/
structure Right (w : Dists D) : Prop where
  eq : ∀ a b, w.eq a b = true ↔ a = b
  zero : ∀ a, w.isZero a = true ↔ a = w.zero

end Verif.Announce.Spec
