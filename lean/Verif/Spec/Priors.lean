import Verif.Model.Priors

/-!
# What the checks and the broadcasting of priors are to do
-/

namespace Verif.Priors.Spec

/-- The parameters that cannot be negative. -/
def nonNegative : List String :=
  ["eta_m", "eta_rf", "eta_om", "eta_orf", "xi_c", "xi_n", "sigma",
   "alpha_m", "alpha_rf", "alpha_om", "alpha_orf",
   "ec_m", "ec_rf", "ec_om", "ec_orf", "slope_m", "slope_rf", "slope_om", "slope_orf"]

/-- The decay parameters, at most one. -/
def decays : List String := ["alpha_m", "alpha_rf", "alpha_om", "alpha_orf"]

/-- The parameters of the Hill function, which cannot be zero. -/
def hills : List String :=
  ["ec_m", "ec_rf", "ec_om", "ec_orf", "slope_m", "slope_rf", "slope_om", "slope_orf"]

/-- The support of `d` reaches below `q`. -/
inductive Below (q : ℚ) : D → Prop
  | point (r m t) (h : r < q) : Below q ⟨.deterministic (.fin r), m, t⟩
  | pointInf (m t) : Below q ⟨.deterministic .negInf, m, t⟩
  | truncated (r hi m t) (h : r < q) : Below q ⟨.truncated (.fin r) hi, m, t⟩
  | truncatedInf (hi m t) : Below q ⟨.truncated .negInf hi, m, t⟩
  | quantile (r hi m t) (h : r < q) : Below q ⟨.quantiles (.fin r) hi, m, t⟩
  | quantileInf (hi m t) : Below q ⟨.quantiles .negInf hi, m, t⟩

/-- The support of `d` reaches above `q`. -/
inductive Above (q : ℚ) : D → Prop
  | point (r m t) (h : q < r) : Above q ⟨.deterministic (.fin r), m, t⟩
  | pointInf (m t) : Above q ⟨.deterministic .posInf, m, t⟩
  | truncated (lo r m t) (h : q < r) : Above q ⟨.truncated lo (.fin r), m, t⟩
  | truncatedInf (lo m t) : Above q ⟨.truncated lo .posInf, m, t⟩
  | quantile (lo r m t) (h : q < r) : Above q ⟨.quantiles lo (.fin r), m, t⟩
  | quantileInf (lo m t) : Above q ⟨.quantiles lo .posInf, m, t⟩

/-- All of the mass of `d` is at `q`. -/
def PointMass (q : ℚ) (d : D) : Prop := d.shape = .deterministic (.fin q)

/-- The support of the prior is not known. -/
def Unknown (x : Batch) : Prop := ∃ d ∈ x.elems, d.shape = .noQuantile

/-- The number of channels, or of variables, of the kind the parameter belongs to. -/
def channels (s : Sizes) (x : String) : Option ℕ :=
  if x ∈ ["roi_m", "mroi_m", "contribution_m", "alpha_m", "ec_m", "slope_m", "eta_m", "beta_m"] then
    some s.media
  else if x ∈ ["roi_rf", "mroi_rf", "contribution_rf", "alpha_rf", "ec_rf", "slope_rf", "eta_rf",
      "beta_rf"] then some s.rf
  else if x ∈ ["contribution_om", "alpha_om", "ec_om", "slope_om", "eta_om", "beta_om"] then
    some s.organicMedia
  else if x ∈ ["contribution_orf", "alpha_orf", "ec_orf", "slope_orf", "eta_orf", "beta_orf"] then
    some s.organicRf
  else if x ∈ ["gamma_c", "xi_c"] then some s.controls
  else if x ∈ ["contribution_n", "gamma_n", "xi_n"] then some s.nonMedia
  else none

/-- The parameters of the differences between geos. -/
def betweenGeos : List String :=
  ["tau_g_excl_baseline", "eta_m", "eta_rf", "eta_om", "eta_orf", "xi_c", "xi_n"]

/-- The prior of the `i`-th value: one distribution serves for all, a batch gives one each. -/
def valueAt : Batch → ℕ → Option D
  | .scalar d, _ => some d
  | .vec l, i => l[i]?

/-- The batch is one distribution, or has length `n`. -/
def HasLength (n : ℕ) : Batch → Prop
  | .scalar _ => True
  | .vec l => l.length = n

/-- The batch can be broadcast with `n`. -/
def Broadcasts (n : ℕ) : Batch → Prop
  | .scalar _ => True
  | .vec l => l.length = n ∨ l.length = 1 ∨ n = 1

/-- A batch of point masses, not exactly one. -/
def PointMasses : Batch → Prop
  | .scalar _ => False
  | .vec l => l.length ≠ 1 ∧ ∀ d ∈ l, ∃ e, d.shape = .deterministic e

/-- Paid media use the default ROI prior. -/
def MediaDefault (c : Setup) : Prop := c.mediaType = .roi ∧ c.defaultRoiM = true

/-- Paid reach and frequency channels use the default ROI prior. -/
def RfDefault (c : Setup) : Prop := c.rfType = .roi ∧ c.defaultRoiRf = true

/-- The priors the check of negative values looks at, by prior type. -/
def checked (c : Setup) : PriorType → List String
  | .roi => (if 0 < c.nMedia then ["roi_m"] else []) ++ (if 0 < c.nRf then ["roi_rf"] else [])
  | .mroi => (if 0 < c.nMedia then ["mroi_m"] else []) ++ (if 0 < c.nRf then ["mroi_rf"] else [])
  | .contribution =>
    (if 0 < c.nMedia then ["contribution_m"] else []) ++ (if 0 < c.nRf then ["contribution_rf"] else [])
    ++ (if 0 < c.nOrganicMedia then ["contribution_om"] else [])
    ++ (if 0 < c.nOrganicRf then ["contribution_orf"] else [])
  | .coefficient => []

end Verif.Priors.Spec
