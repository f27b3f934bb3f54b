import Verif.Model.LnProb

/-! # What the likelihood and the priors should be -/

namespace Naima.Spec

open Naima

/-- normalised deviation squared of a measured point, with the upper error if the model is above -/
noncomputable def chi2 (m : ℝ) (r : Row) : ℝ :=
  ((m - r.flux) / (if r.flux < m then r.fluxErrorHi else r.fluxErrorLo)) ^ 2

/-- `-1/2 sum chi2` over all points -/
noncomputable def gaussLnL (ms : List ℝ) (rows : List Row) : ℝ :=
  -(1 / 2) * ((ms.zip rows).map (fun p => chi2 p.1 p.2)).sum

/-- full log-likelihood: measured points are gaussian, every violated upper limit adds the log of
one minus its own confidence level -/
noncomputable def lnL (ms : List ℝ) (rows : List Row) (cl : Row → ℝ) : ℝ :=
  ((ms.zip rows).map (fun p =>
    if p.2.ul then (if p.2.flux < p.1 then Real.log (1 - cl p.2) else 0)
    else -(1 / 2) * chi2 p.1 p.2)).sum

/-- A data table as validation leaves it: positive energies and flux errors. -/
structure GoodData (d : VTable) : Prop where
  energy : ∀ r ∈ d.rows, 0 < r.energy
  errLo : ∀ r ∈ d.rows, 0 < r.fluxErrorLo
  errHi : ∀ r ∈ d.rows, 0 < r.fluxErrorHi

/-- density of the normal distribution -/
noncomputable def normalDensity (x mean sigma : ℝ) : ℝ :=
  1 / (sigma * Real.sqrt (2 * Real.pi)) * Real.exp (-(x - mean) ^ 2 / (2 * sigma ^ 2))

/-- density of the log-uniform distribution on `[a, b]` -/
noncomputable def logUniformDensity (x a b : ℝ) : ℝ := 1 / (x * Real.log (b / a))

end Naima.Spec
