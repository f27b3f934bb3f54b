import Mathlib.Analysis.SpecialFunctions.Pow.Real

/-! # The documented formulas (docstrings of src/naima/models.py), in terms of energy ratios

`r = E / E_0`, `rb = E_break / E_0`, `rc = E / E_cutoff`. -/

namespace Naima.Spec

/-- `A (E/E0)^-α` (docstring of PowerLaw) -/
noncomputable def powerLaw (A α r : ℝ) : ℝ := A * r ^ (-α)

/-- `A (E/E0)^-α exp(-(E/Ec)^β)` (docstring of ExponentialCutoffPowerLaw) -/
noncomputable def ecpl (A α β r rc : ℝ) : ℝ := A * r ^ (-α) * Real.exp (-(rc ^ β))

/-- docstring of BrokenPowerLaw: first branch for `E < E_break` -/
noncomputable def bpl (A α₁ α₂ r rb : ℝ) : ℝ :=
  if r < rb then A * r ^ (-α₁) else A * rb ^ (α₂ - α₁) * r ^ (-α₂)

/-- docstring of ExponentialCutoffBrokenPowerLaw -/
noncomputable def ecbpl (A α₁ α₂ β r rb rc : ℝ) : ℝ := Real.exp (-(rc ^ β)) * bpl A α₁ α₂ r rb

/-- `A (E/E0)^(-α - β log(E/E0))` (docstring of LogParabola) -/
noncomputable def logParabola (A α β r : ℝ) : ℝ := A * r ^ (-α - β * Real.log r)

end Naima.Spec
