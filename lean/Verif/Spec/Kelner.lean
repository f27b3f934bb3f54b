import Mathlib.Analysis.SpecialFunctions.Pow.Deriv
import Mathlib.Analysis.SpecialFunctions.Log.Deriv

/-!
# Gamma rays from p-p collisions: Kelner, Aharonian & Bugayov 2006 (PRD 74, 034018)

Over the real numbers, taking nothing from the model of the code. Energies in TeV, cross sections in
cm².
-/

namespace Naima.KAB06

noncomputable section

/-- eqs. 59-61, with `L = ln(E_p / TeV)` -/
def B (L : ℝ) : ℝ := 1.30 + 0.14 * L + 0.011 * L ^ 2
/-- eq. 60 -/
def β (L : ℝ) : ℝ := 1 / (1.79 + 0.11 * L + 0.008 * L ^ 2)
/-- eq. 61 -/
def k (L : ℝ) : ℝ := 1 / (0.801 + 0.049 * L + 0.014 * L ^ 2)

/-- Minus the number of photons per collision that carry more than the fraction `x` of the energy of the
proton. -/
def above (E x : ℝ) : ℝ :=
  let L := Real.log E
  B L * Real.log x * ((1 - x ^ β L) / (1 + k L * x ^ β L * (1 - x ^ β L))) ^ 4

/-- eq. 58: photons per collision and unit `x`, here as the derivative of the number above `x`. -/
def F (x E : ℝ) : ℝ := deriv (above E) x

/-- eqs. 73, 79: inelastic cross section, with the factor that makes it vanish at the threshold applied
up to 100 GeV -/
def σinel (E : ℝ) : ℝ :=
  if E ≤ 1.22e-3 then 0
  else
    let L := Real.log E
    (34.3 + 1.88 * L + 0.25 * L ^ 2) * (if E ≤ 0.1 then (1 - (1.22e-3 / E) ^ 4) ^ 2 else 1) * 1e-27

/-- mass of the neutral pion in TeV -/
def mπ : ℝ := 1.349766e-4
/-- mean fraction of the kinetic energy of the proton given to the pion -/
def Kπ : ℝ := 0.17

end

end Naima.KAB06
