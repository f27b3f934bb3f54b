import Mathlib.Analysis.SpecialFunctions.Pow.Real
import Mathlib.Analysis.SpecialFunctions.Trigonometric.Basic

/-!
# The published inverse Compton kernels, over the real numbers

Khangulyan, Aharonian & Kelner 2014, eqs. 11, 14, 20-27 and Aharonian & Atoyan 1981, eq. 22.
Energies in electron rest masses, `t` the temperature in electron rest masses.
-/

namespace Naima.Spec

noncomputable section

/-- eq. 25 -/
def gFactor (α a β b x : ℝ) : ℝ := 1 / (1 + a * x ^ α / (1 + b * x ^ β))

/-- eq. 20 with 24: the functions `F₁`, `F₂` -/
def F12 (α a β b x : ℝ) : ℝ := (Real.pi ^ 2 / 6 + x) * Real.exp (-x) * gFactor α a β b x

/-- eq. 20 with 24: the functions `F₃`, `F₄` -/
def F34 (α a β b c x : ℝ) : ℝ :=
  Real.pi ^ 2 / 6 * ((1 + c * x) / (1 + Real.pi ^ 2 * c / 6 * x)) * Real.exp (-x) * gFactor α a β b x

/-- `2 r₀² mₑ³ c⁴ / (π ħ³)` as a number -/
def thermalNorm : ℝ := 2.6318735743809104e16

/-- eq. 14: electrons of Lorentz factor `g`, isotropic gray body, photon energy `eg < g` -/
def isoThermal (g t eg : ℝ) : ℝ :=
  let z := eg / g
  let x := z / ((1 - z) * (4 * g * t))
  thermalNorm * t ^ 2 / g ^ 2 *
    (z ^ 2 / (2 * (1 - z)) * F34 0.606 0.443 1.481 0.540 0.319 x +
      F34 0.461 0.726 1.457 0.382 6.620 x)

/-- eq. 11: the seed photons arrive at angle `θ` -/
def aniThermal (g t eg θ : ℝ) : ℝ :=
  let z := eg / g
  let x := z / ((1 - z) * (2 * g * t * (1 - Real.cos θ)))
  thermalNorm * t ^ 2 / g ^ 2 *
    (z ^ 2 / (2 * (1 - z)) * F12 0.857 0.153 1.840 0.254 x + F12 0.691 1.330 1.668 0.534 x)

/-- Aharonian & Atoyan, eq. 22, the kinematic variable -/
def kinQ (g e0 eg : ℝ) : ℝ := eg / (4 * e0 * g * (g - eg))

/-- Aharonian & Atoyan, eq. 22, without its prefactor -/
def isoMono (g e0 eg : ℝ) : ℝ :=
  let q := kinQ g e0 eg
  let G := 4 * e0 * g
  2 * q * Real.log q + (1 + 2 * q) * (1 - q) + (G * q) ^ 2 * (1 - q) / (2 * (1 + G * q))

end

end Naima.Spec
