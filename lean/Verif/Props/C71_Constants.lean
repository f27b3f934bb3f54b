import Verif.Props.C71_ICFormula
import Mathlib.Analysis.Real.Pi.Bounds

/-! # C71: the numbers hard-coded in the inverse Compton and pion code agree with the physical
constants they stand for -/

namespace Naima.Props

open Naima

/-- `x` equals `y` to a relative accuracy of `tol`. -/
def Within (tol x y : ℝ) : Prop := |x - y| ≤ tol * |y|

/-- Boltzmann's constant in erg/K (exact in the SI). -/
noncomputable def kBoltzmann : ℝ := 1.380649e-16

theorem within_of (tol x y : ℝ) (hy : 0 < y) (h1 : (1 - tol) * y ≤ x) (h2 : x ≤ (1 + tol) * y) :
    Within tol x y := by
  unfold Within
  rw [abs_of_pos hy, abs_le]
  constructor <;> nlinarith

/-- **C71 (temperature).** The number with which temperatures in kelvin are turned into electron rest
masses is `k_B/(mₑ c²)` to 1e-6. -/
theorem C71_temperature : Within 1e-6 Ktomec2 (kBoltzmann / (cMe * cC ^ 2)) := by
  apply within_of
  · unfold kBoltzmann cMe cC; norm_num
  · unfold kBoltzmann cMe cC Ktomec2; norm_num
  · unfold kBoltzmann cMe cC Ktomec2; norm_num

/-- **C71 (Thomson cross section).** The number used for monochromatic and spectral seed fields is
`8π/3 r₀²`, with `r₀ = e²/(mₑc²)`, to 1e-5. -/
theorem C71_thomson : Within 1e-5 sigmaT (8 * Real.pi / 3 * (cE ^ 2 / (cMe * cC ^ 2)) ^ 2) := by
  have h1 := Real.pi_gt_d6
  have h2 := Real.pi_lt_d6
  have hr : (0:ℝ) < (cE ^ 2 / (cMe * cC ^ 2)) ^ 2 := by
    have := cE_pos; have := cMe_pos; have := cC_pos; positivity
  have hp := Real.pi_pos
  apply within_of
  · positivity
  · have : (1 - 1e-5) * (8 * Real.pi / 3 * (cE ^ 2 / (cMe * cC ^ 2)) ^ 2) ≤
        (1 - 1e-5) * (8 * 3.141593 / 3 * (cE ^ 2 / (cMe * cC ^ 2)) ^ 2) := by
      gcongr
    refine this.trans ?_
    unfold sigmaT cE cMe cC; norm_num
  · have : (1 + 1e-5) * (8 * 3.141592 / 3 * (cE ^ 2 / (cMe * cC ^ 2)) ^ 2) ≤
        (1 + 1e-5) * (8 * Real.pi / 3 * (cE ^ 2 / (cMe * cC ^ 2)) ^ 2) := by
      gcongr
    refine le_trans ?_ this
    unfold sigmaT cE cMe cC; norm_num

/-- **C71 (thermal kernels).** The prefactor of both thermal kernels is `2 r₀² mₑ³ c⁴/(π ħ³)` to 1e-5. -/
theorem C71_thermal_norm :
    Within 1e-5 Spec.thermalNorm
      (2 * (cE ^ 2 / (cMe * cC ^ 2)) ^ 2 * cMe ^ 3 * cC ^ 4 / (Real.pi * cHbar ^ 3)) := by
  have h1 := Real.pi_gt_d6
  have h2 := Real.pi_lt_d6
  have hp := Real.pi_pos
  have := cE_pos; have := cMe_pos; have := cC_pos; have := cHbar_pos
  apply within_of
  · positivity
  · have : (1 - 1e-5) * (2 * (cE ^ 2 / (cMe * cC ^ 2)) ^ 2 * cMe ^ 3 * cC ^ 4 / (Real.pi * cHbar ^ 3)) ≤
        (1 - 1e-5) * (2 * (cE ^ 2 / (cMe * cC ^ 2)) ^ 2 * cMe ^ 3 * cC ^ 4 / (3.141592 * cHbar ^ 3)) := by
      gcongr
    refine this.trans ?_
    unfold Spec.thermalNorm cE cMe cC cHbar; norm_num
  · have : (1 + 1e-5) * (2 * (cE ^ 2 / (cMe * cC ^ 2)) ^ 2 * cMe ^ 3 * cC ^ 4 / (3.141593 * cHbar ^ 3)) ≤
        (1 + 1e-5) * (2 * (cE ^ 2 / (cMe * cC ^ 2)) ^ 2 * cMe ^ 3 * cC ^ 4 / (Real.pi * cHbar ^ 3)) := by
      gcongr
    refine le_trans ?_ this
    unfold Spec.thermalNorm cE cMe cC cHbar; norm_num

/-- **C71 (radiation constant).** `4 sigma_sb / c` is `π² k_B⁴ / (15 ħ³ c³)` to 1e-5. -/
theorem C71_radiation_constant :
    Within 1e-5 cAr (Real.pi ^ 2 * kBoltzmann ^ 4 / (15 * cHbar ^ 3 * cC ^ 3)) := by
  have h1 := Real.pi_gt_d6
  have h2 := Real.pi_lt_d6
  have hp := Real.pi_pos
  have hk : 0 < kBoltzmann := by unfold kBoltzmann; norm_num
  have := cC_pos; have := cHbar_pos
  apply within_of
  · positivity
  · have : (1 - 1e-5) * (Real.pi ^ 2 * kBoltzmann ^ 4 / (15 * cHbar ^ 3 * cC ^ 3)) ≤
        (1 - 1e-5) * (3.141593 ^ 2 * kBoltzmann ^ 4 / (15 * cHbar ^ 3 * cC ^ 3)) := by
      gcongr
    refine this.trans ?_
    unfold cAr cSigma kBoltzmann cC cHbar; norm_num
  · have : (1 + 1e-5) * (3.141592 ^ 2 * kBoltzmann ^ 4 / (15 * cHbar ^ 3 * cC ^ 3)) ≤
        (1 + 1e-5) * (Real.pi ^ 2 * kBoltzmann ^ 4 / (15 * cHbar ^ 3 * cC ^ 3)) := by
      gcongr
    refine le_trans ?_ this
    unfold cAr cSigma kBoltzmann cC cHbar; norm_num

/-! ### The values of the physical constants -/

/-- The constants that define the SI (exact): speed of light in m/s, elementary charge in C, Planck's
constant in J s, Boltzmann's constant in J/K. -/
noncomputable def siC : ℝ := 299792458
noncomputable def siE : ℝ := 1.602176634e-19
noncomputable def siH : ℝ := 6.62607015e-34
noncomputable def siK : ℝ := 1.380649e-23

theorem within_pi (tol x : ℝ) (f : ℝ → ℝ) (hf : ∀ p q : ℝ, 0 < p → p ≤ q → f p ≤ f q) (h0 : 0 < f 3.1415926535)
    (h1 : (1 - tol) * f 3.1415926536 ≤ x) (h2 : x ≤ (1 + tol) * f 3.1415926535) (ht : 0 ≤ tol) (ht1 : tol ≤ 1) :
    Within tol x (f Real.pi) := by
  have p1 := Real.pi_gt_d20
  have p2 := Real.pi_lt_d20
  have a1 : f 3.1415926535 ≤ f Real.pi := hf _ _ (by norm_num) (by linarith)
  have a2 : f Real.pi ≤ f 3.1415926536 := hf _ _ Real.pi_pos (by linarith)
  apply within_of
  · linarith
  · exact (mul_le_mul_of_nonneg_left a2 (by linarith)).trans h1
  · exact h2.trans (mul_le_mul_of_nonneg_left a1 (by linarith))

/-- **C71 (values of the constants).** The constants used by all radiative models agree with the
definition of the SI: `c` in cm/s and the electronvolt in erg exactly; the charge in gaussian units
`e c/10`, `ħ = h/2π` and the Stefan-Boltzmann constant `2π⁵k⁴/(15h³c²)` (in erg, cm) to 1e-9; and with each
other: the fine-structure constant is `e²/(ħc)` to 1e-8. The rest energies of electron and proton are
0.51099895 MeV and 938.272088 MeV to 1e-8. -/
theorem C71_si_constants :
    cC = siC * 100 ∧ cEV = siE * 1e7 ∧ Within 1e-9 cE (siE * (siC * 100) / 10) ∧
    Within 1e-9 cHbar (siH * 1e7 / (2 * Real.pi)) ∧
    Within 1e-9 cSigma (2 * Real.pi ^ 5 * siK ^ 4 / (15 * siH ^ 3 * siC ^ 2) * 1e3) ∧
    Within 1e-8 cAlpha (cE ^ 2 / (cHbar * cC)) ∧
    Within 1e-8 (cMe * cC ^ 2) (0.51099895e6 * cEV) ∧ Within 1e-8 (cMp * cC ^ 2) (938.272088e6 * cEV) := by
  refine ⟨?_, ?_, ?_, ?_, ?_, ?_, ?_, ?_⟩
  · norm_num [cC, siC]
  · norm_num [cEV, siE]
  · apply within_of <;> norm_num [cE, siE, siC]
  · have p1 := Real.pi_gt_d20
    have p2 := Real.pi_lt_d20
    have hp := Real.pi_pos
    apply within_of
    · unfold siH; positivity
    · rw [mul_div_assoc', div_le_iff₀ (by positivity)]
      have : cHbar * (2 * 3.1415926535) ≤ cHbar * (2 * Real.pi) := by
        have := cHbar_pos; gcongr; linarith
      refine le_trans ?_ this
      norm_num [cHbar, siH]
    · rw [mul_div_assoc', le_div_iff₀ (by positivity)]
      have : cHbar * (2 * Real.pi) ≤ cHbar * (2 * 3.1415926536) := by
        have := cHbar_pos; gcongr; linarith
      refine le_trans this ?_
      norm_num [cHbar, siH]
  · refine within_pi 1e-9 cSigma (fun p => 2 * p ^ 5 * siK ^ 4 / (15 * siH ^ 3 * siC ^ 2) * 1e3) ?_ ?_ ?_ ?_
      (by norm_num) (by norm_num)
    · intro p q hp hpq
      have : (0:ℝ) < siH := by norm_num [siH]
      have : (0:ℝ) < siC := by norm_num [siC]
      have : (0:ℝ) < siK := by norm_num [siK]
      gcongr
    · norm_num [siK, siH, siC]
    · norm_num [siK, siH, siC, cSigma]
    · norm_num [siK, siH, siC, cSigma]
  · apply within_of <;> norm_num [cAlpha, cE, cHbar, cC]
  · apply within_of <;> norm_num [cMe, cC, cEV]
  · apply within_of <;> norm_num [cMp, cC, cEV]

end Naima.Props
