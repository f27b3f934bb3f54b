import Verif.Props.C128_LinePower
import Verif.Props.C126_TableLimit

/-! # C128, continuous photon fields (the limit of fine tables, C126) -/

namespace Naima.Props

open Naima XR Classical Topology MeasureTheory
open Filter (Tendsto atTop)

/-! ### Continuous fields -/

theorem monoRate_measurable_photon (γ : ℝ) : Measurable (fun z : ℝ × ℝ => monoRate γ z.1 z.2) := by
  unfold monoRate Spec.isoMono Spec.kinQ step
  have hite : ∀ f : ℝ × ℝ → ℝ, Measurable f → Measurable (fun z => if f z < 0 then (0:ℝ) else if 0 < f z then 1 else 1 / 2) := by
    intro f hf
    have h1 : MeasurableSet {z | f z < 0} := measurableSet_lt hf measurable_const
    have h2 : MeasurableSet {z | 0 < f z} := measurableSet_lt measurable_const hf
    exact Measurable.ite h1 measurable_const (Measurable.ite h2 measurable_const measurable_const)
  have h0 : MeasurableSet {z : ℝ × ℝ | z.2 < γ} := measurableSet_lt (by fun_prop) (by fun_prop)
  refine Measurable.ite h0 ?_ measurable_const
  have m1 := hite (fun z : ℝ × ℝ => 1 - z.2 / (4 * z.1 * γ * (γ - z.2))) (by fun_prop)
  have m2 := hite (fun z : ℝ × ℝ => z.2 / (4 * z.1 * γ * (γ - z.2)) - 1 / (4 * γ ^ 2)) (by fun_prop)
  refine Measurable.mul (by fun_prop) ((Measurable.mul ?_ m1).mul m2)
  fun_prop

/-- order of the integrations over the photon energies before and after -/
theorem field_moment (k : ℕ) (dens : ℝ → ℝ) (a b γ : ℝ) (ha : 0 < a) (hab : a ≤ b) (hd : Spectrum dens a b) (hγ : 1 ≤ γ) :
    IntervalIntegrable (fun t => dens t * ∫ ε in Set.Ioi 0, ε ^ k * monoRate γ t ε) volume a b ∧
    ∫ ε in Set.Ioi 0, ε ^ k * fieldRate dens a b γ ε = ∫ t in a..b, dens t * ∫ ε in Set.Ioi 0, ε ^ k * monoRate γ t ε := by
  have hγ0 : 0 < γ := by linarith
  have hσ : (0:ℝ) ≤ 3 / 4 * sigmaT * cC := by unfold sigmaT cC; norm_num
  set A := 3 / 4 * sigmaT * cC / γ ^ 2 / a * (3 + (4 * b * γ) ^ 2) with hA
  have hb0 : 0 < b := ha.trans_le hab
  have hA0 : 0 ≤ A := by positivity
  set H : ℝ → ℝ := Set.indicator (Set.Iio γ) (fun _ => γ ^ k * A) with hH
  have hHi : IntegrableOn H (Set.Ioi 0) := by
    rw [hH, integrableOn_indicator_iff measurableSet_Iio, show Set.Iio γ ∩ Set.Ioi 0 = Set.Ioo 0 γ by ext x; simp [and_comm]]
    exact integrableOn_const (by simp)
  have hdi : Integrable dens (volume.restrict (Set.Ioc a b)) := (hd.integrable hab).1
  have hF : Integrable (fun z : ℝ × ℝ => dens z.1 * (z.2 ^ k * monoRate γ z.1 z.2))
      ((volume.restrict (Set.Ioc a b)).prod (volume.restrict (Set.Ioi 0))) := by
    refine Integrable.mono (hdi.mul_prod hHi) ?_ ?_
    · refine AEStronglyMeasurable.mul hdi.aestronglyMeasurable.comp_fst ?_
      exact ((measurable_snd.pow_const k).mul (monoRate_measurable_photon γ)).aestronglyMeasurable
    · rw [Measure.prod_restrict]
      filter_upwards [ae_restrict_mem (measurableSet_Ioc.prod measurableSet_Ioi)] with z hz
      obtain ⟨⟨h1, h2⟩, h3⟩ := hz
      have h3 : 0 < z.2 := h3
      have ht : 0 < z.1 := ha.trans h1
      rw [norm_mul (dens z.1), norm_mul (dens z.1)]
      apply mul_le_mul_of_nonneg_left _ (norm_nonneg _)
      have hm0 := monoRate_nonneg' γ z.1 z.2 ht h3
      rw [Real.norm_of_nonneg (mul_nonneg (by positivity) hm0)]
      by_cases hlt : z.2 < γ
      · rw [hH, Set.indicator_of_mem (show z.2 ∈ Set.Iio γ from hlt), Real.norm_of_nonneg (by positivity)]
        refine mul_le_mul (pow_le_pow_left₀ h3.le hlt.le k) ?_ hm0 (by positivity)
        refine (monoRate_le γ z.1 z.2 γ ht h3 hγ0 le_rfl).trans ?_
        have := h1.le
        rw [hA]
        gcongr
      · have : monoRate γ z.1 z.2 = 0 := by unfold monoRate; rw [if_neg hlt]
        rw [this, mul_zero]
        exact norm_nonneg _
  have hin : ∀ t, ∫ ε in Set.Ioi 0, dens t * (ε ^ k * monoRate γ t ε) = dens t * ∫ ε in Set.Ioi 0, ε ^ k * monoRate γ t ε :=
    fun t => integral_const_mul _ _
  constructor
  · rw [intervalIntegrable_iff_integrableOn_Ioc_of_le hab]
    have := hF.integral_prod_left
    simp only [hin] at this
    exact this
  · have hsw := integral_integral_swap (f := fun t ε => dens t * (ε ^ k * monoRate γ t ε)) hF
    simp only [hin] at hsw
    rw [intervalIntegral.integral_of_le hab, hsw]
    congr 1
    funext ε
    unfold fieldRate
    rw [intervalIntegral.integral_of_le hab, ← integral_const_mul]
    congr 1
    funext t
    ring

/-- **C128 (any photon field, photons).** In a field of `dens` photons per unit energy and volume, `n = ∫ dens` per volume and
`u = ∫ ε₀ dens` their energy density, an electron of Lorentz factor `γ ≥ 1` scatters between `σ_T c ((0.9999 - 1/γ²) n - 8/3 γ u)`
and `1.0001 σ_T c n` photons per second. -/
theorem C128_field_scattered (dens : ℝ → ℝ) (a b γ : ℝ) (ha : 0 < a) (hab : a < b) (hd : Spectrum dens a b) (hγ : 1 ≤ γ) :
    thomsonCgs cE cMe cC * cC * ((0.9999 - 1 / γ ^ 2) * (∫ t in a..b, dens t) - 8 / 3 * γ * ∫ t in a..b, dens t * t) ≤
        ∫ ε in Set.Ioi 0, fieldRate dens a b γ ε ∧
      ∫ ε in Set.Ioi 0, fieldRate dens a b γ ε ≤ 1.0001 * (thomsonCgs cE cMe cC * cC * ∫ t in a..b, dens t) := by
  obtain ⟨f1, f2⟩ := field_moment 0 dens a b γ ha hab.le hd hγ
  simp only [pow_zero, one_mul] at f1 f2
  rw [f2]
  obtain ⟨s1, s2⟩ := line_squeeze a b hab dens _
    (fun t => thomsonCgs cE cMe cC * cC * (0.9999 - 1 / γ ^ 2) - thomsonCgs cE cMe cC * cC * (8 / 3 * γ) * t)
    (fun _ => 1.0001 * (thomsonCgs cE cMe cC * cC)) hd f1 (by fun_prop) continuousOn_const
    (fun t ht => by
      have := (C128_scattered γ t hγ (ha.trans_le ht.1)).1
      calc _ = (0.9999 - 8 / 3 * γ * t - 1 / γ ^ 2) * (thomsonCgs cE cMe cC * cC) := by ring
        _ ≤ _ := this)
    (fun t ht => (C128_scattered γ t hγ (ha.trans_le ht.1)).2)
  have hi := hd.integrable hab.le
  have hi1 : IntervalIntegrable (fun t => dens t * t) volume a b := hi.mul_continuousOn (by fun_prop)
  constructor
  · refine le_trans (le_of_eq ?_) s1
    have e : (fun t => dens t * (thomsonCgs cE cMe cC * cC * (0.9999 - 1 / γ ^ 2) - thomsonCgs cE cMe cC * cC * (8 / 3 * γ) * t)) =
        fun t => thomsonCgs cE cMe cC * cC * (0.9999 - 1 / γ ^ 2) * dens t - thomsonCgs cE cMe cC * cC * (8 / 3 * γ) * (dens t * t) := by
      funext t; ring
    rw [e, intervalIntegral.integral_sub (hi.const_mul _) (hi1.const_mul _), intervalIntegral.integral_const_mul,
      intervalIntegral.integral_const_mul]
    ring
  · refine s2.trans (le_of_eq ?_)
    rw [intervalIntegral.integral_mul_const]
    ring

/-- **C128 (any photon field, energy).** It radiates between `4/3 σ_T c γ² ((0.9999 - 1/γ⁴) u - 63/10 γ ∫ ε₀² dens)` and
`1.0001 · 4/3 σ_T c γ² u`. -/
theorem C128_field_radiated (dens : ℝ → ℝ) (a b γ : ℝ) (ha : 0 < a) (hab : a < b) (hd : Spectrum dens a b) (hγ : 1 ≤ γ) :
    4 / 3 * thomsonCgs cE cMe cC * cC * γ ^ 2 *
          ((0.9999 - 1 / γ ^ 4) * (∫ t in a..b, dens t * t) - 63 / 10 * γ * ∫ t in a..b, dens t * t ^ 2) ≤
        ∫ ε in Set.Ioi 0, ε * fieldRate dens a b γ ε ∧
      ∫ ε in Set.Ioi 0, ε * fieldRate dens a b γ ε ≤
        1.0001 * (4 / 3 * thomsonCgs cE cMe cC * cC * γ ^ 2 * ∫ t in a..b, dens t * t) := by
  obtain ⟨f1, f2⟩ := field_moment 1 dens a b γ ha hab.le hd hγ
  simp only [pow_one] at f1 f2
  rw [f2]
  set κ := 4 / 3 * thomsonCgs cE cMe cC * cC * γ ^ 2 with hκ
  obtain ⟨s1, s2⟩ := line_squeeze a b hab dens _
    (fun t => κ * (0.9999 - 1 / γ ^ 4) * t - κ * (63 / 10 * γ) * t ^ 2)
    (fun t => 1.0001 * κ * t) hd f1 (by fun_prop) (by fun_prop)
    (fun t ht => by
      have := (C128_radiated γ t hγ (ha.trans_le ht.1)).1
      calc _ = (0.9999 - 63 / 10 * γ * t - 1 / γ ^ 4) * (κ * t) := by ring
        _ ≤ _ := this)
    (fun t ht => by
      have := (C128_radiated γ t hγ (ha.trans_le ht.1)).2
      calc _ ≤ _ := this
        _ = _ := by rw [hκ]; ring)
  have hi := hd.integrable hab.le
  have hi1 : IntervalIntegrable (fun t => dens t * t) volume a b := hi.mul_continuousOn (by fun_prop)
  have hi2 : IntervalIntegrable (fun t => dens t * t ^ 2) volume a b := hi.mul_continuousOn (by fun_prop)
  constructor
  · refine le_trans (le_of_eq ?_) s1
    have e : (fun t => dens t * (κ * (0.9999 - 1 / γ ^ 4) * t - κ * (63 / 10 * γ) * t ^ 2)) =
        fun t => κ * (0.9999 - 1 / γ ^ 4) * (dens t * t) - κ * (63 / 10 * γ) * (dens t * t ^ 2) := by
      funext t; ring
    rw [e, intervalIntegral.integral_sub (hi1.const_mul _) (hi2.const_mul _), intervalIntegral.integral_const_mul,
      intervalIntegral.integral_const_mul]
    ring
  · refine s2.trans (le_of_eq ?_)
    have e : (fun t => dens t * (1.0001 * κ * t)) = fun t => 1.0001 * κ * (dens t * t) := by funext t; ring
    rw [e, intervalIntegral.integral_const_mul]
    ring

/-! ### The hypotheses are met -/

/-- One photon of the energy 10⁻⁹ mc² (half a meV) per cm³: an electron of Lorentz factor 10⁴ radiates the Thomson loss to 2·10⁻⁴. -/
example : 0.9998 * (4 / 3 * thomsonCgs cE cMe cC * cC * 1e4 ^ 2 * 1e-9) ≤ ∫ ε in Set.Ioi 0, ε * monoRate 1e4 1e-9 ε ∧
    ∫ ε in Set.Ioi 0, ε * monoRate 1e4 1e-9 ε ≤ 1.0001 * (4 / 3 * thomsonCgs cE cMe cC * cC * 1e4 ^ 2 * 1e-9) := by
  obtain ⟨h1, h2⟩ := C128_radiated 1e4 1e-9 (by norm_num) (by norm_num)
  refine ⟨le_trans ?_ h1, h2⟩
  apply mul_le_mul_of_nonneg_right (by norm_num)
  have := cE_pos; have := cMe_pos; have := cC_pos; have := Real.pi_pos
  unfold thomsonCgs
  positivity

example : Spectrum (fun t => 3 / t ^ 2) 1e-9 1e-8 :=
  Spectrum.of_continuous (fun t _ => by positivity) (by
    apply ContinuousOn.div continuousOn_const (by fun_prop)
    intro t ht
    have : (0:ℝ) < t := lt_of_lt_of_le (by norm_num) ht.1
    positivity)

end Naima.Props
