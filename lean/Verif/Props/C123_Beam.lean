import Verif.Props.C105_ICPower
import Verif.Proof.BeamQuad

/-! # C123: the total inverse Compton power in a thermal beam

For a photon field with an angle (`theta`) all photons arrive from one direction. An ultra-relativistic electron whose
direction makes the angle `θ` with theirs radiates `σ_T c U γ² (1 - cos θ)²` in the Thomson regime. -/

namespace Naima.Props

open Naima XR Classical Topology MeasureTheory
open Filter (Tendsto atTop)

/-! ### Specification -/

/-- Energy per unit time radiated by an ultra-relativistic electron of Lorentz factor `γ` in the Thomson regime, in a beam of
photons of energy density `U` arriving at the angle `θ`: `σ_T c U γ² (1 - cos θ)²` (e.g. Blumenthal & Gould 1970, sect. 2.2;
its average over directions is `4/3 σ_T c U γ²`). -/
noncomputable def beamLoss (q m c U γ θ : ℝ) : ℝ := thomsonCgs q m c * c * U * γ ^ 2 * (1 - Real.cos θ) ^ 2

/-- The average over isotropic directions is the loss rate in an isotropic field (C105), up to `γ² - 1` for `γ²`. -/
theorem C123_average (q m c U γ : ℝ) :
    (∫ μ in (-1:ℝ)..1, thomsonCgs q m c * c * U * γ ^ 2 * (1 - μ) ^ 2) / 2 =
      thomsonLoss q m c U γ + 4 / 3 * thomsonCgs q m c * c * U := by
  rw [intervalIntegral.integral_const_mul]
  have : ∫ μ in (-1:ℝ)..1, (1 - μ) ^ 2 = 8 / 3 := by
    rw [intervalIntegral.integral_comp_sub_left (fun x => x ^ 2) 1]
    norm_num [integral_pow]
  rw [this]
  unfold thomsonLoss
  ring

/-! ### One electron -/

/-- the integrand after the change of variable `ε = γ b x / (1 + b x)` -/
noncomputable def anInt (b x : ℝ) : ℝ :=
  x / (1 + b * x) ^ 3 * ((b * x) ^ 2 / (2 * (1 + b * x)) * anF1 x + anF2 x)

theorem anF1_le_six (x : ℝ) (hx : 0 < x) : anF1 x ≤ 6 * anF2 x := by
  have hA3 : 0 ≤ x ^ (0.857:ℝ) := by positivity
  have hB3 : 0 ≤ x ^ (1.840:ℝ) := by positivity
  have hA : 0 ≤ x ^ (0.691:ℝ) := by positivity
  have hB : 0 ≤ x ^ (1.668:ℝ) := by positivity
  obtain ⟨p1, p2⟩ := pi_sq_six
  have hpi := Real.pi_pos
  have hAB : x ^ (0.691:ℝ) ≤ 1 + x ^ (1.668:ℝ) := by
    rcases le_total x 1 with h | h
    · have := Real.rpow_le_one hx.le h (by norm_num : (0:ℝ) ≤ 0.691); linarith
    · have := Real.rpow_le_rpow_of_exponent_le h (by norm_num : (0.691:ℝ) ≤ 1.668); linarith
  unfold anF1 anF2 Spec.F12 Spec.gFactor
  generalize x ^ (0.857:ℝ) = A3 at *
  generalize x ^ (1.840:ℝ) = B3 at *
  generalize x ^ (0.691:ℝ) = A at *
  generalize x ^ (1.668:ℝ) = B at *
  have g3 : 1 / (1 + 0.153 * A3 / (1 + 0.254 * B3)) ≤ 1 := by
    rw [div_le_one (by positivity)]
    have : 0 ≤ 0.153 * A3 / (1 + 0.254 * B3) := by positivity
    linarith
  have g4 : 1 / 6 ≤ 1 / (1 + 1.330 * A / (1 + 0.534 * B)) := by
    apply one_div_le_one_div_of_le (by positivity)
    have : 1.330 * A / (1 + 0.534 * B) ≤ 5 := by
      rw [div_le_iff₀ (by positivity)]; nlinarith
    linarith
  have e0 := Real.exp_pos (-x)
  calc _ ≤ (Real.pi ^ 2 / 6 + x) * Real.exp (-x) * 1 := by gcongr
    _ = 6 * ((Real.pi ^ 2 / 6 + x) * Real.exp (-x) * (1 / 6)) := by ring
    _ ≤ _ := by gcongr

theorem anF1_le (x : ℝ) (hx : 0 < x) : anF1 x ≤ 12 * anF2 x := by
  have := anF1_le_six x hx
  have := (anF2_bounds x hx.le).1
  linarith

theorem anInt_bounds (b x : ℝ) (hb : 0 < b) (hx : 0 < x) :
    x * anF2 x - 3 * b * (x ^ 2 * anF2 x) ≤ anInt b x ∧ anInt b x ≤ x * anF2 x ∧ 0 ≤ anInt b x := by
  have h3 := (anF1_bounds x hx.le).1
  have h4 := (anF2_bounds x hx.le).1
  have h34 := anF1_le x hx
  have hy : 0 < b * x := by positivity
  set y := b * x with hydef
  have h0 : 0 ≤ anInt b x := by unfold anInt; rw [← hydef]; positivity
  refine ⟨?_, ?_, h0⟩
  · have h1 : x / (1 + y) ^ 3 * anF2 x ≤ anInt b x := by
      unfold anInt; rw [← hydef]
      apply mul_le_mul_of_nonneg_left _ (by positivity)
      have : 0 ≤ y ^ 2 / (2 * (1 + y)) * anF1 x := by positivity
      linarith
    have h2 : 1 - 3 * y ≤ 1 / (1 + y) ^ 3 := by
      rw [le_div_iff₀ (by positivity)]
      nlinarith [pow_pos hy 2, pow_pos hy 3, pow_pos hy 4]
    have h5 : (1 - 3 * y) * (x * anF2 x) ≤ 1 / (1 + y) ^ 3 * (x * anF2 x) :=
      mul_le_mul_of_nonneg_right h2 (by positivity)
    calc _ = (1 - 3 * y) * (x * anF2 x) := by rw [hydef]; ring
      _ ≤ _ := h5
      _ = x / (1 + y) ^ 3 * anF2 x := by ring
      _ ≤ _ := h1
  · unfold anInt; rw [← hydef]
    calc x / (1 + y) ^ 3 * (y ^ 2 / (2 * (1 + y)) * anF1 x + anF2 x)
        ≤ x / (1 + y) ^ 3 * (y ^ 2 / (2 * (1 + y)) * (12 * anF2 x) + anF2 x) := by gcongr
      _ = x * anF2 x * ((6 * y ^ 2 + 1 + y) / (1 + y) ^ 4) := by field_simp; ring
      _ ≤ x * anF2 x * 1 := by
          apply mul_le_mul_of_nonneg_left _ (by positivity)
          rw [div_le_one (by positivity)]
          nlinarith [pow_pos hy 2, pow_pos hy 3, pow_pos hy 4]
      _ = _ := mul_one _

theorem anInt_measurable (b : ℝ) : Measurable (anInt b) := by
  unfold anInt
  have h3 := anF1_measurable
  have h4 := anF2_measurable
  fun_prop

theorem anInt_integrable (b : ℝ) (hb : 0 < b) : IntegrableOn (anInt b) (Set.Ioi 0) := by
  apply Integrable.mono' x_anF2_integrable (anInt_measurable b).aestronglyMeasurable
  filter_upwards [ae_restrict_mem measurableSet_Ioi] with x hx
  obtain ⟨-, h2, h3⟩ := anInt_bounds b x hb hx
  rw [Real.norm_of_nonneg h3]; exact h2

theorem anInt_integral (b : ℝ) (hb : 0 < b) :
    2.1536 - 27.87 * b ≤ ∫ x in Set.Ioi 0, anInt b x ∧ ∫ x in Set.Ioi 0, anInt b x ≤ 2.1851 := by
  obtain ⟨m1, m2⟩ := anF2_moment
  have hi2 := (pow_anF2_integrable 2).const_mul (3 * b)
  constructor
  · have h1 : ∫ x in Set.Ioi 0, (x * anF2 x - 3 * b * (x ^ 2 * anF2 x)) ≤ ∫ x in Set.Ioi 0, anInt b x :=
      setIntegral_mono_on (x_anF2_integrable.sub hi2) (anInt_integrable b hb) measurableSet_Ioi
        (fun x hx => (anInt_bounds b x hb hx).1)
    rw [integral_sub x_anF2_integrable hi2, integral_const_mul] at h1
    have h2 := anF2_second
    norm_num at h2 m1 ⊢
    nlinarith
  · exact (setIntegral_mono_on (anInt_integrable b hb) x_anF2_integrable measurableSet_Ioi
      (fun x hx => (anInt_bounds b x hb hx).2.1)).trans m2

theorem one_sub_cos_pos (θ : ℝ) (h : Real.cos θ ≠ 1) : 0 < 1 - Real.cos θ :=
  sub_pos.2 (lt_of_le_of_ne (Real.cos_le_one θ) h)

theorem aniThermal_phi (γ t θ x : ℝ) (hγ : 0 < γ) (ht : 0 < t) (hθ : Real.cos θ ≠ 1) (hx : 0 < x) :
    |γ * ((2 * γ * t * (1 - Real.cos θ)) / (1 + 2 * γ * t * (1 - Real.cos θ) * x) ^ 2)| •
      (icPhi γ (2 * γ * t * (1 - Real.cos θ)) x * Spec.aniThermal γ t (icPhi γ (2 * γ * t * (1 - Real.cos θ)) x) θ) =
      4 * Spec.thermalNorm * t ^ 4 * γ ^ 2 * (1 - Real.cos θ) ^ 2 * anInt (2 * γ * t * (1 - Real.cos θ)) x := by
  have hw := one_sub_cos_pos θ hθ
  set b := 2 * γ * t * (1 - Real.cos θ) with hb
  have hb0 : 0 < b := by positivity
  have h1 : icPhi γ b x / γ = b * x / (1 + b * x) := by unfold icPhi; field_simp
  have hs : 0 < 1 + b * x := by positivity
  have h2 : 1 - b * x / (1 + b * x) = 1 / (1 + b * x) := by field_simp; ring
  have h3 : b * x / (1 + b * x) / (1 / (1 + b * x) * b) = x := by field_simp
  rw [abs_of_pos (by positivity), smul_eq_mul]
  unfold Spec.aniThermal
  simp only [h1, h2, ← hb, h3]
  unfold anInt icPhi anF1 anF2
  generalize Spec.F12 0.857 0.153 1.840 0.254 x = f3
  generalize Spec.F12 0.691 1.330 1.668 0.534 x = f4
  have h4 : 4 * Spec.thermalNorm * t ^ 4 * γ ^ 2 * (1 - Real.cos θ) ^ 2 = Spec.thermalNorm * t ^ 2 * b ^ 2 := by rw [hb]; ring
  rw [h4]
  generalize Spec.thermalNorm = K
  clear_value b
  field_simp

theorem beamRate_measurable2 (T θ c : ℝ) :
    Measurable (fun z : ℝ × ℝ => thermalRate T (some θ) (z.1 / c) (z.2 / c)) := by
  unfold thermalRate Spec.aniThermal Spec.F12 Spec.gFactor
  refine Measurable.ite ?_ (by fun_prop) measurable_const
  have h1 : MeasurableSet {z : ℝ × ℝ | z.2 / c < z.1 / c} := measurableSet_lt (by fun_prop) (by fun_prop)
  have h2 : MeasurableSet {z : ℝ × ℝ | 1 < z.1 / c} := measurableSet_lt (by fun_prop) (by fun_prop)
  exact h1.inter h2

/-- energy radiated by one electron: the integral over photon energy, reduced to one over `x` -/
theorem beam_power_one (T θ γ : ℝ) (hT : 0 < T) (hθ : Real.cos θ ≠ 1) (hγ : 1 < γ) :
    IntegrableOn (fun ε => ε * thermalRate T (some θ) γ ε) (Set.Ioi 0) ∧
    ∫ ε in Set.Ioi 0, ε * thermalRate T (some θ) γ ε =
      4 * Spec.thermalNorm * (1.6863699549e-10 * T) ^ 4 * γ ^ 2 * (1 - Real.cos θ) ^ 2 *
        ∫ x in Set.Ioi 0, anInt (2 * γ * (1.6863699549e-10 * T) * (1 - Real.cos θ)) x := by
  set t := 1.6863699549e-10 * T with ht
  have ht0 : 0 < t := by positivity
  have hγ0 : 0 < γ := by linarith
  have hw := one_sub_cos_pos θ hθ
  have hb : 0 < 2 * γ * t * (1 - Real.cos θ) := by positivity
  have hzero : ∀ ε ∈ Set.Ioi (0:ℝ) \ Set.Ioo 0 γ, ε * thermalRate T (some θ) γ ε = 0 := by
    rintro ε ⟨h1, h2⟩
    have : ¬ (ε < γ ∧ 1 < γ) := fun h => h2 ⟨h1, h.1⟩
    unfold thermalRate
    rw [if_neg this, mul_zero]
  have hsub : Set.Ioo (0:ℝ) γ ⊆ Set.Ioi 0 := fun x hx => hx.1
  have hin : Set.EqOn (fun ε => ε * thermalRate T (some θ) γ ε) (fun ε => ε * Spec.aniThermal γ t ε θ) (Set.Ioo 0 γ) := by
    intro ε hε
    simp only [thermalRate]
    rw [if_pos ⟨hε.2, hγ⟩]
  have hpt : Set.EqOn (fun x => |γ * ((2 * γ * t * (1 - Real.cos θ)) / (1 + 2 * γ * t * (1 - Real.cos θ) * x) ^ 2)| •
      (icPhi γ (2 * γ * t * (1 - Real.cos θ)) x * Spec.aniThermal γ t (icPhi γ (2 * γ * t * (1 - Real.cos θ)) x) θ))
      (fun x => 4 * Spec.thermalNorm * t ^ 4 * γ ^ 2 * (1 - Real.cos θ) ^ 2 * anInt (2 * γ * t * (1 - Real.cos θ)) x) (Set.Ioi 0) := fun x hx =>
    aniThermal_phi γ t θ x hγ0 ht0 hθ hx
  have hder : ∀ x ∈ Set.Ioi (0:ℝ), HasDerivWithinAt (icPhi γ (2 * γ * t * (1 - Real.cos θ))) (γ * ((2 * γ * t * (1 - Real.cos θ)) / (1 + 2 * γ * t * (1 - Real.cos θ) * x) ^ 2))
      (Set.Ioi 0) x := fun x hx => (icPhi_deriv γ _ x hb hx).hasDerivWithinAt
  have hinj := icPhi_injOn γ (2 * γ * t * (1 - Real.cos θ)) hγ0 hb
  constructor
  · have h1 : IntegrableOn (fun ε => ε * thermalRate T (some θ) γ ε) (Set.Ioo 0 γ) := by
      rw [integrableOn_congr_fun hin measurableSet_Ioo, ← icPhi_image γ (2 * γ * t * (1 - Real.cos θ)) hγ0 hb,
        integrableOn_image_iff_integrableOn_abs_deriv_smul measurableSet_Ioi hder hinj,
        integrableOn_congr_fun hpt measurableSet_Ioi]
      exact (anInt_integrable _ hb).const_mul _
    exact h1.of_forall_diff_eq_zero measurableSet_Ioi hzero
  · rw [setIntegral_eq_of_subset_of_forall_diff_eq_zero measurableSet_Ioi hsub hzero,
      setIntegral_congr_fun measurableSet_Ioo hin, ← icPhi_image γ (2 * γ * t * (1 - Real.cos θ)) hγ0 hb,
      integral_image_eq_integral_abs_deriv_smul measurableSet_Ioi hder hinj,
      setIntegral_congr_fun measurableSet_Ioi hpt, integral_const_mul]

theorem beamLoss_pos (U γ θ : ℝ) (hU : 0 < U) (hγ : 1 < γ) (hθ : Real.cos θ ≠ 1) : 0 < beamLoss cE cMe cC U γ θ := by
  have := cE_pos; have := cMe_pos; have := cC_pos; have := Real.pi_pos
  have := one_sub_cos_pos θ hθ
  unfold beamLoss thomsonCgs
  positivity

/-- **C123 (one electron).** The energy radiated per unit time by one electron of Lorentz factor `γ > 1` in a beam of photons
with a blackbody spectrum arriving at the angle `θ`, integrated over all photon energies, is at most 1 % above the Thomson rate in
the energy density of the blackbody, and below it by at most 1 % and 26 `γ kT/mc² (1 - cos θ)` (the Klein–Nishina suppression).
Energies in electron rest energies. -/
theorem C123_one_electron (T θ γ : ℝ) (hT : 0 < T) (hθ : Real.cos θ ≠ 1) (hγ : 1 < γ) :
    (0.99 - 26 * γ * (kBoltzmann * T / (cMe * cC ^ 2)) * (1 - Real.cos θ)) *
        (beamLoss cE cMe cC (planckDensity T) γ θ / (cMe * cC ^ 2)) ≤
        ∫ ε in Set.Ioi 0, ε * thermalRate T (some θ) γ ε ∧
    ∫ ε in Set.Ioi 0, ε * thermalRate T (some θ) γ ε ≤
      1.01 * (beamLoss cE cMe cC (planckDensity T) γ θ / (cMe * cC ^ 2)) := by
  have hm := cMec2_pos
  have hU : 0 < planckDensity T := by
    have := cC_pos
    have : 0 < cSigma := by unfold cSigma; norm_num
    unfold planckDensity; positivity
  have hγ0 : 0 < γ := by linarith
  rw [(beam_power_one T θ γ hT hθ hγ).2]
  have hw := one_sub_cos_pos θ hθ
  set w := 1 - Real.cos θ with hwdef
  obtain ⟨i1, i2⟩ := anInt_integral (2 * γ * (1.6863699549e-10 * T) * w) (by positivity)
  obtain ⟨s1, s2⟩ := thomsonCgs_near
  have hσ : 0 < sigmaT := by unfold sigmaT; norm_num
  set I := ∫ x in Set.Ioi 0, anInt (2 * γ * (1.6863699549e-10 * T) * w) x with hI
  have hI0 : 0 ≤ I := setIntegral_nonneg measurableSet_Ioi (fun x hx => (anInt_bounds _ x (by positivity) hx).2.2)
  set τ := kBoltzmann * T / (cMe * cC ^ 2) with hτ
  have hk : (1.6863699549e-10 : ℝ) ≤ 1.00001 * (kBoltzmann / (cMe * cC ^ 2)) := by
    unfold kBoltzmann cMe cC; norm_num
  have hτ0 : 0 < τ := by
    have : 0 < kBoltzmann := by unfold kBoltzmann; norm_num
    rw [hτ]; exact div_pos (by positivity) hm
  have hkT : 1.6863699549e-10 * T ≤ 1.00001 * τ := by
    calc _ ≤ 1.00001 * (kBoltzmann / (cMe * cC ^ 2)) * T := mul_le_mul_of_nonneg_right hk hT.le
      _ = _ := by rw [hτ]; ring
  -- the constant
  set C := 4 * Spec.thermalNorm * (1.6863699549e-10 * T) ^ 4 * γ ^ 2 * w ^ 2 with hC
  set Q := beamLoss cE cMe cC (planckDensity T) γ θ / (cMe * cC ^ 2) with hQ
  have hQ0 : 0 < Q := div_pos (beamLoss_pos _ _ _ hU hγ hθ) hm
  have e1 : Q = 4 * cSigma / (cMe * cC ^ 2) * thomsonCgs cE cMe cC * (T ^ 4 * γ ^ 2 * w ^ 2) := by
    have := cC_pos
    rw [hQ]; unfold beamLoss planckDensity
    rw [← hwdef]
    field_simp
  have hX : 0 < T ^ 4 * γ ^ 2 * w ^ 2 := by positivity
  have hsg : 0 < 4 * cSigma / (cMe * cC ^ 2) := by
    have : 0 < cSigma := by unfold cSigma; norm_num
    exact div_pos (by positivity) hm
  -- `C · 2.1646863` and `Q` agree to 1e-4
  have c1 : 0.9999 * Q ≤ C * 2.1646863 := by
    have h3 : 0.9999 * (4 * cSigma / (cMe * cC ^ 2) * (1.00002 * sigmaT)) ≤
        4 * Spec.thermalNorm * 1.6863699549e-10 ^ 4 * 2.1646863 := by
      unfold cSigma cMe cC sigmaT Spec.thermalNorm; norm_num
    calc 0.9999 * Q = 0.9999 * (4 * cSigma / (cMe * cC ^ 2) * thomsonCgs cE cMe cC) * (T ^ 4 * γ ^ 2 * w ^ 2) := by rw [e1]; ring
      _ ≤ 0.9999 * (4 * cSigma / (cMe * cC ^ 2) * (1.00002 * sigmaT)) * (T ^ 4 * γ ^ 2 * w ^ 2) := by gcongr
      _ ≤ 4 * Spec.thermalNorm * 1.6863699549e-10 ^ 4 * 2.1646863 * (T ^ 4 * γ ^ 2 * w ^ 2) :=
          mul_le_mul_of_nonneg_right h3 hX.le
      _ = _ := by rw [hC]; ring
  have c2 : C * 2.1646863 ≤ 1.0001 * Q := by
    have h3 : 4 * Spec.thermalNorm * 1.6863699549e-10 ^ 4 * 2.1646863 ≤
        1.0001 * (4 * cSigma / (cMe * cC ^ 2) * (0.99999 * sigmaT)) := by
      unfold cSigma cMe cC sigmaT Spec.thermalNorm; norm_num
    calc C * 2.1646863 = 4 * Spec.thermalNorm * 1.6863699549e-10 ^ 4 * 2.1646863 * (T ^ 4 * γ ^ 2 * w ^ 2) := by rw [hC]; ring
      _ ≤ 1.0001 * (4 * cSigma / (cMe * cC ^ 2) * (0.99999 * sigmaT)) * (T ^ 4 * γ ^ 2 * w ^ 2) :=
          mul_le_mul_of_nonneg_right h3 hX.le
      _ ≤ 1.0001 * (4 * cSigma / (cMe * cC ^ 2) * thomsonCgs cE cMe cC) * (T ^ 4 * γ ^ 2 * w ^ 2) := by gcongr
      _ = _ := by rw [e1]; ring
  have hC0 : 0 < C := by
    have : 0 < Spec.thermalNorm := by unfold Spec.thermalNorm; norm_num
    rw [hC]; positivity
  clear_value C Q I τ w
  clear hC hQ hI hτ e1 s1 s2
  constructor
  · by_cases hneg : 0.99 - 26 * γ * τ * w ≤ 0
    · exact (mul_nonpos_of_nonpos_of_nonneg hneg hQ0.le).trans (mul_nonneg hC0.le hI0)
    · push Not at hneg
      have hu : 0 < γ * τ * w := by positivity
      have h1 : 2 * γ * (1.6863699549e-10 * T) * w ≤ 2 * γ * (1.00001 * τ) * w :=
        mul_le_mul_of_nonneg_right (mul_le_mul_of_nonneg_left hkT (by positivity)) hw.le
      have h2 : 2.1536 - 55.741 * (γ * τ * w) ≤ I := by norm_num at i1 h1 ⊢; linarith
      have h3 : Q ≤ 2.1650 * C := by norm_num at c1 ⊢; linarith
      have h4 : (0.99 - 26 * γ * τ * w) * Q ≤ (0.99 - 26 * γ * τ * w) * (2.1650 * C) := mul_le_mul_of_nonneg_left h3 hneg.le
      have h5 : C * (2.1536 - 55.741 * (γ * τ * w)) ≤ C * I := mul_le_mul_of_nonneg_left h2 hC0.le
      refine h4.trans (le_trans ?_ h5)
      have h6 : (0.99 - 26 * γ * τ * w) * 2.1650 ≤ 2.1536 - 55.741 * (γ * τ * w) := by norm_num; linarith
      calc _ = C * ((0.99 - 26 * γ * τ * w) * 2.1650) := by ring
        _ ≤ _ := mul_le_mul_of_nonneg_left h6 hC0.le
  · have h1 : C * I ≤ C * 2.1851 := mul_le_mul_of_nonneg_left i2 hC0.le
    norm_num at c2 h1 ⊢
    linarith

/-! ### The spectrum -/

theorem beamRate_nonneg (T θ γ ε : ℝ) (hT : 0 < T) (hθ : Real.cos θ ≠ 1) (hε : 0 < ε) : 0 ≤ thermalRate T (some θ) γ ε :=
  (thermalRate_spectrum T (some θ) hT (fun x h => by cases h; exact hθ) ε γ γ hε).nonneg γ ⟨le_rfl, le_rfl⟩

/-- the energy flux of one electron is bounded, and zero above the electron's energy -/
theorem beamRate_bound (T θ b γ ε : ℝ) (hT : 0 < T) (hθ : Real.cos θ ≠ 1) (hε : 0 < ε) (hγ : γ ≤ b) (hb : 0 < b) :
    ε * thermalRate T (some θ) γ ε ≤ if ε < b then Spec.thermalNorm * (1.6863699549e-10 * T) ^ 2 *
      (4 * (1.6863699549e-10 * T) * (1 - Real.cos θ) * b ^ 2 + 3 * b) else 0 := by
  set t := 1.6863699549e-10 * T with ht
  have ht0 : 0 < t := by positivity
  have hn : 0 < Spec.thermalNorm := by unfold Spec.thermalNorm; norm_num
  have hw := one_sub_cos_pos θ hθ
  by_cases h : ε < γ ∧ 1 < γ
  · rw [if_pos (h.1.trans_le hγ)]
    unfold thermalRate
    rw [if_pos h]
    have e : Spec.aniThermal γ t ε θ = Spec.thermalNorm * t ^ 2 / γ ^ 2 *
      ((ε / γ) ^ 2 / (2 * (1 - ε / γ)) * Spec.F12 0.857 0.153 1.840 0.254 (ε / γ / ((1 - ε / γ) * ((2 * t * (1 - Real.cos θ)) * γ))) +
        Spec.F12 0.691 1.330 1.668 0.534 (ε / γ / ((1 - ε / γ) * ((2 * t * (1 - Real.cos θ)) * γ)))) := by
      unfold Spec.aniThermal
      simp only [show (2 * γ * t * (1 - Real.cos θ) : ℝ) = 2 * t * (1 - Real.cos θ) * γ by ring]
    have hbd := (thermal_shape_bound _ _ ε t (2 * t * (1 - Real.cos θ)) hε (by positivity)
      (fun x hx => F12_bounds 0.857 0.153 1.840 0.254 x hx (by norm_num) (by norm_num))
      (fun x hx => F12_bounds 0.691 1.330 1.668 0.534 x hx (by norm_num) (by norm_num)) γ b h.1 h.2 hγ).2
    rw [← e] at hbd
    show ε * Spec.aniThermal γ t ε θ ≤ _
    calc ε * Spec.aniThermal γ t ε θ ≤ ε * (Spec.thermalNorm * t ^ 2 * (2 / (ε / (2 * t * (1 - Real.cos θ) * b ^ 2)) + 3)) :=
          mul_le_mul_of_nonneg_left hbd hε.le
      _ = Spec.thermalNorm * t ^ 2 * (4 * t * (1 - Real.cos θ) * b ^ 2 + 3 * ε) := by
          generalize 1 - Real.cos θ = w at *
          field_simp; ring
      _ ≤ _ := by
          have := h.1.trans_le hγ
          gcongr
  · unfold thermalRate
    rw [if_neg h, mul_zero]
    split
    · positivity
    · exact le_rfl

/-- the spectrum as a multiple of the sum over the grid -/
theorem beam_value (m : ElModel) (pd : PDist) (hu : pd.unit.dim = Dim.diffEnergy)
    (hus : 0 < pd.unit.scale) (hlo : m.Eemin.PosEnergy) (hhi : m.Eemax.PosEnergy)
    (hlt : m.Eemin.phys < m.Eemax.phys) (T dens θ : ℝ) (hT : 0 < T) (hθ : Real.cos θ ≠ 1)
    (p : ℝ → ℝ) (hp : ∀ E ∈ Set.Icc m.Eemin.phys m.Eemax.phys, pd.f E = fin (p E))
    (h0 : ∀ E ∈ Set.Icc m.Eemin.phys m.Eemax.phys, 0 ≤ p E) (gam : List ℝ)
    (hg : gamGrid m.nEed m.Eemin m.Eemax = .ok gam) (e : ℝ) (he : 0 < e) :
    icSpectrum m [.thermal T dens (some θ)] pd [e] = .ok [fin (dens / (4 * cSigma / cC * T ^ 4) * cEV / (cMe * cC ^ 2) *
      binSum rbin ((gam.map (· * cMec2)).map (fun x => (x, p x * pd.unit.scale *
        thermalRate T (some θ) (x / (cMe * cC ^ 2)) (e / (cMe * cC ^ 2))))))] := by
  have hm := cMec2_pos
  have hmem := gam_mem m.nEed m.Eemin m.Eemax hlo hhi hlt.le gam hg
  obtain ⟨gam', hg', hgp', hgs'⟩ := gamGrid_facts m.nEed m.Eemin m.Eemax hlo hhi hlt.le
  have e1 : gam' = gam := by rw [hg] at hg'; injection hg' with h; exact h.symm
  subst e1
  obtain ⟨gam2, hg2, -, h⟩ := C71_thermal m pd hu hlo hhi hlt.le T dens (some θ) hT (fun x h => by cases h; exact hθ) [e] (by simpa using he)
  have e2 : gam2 = gam' := by
    have h1 : m.gam = .ok gam' := hg
    rw [h1] at hg2; injection hg2 with h'; exact h'.symm
  subst e2
  rw [h]
  simp only [List.map_cons, List.map_nil]
  rw [← mul_fin, ← trapz_binSum cMec2 hm gam2 hgp' hgs' (fun x => p x * pd.unit.scale *
    thermalRate T (some θ) (x / (cMe * cC ^ 2)) (e / (cMe * cC ^ 2)))]
  · congr 4
    apply List.map_congr_left
    intro g hgm
    have e3 : g * cMec2 / (cMe * cC ^ 2) = g := by
      show g * cMec2 / cMec2 = g; field_simp
    rw [e3]
    show (fin g, pd.f (g * cMec2) * fin (pd.unit.scale * cMec2) * _) = _
    rw [hp _ (hmem g hgm), mul_fin, mul_fin]
    congr 2
    ring
  · intro g hgm
    exact mul_nonneg (mul_nonneg (h0 _ (hmem g hgm)) hus.le) (beamRate_nonneg T θ _ _ hT hθ (div_pos he hm))

/-- **C123 (total power).** For every electron spectrum on a range above the electron rest energy, and every beam of photons with
a gray-body spectrum of temperature `T > 0` and energy density `dens` arriving at an angle `θ` with `cos θ ≠ 1`: the energy flux
`E dN/dE` of the computed spectrum is integrable over all photon energies, and as the electron grid is refined its integral tends
to a value at most 1 % above the sum of the rates `σ_T c U γ² (1 - cos θ)²` of the electrons, and below it by at most 1 % and
26 `γ kT/mc² (1 - cos θ)` of each electron's. Energies in erg; the spectrum in 1/(s eV), divided by the number of erg in an eV, in
1/(s erg). -/
theorem C123_total_power (m : ElModel) (pd : PDist) (hu : pd.unit.dim = Dim.diffEnergy)
    (hus : 0 < pd.unit.scale) (hlo : m.Eemin.PosEnergy) (hhi : m.Eemax.PosEnergy)
    (hlt : m.Eemin.phys < m.Eemax.phys) (T dens θ : ℝ) (hT : 0 < T) (hθ : Real.cos θ ≠ 1) (hd : 0 < dens)
    (p : ℝ → ℝ) (hp : ∀ E ∈ Set.Icc m.Eemin.phys m.Eemax.phys, pd.f E = fin (p E))
    (hs : Spectrum p m.Eemin.phys m.Eemax.phys) (h30 : cMe * cC ^ 2 < m.Eemin.phys) :
    ∃ L : ℝ → ℝ → ℝ, (∀ n, ∀ e > 0, icSpectrum { m with nEed := n } [.thermal T dens (some θ)] pd [e] = .ok [fin (L n e)]) ∧
      (∀ n, IntegrableOn (fun e => e * (L n e / cEV)) (Set.Ioi 0)) ∧
      ∃ P, Tendsto (fun n => ∫ e in Set.Ioi 0, e * (L n e / cEV)) atTop (𝓝 P) ∧
        ∫ E in m.Eemin.phys..m.Eemax.phys, p E * pd.unit.scale *
            ((0.99 - 26 * (E / (cMe * cC ^ 2)) * (kBoltzmann * T / (cMe * cC ^ 2)) * (1 - Real.cos θ)) *
              beamLoss cE cMe cC dens (E / (cMe * cC ^ 2)) θ) ≤ P ∧
        P ≤ 1.01 * ∫ E in m.Eemin.phys..m.Eemax.phys,
            p E * pd.unit.scale * beamLoss cE cMe cC dens (E / (cMe * cC ^ 2)) θ := by
  have hm : 0 < cMe * cC ^ 2 := cMec2_pos
  have hev := cEV_pos
  have q1 := cC_pos
  have q2 := cMe_pos
  set a := m.Eemin.phys with ha
  set b := m.Eemax.phys with hb
  have ha0 : 0 < a := hlo.phys_pos
  have hb0 : 0 < b := ha0.trans hlt
  have hsc : Spectrum (fun _ => pd.unit.scale) a b := Spectrum.of_continuous (fun _ _ => hus.le) continuousOn_const
  have hN : Spectrum (fun E => p E * pd.unit.scale) a b := hs.mul hsc
  have hgrid : ∀ n : ℝ, ∃ gam, gamGrid n m.Eemin m.Eemax = .ok gam := by
    intro n
    obtain ⟨gam, hg, -⟩ := gamGrid_facts n m.Eemin m.Eemax hlo hhi hlt.le
    exact ⟨gam, hg⟩
  choose G hG using hgrid
  have hfine := electron_fine m.Eemin m.Eemax hlo hhi hlt G hG
  set K : ℝ → ℝ → ℝ := fun E e => thermalRate T (some θ) (E / (cMe * cC ^ 2)) (e / (cMe * cC ^ 2)) with hK
  set A : ℝ := Spec.thermalNorm * (1.6863699549e-10 * T) ^ 2 *
      (4 * (1.6863699549e-10 * T) * (1 - Real.cos θ) * (b / (cMe * cC ^ 2)) ^ 2 + 3 * (b / (cMe * cC ^ 2))) with hA
  obtain ⟨w1, w2, w3⟩ := weighted_limit hfine ha0 hlt (fun E => p E * pd.unit.scale) hN K
    (beamRate_measurable2 T θ (cMe * cC ^ 2))
    (fun e he => Spectrum.comp_div (c := cMe * cC ^ 2) hm (thermalRate_spectrum T (some θ) hT (fun x h => by cases h; exact hθ) _ _ _ (div_pos he hm)))
    (fun e => e) (Set.indicator (Set.Iio b) (fun _ => cMe * cC ^ 2 * A)) measurable_id (fun e he => le_of_lt he)
    (by
      rw [integrableOn_indicator_iff measurableSet_Iio]
      rw [show Set.Iio b ∩ Set.Ioi 0 = Set.Ioo 0 b by ext x; simp [and_comm]]
      exact integrableOn_const (by simp))
    (by
      intro E hE e he
      have h1 := beamRate_bound T θ (b / (cMe * cC ^ 2)) (E / (cMe * cC ^ 2)) (e / (cMe * cC ^ 2)) hT hθ (div_pos he hm)
        (div_le_div_of_nonneg_right hE.2 hm.le) (div_pos hb0 hm)
      have h2 := mul_le_mul_of_nonneg_left h1 hm.le
      calc e * K E e = cMe * cC ^ 2 * (e / (cMe * cC ^ 2) * thermalRate T (some θ) (E / (cMe * cC ^ 2)) (e / (cMe * cC ^ 2))) := by
            simp only [hK]
            generalize thermalRate T (some θ) (E / (cMe * cC ^ 2)) (e / (cMe * cC ^ 2)) = u
            field_simp
        _ ≤ _ := h2
        _ ≤ _ := by
            by_cases hlt' : e < b
            · rw [if_pos (div_lt_div_of_pos_right hlt' hm), Set.indicator_of_mem (show e ∈ Set.Iio b from hlt')]
            · have : ¬ (e / (cMe * cC ^ 2) < b / (cMe * cC ^ 2)) := by
                rw [div_lt_div_iff_of_pos_right hm]; exact hlt'
              rw [if_neg this, Set.indicator_of_notMem (show e ∉ Set.Iio b from hlt'), mul_zero])
  set κ := dens / (4 * cSigma / cC * T ^ 4) * cEV / (cMe * cC ^ 2) with hκ
  have hpl : 0 < 4 * cSigma / cC * T ^ 4 := by
    have := cC_pos
    have : 0 < cSigma := by unfold cSigma; norm_num
    positivity
  have hκ0 : 0 < κ := by rw [hκ]; positivity
  have e1 : ∀ n, (fun e => e * (κ * binSum rbin (((G n).map (· * cMec2)).map (fun x => (x, p x * pd.unit.scale * K x e))) / cEV)) =
      fun e => κ / cEV * (e * binSum rbin (((G n).map (· * cMec2)).map (fun x => (x, p x * pd.unit.scale * K x e)))) := by
    intro n; funext e; ring
  refine ⟨fun n e => κ * binSum rbin (((G n).map (· * cMec2)).map (fun x => (x, p x * pd.unit.scale * K x e))),
    fun n e he => beam_value { m with nEed := n } pd hu hus hlo hhi hlt T dens θ hT hθ p hp hs.nonneg (G n) (hG n) e he,
    fun n => ?_, κ / cEV * ∫ E in a..b, p E * pd.unit.scale * ∫ e in Set.Ioi 0, e * K E e, ?_, ?_, ?_⟩
  · show IntegrableOn (fun e => e * (κ * binSum rbin (((G n).map (· * cMec2)).map (fun x => (x, p x * pd.unit.scale * K x e))) / cEV)) _
    rw [e1]; exact (w1 n).const_mul _
  · have : (fun n => ∫ e in Set.Ioi 0, e * (κ * binSum rbin (((G n).map (· * cMec2)).map (fun x => (x, p x * pd.unit.scale * K x e))) / cEV)) =
        fun n => κ / cEV * ∫ e in Set.Ioi 0, e * binSum rbin (((G n).map (· * cMec2)).map (fun x => (x, p x * pd.unit.scale * K x e))) := by
      funext n; rw [e1, integral_const_mul]
    rw [this]
    exact w3.const_mul _
  all_goals
    -- the power of one electron, in erg
    have hone : ∀ E ∈ Set.Icc a b, ∫ e in Set.Ioi 0, e * K E e =
        (cMe * cC ^ 2) ^ 2 * ∫ ε in Set.Ioi 0, ε * thermalRate T (some θ) (E / (cMe * cC ^ 2)) ε := by
      intro E _
      have h1 := integral_comp_mul_left_Ioi (fun ε => ε * thermalRate T (some θ) (E / (cMe * cC ^ 2)) ε) 0 (inv_pos.2 hm)
      rw [mul_zero, inv_inv, smul_eq_mul] at h1
      have h2 : ∫ e in Set.Ioi 0, e * K E e = ∫ e in Set.Ioi 0, (cMe * cC ^ 2) *
          ((cMe * cC ^ 2)⁻¹ * e * thermalRate T (some θ) (E / (cMe * cC ^ 2)) ((cMe * cC ^ 2)⁻¹ * e)) := by
        congr 1
        funext e
        simp only [hK]
        rw [show e / (cMe * cC ^ 2) = (cMe * cC ^ 2)⁻¹ * e by ring]
        generalize thermalRate T (some θ) (E / (cMe * cC ^ 2)) ((cMe * cC ^ 2)⁻¹ * e) = u
        field_simp
      rw [h2, integral_const_mul, h1]
      ring
    have hloss : ∀ γ, κ / cEV * (cMe * cC ^ 2) ^ 2 * (beamLoss cE cMe cC (planckDensity T) γ θ / (cMe * cC ^ 2)) =
        beamLoss cE cMe cC dens γ θ := by
      intro γ
      have q3 : 0 < cSigma := by unfold cSigma; norm_num
      rw [hκ]; unfold beamLoss planckDensity
      field_simp
    have hg30 : ∀ E ∈ Set.Icc a b, 1 < E / (cMe * cC ^ 2) := fun E hE => by
      rw [lt_div_iff₀ hm, one_mul]; exact h30.trans_le hE.1
    have hκ2 : 0 < κ / cEV * (cMe * cC ^ 2) ^ 2 := by positivity
    have hls : Spectrum (fun E => p E * pd.unit.scale * beamLoss cE cMe cC dens (E / (cMe * cC ^ 2)) θ) a b := by
      refine hN.mul (Spectrum.of_continuous (fun E hE => (beamLoss_pos dens _ θ hd (hg30 E hE) hθ).le) ?_)
      unfold beamLoss
      fun_prop
  · rw [← intervalIntegral.integral_const_mul]
    apply intervalIntegral.integral_mono_on hlt.le _ (w2.const_mul _)
    · intro E hE
      have h1 := (C123_one_electron T θ _ hT hθ (hg30 E hE)).1
      have h2 := mul_le_mul_of_nonneg_left h1 hκ2.le
      have h3 := mul_le_mul_of_nonneg_left h2 (hN.nonneg E hE)
      rw [hone E hE]
      calc _ = p E * pd.unit.scale * (κ / cEV * (cMe * cC ^ 2) ^ 2 * ((0.99 - 26 * (E / (cMe * cC ^ 2)) *
            (kBoltzmann * T / (cMe * cC ^ 2)) * (1 - Real.cos θ)) * (beamLoss cE cMe cC (planckDensity T) (E / (cMe * cC ^ 2)) θ / (cMe * cC ^ 2)))) := by
            rw [← hloss]; ring
        _ ≤ _ := h3
        _ = _ := by ring
    · have h1 : IntervalIntegrable (fun E => p E * pd.unit.scale * beamLoss cE cMe cC dens (E / (cMe * cC ^ 2)) θ) volume a b :=
        hls.integrable hlt.le
      have h2 := h1.continuousOn_mul (g := fun E => 0.99 - 26 * (E / (cMe * cC ^ 2)) * (kBoltzmann * T / (cMe * cC ^ 2)) * (1 - Real.cos θ))
        (by fun_prop)
      refine h2.congr ?_
      intro E hE
      simp only []; ring
  · rw [← intervalIntegral.integral_const_mul, ← intervalIntegral.integral_const_mul]
    apply intervalIntegral.integral_mono_on hlt.le (w2.const_mul _) ((hls.integrable hlt.le).const_mul _)
    intro E hE
    have h1 := (C123_one_electron T θ _ hT hθ (hg30 E hE)).2
    have h2 := mul_le_mul_of_nonneg_left h1 hκ2.le
    have h3 := mul_le_mul_of_nonneg_left h2 (hN.nonneg E hE)
    rw [hone E hE]
    calc _ = p E * pd.unit.scale * (κ / cEV * (cMe * cC ^ 2) ^ 2 *
          ∫ ε in Set.Ioi 0, ε * thermalRate T (some θ) (E / (cMe * cC ^ 2)) ε) := by ring
      _ ≤ _ := h3
      _ = _ := by rw [← hloss]; ring

/-! ### The hypotheses are met -/

/-- A power law of index 3 from 1 GeV to 1 TeV, head-on collisions with photons of 2.72 K: the limit is within 7 % of the Thomson rate. -/
example : ∃ L : ℝ → ℝ → ℝ, ∃ Q : ℝ, 0 ≤ Q ∧
    (∀ n, ∀ e > 0, icSpectrum ⟨⟨1, PhysUnit.GeV⟩, ⟨1, PhysUnit.TeV⟩, n⟩ [.thermal 2.72 4.2e-13 (some Real.pi)]
      (PowerLaw.toPDist ⟨fin 1e33, (⟨1, PhysUnit.TeV⟩ : Qty ℝ).lift, fin 3⟩ ⟨1 / cEV, Dim.diffEnergy⟩) [e] = .ok [fin (L n e)]) ∧
    ∃ P, Tendsto (fun n => ∫ e in Set.Ioi 0, e * (L n e / cEV)) atTop (𝓝 P) ∧ 0.93 * Q ≤ P ∧ P ≤ 1.01 * Q := by
  have hev := cEV_pos
  have hm : 0 < cMe * cC ^ 2 := cMec2_pos
  have h0 : (⟨1, PhysUnit.TeV⟩ : Qty ℝ).PosEnergy := ⟨rfl, by simp [PhysUnit.TeV]; positivity, by norm_num⟩
  let m : ElModel := ⟨⟨1, PhysUnit.GeV⟩, ⟨1, PhysUnit.TeV⟩, 100⟩
  have hlo : m.Eemin.PosEnergy := ⟨rfl, GeV_pos, by norm_num [m]⟩
  have hlt : m.Eemin.phys < m.Eemax.phys := by simp only [m, Qty.phys, PhysUnit.GeV, PhysUnit.TeV]; norm_num
  have h30 : cMe * cC ^ 2 < m.Eemin.phys := by
    simp only [m, Qty.phys, PhysUnit.GeV, cMe, cC]; norm_num
  have hsp : Spectrum (fun E => 1e33 * (E / (⟨1, PhysUnit.TeV⟩ : Qty ℝ).phys) ^ (-(3:ℝ))) m.Eemin.phys m.Eemax.phys :=
    Spectrum.of_continuous (fun E hE => by
        have := div_pos (hlo.phys_pos.trans_le hE.1) h0.phys_pos
        positivity)
      (ContinuousOn.mul continuousOn_const (ContinuousOn.rpow_const (by fun_prop)
        (fun E hE => Or.inl (div_pos (hlo.phys_pos.trans_le hE.1) h0.phys_pos).ne')))
  set pd := PowerLaw.toPDist ⟨fin 1e33, (⟨1, PhysUnit.TeV⟩ : Qty ℝ).lift, fin 3⟩ ⟨1 / cEV, Dim.diffEnergy⟩ with hpd
  have hus : 0 < pd.unit.scale := by simp only [hpd, PowerLaw.toPDist]; positivity
  obtain ⟨L, h1, -, P, h3, h4, h5⟩ := C123_total_power m pd rfl hus hlo
    ⟨rfl, by simp only [m, PhysUnit.TeV]; norm_num, by norm_num [m]⟩ hlt 2.72 4.2e-13 Real.pi (by norm_num) (by norm_num [Real.cos_pi]) (by norm_num) _
    (fun E hE => powerLaw_pdist 1e33 3 _ h0 _ E (hlo.phys_pos.trans_le hE.1)) hsp h30
  set p : ℝ → ℝ := fun E => 1e33 * (E / (⟨1, PhysUnit.TeV⟩ : Qty ℝ).phys) ^ (-(3:ℝ)) with hpdef
  have hg1 : ∀ E ∈ Set.Icc m.Eemin.phys m.Eemax.phys, 1 < E / (cMe * cC ^ 2) := fun E hE => by
    rw [lt_div_iff₀ hm, one_mul]; exact h30.trans_le hE.1
  have hls : Spectrum (fun E => p E * pd.unit.scale * beamLoss cE cMe cC 4.2e-13 (E / (cMe * cC ^ 2)) Real.pi) m.Eemin.phys m.Eemax.phys := by
    refine (hsp.mul (Spectrum.of_continuous (fun _ _ => hus.le) continuousOn_const)).mul
      (Spectrum.of_continuous (fun E hE => (beamLoss_pos _ _ _ (by norm_num) (hg1 E hE) (by norm_num [Real.cos_pi])).le) ?_)
    unfold beamLoss
    fun_prop
  refine ⟨L, ∫ E in m.Eemin.phys..m.Eemax.phys, p E * pd.unit.scale * beamLoss cE cMe cC 4.2e-13 (E / (cMe * cC ^ 2)) Real.pi,
    intervalIntegral.integral_nonneg hlt.le (fun E hE => hls.nonneg E hE), h1, P, h3, le_trans ?_ h4, h5⟩
  rw [← intervalIntegral.integral_const_mul]
  apply intervalIntegral.integral_mono_on hlt.le ((hls.integrable hlt.le).const_mul _)
  · have h2 := (hls.integrable hlt.le).continuousOn_mul
      (g := fun E => 0.99 - 26 * (E / (cMe * cC ^ 2)) * (kBoltzmann * 2.72 / (cMe * cC ^ 2)) * (1 - Real.cos Real.pi)) (by fun_prop)
    refine h2.congr ?_
    intro E _
    simp only []; ring
  · intro E hE
    have hγ : E / (cMe * cC ^ 2) ≤ m.Eemax.phys / (cMe * cC ^ 2) := div_le_div_of_nonneg_right hE.2 hm.le
    have hk : 0 < kBoltzmann * 2.72 / (cMe * cC ^ 2) := by
      have : 0 < kBoltzmann := by unfold kBoltzmann; norm_num
      positivity
    have h6 : 26 * (m.Eemax.phys / (cMe * cC ^ 2)) * (kBoltzmann * 2.72 / (cMe * cC ^ 2)) * (1 - Real.cos Real.pi) ≤ 0.06 := by
      simp only [m, Qty.phys, PhysUnit.TeV, kBoltzmann, cMe, cC]; norm_num
    have h7 : 26 * (E / (cMe * cC ^ 2)) * (kBoltzmann * 2.72 / (cMe * cC ^ 2)) * (1 - Real.cos Real.pi) ≤ 0.06 := by
      refine le_trans (mul_le_mul_of_nonneg_right (mul_le_mul_of_nonneg_right (by linarith) hk.le) (by norm_num [Real.cos_pi])) h6
    have h8 := hls.nonneg E hE
    have h9 : 0.93 ≤ 0.99 - 26 * (E / (cMe * cC ^ 2)) * (kBoltzmann * 2.72 / (cMe * cC ^ 2)) * (1 - Real.cos Real.pi) := by linarith
    calc _ ≤ (0.99 - 26 * (E / (cMe * cC ^ 2)) * (kBoltzmann * 2.72 / (cMe * cC ^ 2)) * (1 - Real.cos Real.pi)) *
          (p E * pd.unit.scale * beamLoss cE cMe cC 4.2e-13 (E / (cMe * cC ^ 2)) Real.pi) := mul_le_mul_of_nonneg_right h9 h8
      _ = _ := by ring

end Naima.Props
