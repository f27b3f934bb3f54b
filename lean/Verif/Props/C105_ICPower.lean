import Verif.Proof.PowerLimit
import Verif.Proof.ICQuad
import Verif.Props.C71_Arguments
import Verif.Props.C71_Constants
import Mathlib.MeasureTheory.Function.JacobianOneDim

/-! # C105: the total inverse Compton power in a thermal field is the Thomson loss rate -/

namespace Naima.Props

open Naima XR Classical Topology MeasureTheory
open Filter (Tendsto atTop)

/-! ### Specification -/

/-- Energy per unit time lost by an electron of Lorentz factor `γ` to inverse Compton scattering in the Thomson regime,
in an isotropic photon field of energy density `U`: `4/3 σ_T c U (γ² - 1)` (e.g. Rybicki & Lightman, eq. 7.16b; `γ²β² = γ² - 1`). -/
noncomputable def thomsonLoss (q m c U γ : ℝ) : ℝ := 4 / 3 * thomsonCgs q m c * c * U * (γ ^ 2 - 1)

/-! ### One electron -/

/-- the integrand after the change of variable `ε = γ b x / (1 + b x)` -/
noncomputable def icInt (b x : ℝ) : ℝ :=
  x / (1 + b * x) ^ 3 * ((b * x) ^ 2 / (2 * (1 + b * x)) * icF3 x + icF4 x)

theorem icF3_le_six (x : ℝ) (hx : 0 < x) : icF3 x ≤ 6 * icF4 x := by
  have hA3 : 0 ≤ x ^ (0.606:ℝ) := by positivity
  have hB3 : 0 ≤ x ^ (1.481:ℝ) := by positivity
  have hA : 0 ≤ x ^ (0.461:ℝ) := by positivity
  have hB : 0 ≤ x ^ (1.457:ℝ) := by positivity
  obtain ⟨p1, p2⟩ := pi_sq_six
  have hpi := Real.pi_pos
  have hAB : x ^ (0.461:ℝ) ≤ 1 + x ^ (1.457:ℝ) := by
    rcases le_total x 1 with h | h
    · have := Real.rpow_le_one hx.le h (by norm_num : (0:ℝ) ≤ 0.461); linarith
    · have := Real.rpow_le_rpow_of_exponent_le h (by norm_num : (0.461:ℝ) ≤ 1.457); linarith
  unfold icF3 icF4 Spec.F34 Spec.gFactor
  have g3 : 1 / (1 + 0.443 * x ^ (0.606:ℝ) / (1 + 0.540 * x ^ (1.481:ℝ))) ≤ 1 := by
    rw [div_le_one (by positivity)]
    have : 0 ≤ 0.443 * x ^ (0.606:ℝ) / (1 + 0.540 * x ^ (1.481:ℝ)) := by positivity
    linarith
  have g4 : 1 / 3 ≤ 1 / (1 + 0.726 * x ^ (0.461:ℝ) / (1 + 0.382 * x ^ (1.457:ℝ))) := by
    apply one_div_le_one_div_of_le (by positivity)
    have : 0.726 * x ^ (0.461:ℝ) / (1 + 0.382 * x ^ (1.457:ℝ)) ≤ 2 := by
      rw [div_le_iff₀ (by positivity)]; nlinarith
    linarith
  have r3 : (1 + 0.319 * x) / (1 + Real.pi ^ 2 * 0.319 / 6 * x) ≤ 1 := by
    rw [div_le_one (by positivity)]; nlinarith
  have r4 : 1 / 2 ≤ (1 + 6.620 * x) / (1 + Real.pi ^ 2 * 6.620 / 6 * x) := by
    rw [div_le_div_iff₀ (by norm_num) (by positivity)]; nlinarith
  have e0 := Real.exp_pos (-x)
  calc _ ≤ Real.pi ^ 2 / 6 * 1 * Real.exp (-x) * 1 := by gcongr
    _ = 6 * (Real.pi ^ 2 / 6 * (1 / 2) * Real.exp (-x) * (1 / 3)) := by ring
    _ ≤ _ := by gcongr

theorem icF3_le (x : ℝ) (hx : 0 < x) : icF3 x ≤ 12 * icF4 x := by
  have := icF3_le_six x hx
  have := (icF4_bounds x hx.le).1
  linarith

theorem icInt_bounds (b x : ℝ) (hb : 0 < b) (hx : 0 < x) :
    x * icF4 x - 3 * b * (x ^ 2 * icF4 x) ≤ icInt b x ∧ icInt b x ≤ x * icF4 x ∧ 0 ≤ icInt b x := by
  have h3 := (icF3_bounds x hx.le).1
  have h4 := (icF4_bounds x hx.le).1
  have h34 := icF3_le x hx
  have hy : 0 < b * x := by positivity
  set y := b * x with hydef
  have h0 : 0 ≤ icInt b x := by unfold icInt; rw [← hydef]; positivity
  refine ⟨?_, ?_, h0⟩
  · have h1 : x / (1 + y) ^ 3 * icF4 x ≤ icInt b x := by
      unfold icInt; rw [← hydef]
      apply mul_le_mul_of_nonneg_left _ (by positivity)
      have : 0 ≤ y ^ 2 / (2 * (1 + y)) * icF3 x := by positivity
      linarith
    have h2 : 1 - 3 * y ≤ 1 / (1 + y) ^ 3 := by
      rw [le_div_iff₀ (by positivity)]
      nlinarith [pow_pos hy 2, pow_pos hy 3, pow_pos hy 4]
    have h5 : (1 - 3 * y) * (x * icF4 x) ≤ 1 / (1 + y) ^ 3 * (x * icF4 x) :=
      mul_le_mul_of_nonneg_right h2 (by positivity)
    calc _ = (1 - 3 * y) * (x * icF4 x) := by rw [hydef]; ring
      _ ≤ _ := h5
      _ = x / (1 + y) ^ 3 * icF4 x := by ring
      _ ≤ _ := h1
  · unfold icInt; rw [← hydef]
    calc x / (1 + y) ^ 3 * (y ^ 2 / (2 * (1 + y)) * icF3 x + icF4 x)
        ≤ x / (1 + y) ^ 3 * (y ^ 2 / (2 * (1 + y)) * (12 * icF4 x) + icF4 x) := by gcongr
      _ = x * icF4 x * ((6 * y ^ 2 + 1 + y) / (1 + y) ^ 4) := by field_simp; ring
      _ ≤ x * icF4 x * 1 := by
          apply mul_le_mul_of_nonneg_left _ (by positivity)
          rw [div_le_one (by positivity)]
          nlinarith [pow_pos hy 2, pow_pos hy 3, pow_pos hy 4]
      _ = _ := mul_one _

theorem icInt_measurable (b : ℝ) : Measurable (icInt b) := by
  unfold icInt
  have h3 := icF3_measurable
  have h4 := icF4_measurable
  fun_prop

theorem icInt_integrable (b : ℝ) (hb : 0 < b) : IntegrableOn (icInt b) (Set.Ioi 0) := by
  apply Integrable.mono' x_icF4_integrable (icInt_measurable b).aestronglyMeasurable
  filter_upwards [ae_restrict_mem measurableSet_Ioi] with x hx
  obtain ⟨-, h2, h3⟩ := icInt_bounds b x hb hx
  rw [Real.norm_of_nonneg h3]; exact h2

theorem icInt_integral (b : ℝ) (hb : 0 < b) :
    0.71648 - 9.87 * b ≤ ∫ x in Set.Ioi 0, icInt b x ∧ ∫ x in Set.Ioi 0, icInt b x ≤ 0.72725 := by
  obtain ⟨m1, m2⟩ := icF4_moment
  have hi2 := (pow_icF4_integrable 2).const_mul (3 * b)
  constructor
  · have h1 : ∫ x in Set.Ioi 0, (x * icF4 x - 3 * b * (x ^ 2 * icF4 x)) ≤ ∫ x in Set.Ioi 0, icInt b x :=
      setIntegral_mono_on (x_icF4_integrable.sub hi2) (icInt_integrable b hb) measurableSet_Ioi
        (fun x hx => (icInt_bounds b x hb hx).1)
    rw [integral_sub x_icF4_integrable hi2, integral_const_mul] at h1
    have h2 : ∫ x in Set.Ioi 0, x ^ 2 * icF4 x ≤ ∫ x in Set.Ioi 0, 1.645 * ((x:ℝ) ^ 2 * Real.exp (-x)) := by
      apply setIntegral_mono_on (pow_icF4_integrable 2) ((rpow_exp_integrable 2).const_mul _) measurableSet_Ioi
      intro x hx
      have hx : (0:ℝ) < x := hx
      calc x ^ 2 * icF4 x ≤ x ^ 2 * (1.645 * Real.exp (-x)) :=
            mul_le_mul_of_nonneg_left (icF4_bounds x hx.le).2 (by positivity)
        _ = _ := by ring
    rw [integral_const_mul, rpow_exp_integral] at h2
    norm_num [Nat.factorial] at h2 m1 ⊢
    nlinarith
  · exact (setIntegral_mono_on (icInt_integrable b hb) x_icF4_integrable measurableSet_Ioi
      (fun x hx => (icInt_bounds b x hb hx).2.1)).trans m2

/-- energy of the scattered photon as a function of `x` -/
noncomputable def icPhi (γ b x : ℝ) : ℝ := γ * (b * x / (1 + b * x))

theorem icPhi_image (γ b : ℝ) (hγ : 0 < γ) (hb : 0 < b) : icPhi γ b '' Set.Ioi 0 = Set.Ioo 0 γ := by
  ext e
  constructor
  · rintro ⟨x, hx, rfl⟩
    have hx : (0:ℝ) < x := hx
    unfold icPhi
    refine ⟨by positivity, ?_⟩
    have : b * x / (1 + b * x) < 1 := by rw [div_lt_one (by positivity)]; linarith
    nlinarith
  · rintro ⟨h1, h2⟩
    have hd : 0 < γ - e := by linarith
    refine ⟨e / (b * (γ - e)), by show (0:ℝ) < _; positivity, ?_⟩
    unfold icPhi
    have : b * (e / (b * (γ - e))) = e / (γ - e) := by field_simp
    rw [this]
    have : 1 + e / (γ - e) = γ / (γ - e) := by field_simp; ring
    rw [this]; field_simp

theorem icPhi_deriv (γ b x : ℝ) (hb : 0 < b) (hx : 0 < x) :
    HasDerivAt (icPhi γ b) (γ * (b / (1 + b * x) ^ 2)) x := by
  have h0 : 1 + b * x ≠ 0 := by positivity
  have h1 : HasDerivAt (fun x => b * x) b x := by simpa using (hasDerivAt_id x).const_mul b
  have h2 : HasDerivAt (fun x => 1 + b * x) b x := by simpa using h1.const_add 1
  have h3 := (h1.div h2 h0).const_mul γ
  refine h3.congr_deriv ?_
  congr 2
  ring

theorem icPhi_injOn (γ b : ℝ) (hγ : 0 < γ) (hb : 0 < b) : Set.InjOn (icPhi γ b) (Set.Ioi 0) := by
  intro x hx y hy h
  have hx : (0:ℝ) < x := hx
  have hy : (0:ℝ) < y := hy
  unfold icPhi at h
  have h := mul_left_cancel₀ hγ.ne' h
  rw [div_eq_div_iff (by positivity) (by positivity)] at h
  have : b * x = b * y := by linarith
  exact mul_left_cancel₀ hb.ne' this

theorem isoThermal_phi (γ t x : ℝ) (hγ : 0 < γ) (ht : 0 < t) (hx : 0 < x) :
    |γ * ((4 * γ * t) / (1 + 4 * γ * t * x) ^ 2)| • (icPhi γ (4 * γ * t) x * Spec.isoThermal γ t (icPhi γ (4 * γ * t) x)) =
      16 * Spec.thermalNorm * t ^ 4 * γ ^ 2 * icInt (4 * γ * t) x := by
  set b := 4 * γ * t with hb
  have hb0 : 0 < b := by positivity
  have h1 : icPhi γ b x / γ = b * x / (1 + b * x) := by unfold icPhi; field_simp
  have hs : 0 < 1 + b * x := by positivity
  have h2 : 1 - b * x / (1 + b * x) = 1 / (1 + b * x) := by field_simp; ring
  have h3 : b * x / (1 + b * x) / (1 / (1 + b * x) * b) = x := by field_simp
  rw [abs_of_pos (by positivity), smul_eq_mul]
  unfold Spec.isoThermal
  simp only [h1, h2, ← hb, h3]
  unfold icInt icPhi icF3 icF4
  generalize Spec.F34 0.606 0.443 1.481 0.540 0.319 x = f3
  generalize Spec.F34 0.461 0.726 1.457 0.382 6.620 x = f4
  have h4 : 16 * Spec.thermalNorm * t ^ 4 * γ ^ 2 = Spec.thermalNorm * t ^ 2 * b ^ 2 := by rw [hb]; ring
  rw [h4]
  generalize Spec.thermalNorm = K
  clear_value b
  field_simp

theorem thermalRate_measurable2 (T c : ℝ) :
    Measurable (fun z : ℝ × ℝ => thermalRate T none (z.1 / c) (z.2 / c)) := by
  unfold thermalRate Spec.isoThermal Spec.F34 Spec.gFactor
  refine Measurable.ite ?_ (by fun_prop) measurable_const
  have h1 : MeasurableSet {z : ℝ × ℝ | z.2 / c < z.1 / c} := measurableSet_lt (by fun_prop) (by fun_prop)
  have h2 : MeasurableSet {z : ℝ × ℝ | 1 < z.1 / c} := measurableSet_lt (by fun_prop) (by fun_prop)
  exact h1.inter h2

/-- energy radiated by one electron: the integral over photon energy, reduced to one over `x` -/
theorem ic_power_one (T γ : ℝ) (hT : 0 < T) (hγ : 1 < γ) :
    IntegrableOn (fun ε => ε * thermalRate T none γ ε) (Set.Ioi 0) ∧
    ∫ ε in Set.Ioi 0, ε * thermalRate T none γ ε =
      16 * Spec.thermalNorm * (1.6863699549e-10 * T) ^ 4 * γ ^ 2 *
        ∫ x in Set.Ioi 0, icInt (4 * γ * (1.6863699549e-10 * T)) x := by
  set t := 1.6863699549e-10 * T with ht
  have ht0 : 0 < t := by positivity
  have hγ0 : 0 < γ := by linarith
  have hb : 0 < 4 * γ * t := by positivity
  have hzero : ∀ ε ∈ Set.Ioi (0:ℝ) \ Set.Ioo 0 γ, ε * thermalRate T none γ ε = 0 := by
    rintro ε ⟨h1, h2⟩
    have : ¬ (ε < γ ∧ 1 < γ) := fun h => h2 ⟨h1, h.1⟩
    unfold thermalRate
    rw [if_neg this, mul_zero]
  have hsub : Set.Ioo (0:ℝ) γ ⊆ Set.Ioi 0 := fun x hx => hx.1
  have hin : Set.EqOn (fun ε => ε * thermalRate T none γ ε) (fun ε => ε * Spec.isoThermal γ t ε) (Set.Ioo 0 γ) := by
    intro ε hε
    simp only [thermalRate]
    rw [if_pos ⟨hε.2, hγ⟩]
  have hpt : Set.EqOn (fun x => |γ * ((4 * γ * t) / (1 + 4 * γ * t * x) ^ 2)| •
      (icPhi γ (4 * γ * t) x * Spec.isoThermal γ t (icPhi γ (4 * γ * t) x)))
      (fun x => 16 * Spec.thermalNorm * t ^ 4 * γ ^ 2 * icInt (4 * γ * t) x) (Set.Ioi 0) := fun x hx =>
    isoThermal_phi γ t x hγ0 ht0 hx
  have hder : ∀ x ∈ Set.Ioi (0:ℝ), HasDerivWithinAt (icPhi γ (4 * γ * t)) (γ * ((4 * γ * t) / (1 + 4 * γ * t * x) ^ 2))
      (Set.Ioi 0) x := fun x hx => (icPhi_deriv γ _ x hb hx).hasDerivWithinAt
  have hinj := icPhi_injOn γ (4 * γ * t) hγ0 hb
  constructor
  · have h1 : IntegrableOn (fun ε => ε * thermalRate T none γ ε) (Set.Ioo 0 γ) := by
      rw [integrableOn_congr_fun hin measurableSet_Ioo, ← icPhi_image γ (4 * γ * t) hγ0 hb,
        integrableOn_image_iff_integrableOn_abs_deriv_smul measurableSet_Ioi hder hinj,
        integrableOn_congr_fun hpt measurableSet_Ioi]
      exact (icInt_integrable _ hb).const_mul _
    exact h1.of_forall_diff_eq_zero measurableSet_Ioi hzero
  · rw [setIntegral_eq_of_subset_of_forall_diff_eq_zero measurableSet_Ioi hsub hzero,
      setIntegral_congr_fun measurableSet_Ioo hin, ← icPhi_image γ (4 * γ * t) hγ0 hb,
      integral_image_eq_integral_abs_deriv_smul measurableSet_Ioi hder hinj,
      setIntegral_congr_fun measurableSet_Ioi hpt, integral_const_mul]

theorem thomsonLoss_pos (U γ : ℝ) (hU : 0 < U) (hγ : 1 < γ) : 0 < thomsonLoss cE cMe cC U γ := by
  have := cE_pos; have := cMe_pos; have := cC_pos; have := Real.pi_pos
  have : 0 < γ ^ 2 - 1 := by nlinarith
  unfold thomsonLoss thomsonCgs
  positivity

theorem thomsonCgs_near : 0.99999 * sigmaT ≤ thomsonCgs cE cMe cC ∧ thomsonCgs cE cMe cC ≤ 1.00002 * sigmaT := by
  have h : |sigmaT - thomsonCgs cE cMe cC| ≤ 1e-5 * |thomsonCgs cE cMe cC| := C71_thomson
  have h0 : 0 < thomsonCgs cE cMe cC := by
    have := cE_pos; have := cMe_pos; have := cC_pos; have := Real.pi_pos
    unfold thomsonCgs; positivity
  rw [abs_of_pos h0, abs_le] at h
  have hs : 0 < sigmaT := by unfold sigmaT; norm_num
  norm_num at h ⊢
  constructor <;> linarith [h.1, h.2]

/-- **C105 (one electron).** The energy radiated per unit time by one electron of Lorentz factor `γ ≥ 30` in a blackbody
photon field, integrated over all photon energies, is at most 1 % above the Thomson loss rate in the energy density of the
blackbody, and below it by at most 1 % and 60 `γ kT/mc²` (the Klein–Nishina suppression). Energies in electron rest energies. -/
theorem C105_one_electron (T γ : ℝ) (hT : 0 < T) (hγ : 30 ≤ γ) :
    (0.99 - 60 * γ * (kBoltzmann * T / (cMe * cC ^ 2))) * (thomsonLoss cE cMe cC (planckDensity T) γ / (cMe * cC ^ 2)) ≤
        ∫ ε in Set.Ioi 0, ε * thermalRate T none γ ε ∧
    ∫ ε in Set.Ioi 0, ε * thermalRate T none γ ε ≤
      1.01 * (thomsonLoss cE cMe cC (planckDensity T) γ / (cMe * cC ^ 2)) := by
  have hm := cMec2_pos
  have hU : 0 < planckDensity T := by
    have := cC_pos
    have : 0 < cSigma := by unfold cSigma; norm_num
    unfold planckDensity; positivity
  rw [(ic_power_one T γ hT (by linarith)).2]
  obtain ⟨i1, i2⟩ := icInt_integral (4 * γ * (1.6863699549e-10 * T)) (by positivity)
  obtain ⟨s1, s2⟩ := thomsonCgs_near
  have hσ : 0 < sigmaT := by unfold sigmaT; norm_num
  set I := ∫ x in Set.Ioi 0, icInt (4 * γ * (1.6863699549e-10 * T)) x with hI
  have hI0 : 0 ≤ I := setIntegral_nonneg measurableSet_Ioi (fun x hx => (icInt_bounds _ x (by positivity) hx).2.2)
  set θ := kBoltzmann * T / (cMe * cC ^ 2) with hθ
  have hk : (1.6863699549e-10 : ℝ) ≤ 1.00001 * (kBoltzmann / (cMe * cC ^ 2)) := by
    unfold kBoltzmann cMe cC; norm_num
  have hθ0 : 0 < θ := by
    have : 0 < kBoltzmann := by unfold kBoltzmann; norm_num
    rw [hθ]; exact div_pos (by positivity) hm
  have hkT : 1.6863699549e-10 * T ≤ 1.00001 * θ := by
    calc _ ≤ 1.00001 * (kBoltzmann / (cMe * cC ^ 2)) * T := mul_le_mul_of_nonneg_right hk hT.le
      _ = _ := by rw [hθ]; ring
  -- the constant
  set C := 16 * Spec.thermalNorm * (1.6863699549e-10 * T) ^ 4 * γ ^ 2 with hC
  set Q := thomsonLoss cE cMe cC (planckDensity T) γ / (cMe * cC ^ 2) with hQ
  have hQ0 : 0 < Q := div_pos (thomsonLoss_pos _ _ hU (by linarith)) hm
  have hg : γ ^ 2 - 1 ≤ γ ^ 2 := by linarith
  have hg2 : γ ^ 2 ≤ 1.00112 * (γ ^ 2 - 1) := by nlinarith
  have e1 : Q = 4 / 3 * (4 * cSigma) / (cMe * cC ^ 2) * T ^ 4 * (thomsonCgs cE cMe cC * (γ ^ 2 - 1)) := by
    have := cC_pos
    rw [hQ]; unfold thomsonLoss planckDensity
    field_simp
  have hT4 : 0 < T ^ 4 := by positivity
  have hγ2 : 0 < γ ^ 2 := by positivity
  -- `C · 0.7215621` and `Q` agree to 1e-4, and a factor `γ²/(γ² - 1)`
  have c1 : 0.9999 * Q ≤ C * 0.7215621 := by
    have h1 : thomsonCgs cE cMe cC * (γ ^ 2 - 1) ≤ 1.00002 * sigmaT * γ ^ 2 :=
      mul_le_mul s2 hg (by nlinarith) (by positivity)
    have h2 : Q ≤ 4 / 3 * (4 * cSigma) / (cMe * cC ^ 2) * T ^ 4 * (1.00002 * sigmaT * γ ^ 2) := by
      rw [e1]
      apply mul_le_mul_of_nonneg_left h1
      have : 0 < cSigma := by unfold cSigma; norm_num
      positivity
    have h3 : 0.9999 * (4 / 3 * (4 * cSigma) / (cMe * cC ^ 2) * (1.00002 * sigmaT)) ≤
        16 * Spec.thermalNorm * 1.6863699549e-10 ^ 4 * 0.7215621 := by
      unfold cSigma cMe cC sigmaT Spec.thermalNorm; norm_num
    have h4 := mul_le_mul_of_nonneg_right h3 (mul_nonneg hT4.le hγ2.le)
    calc 0.9999 * Q ≤ 0.9999 * (4 / 3 * (4 * cSigma) / (cMe * cC ^ 2) * T ^ 4 * (1.00002 * sigmaT * γ ^ 2)) := by
          apply mul_le_mul_of_nonneg_left h2 (by norm_num)
      _ = 0.9999 * (4 / 3 * (4 * cSigma) / (cMe * cC ^ 2) * (1.00002 * sigmaT)) * (T ^ 4 * γ ^ 2) := by ring
      _ ≤ _ := h4
      _ = _ := by rw [hC]; ring
  have c2 : C * 0.7215621 ≤ 1.0013 * Q := by
    have h1 : 0.99999 * sigmaT * (γ ^ 2 / 1.00112) ≤ thomsonCgs cE cMe cC * (γ ^ 2 - 1) :=
      mul_le_mul s1 (by rw [div_le_iff₀ (by norm_num)]; linarith) (by positivity) (by linarith [mul_pos (by norm_num : (0:ℝ) < 0.99999) hσ])
    have h2 : 4 / 3 * (4 * cSigma) / (cMe * cC ^ 2) * T ^ 4 * (0.99999 * sigmaT * (γ ^ 2 / 1.00112)) ≤ Q := by
      rw [e1]
      apply mul_le_mul_of_nonneg_left h1
      have : 0 < cSigma := by unfold cSigma; norm_num
      positivity
    have h3 : 16 * Spec.thermalNorm * 1.6863699549e-10 ^ 4 * 0.7215621 ≤
        1.0013 * (4 / 3 * (4 * cSigma) / (cMe * cC ^ 2) * (0.99999 * sigmaT / 1.00112)) := by
      unfold cSigma cMe cC sigmaT Spec.thermalNorm; norm_num
    have h4 := mul_le_mul_of_nonneg_right h3 (mul_nonneg hT4.le hγ2.le)
    calc C * 0.7215621 = 16 * Spec.thermalNorm * 1.6863699549e-10 ^ 4 * 0.7215621 * (T ^ 4 * γ ^ 2) := by rw [hC]; ring
      _ ≤ _ := h4
      _ = 1.0013 * (4 / 3 * (4 * cSigma) / (cMe * cC ^ 2) * T ^ 4 * (0.99999 * sigmaT * (γ ^ 2 / 1.00112))) := by ring
      _ ≤ _ := mul_le_mul_of_nonneg_left h2 (by norm_num)
  have hC0 : 0 < C := by
    have : 0 < Spec.thermalNorm := by unfold Spec.thermalNorm; norm_num
    rw [hC]; positivity
  clear_value C Q I θ
  clear hC hQ hI hθ e1 s1 s2
  constructor
  · by_cases hneg : 0.99 - 60 * γ * θ ≤ 0
    · exact (mul_nonpos_of_nonpos_of_nonneg hneg hQ0.le).trans (mul_nonneg hC0.le hI0)
    · push Not at hneg
      have hu : 0 < γ * θ := by positivity
      have h1 : 4 * γ * (1.6863699549e-10 * T) ≤ 4 * γ * (1.00001 * θ) := mul_le_mul_of_nonneg_left hkT (by positivity)
      have h2 : 0.71648 - 39.481 * (γ * θ) ≤ I := by norm_num at i1 h1 ⊢; linarith
      have h3 : Q ≤ 0.72164 * C := by norm_num at c1 ⊢; linarith
      have h4 : (0.99 - 60 * γ * θ) * Q ≤ (0.99 - 60 * γ * θ) * (0.72164 * C) := mul_le_mul_of_nonneg_left h3 hneg.le
      have h5 : C * (0.71648 - 39.481 * (γ * θ)) ≤ C * I := mul_le_mul_of_nonneg_left h2 hC0.le
      refine h4.trans (le_trans ?_ h5)
      have h6 : (0.99 - 60 * γ * θ) * 0.72164 ≤ 0.71648 - 39.481 * (γ * θ) := by norm_num; linarith
      calc _ = C * ((0.99 - 60 * γ * θ) * 0.72164) := by ring
        _ ≤ _ := mul_le_mul_of_nonneg_left h6 hC0.le
  · have h1 : C * I ≤ C * 0.72725 := mul_le_mul_of_nonneg_left i2 hC0.le
    norm_num at c2 h1 ⊢
    linarith

/-! ### The spectrum -/

theorem thermalRate_nonneg (T γ ε : ℝ) (hT : 0 < T) (hε : 0 < ε) : 0 ≤ thermalRate T none γ ε :=
  (thermalRate_spectrum T none hT (by simp) ε γ γ hε).nonneg γ ⟨le_rfl, le_rfl⟩

/-- the energy flux of one electron is bounded, and zero above the electron's energy -/
theorem thermalRate_bound (T b γ ε : ℝ) (hT : 0 < T) (hε : 0 < ε) (hγ : γ ≤ b) (hb : 0 < b) :
    ε * thermalRate T none γ ε ≤ if ε < b then Spec.thermalNorm * (1.6863699549e-10 * T) ^ 2 *
      (8 * (1.6863699549e-10 * T) * b ^ 2 + 3 * b) else 0 := by
  set t := 1.6863699549e-10 * T with ht
  have ht0 : 0 < t := by positivity
  have hn : 0 < Spec.thermalNorm := by unfold Spec.thermalNorm; norm_num
  by_cases h : ε < γ ∧ 1 < γ
  · rw [if_pos (h.1.trans_le hγ)]
    unfold thermalRate
    rw [if_pos h]
    have e : Spec.isoThermal γ t ε = Spec.thermalNorm * t ^ 2 / γ ^ 2 *
      ((ε / γ) ^ 2 / (2 * (1 - ε / γ)) * Spec.F34 0.606 0.443 1.481 0.540 0.319 (ε / γ / ((1 - ε / γ) * ((4 * t) * γ))) +
        Spec.F34 0.461 0.726 1.457 0.382 6.620 (ε / γ / ((1 - ε / γ) * ((4 * t) * γ)))) := by
      unfold Spec.isoThermal
      simp only [show (4 * γ * t : ℝ) = 4 * t * γ by ring]
    have hbd := (thermal_shape_bound _ _ ε t (4 * t) hε (by positivity)
      (fun x hx => F34_bounds 0.606 0.443 1.481 0.540 0.319 x hx (by norm_num) (by norm_num) (by norm_num))
      (fun x hx => F34_bounds 0.461 0.726 1.457 0.382 6.620 x hx (by norm_num) (by norm_num) (by norm_num)) γ b h.1 h.2 hγ).2
    rw [← e] at hbd
    show ε * Spec.isoThermal γ t ε ≤ _
    calc ε * Spec.isoThermal γ t ε ≤ ε * (Spec.thermalNorm * t ^ 2 * (2 / (ε / (4 * t * b ^ 2)) + 3)) :=
          mul_le_mul_of_nonneg_left hbd hε.le
      _ = Spec.thermalNorm * t ^ 2 * (8 * t * b ^ 2 + 3 * ε) := by field_simp; ring
      _ ≤ _ := by
          have := h.1.trans_le hγ
          gcongr
  · unfold thermalRate
    rw [if_neg h, mul_zero]
    split
    · positivity
    · exact le_rfl

/-- the spectrum as a multiple of the sum over the grid -/
theorem ic_value (m : ElModel) (pd : PDist) (hu : pd.unit.dim = Dim.diffEnergy)
    (hus : 0 < pd.unit.scale) (hlo : m.Eemin.PosEnergy) (hhi : m.Eemax.PosEnergy)
    (hlt : m.Eemin.phys < m.Eemax.phys) (T dens : ℝ) (hT : 0 < T)
    (p : ℝ → ℝ) (hp : ∀ E ∈ Set.Icc m.Eemin.phys m.Eemax.phys, pd.f E = fin (p E))
    (h0 : ∀ E ∈ Set.Icc m.Eemin.phys m.Eemax.phys, 0 ≤ p E) (gam : List ℝ)
    (hg : gamGrid m.nEed m.Eemin m.Eemax = .ok gam) (e : ℝ) (he : 0 < e) :
    icSpectrum m [.thermal T dens none] pd [e] = .ok [fin (dens / (4 * cSigma / cC * T ^ 4) * cEV / (cMe * cC ^ 2) *
      binSum rbin ((gam.map (· * cMec2)).map (fun x => (x, p x * pd.unit.scale *
        thermalRate T none (x / (cMe * cC ^ 2)) (e / (cMe * cC ^ 2))))))] := by
  have hm := cMec2_pos
  have hmem := gam_mem m.nEed m.Eemin m.Eemax hlo hhi hlt.le gam hg
  obtain ⟨gam', hg', hgp', hgs'⟩ := gamGrid_facts m.nEed m.Eemin m.Eemax hlo hhi hlt.le
  have e1 : gam' = gam := by rw [hg] at hg'; injection hg' with h; exact h.symm
  subst e1
  obtain ⟨gam2, hg2, -, h⟩ := C71_thermal m pd hu hlo hhi hlt.le T dens none hT (by simp) [e] (by simpa using he)
  have e2 : gam2 = gam' := by
    have h1 : m.gam = .ok gam' := hg
    rw [h1] at hg2; injection hg2 with h'; exact h'.symm
  subst e2
  rw [h]
  simp only [List.map_cons, List.map_nil]
  rw [← mul_fin, ← trapz_binSum cMec2 hm gam2 hgp' hgs' (fun x => p x * pd.unit.scale *
    thermalRate T none (x / (cMe * cC ^ 2)) (e / (cMe * cC ^ 2)))]
  · congr 4
    apply List.map_congr_left
    intro g hgm
    have e3 : g * cMec2 / (cMe * cC ^ 2) = g := by
      show g * cMec2 / cMec2 = g; field_simp
    rw [e3]
    show (fin g, pd.f (g * cMec2) * fin (pd.unit.scale * cMec2) * _) = _
    rw [hp _ (hmem g hgm), mul_fin, mul_fin]
    congr 2
    ring
  · intro g hgm
    exact mul_nonneg (mul_nonneg (h0 _ (hmem g hgm)) hus.le) (thermalRate_nonneg T _ _ hT (div_pos he hm))

/-- **C105 (total power).** For every electron spectrum on a range starting at 30 electron rest energies or above, and every
isotropic gray-body photon field of temperature `T > 0` and energy density `dens`: the energy flux `E dN/dE` of the computed
spectrum is integrable over all photon energies, and as the electron grid is refined its integral tends to a value at most 1 %
above the sum of the Thomson loss rates of the electrons, and below it by at most 1 % and 60 `γ kT/mc²` of each electron's.
Energies in erg; the spectrum in 1/(s eV), divided by the number of erg in an eV, in 1/(s erg). -/
theorem C105_total_power (m : ElModel) (pd : PDist) (hu : pd.unit.dim = Dim.diffEnergy)
    (hus : 0 < pd.unit.scale) (hlo : m.Eemin.PosEnergy) (hhi : m.Eemax.PosEnergy)
    (hlt : m.Eemin.phys < m.Eemax.phys) (T dens : ℝ) (hT : 0 < T) (hd : 0 < dens)
    (p : ℝ → ℝ) (hp : ∀ E ∈ Set.Icc m.Eemin.phys m.Eemax.phys, pd.f E = fin (p E))
    (hs : Spectrum p m.Eemin.phys m.Eemax.phys) (h30 : 30 * (cMe * cC ^ 2) ≤ m.Eemin.phys) :
    ∃ L : ℝ → ℝ → ℝ, (∀ n, ∀ e > 0, icSpectrum { m with nEed := n } [.thermal T dens none] pd [e] = .ok [fin (L n e)]) ∧
      (∀ n, IntegrableOn (fun e => e * (L n e / cEV)) (Set.Ioi 0)) ∧
      ∃ P, Tendsto (fun n => ∫ e in Set.Ioi 0, e * (L n e / cEV)) atTop (𝓝 P) ∧
        ∫ E in m.Eemin.phys..m.Eemax.phys, p E * pd.unit.scale *
            ((0.99 - 60 * (E / (cMe * cC ^ 2)) * (kBoltzmann * T / (cMe * cC ^ 2))) *
              thomsonLoss cE cMe cC dens (E / (cMe * cC ^ 2))) ≤ P ∧
        P ≤ 1.01 * ∫ E in m.Eemin.phys..m.Eemax.phys,
            p E * pd.unit.scale * thomsonLoss cE cMe cC dens (E / (cMe * cC ^ 2)) := by
  have hm : 0 < cMe * cC ^ 2 := cMec2_pos
  have hev := cEV_pos
  have q1 := cC_pos
  have q2 := cMe_pos
  set a := m.Eemin.phys with ha
  set b := m.Eemax.phys with hb
  have ha0 : 0 < a := hlo.phys_pos
  have hb0 : 0 < b := ha0.trans hlt
  have hsc : Spectrum (fun _ => pd.unit.scale) a b := Spectrum.of_continuous (fun _ _ => hus.le) continuousOn_const
  have hN : Spectrum (fun E => p E * pd.unit.scale) a b := hs.mul hsc
  have hgrid : ∀ n : ℝ, ∃ gam, gamGrid n m.Eemin m.Eemax = .ok gam := by
    intro n
    obtain ⟨gam, hg, -⟩ := gamGrid_facts n m.Eemin m.Eemax hlo hhi hlt.le
    exact ⟨gam, hg⟩
  choose G hG using hgrid
  have hfine := electron_fine m.Eemin m.Eemax hlo hhi hlt G hG
  set K : ℝ → ℝ → ℝ := fun E e => thermalRate T none (E / (cMe * cC ^ 2)) (e / (cMe * cC ^ 2)) with hK
  set A : ℝ := Spec.thermalNorm * (1.6863699549e-10 * T) ^ 2 *
      (8 * (1.6863699549e-10 * T) * (b / (cMe * cC ^ 2)) ^ 2 + 3 * (b / (cMe * cC ^ 2))) with hA
  obtain ⟨w1, w2, w3⟩ := weighted_limit hfine ha0 hlt (fun E => p E * pd.unit.scale) hN K
    (thermalRate_measurable2 T (cMe * cC ^ 2))
    (fun e he => Spectrum.comp_div (c := cMe * cC ^ 2) hm (thermalRate_spectrum T none hT (by simp) _ _ _ (div_pos he hm)))
    (fun e => e) (Set.indicator (Set.Iio b) (fun _ => cMe * cC ^ 2 * A)) measurable_id (fun e he => le_of_lt he)
    (by
      rw [integrableOn_indicator_iff measurableSet_Iio]
      rw [show Set.Iio b ∩ Set.Ioi 0 = Set.Ioo 0 b by ext x; simp [and_comm]]
      exact integrableOn_const (by simp))
    (by
      intro E hE e he
      have h1 := thermalRate_bound T (b / (cMe * cC ^ 2)) (E / (cMe * cC ^ 2)) (e / (cMe * cC ^ 2)) hT (div_pos he hm)
        (div_le_div_of_nonneg_right hE.2 hm.le) (div_pos hb0 hm)
      have h2 := mul_le_mul_of_nonneg_left h1 hm.le
      calc e * K E e = cMe * cC ^ 2 * (e / (cMe * cC ^ 2) * thermalRate T none (E / (cMe * cC ^ 2)) (e / (cMe * cC ^ 2))) := by
            simp only [hK]
            generalize thermalRate T none (E / (cMe * cC ^ 2)) (e / (cMe * cC ^ 2)) = u
            field_simp
        _ ≤ _ := h2
        _ ≤ _ := by
            by_cases hlt' : e < b
            · rw [if_pos (div_lt_div_of_pos_right hlt' hm), Set.indicator_of_mem (show e ∈ Set.Iio b from hlt')]
            · have : ¬ (e / (cMe * cC ^ 2) < b / (cMe * cC ^ 2)) := by
                rw [div_lt_div_iff_of_pos_right hm]; exact hlt'
              rw [if_neg this, Set.indicator_of_notMem (show e ∉ Set.Iio b from hlt'), mul_zero])
  set κ := dens / (4 * cSigma / cC * T ^ 4) * cEV / (cMe * cC ^ 2) with hκ
  have hpl : 0 < 4 * cSigma / cC * T ^ 4 := by
    have := cC_pos
    have : 0 < cSigma := by unfold cSigma; norm_num
    positivity
  have hκ0 : 0 < κ := by rw [hκ]; positivity
  have e1 : ∀ n, (fun e => e * (κ * binSum rbin (((G n).map (· * cMec2)).map (fun x => (x, p x * pd.unit.scale * K x e))) / cEV)) =
      fun e => κ / cEV * (e * binSum rbin (((G n).map (· * cMec2)).map (fun x => (x, p x * pd.unit.scale * K x e)))) := by
    intro n; funext e; ring
  refine ⟨fun n e => κ * binSum rbin (((G n).map (· * cMec2)).map (fun x => (x, p x * pd.unit.scale * K x e))),
    fun n e he => ic_value { m with nEed := n } pd hu hus hlo hhi hlt T dens hT p hp hs.nonneg (G n) (hG n) e he,
    fun n => ?_, κ / cEV * ∫ E in a..b, p E * pd.unit.scale * ∫ e in Set.Ioi 0, e * K E e, ?_, ?_, ?_⟩
  · show IntegrableOn (fun e => e * (κ * binSum rbin (((G n).map (· * cMec2)).map (fun x => (x, p x * pd.unit.scale * K x e))) / cEV)) _
    rw [e1]; exact (w1 n).const_mul _
  · have : (fun n => ∫ e in Set.Ioi 0, e * (κ * binSum rbin (((G n).map (· * cMec2)).map (fun x => (x, p x * pd.unit.scale * K x e))) / cEV)) =
        fun n => κ / cEV * ∫ e in Set.Ioi 0, e * binSum rbin (((G n).map (· * cMec2)).map (fun x => (x, p x * pd.unit.scale * K x e))) := by
      funext n; rw [e1, integral_const_mul]
    rw [this]
    exact w3.const_mul _
  all_goals
    -- the power of one electron, in erg
    have hone : ∀ E ∈ Set.Icc a b, ∫ e in Set.Ioi 0, e * K E e =
        (cMe * cC ^ 2) ^ 2 * ∫ ε in Set.Ioi 0, ε * thermalRate T none (E / (cMe * cC ^ 2)) ε := by
      intro E _
      have h1 := integral_comp_mul_left_Ioi (fun ε => ε * thermalRate T none (E / (cMe * cC ^ 2)) ε) 0 (inv_pos.2 hm)
      rw [mul_zero, inv_inv, smul_eq_mul] at h1
      have h2 : ∫ e in Set.Ioi 0, e * K E e = ∫ e in Set.Ioi 0, (cMe * cC ^ 2) *
          ((cMe * cC ^ 2)⁻¹ * e * thermalRate T none (E / (cMe * cC ^ 2)) ((cMe * cC ^ 2)⁻¹ * e)) := by
        congr 1
        funext e
        simp only [hK]
        rw [show e / (cMe * cC ^ 2) = (cMe * cC ^ 2)⁻¹ * e by ring]
        generalize thermalRate T none (E / (cMe * cC ^ 2)) ((cMe * cC ^ 2)⁻¹ * e) = u
        field_simp
      rw [h2, integral_const_mul, h1]
      ring
    have hloss : ∀ γ, κ / cEV * (cMe * cC ^ 2) ^ 2 * (thomsonLoss cE cMe cC (planckDensity T) γ / (cMe * cC ^ 2)) =
        thomsonLoss cE cMe cC dens γ := by
      intro γ
      have q3 : 0 < cSigma := by unfold cSigma; norm_num
      rw [hκ]; unfold thomsonLoss planckDensity
      field_simp
    have hg30 : ∀ E ∈ Set.Icc a b, 30 ≤ E / (cMe * cC ^ 2) := fun E hE => by
      rw [le_div_iff₀ hm]; exact h30.trans hE.1
    have hκ2 : 0 < κ / cEV * (cMe * cC ^ 2) ^ 2 := by positivity
    have hls : Spectrum (fun E => p E * pd.unit.scale * thomsonLoss cE cMe cC dens (E / (cMe * cC ^ 2))) a b := by
      refine hN.mul (Spectrum.of_continuous (fun E hE => (thomsonLoss_pos dens _ hd (by linarith [hg30 E hE])).le) ?_)
      unfold thomsonLoss
      fun_prop
  · rw [← intervalIntegral.integral_const_mul]
    apply intervalIntegral.integral_mono_on hlt.le _ (w2.const_mul _)
    · intro E hE
      have h1 := (C105_one_electron T _ hT (hg30 E hE)).1
      have h2 := mul_le_mul_of_nonneg_left h1 hκ2.le
      have h3 := mul_le_mul_of_nonneg_left h2 (hN.nonneg E hE)
      rw [hone E hE]
      calc _ = p E * pd.unit.scale * (κ / cEV * (cMe * cC ^ 2) ^ 2 * ((0.99 - 60 * (E / (cMe * cC ^ 2)) *
            (kBoltzmann * T / (cMe * cC ^ 2))) * (thomsonLoss cE cMe cC (planckDensity T) (E / (cMe * cC ^ 2)) / (cMe * cC ^ 2)))) := by
            rw [← hloss]; ring
        _ ≤ _ := h3
        _ = _ := by ring
    · have h1 : IntervalIntegrable (fun E => p E * pd.unit.scale * thomsonLoss cE cMe cC dens (E / (cMe * cC ^ 2))) volume a b :=
        hls.integrable hlt.le
      have h2 := h1.continuousOn_mul (g := fun E => 0.99 - 60 * (E / (cMe * cC ^ 2)) * (kBoltzmann * T / (cMe * cC ^ 2)))
        (by fun_prop)
      refine h2.congr ?_
      intro E hE
      simp only []; ring
  · rw [← intervalIntegral.integral_const_mul, ← intervalIntegral.integral_const_mul]
    apply intervalIntegral.integral_mono_on hlt.le (w2.const_mul _) ((hls.integrable hlt.le).const_mul _)
    intro E hE
    have h1 := (C105_one_electron T _ hT (hg30 E hE)).2
    have h2 := mul_le_mul_of_nonneg_left h1 hκ2.le
    have h3 := mul_le_mul_of_nonneg_left h2 (hN.nonneg E hE)
    rw [hone E hE]
    calc _ = p E * pd.unit.scale * (κ / cEV * (cMe * cC ^ 2) ^ 2 *
          ∫ ε in Set.Ioi 0, ε * thermalRate T none (E / (cMe * cC ^ 2)) ε) := by ring
      _ ≤ _ := h3
      _ = _ := by rw [← hloss]; ring

/-! ### The hypotheses are met -/

/-- A power law of index 3 from 1 GeV to 1 TeV in the cosmic microwave background: the lower bound is at least 93 % of the Thomson rate. -/
example : ∃ L : ℝ → ℝ → ℝ, ∃ Q : ℝ, 0 ≤ Q ∧
    (∀ n, ∀ e > 0, icSpectrum ⟨⟨1, PhysUnit.GeV⟩, ⟨1, PhysUnit.TeV⟩, n⟩ [.thermal 2.72 4.2e-13 none]
      (PowerLaw.toPDist ⟨fin 1e33, (⟨1, PhysUnit.TeV⟩ : Qty ℝ).lift, fin 3⟩ ⟨1 / cEV, Dim.diffEnergy⟩) [e] = .ok [fin (L n e)]) ∧
    ∃ P, Tendsto (fun n => ∫ e in Set.Ioi 0, e * (L n e / cEV)) atTop (𝓝 P) ∧ 0.93 * Q ≤ P ∧ P ≤ 1.01 * Q := by
  have hev := cEV_pos
  have hm : 0 < cMe * cC ^ 2 := cMec2_pos
  have h0 : (⟨1, PhysUnit.TeV⟩ : Qty ℝ).PosEnergy := ⟨rfl, by simp [PhysUnit.TeV]; positivity, by norm_num⟩
  let m : ElModel := ⟨⟨1, PhysUnit.GeV⟩, ⟨1, PhysUnit.TeV⟩, 100⟩
  have hlo : m.Eemin.PosEnergy := ⟨rfl, GeV_pos, by norm_num [m]⟩
  have hlt : m.Eemin.phys < m.Eemax.phys := by simp only [m, Qty.phys, PhysUnit.GeV, PhysUnit.TeV]; norm_num
  have h30 : 30 * (cMe * cC ^ 2) ≤ m.Eemin.phys := by
    simp only [m, Qty.phys, PhysUnit.GeV, cMe, cC]; norm_num
  have hsp : Spectrum (fun E => 1e33 * (E / (⟨1, PhysUnit.TeV⟩ : Qty ℝ).phys) ^ (-(3:ℝ))) m.Eemin.phys m.Eemax.phys :=
    Spectrum.of_continuous (fun E hE => by
        have := div_pos (hlo.phys_pos.trans_le hE.1) h0.phys_pos
        positivity)
      (ContinuousOn.mul continuousOn_const (ContinuousOn.rpow_const (by fun_prop)
        (fun E hE => Or.inl (div_pos (hlo.phys_pos.trans_le hE.1) h0.phys_pos).ne')))
  set pd := PowerLaw.toPDist ⟨fin 1e33, (⟨1, PhysUnit.TeV⟩ : Qty ℝ).lift, fin 3⟩ ⟨1 / cEV, Dim.diffEnergy⟩ with hpd
  have hus : 0 < pd.unit.scale := by simp only [hpd, PowerLaw.toPDist]; positivity
  obtain ⟨L, h1, -, P, h3, h4, h5⟩ := C105_total_power m pd rfl hus hlo
    ⟨rfl, by simp only [m, PhysUnit.TeV]; norm_num, by norm_num [m]⟩ hlt 2.72 4.2e-13 (by norm_num) (by norm_num) _
    (fun E hE => powerLaw_pdist 1e33 3 _ h0 _ E (hlo.phys_pos.trans_le hE.1)) hsp h30
  set p : ℝ → ℝ := fun E => 1e33 * (E / (⟨1, PhysUnit.TeV⟩ : Qty ℝ).phys) ^ (-(3:ℝ)) with hpdef
  have hg1 : ∀ E ∈ Set.Icc m.Eemin.phys m.Eemax.phys, 1 < E / (cMe * cC ^ 2) := fun E hE => by
    rw [lt_div_iff₀ hm]; linarith [hE.1]
  have hls : Spectrum (fun E => p E * pd.unit.scale * thomsonLoss cE cMe cC 4.2e-13 (E / (cMe * cC ^ 2))) m.Eemin.phys m.Eemax.phys := by
    refine (hsp.mul (Spectrum.of_continuous (fun _ _ => hus.le) continuousOn_const)).mul
      (Spectrum.of_continuous (fun E hE => (thomsonLoss_pos _ _ (by norm_num) (hg1 E hE)).le) ?_)
    unfold thomsonLoss
    fun_prop
  refine ⟨L, ∫ E in m.Eemin.phys..m.Eemax.phys, p E * pd.unit.scale * thomsonLoss cE cMe cC 4.2e-13 (E / (cMe * cC ^ 2)),
    intervalIntegral.integral_nonneg hlt.le (fun E hE => hls.nonneg E hE), h1, P, h3, le_trans ?_ h4, h5⟩
  rw [← intervalIntegral.integral_const_mul]
  apply intervalIntegral.integral_mono_on hlt.le ((hls.integrable hlt.le).const_mul _)
  · have h2 := (hls.integrable hlt.le).continuousOn_mul
      (g := fun E => 0.99 - 60 * (E / (cMe * cC ^ 2)) * (kBoltzmann * 2.72 / (cMe * cC ^ 2))) (by fun_prop)
    refine h2.congr ?_
    intro E _
    simp only []; ring
  · intro E hE
    have hγ : E / (cMe * cC ^ 2) ≤ m.Eemax.phys / (cMe * cC ^ 2) := div_le_div_of_nonneg_right hE.2 hm.le
    have hk : 0 < kBoltzmann * 2.72 / (cMe * cC ^ 2) := by
      have : 0 < kBoltzmann := by unfold kBoltzmann; norm_num
      positivity
    have h6 : 60 * (m.Eemax.phys / (cMe * cC ^ 2)) * (kBoltzmann * 2.72 / (cMe * cC ^ 2)) ≤ 0.06 := by
      simp only [m, Qty.phys, PhysUnit.TeV, kBoltzmann, cMe, cC]; norm_num
    have h7 : 60 * (E / (cMe * cC ^ 2)) * (kBoltzmann * 2.72 / (cMe * cC ^ 2)) ≤ 0.06 := by
      refine le_trans (mul_le_mul_of_nonneg_right (by linarith) hk.le) h6
    have h8 := hls.nonneg E hE
    have h9 : 0.93 ≤ 0.99 - 60 * (E / (cMe * cC ^ 2)) * (kBoltzmann * 2.72 / (cMe * cC ^ 2)) := by linarith
    calc _ ≤ (0.99 - 60 * (E / (cMe * cC ^ 2)) * (kBoltzmann * 2.72 / (cMe * cC ^ 2))) *
          (p E * pd.unit.scale * thomsonLoss cE cMe cC 4.2e-13 (E / (cMe * cC ^ 2))) := mul_le_mul_of_nonneg_right h9 h8
      _ = _ := by ring

end Naima.Props
