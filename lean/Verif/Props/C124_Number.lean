import Verif.Props.C123_Beam
import Verif.Proof.NumberQuad
import Mathlib.Analysis.PSeries

/-! # C124: the number of photons scattered per unit time in a thermal field is `σ_T c n (1 - cos θ)`

Inverse Compton scattering changes the energy of photons, not their number: an electron meets `σ_T c n` photons per unit time of
an isotropic field of number density `n`, and `σ_T c n (1 - cos θ)` of a beam at the angle `θ`, whatever its energy, as long as the
scattering is in the Thomson regime. -/

namespace Naima.Props

open Naima XR Classical Topology MeasureTheory
open Filter (Tendsto atTop)

/-! ### Specification -/

/-- `ζ(3)` -/
noncomputable def zeta3 : ℝ := ∑' k : ℕ, 1 / ((k : ℝ) + 1) ^ 3

/-- number density of the photons of a blackbody of temperature `T`: `2 ζ(3) / π² (k T / ħ c)³` -/
noncomputable def planckNumber (T : ℝ) : ℝ := 2 * zeta3 / Real.pi ^ 2 * (kBoltzmann * T / (cHbar * cC)) ^ 3

/-- rate of encounters relative to an isotropic field of the same density -/
noncomputable def encounter : Option ℝ → ℝ
  | none => 1
  | some θ => 1 - Real.cos θ

/-- photons scattered per unit time by one electron in a field of `n` photons per unit volume, in the Thomson regime -/
noncomputable def scatterRate (q m c n : ℝ) (θ : Option ℝ) : ℝ := thomsonCgs q m c * c * n * encounter θ

/-- The average over directions is the isotropic rate. -/
theorem C124_average (q m c n : ℝ) :
    (∫ μ in (-1:ℝ)..1, thomsonCgs q m c * c * n * (1 - μ)) / 2 = scatterRate q m c n none := by
  rw [intervalIntegral.integral_const_mul]
  have : ∫ μ in (-1:ℝ)..1, (1 - μ) = 2 := by
    rw [intervalIntegral.integral_comp_sub_left (fun x => x) 1]
    norm_num [integral_id]
  rw [this]
  unfold scatterRate encounter
  ring

/-! ### `ζ(3)` -/

theorem zeta3_summable : Summable (fun k : ℕ => 1 / ((k : ℝ) + 1) ^ 3) := by
  have h := (summable_nat_add_iff 1).2 (Real.summable_one_div_nat_pow.2 (by norm_num : 1 < 3))
  refine h.congr (fun k => ?_)
  push_cast
  rfl

theorem zeta3_partial (n : ℕ) : ∑ k ∈ Finset.range (20 + n), 1 / ((k : ℝ) + 1) ^ 3 ≤ 1.20207 - 1 / 2 * (1 / ((20 + n : ℝ) * (21 + n))) := by
  induction n with
  | zero => norm_num [Finset.sum_range_succ]
  | succ n ih =>
    rw [← add_assoc, Finset.sum_range_succ]
    have h : (1:ℝ) / (((20 + n : ℕ) : ℝ) + 1) ^ 3 ≤ 1 / 2 * (1 / ((20 + n : ℝ) * (21 + n))) - 1 / 2 * (1 / ((21 + n : ℝ) * (22 + n))) := by
      push_cast
      have hn : (0:ℝ) ≤ n := Nat.cast_nonneg n
      have e : 1 / 2 * (1 / ((20 + n : ℝ) * (21 + n))) - 1 / 2 * (1 / ((21 + n : ℝ) * (22 + n))) =
          1 / ((20 + n : ℝ) * (21 + n) * (22 + n)) := by field_simp; ring
      rw [e]
      apply one_div_le_one_div_of_le (by positivity)
      nlinarith
    push_cast at ih h ⊢
    have e2 : (20 + ((n:ℝ) + 1)) = 21 + n := by ring
    have e3 : (21 + ((n:ℝ) + 1)) = 22 + n := by ring
    rw [e2, e3]
    linarith

theorem zeta3_bounds : 1.2008 ≤ zeta3 ∧ zeta3 ≤ 1.20207 := by
  constructor
  · have h := zeta3_summable.sum_le_tsum (Finset.range 20) (fun k _ => by positivity)
    refine le_trans ?_ h
    norm_num [Finset.sum_range_succ]
  · apply Real.tsum_le_of_sum_range_le (fun k => by positivity)
    intro n
    have h := zeta3_partial n
    have h1 : ∑ k ∈ Finset.range n, 1 / ((k : ℝ) + 1) ^ 3 ≤ ∑ k ∈ Finset.range (20 + n), 1 / ((k : ℝ) + 1) ^ 3 :=
      Finset.sum_le_sum_of_subset_of_nonneg (Finset.range_mono (by omega)) (fun k _ _ => by positivity)
    have h2 : (0:ℝ) ≤ 1 / 2 * (1 / ((20 + n : ℝ) * (21 + n))) := by positivity
    linarith

/-! ### One electron, both kinds of field at once -/

/-- the two functions and the width of the kernel -/
noncomputable def thA : Option ℝ → ℝ → ℝ
  | none => icF3
  | some _ => anF1

noncomputable def thB : Option ℝ → ℝ → ℝ
  | none => icF4
  | some _ => anF2

noncomputable def thW (T : ℝ) : Option ℝ → ℝ
  | none => 4 * (1.6863699549e-10 * T)
  | some θ => 2 * (1.6863699549e-10 * T) * (1 - Real.cos θ)

theorem encounter_pos (θ : Option ℝ) (hθ : ∀ x, θ = some x → Real.cos x ≠ 1) : 0 < encounter θ := by
  cases θ with
  | none => exact one_pos
  | some θ => exact one_sub_cos_pos θ (hθ θ rfl)

theorem thW_pos (T : ℝ) (θ : Option ℝ) (hT : 0 < T) (hθ : ∀ x, θ = some x → Real.cos x ≠ 1) : 0 < thW T θ := by
  cases θ with
  | none => unfold thW; positivity
  | some θ =>
    have := one_sub_cos_pos θ (hθ θ rfl)
    unfold thW; positivity

theorem thA_bounds (θ : Option ℝ) (x : ℝ) (hx : 0 ≤ x) : 0 ≤ thA θ x ∧ thA θ x ≤ (1.645 + x) * Real.exp (-x) := by
  cases θ with
  | none =>
    obtain ⟨h1, h2⟩ := icF3_bounds x hx
    exact ⟨h1, h2.trans (mul_le_mul_of_nonneg_right (by linarith) (Real.exp_pos _).le)⟩
  | some θ => exact anF1_bounds x hx

theorem thB_bounds (θ : Option ℝ) (x : ℝ) (hx : 0 ≤ x) : 0 ≤ thB θ x ∧ thB θ x ≤ (1.645 + x) * Real.exp (-x) := by
  cases θ with
  | none =>
    obtain ⟨h1, h2⟩ := icF4_bounds x hx
    exact ⟨h1, h2.trans (mul_le_mul_of_nonneg_right (by linarith) (Real.exp_pos _).le)⟩
  | some θ => exact anF2_bounds x hx

theorem thA_le (θ : Option ℝ) (x : ℝ) (hx : 0 < x) : thA θ x ≤ 6 * thB θ x := by
  cases θ with
  | none => exact icF3_le_six x hx
  | some θ => exact anF1_le_six x hx

theorem thA_measurable (θ : Option ℝ) : Measurable (thA θ) := by
  cases θ with
  | none => exact icF3_measurable
  | some θ => exact anF1_measurable

theorem thB_measurable (θ : Option ℝ) : Measurable (thB θ) := by
  cases θ with
  | none => exact icF4_measurable
  | some θ => exact anF2_measurable

theorem thB_integrable (θ : Option ℝ) : IntegrableOn (thB θ) (Set.Ioi 0) ∧ IntegrableOn (fun x => x * thB θ x) (Set.Ioi 0) := by
  cases θ with
  | none => exact ⟨icF4_integrable, x_icF4_integrable⟩
  | some θ => exact ⟨anF2_integrable, x_anF2_integrable⟩

theorem thermalRate_shape (T : ℝ) (θ : Option ℝ) (γ ε : ℝ) (h : ε < γ ∧ 1 < γ) :
    thermalRate T θ γ ε = Spec.thermalNorm * (1.6863699549e-10 * T) ^ 2 / γ ^ 2 *
      ((ε / γ) ^ 2 / (2 * (1 - ε / γ)) * thA θ (ε / γ / ((1 - ε / γ) * (thW T θ * γ))) +
        thB θ (ε / γ / ((1 - ε / γ) * (thW T θ * γ)))) := by
  unfold thermalRate
  rw [if_pos h]
  set t := 1.6863699549e-10 * T with ht
  cases θ with
  | none =>
    show Spec.isoThermal γ t ε = _
    unfold Spec.isoThermal thA thB thW
    simp only [← ht, show (4 * γ * t : ℝ) = 4 * t * γ by ring]
  | some θ =>
    show Spec.aniThermal γ t ε θ = _
    unfold Spec.aniThermal thA thB thW
    simp only [← ht, show (2 * γ * t * (1 - Real.cos θ) : ℝ) = 2 * t * (1 - Real.cos θ) * γ by ring]

/-- the integrand after the change of variable `ε = γ b x / (1 + b x)` -/
noncomputable def numInt (θ : Option ℝ) (b x : ℝ) : ℝ :=
  1 / (1 + b * x) ^ 2 * ((b * x) ^ 2 / (2 * (1 + b * x)) * thA θ x + thB θ x)

theorem numInt_bounds (θ : Option ℝ) (b x : ℝ) (hb : 0 < b) (hx : 0 < x) :
    thB θ x - 2 * b * (x * thB θ x) ≤ numInt θ b x ∧ numInt θ b x ≤ thB θ x ∧ 0 ≤ numInt θ b x := by
  have h3 := (thA_bounds θ x hx.le).1
  have h4 := (thB_bounds θ x hx.le).1
  have h34 := thA_le θ x hx
  have hy : 0 < b * x := by positivity
  unfold numInt
  generalize thA θ x = A at *
  generalize thB θ x = B at *
  rw [show B - 2 * b * (x * B) = (1 - 2 * (b * x)) * B by ring]
  generalize b * x = y at *
  have h0 : 0 ≤ 1 / (1 + y) ^ 2 * (y ^ 2 / (2 * (1 + y)) * A + B) := by positivity
  refine ⟨?_, ?_, h0⟩
  · have h2 : 1 - 2 * y ≤ 1 / (1 + y) ^ 2 := by
      rw [le_div_iff₀ (by positivity)]
      nlinarith [pow_pos hy 2, pow_pos hy 3]
    calc (1 - 2 * y) * B ≤ 1 / (1 + y) ^ 2 * B := mul_le_mul_of_nonneg_right h2 h4
      _ ≤ _ := by
        apply mul_le_mul_of_nonneg_left _ (by positivity)
        have : 0 ≤ y ^ 2 / (2 * (1 + y)) * A := by positivity
        linarith
  · calc 1 / (1 + y) ^ 2 * (y ^ 2 / (2 * (1 + y)) * A + B)
        ≤ 1 / (1 + y) ^ 2 * (y ^ 2 / (2 * (1 + y)) * (6 * B) + B) := by gcongr
      _ = B * ((3 * y ^ 2 + 1 + y) / (1 + y) ^ 3) := by field_simp; ring
      _ ≤ B * 1 := by
          apply mul_le_mul_of_nonneg_left _ h4
          rw [div_le_one (by positivity)]
          nlinarith [pow_pos hy 2, pow_pos hy 3]
      _ = _ := mul_one _

theorem numInt_integrable (θ : Option ℝ) (b : ℝ) (hb : 0 < b) : IntegrableOn (numInt θ b) (Set.Ioi 0) := by
  have hm : Measurable (numInt θ b) := by
    unfold numInt
    have h3 := thA_measurable θ
    have h4 := thB_measurable θ
    fun_prop
  apply Integrable.mono' (thB_integrable θ).1 hm.aestronglyMeasurable
  filter_upwards [ae_restrict_mem measurableSet_Ioi] with x hx
  obtain ⟨-, h2, h3⟩ := numInt_bounds θ b x hb hx
  rw [Real.norm_of_nonneg h3]; exact h2

theorem numInt_integral (θ : Option ℝ) (b : ℝ) (hb : 0 < b) :
    (∫ x in Set.Ioi 0, thB θ x) - 2 * b * (∫ x in Set.Ioi 0, x * thB θ x) ≤ ∫ x in Set.Ioi 0, numInt θ b x ∧
      ∫ x in Set.Ioi 0, numInt θ b x ≤ ∫ x in Set.Ioi 0, thB θ x := by
  obtain ⟨i0, i1⟩ := thB_integrable θ
  constructor
  · rw [← integral_const_mul, ← integral_sub i0 (i1.const_mul _)]
    exact setIntegral_mono_on (i0.sub (i1.const_mul _)) (numInt_integrable θ b hb) measurableSet_Ioi
      (fun x hx => (numInt_bounds θ b x hb hx).1)
  · exact setIntegral_mono_on (numInt_integrable θ b hb) i0 measurableSet_Ioi (fun x hx => (numInt_bounds θ b x hb hx).2.1)

/-- photons scattered by one electron: the integral over photon energy, reduced to one over `x` -/
theorem number_one (T : ℝ) (θ : Option ℝ) (γ : ℝ) (hT : 0 < T) (hθ : ∀ x, θ = some x → Real.cos x ≠ 1) (hγ : 1 < γ) :
    IntegrableOn (fun ε => thermalRate T θ γ ε) (Set.Ioi 0) ∧
    ∫ ε in Set.Ioi 0, thermalRate T θ γ ε =
      Spec.thermalNorm * (1.6863699549e-10 * T) ^ 2 * thW T θ * ∫ x in Set.Ioi 0, numInt θ (thW T θ * γ) x := by
  have hγ0 : 0 < γ := by linarith
  have hw := thW_pos T θ hT hθ
  have hb : 0 < thW T θ * γ := by positivity
  have hzero : ∀ ε ∈ Set.Ioi (0:ℝ) \ Set.Ioo 0 γ, thermalRate T θ γ ε = 0 := by
    rintro ε ⟨h1, h2⟩
    have : ¬ (ε < γ ∧ 1 < γ) := fun h => h2 ⟨h1, h.1⟩
    unfold thermalRate
    rw [if_neg this]
  have hsub : Set.Ioo (0:ℝ) γ ⊆ Set.Ioi 0 := fun x hx => hx.1
  set t := 1.6863699549e-10 * T with ht
  set w := thW T θ with hwdef
  set b := w * γ with hbdef
  have hpt : Set.EqOn (fun x => |γ * (b / (1 + b * x) ^ 2)| • thermalRate T θ γ (icPhi γ b x))
      (fun x => Spec.thermalNorm * t ^ 2 * w * numInt θ b x) (Set.Ioi 0) := by
    intro x hx
    have hx : (0:ℝ) < x := hx
    have hmem : icPhi γ b x ∈ Set.Ioo 0 γ := by rw [← icPhi_image γ b hγ0 hb]; exact ⟨x, hx, rfl⟩
    simp only []
    rw [thermalRate_shape T θ γ _ ⟨hmem.2, hγ⟩, ← hwdef, ← ht, ← hbdef]
    have h1 : icPhi γ b x / γ = b * x / (1 + b * x) := by unfold icPhi; field_simp
    have hs : 0 < 1 + b * x := by positivity
    have h2 : 1 - b * x / (1 + b * x) = 1 / (1 + b * x) := by field_simp; ring
    have h3 : b * x / (1 + b * x) / (1 / (1 + b * x) * b) = x := by field_simp
    rw [abs_of_pos (by positivity), smul_eq_mul]
    simp only [h1, h2, h3]
    unfold numInt
    generalize thA θ x = A
    generalize thB θ x = B
    have h4 : w = b / γ := by rw [hbdef]; field_simp
    rw [h4]
    clear_value b
    generalize Spec.thermalNorm = K
    field_simp
  have hder : ∀ x ∈ Set.Ioi (0:ℝ), HasDerivWithinAt (icPhi γ b) (γ * (b / (1 + b * x) ^ 2)) (Set.Ioi 0) x :=
    fun x hx => (icPhi_deriv γ _ x hb hx).hasDerivWithinAt
  have hinj := icPhi_injOn γ b hγ0 hb
  constructor
  · have h1 : IntegrableOn (fun ε => thermalRate T θ γ ε) (Set.Ioo 0 γ) := by
      rw [← icPhi_image γ b hγ0 hb, integrableOn_image_iff_integrableOn_abs_deriv_smul measurableSet_Ioi hder hinj,
        integrableOn_congr_fun hpt measurableSet_Ioi]
      exact (numInt_integrable θ _ hb).const_mul _
    exact h1.of_forall_diff_eq_zero measurableSet_Ioi hzero
  · rw [setIntegral_eq_of_subset_of_forall_diff_eq_zero measurableSet_Ioi hsub hzero,
      ← icPhi_image γ b hγ0 hb, integral_image_eq_integral_abs_deriv_smul measurableSet_Ioi hder hinj,
      setIntegral_congr_fun measurableSet_Ioi hpt, integral_const_mul]


theorem scatterRate_pos (n : ℝ) (θ : Option ℝ) (hn : 0 < n) (hθ : ∀ x, θ = some x → Real.cos x ≠ 1) :
    0 < scatterRate cE cMe cC n θ := by
  have := cE_pos; have := cMe_pos; have := cC_pos; have := Real.pi_pos
  have := encounter_pos θ hθ
  unfold scatterRate thomsonCgs
  positivity

theorem planckNumber_pos (T : ℝ) (hT : 0 < T) : 0 < planckNumber T := by
  have := cHbar_pos; have := cC_pos; have := Real.pi_pos
  have hz : 0 < zeta3 := by have := zeta3_bounds.1; linarith
  have hk : 0 < kBoltzmann := by unfold kBoltzmann; norm_num
  unfold planckNumber
  positivity

/-- the constant in front of the integral of `F₄`, against the rate of the specification -/
theorem number_constant (T : ℝ) (hT : 0 < T) :
    0.998 * (thomsonCgs cE cMe cC * cC * planckNumber T) ≤ Spec.thermalNorm * (1.6863699549e-10 * T) ^ 3 * 3.2055 ∧
    Spec.thermalNorm * (1.6863699549e-10 * T) ^ 3 * 3.2055 ≤ 1.0015 * (thomsonCgs cE cMe cC * cC * planckNumber T) := by
  obtain ⟨s1, s2⟩ := thomsonCgs_near
  obtain ⟨z1, z2⟩ := zeta3_bounds
  have hπ1 := Real.pi_gt_d6
  have hπ2 := Real.pi_lt_d6
  have hc := cC_pos
  have hh := cHbar_pos
  have hk : 0 < kBoltzmann := by unfold kBoltzmann; norm_num
  have hσ : 0 < sigmaT := by unfold sigmaT; norm_num
  have hq : 0 < kBoltzmann / (cHbar * cC) := by positivity
  have e : thomsonCgs cE cMe cC * cC * planckNumber T =
      thomsonCgs cE cMe cC * zeta3 / Real.pi ^ 2 * (2 * cC * (kBoltzmann / (cHbar * cC)) ^ 3) * T ^ 3 := by
    unfold planckNumber; field_simp
  have e2 : Spec.thermalNorm * (1.6863699549e-10 * T) ^ 3 * 3.2055 = Spec.thermalNorm * 1.6863699549e-10 ^ 3 * 3.2055 * T ^ 3 := by
    ring
  rw [e, e2]
  have hT3 : 0 < T ^ 3 := by positivity
  have hp1 : (9.8696:ℝ) ≤ Real.pi ^ 2 := by nlinarith
  have hp2 : Real.pi ^ 2 ≤ 9.86961 := by nlinarith
  have hth : 0 < thomsonCgs cE cMe cC := lt_of_lt_of_le (by positivity) s1
  constructor
  · rw [← mul_assoc]
    apply mul_le_mul_of_nonneg_right _ hT3.le
    have h1 : thomsonCgs cE cMe cC * zeta3 / Real.pi ^ 2 ≤ 1.00002 * sigmaT * 1.20207 / 9.8696 := by gcongr
    have h2 : 0.998 * (1.00002 * sigmaT * 1.20207 / 9.8696 * (2 * cC * (kBoltzmann / (cHbar * cC)) ^ 3)) ≤
        Spec.thermalNorm * 1.6863699549e-10 ^ 3 * 3.2055 := by
      unfold sigmaT cC kBoltzmann cHbar Spec.thermalNorm; norm_num
    refine le_trans ?_ h2
    gcongr
  · rw [← mul_assoc]
    apply mul_le_mul_of_nonneg_right _ hT3.le
    have h1 : 0.99999 * sigmaT * 1.2008 / 9.86961 ≤ thomsonCgs cE cMe cC * zeta3 / Real.pi ^ 2 := by gcongr
    have h2 : Spec.thermalNorm * 1.6863699549e-10 ^ 3 * 3.2055 ≤
        1.0015 * (0.99999 * sigmaT * 1.2008 / 9.86961 * (2 * cC * (kBoltzmann / (cHbar * cC)) ^ 3)) := by
      unfold sigmaT cC kBoltzmann cHbar Spec.thermalNorm; norm_num
    refine h2.trans ?_
    gcongr

/-- **C124 (one electron).** The number of photons scattered per unit time by one electron of Lorentz factor `γ > 1` in a blackbody
field of temperature `T`, isotropic or arriving at an angle: at most 1 % above `σ_T c n`, times `1 - cos θ` for a beam, and below it
by at most 1 % and 8 `γ kT/mc²` (times `1 - cos θ`). -/
theorem C124_one_electron (T : ℝ) (θ : Option ℝ) (γ : ℝ) (hT : 0 < T) (hθ : ∀ x, θ = some x → Real.cos x ≠ 1) (hγ : 1 < γ) :
    (0.99 - 8 * γ * (kBoltzmann * T / (cMe * cC ^ 2)) * encounter θ) * scatterRate cE cMe cC (planckNumber T) θ ≤
        ∫ ε in Set.Ioi 0, thermalRate T θ γ ε ∧
    ∫ ε in Set.Ioi 0, thermalRate T θ γ ε ≤ 1.01 * scatterRate cE cMe cC (planckNumber T) θ := by
  have hm := cMec2_pos
  have hγ0 : 0 < γ := by linarith
  have hw := thW_pos T θ hT hθ
  have hX := encounter_pos θ hθ
  rw [(number_one T θ γ hT hθ hγ).2]
  obtain ⟨i1, i2⟩ := numInt_integral θ (thW T θ * γ) (by positivity)
  obtain ⟨c1, c2⟩ := number_constant T hT
  set R := thomsonCgs cE cMe cC * cC * planckNumber T with hR
  have hR0 : 0 < R := by
    have := scatterRate_pos (planckNumber T) none (planckNumber_pos T hT) (by simp)
    unfold scatterRate encounter at this
    rwa [mul_one] at this
  have hS : scatterRate cE cMe cC (planckNumber T) θ = R * encounter θ := rfl
  rw [hS]
  set τ := kBoltzmann * T / (cMe * cC ^ 2) with hτ
  have hk : (1.6863699549e-10 : ℝ) ≤ 1.00001 * (kBoltzmann / (cMe * cC ^ 2)) := by
    unfold kBoltzmann cMe cC; norm_num
  have hτ0 : 0 < τ := by
    have : 0 < kBoltzmann := by unfold kBoltzmann; norm_num
    rw [hτ]; exact div_pos (by positivity) hm
  have hkT : 1.6863699549e-10 * T ≤ 1.00001 * τ := by
    calc _ ≤ 1.00001 * (kBoltzmann / (cMe * cC ^ 2)) * T := mul_le_mul_of_nonneg_right hk hT.le
      _ = _ := by rw [hτ]; ring
  have ht0 : 0 < 1.6863699549e-10 * T := by positivity
  have hn : 0 < Spec.thermalNorm := by unfold Spec.thermalNorm; norm_num
  set I := ∫ x in Set.Ioi 0, numInt θ (thW T θ * γ) x with hI
  have hI0 : 0 ≤ I := setIntegral_nonneg measurableSet_Ioi (fun x hx => (numInt_bounds θ _ x (by positivity) hx).2.2)
  -- both kinds of field: width times integral
  obtain ⟨J1, J2⟩ : thW T θ * I ≤ 1.6863699549e-10 * T * encounter θ * 3.2285 ∧
      1.6863699549e-10 * T * encounter θ * (3.1868 - 23.3 * (γ * τ) * encounter θ) ≤ thW T θ * I := by
    cases θ with
    | none =>
      obtain ⟨a1, a2⟩ := icF4_area
      obtain ⟨m1, m2⟩ := icF4_moment
      have e1 : (∫ x in Set.Ioi 0, thB none x) = ∫ x in Set.Ioi 0, icF4 x := rfl
      have e2 : (∫ x in Set.Ioi 0, x * thB none x) = ∫ x in Set.Ioi 0, x * icF4 x := rfl
      rw [e1, e2] at i1
      rw [e1] at i2
      generalize (∫ x in Set.Ioi 0, icF4 x) = I0 at *
      generalize (∫ x in Set.Ioi 0, x * icF4 x) = I1 at *
      have ew : thW T none = 4 * (1.6863699549e-10 * T) := rfl
      rw [ew] at i1 ⊢
      have ee : encounter none = 1 := rfl
      rw [ee]
      generalize (1.6863699549e-10 * T : ℝ) = t at *
      constructor
      · have : t * I ≤ t * 0.80688 := mul_le_mul_of_nonneg_left (i2.trans a2) ht0.le
        norm_num at this ⊢; linarith
      · have h1 : 2 * (4 * t * γ) * I1 ≤ 8 * (1.00001 * τ * γ) * 0.72725 := by
          have : t * γ ≤ 1.00001 * τ * γ := mul_le_mul_of_nonneg_right hkT hγ0.le
          have h5 : 0 < t * γ := by positivity
          calc 2 * (4 * t * γ) * I1 ≤ 2 * (4 * t * γ) * 0.72725 := mul_le_mul_of_nonneg_left m2 (by positivity)
            _ = 8 * (t * γ) * 0.72725 := by ring
            _ ≤ _ := by gcongr
        have h6 : 0 < γ * τ := by positivity
        have h2 : 0.7967 - 5.82 * (γ * τ) ≤ I := by norm_num at h1 a1 ⊢; linarith
        have h3 := mul_le_mul_of_nonneg_left h2 ht0.le
        have h7 : 0 < t * (γ * τ) := by positivity
        norm_num at h3 ⊢; linarith
    | some φ =>
      obtain ⟨a1, a2⟩ := anF2_area
      obtain ⟨m1, m2⟩ := anF2_moment
      have e1 : (∫ x in Set.Ioi 0, thB (some φ) x) = ∫ x in Set.Ioi 0, anF2 x := rfl
      have e2 : (∫ x in Set.Ioi 0, x * thB (some φ) x) = ∫ x in Set.Ioi 0, x * anF2 x := rfl
      rw [e1, e2] at i1
      rw [e1] at i2
      generalize (∫ x in Set.Ioi 0, anF2 x) = I0 at *
      generalize (∫ x in Set.Ioi 0, x * anF2 x) = I1 at *
      have ew : thW T (some φ) = 2 * (1.6863699549e-10 * T) * (1 - Real.cos φ) := rfl
      rw [ew] at i1 ⊢
      have ee : encounter (some φ) = 1 - Real.cos φ := rfl
      rw [ee] at hX ⊢
      generalize 1 - Real.cos φ = w at *
      generalize (1.6863699549e-10 * T : ℝ) = t at *
      have htw : 0 < t * w := by positivity
      constructor
      · have : t * w * I ≤ t * w * 1.6142 := mul_le_mul_of_nonneg_left (i2.trans a2) htw.le
        norm_num at this ⊢; linarith
      · have h1 : 2 * (2 * t * w * γ) * I1 ≤ 4 * (1.00001 * τ * γ * w) * 2.1851 := by
          have : t * (γ * w) ≤ 1.00001 * τ * (γ * w) := mul_le_mul_of_nonneg_right hkT (by positivity)
          calc 2 * (2 * t * w * γ) * I1 ≤ 2 * (2 * t * w * γ) * 2.1851 := mul_le_mul_of_nonneg_left m2 (by positivity)
            _ = 4 * (t * (γ * w)) * 2.1851 := by ring
            _ ≤ 4 * (1.00001 * τ * (γ * w)) * 2.1851 := by gcongr
            _ = _ := by ring
        have h6 : 0 < γ * τ * w := by positivity
        have h2 : 1.5953 - 8.75 * (γ * τ * w) ≤ I := by norm_num at h1 a1 ⊢; linarith
        have h3 := mul_le_mul_of_nonneg_left h2 htw.le
        have h7 : 0 < t * w * (γ * τ * w) := by positivity
        norm_num at h3 ⊢; linarith
  generalize (1.6863699549e-10 * T : ℝ) = t at *
  generalize thW T θ = W at *
  generalize encounter θ = X at *
  clear_value R I τ
  generalize Spec.thermalNorm = K at *
  have hKt : 0 < K * t ^ 2 := by positivity
  have hKt3 : 0 < K * t ^ 3 := by positivity
  constructor
  · by_cases hneg : 0.99 - 8 * γ * τ * X ≤ 0
    · refine (mul_nonpos_of_nonpos_of_nonneg hneg (by positivity)).trans ?_
      exact mul_nonneg (by positivity) hI0
    · push Not at hneg
      have h1 : R ≤ K * t ^ 3 * 3.2120 := by norm_num at c1 ⊢; linarith
      have h2 := mul_le_mul_of_nonneg_left J2 hKt.le
      have h3 : (0.99 - 8 * γ * τ * X) * R ≤ (0.99 - 8 * γ * τ * X) * (K * t ^ 3 * 3.2120) := mul_le_mul_of_nonneg_left h1 hneg.le
      have h4 : 0 < γ * τ * X := by positivity
      have h5 : (0.99 - 8 * γ * τ * X) * 3.2120 ≤ 3.1868 - 23.3 * (γ * τ) * X := by norm_num; linarith
      calc (0.99 - 8 * γ * τ * X) * (R * X) = (0.99 - 8 * γ * τ * X) * R * X := by ring
        _ ≤ (0.99 - 8 * γ * τ * X) * (K * t ^ 3 * 3.2120) * X := mul_le_mul_of_nonneg_right h3 hX.le
        _ = K * t ^ 3 * X * ((0.99 - 8 * γ * τ * X) * 3.2120) := by ring
        _ ≤ K * t ^ 3 * X * (3.1868 - 23.3 * (γ * τ) * X) := mul_le_mul_of_nonneg_left h5 (by positivity)
        _ = K * t ^ 2 * (t * X * (3.1868 - 23.3 * (γ * τ) * X)) := by ring
        _ ≤ _ := h2
        _ = _ := by ring
  · have h2 := mul_le_mul_of_nonneg_left J1 hKt.le
    have h3 : K * t ^ 3 * 3.2285 ≤ 1.01 * R := by norm_num at c2 ⊢; linarith
    calc K * t ^ 2 * W * I = K * t ^ 2 * (W * I) := by ring
      _ ≤ _ := h2
      _ = K * t ^ 3 * 3.2285 * X := by ring
      _ ≤ 1.01 * R * X := mul_le_mul_of_nonneg_right h3 hX.le
      _ = _ := by ring


/-! ### The spectrum -/

theorem rate_nonneg (T : ℝ) (θ : Option ℝ) (γ ε : ℝ) (hT : 0 < T) (hθ : ∀ x, θ = some x → Real.cos x ≠ 1) (hε : 0 < ε) :
    0 ≤ thermalRate T θ γ ε :=
  (thermalRate_spectrum T θ hT hθ ε γ γ hε).nonneg γ ⟨le_rfl, le_rfl⟩

theorem rate_measurable2 (T : ℝ) (θ : Option ℝ) (c : ℝ) :
    Measurable (fun z : ℝ × ℝ => thermalRate T θ (z.1 / c) (z.2 / c)) := by
  cases θ with
  | none => exact thermalRate_measurable2 T c
  | some θ => exact beamRate_measurable2 T θ c

theorem rate_value (m : ElModel) (pd : PDist) (hu : pd.unit.dim = Dim.diffEnergy)
    (hus : 0 < pd.unit.scale) (hlo : m.Eemin.PosEnergy) (hhi : m.Eemax.PosEnergy)
    (hlt : m.Eemin.phys < m.Eemax.phys) (T dens : ℝ) (θ : Option ℝ) (hT : 0 < T) (hθ : ∀ x, θ = some x → Real.cos x ≠ 1)
    (p : ℝ → ℝ) (hp : ∀ E ∈ Set.Icc m.Eemin.phys m.Eemax.phys, pd.f E = fin (p E))
    (h0 : ∀ E ∈ Set.Icc m.Eemin.phys m.Eemax.phys, 0 ≤ p E) (gam : List ℝ)
    (hg : gamGrid m.nEed m.Eemin m.Eemax = .ok gam) (e : ℝ) (he : 0 < e) :
    icSpectrum m [.thermal T dens θ] pd [e] = .ok [fin (dens / (4 * cSigma / cC * T ^ 4) * cEV / (cMe * cC ^ 2) *
      binSum rbin ((gam.map (· * cMec2)).map (fun x => (x, p x * pd.unit.scale *
        thermalRate T θ (x / (cMe * cC ^ 2)) (e / (cMe * cC ^ 2))))))] := by
  cases θ with
  | none => exact ic_value m pd hu hus hlo hhi hlt T dens hT p hp h0 gam hg e he
  | some θ => exact beam_value m pd hu hus hlo hhi hlt T dens θ hT (hθ θ rfl) p hp h0 gam hg e he

/-- the spectrum of one electron is bounded, and zero above the electron's energy -/
theorem rate_bound (T : ℝ) (θ : Option ℝ) (b γ ε : ℝ) (hT : 0 < T) (hθ : ∀ x, θ = some x → Real.cos x ≠ 1) (hε : 0 < ε)
    (hγ : γ ≤ b) (hb : 0 < b) :
    thermalRate T θ γ ε ≤ if ε < b then Spec.thermalNorm * (1.6863699549e-10 * T) ^ 2 * (thW T θ * b + 2) else 0 := by
  have hw := thW_pos T θ hT hθ
  have hn : 0 < Spec.thermalNorm := by unfold Spec.thermalNorm; norm_num
  by_cases h : ε < γ ∧ 1 < γ
  · rw [if_pos (h.1.trans_le hγ), thermalRate_shape T θ γ ε h]
    have hγ0 : 0 < γ := by linarith [h.2]
    set z := ε / γ with hz
    have hz0 : 0 < z := div_pos hε hγ0
    have hz1 : z < 1 := by rw [hz, div_lt_one hγ0]; exact h.1
    have hz2 : 0 < 1 - z := by linarith
    set x := z / ((1 - z) * (thW T θ * γ)) with hx
    have hx0 : 0 < x := by positivity
    obtain ⟨a1, a2⟩ := thA_bounds θ x hx0.le
    obtain ⟨b1, b2⟩ := thB_bounds θ x hx0.le
    have ex := Real.quadratic_le_exp_of_nonneg hx0.le
    have ee : Real.exp x * Real.exp (-x) = 1 := by rw [← Real.exp_add]; simp
    have e0 := Real.exp_pos (-x)
    have hB : thB θ x ≤ 2 := by
      refine b2.trans ?_
      have : (1.645 + x) * Real.exp (-x) ≤ 2 * Real.exp x * Real.exp (-x) :=
        mul_le_mul_of_nonneg_right (by norm_num; nlinarith) e0.le
      linarith
    have hA : x * thA θ x ≤ 2 := by
      have h1 : x * thA θ x ≤ x * ((1.645 + x) * Real.exp (-x)) := mul_le_mul_of_nonneg_left a2 hx0.le
      have : x * (1.645 + x) * Real.exp (-x) ≤ 2 * Real.exp x * Real.exp (-x) :=
        mul_le_mul_of_nonneg_right (by norm_num; nlinarith) e0.le
      linarith
    have e1 : z ^ 2 / (2 * (1 - z)) * thA θ x = z / 2 * (thW T θ * γ) * (x * thA θ x) := by
      have : z ^ 2 / (2 * (1 - z)) = z / 2 * (thW T θ * γ) * x := by rw [hx]; field_simp
      rw [this]; ring
    have h2 : z ^ 2 / (2 * (1 - z)) * thA θ x + thB θ x ≤ thW T θ * b + 2 := by
      rw [e1]
      have h3 : z / 2 * (thW T θ * γ) * (x * thA θ x) ≤ z / 2 * (thW T θ * γ) * 2 := mul_le_mul_of_nonneg_left hA (by positivity)
      have h4 : z * (thW T θ * γ) ≤ 1 * (thW T θ * γ) := mul_le_mul_of_nonneg_right hz1.le (by positivity)
      have h5 : thW T θ * γ ≤ thW T θ * b := mul_le_mul_of_nonneg_left hγ hw.le
      linarith
    have h6 : Spec.thermalNorm * (1.6863699549e-10 * T) ^ 2 / γ ^ 2 ≤ Spec.thermalNorm * (1.6863699549e-10 * T) ^ 2 := by
      apply div_le_self (by positivity)
      nlinarith [h.2]
    have h7 : 0 ≤ z ^ 2 / (2 * (1 - z)) * thA θ x + thB θ x := add_nonneg (mul_nonneg (by positivity) a1) b1
    exact mul_le_mul h6 h2 h7 (by positivity)
  · unfold thermalRate
    rw [if_neg h]
    split
    · positivity
    · exact le_rfl

/-- **C124 (total number).** For every electron spectrum on a range above the electron rest energy, and every gray-body photon
field of temperature `T > 0` and energy density `dens`, isotropic or arriving at an angle `θ` with `cos θ ≠ 1`: the computed spectrum
is integrable over all photon energies, and as the electron grid is refined its integral, the number of photons emitted per unit
time, tends to a value at most 1 % above the number of electrons times `σ_T c n` (times `1 - cos θ` for a beam), and below it by at
most 1 % and 8 `γ kT/mc²` (times `1 - cos θ`) of each electron's. Here `n` is the number density of the photons of the field.
Energies in erg; the spectrum in 1/(s eV), divided by the number of erg in an eV, in 1/(s erg). -/
theorem C124_total_number (m : ElModel) (pd : PDist) (hu : pd.unit.dim = Dim.diffEnergy)
    (hus : 0 < pd.unit.scale) (hlo : m.Eemin.PosEnergy) (hhi : m.Eemax.PosEnergy)
    (hlt : m.Eemin.phys < m.Eemax.phys) (T dens : ℝ) (θ : Option ℝ) (hT : 0 < T) (hθ : ∀ x, θ = some x → Real.cos x ≠ 1)
    (hd : 0 < dens)
    (p : ℝ → ℝ) (hp : ∀ E ∈ Set.Icc m.Eemin.phys m.Eemax.phys, pd.f E = fin (p E))
    (hs : Spectrum p m.Eemin.phys m.Eemax.phys) (h30 : cMe * cC ^ 2 < m.Eemin.phys) :
    ∃ L : ℝ → ℝ → ℝ, (∀ n, ∀ e > 0, icSpectrum { m with nEed := n } [.thermal T dens θ] pd [e] = .ok [fin (L n e)]) ∧
      (∀ n, IntegrableOn (fun e => L n e / cEV) (Set.Ioi 0)) ∧
      ∃ P, Tendsto (fun n => ∫ e in Set.Ioi 0, L n e / cEV) atTop (𝓝 P) ∧
        ∫ E in m.Eemin.phys..m.Eemax.phys, p E * pd.unit.scale *
            ((0.99 - 8 * (E / (cMe * cC ^ 2)) * (kBoltzmann * T / (cMe * cC ^ 2)) * encounter θ) *
              scatterRate cE cMe cC (dens / planckDensity T * planckNumber T) θ) ≤ P ∧
        P ≤ 1.01 * ∫ E in m.Eemin.phys..m.Eemax.phys,
            p E * pd.unit.scale * scatterRate cE cMe cC (dens / planckDensity T * planckNumber T) θ := by
  have hm : 0 < cMe * cC ^ 2 := cMec2_pos
  have hev := cEV_pos
  have q1 := cC_pos
  have q3 : 0 < cSigma := by unfold cSigma; norm_num
  have q2 := cMe_pos
  set a := m.Eemin.phys with ha
  set b := m.Eemax.phys with hb
  have ha0 : 0 < a := hlo.phys_pos
  have hb0 : 0 < b := ha0.trans hlt
  have hsc : Spectrum (fun _ => pd.unit.scale) a b := Spectrum.of_continuous (fun _ _ => hus.le) continuousOn_const
  have hN : Spectrum (fun E => p E * pd.unit.scale) a b := hs.mul hsc
  have hgrid : ∀ n : ℝ, ∃ gam, gamGrid n m.Eemin m.Eemax = .ok gam := by
    intro n
    obtain ⟨gam, hg, -⟩ := gamGrid_facts n m.Eemin m.Eemax hlo hhi hlt.le
    exact ⟨gam, hg⟩
  choose G hG using hgrid
  have hfine := electron_fine m.Eemin m.Eemax hlo hhi hlt G hG
  set K : ℝ → ℝ → ℝ := fun E e => thermalRate T θ (E / (cMe * cC ^ 2)) (e / (cMe * cC ^ 2)) with hK
  set A : ℝ := Spec.thermalNorm * (1.6863699549e-10 * T) ^ 2 * (thW T θ * (b / (cMe * cC ^ 2)) + 2) with hA
  obtain ⟨w1, w2, w3⟩ := weighted_limit hfine ha0 hlt (fun E => p E * pd.unit.scale) hN K
    (rate_measurable2 T θ (cMe * cC ^ 2))
    (fun e he => Spectrum.comp_div (c := cMe * cC ^ 2) hm (thermalRate_spectrum T θ hT hθ _ _ _ (div_pos he hm)))
    (fun _ => 1) (Set.indicator (Set.Iio b) (fun _ => A)) measurable_const (fun _ _ => zero_le_one)
    (by
      rw [integrableOn_indicator_iff measurableSet_Iio]
      rw [show Set.Iio b ∩ Set.Ioi 0 = Set.Ioo 0 b by ext x; simp [and_comm]]
      exact integrableOn_const (by simp))
    (by
      intro E hE e he
      have h1 := rate_bound T θ (b / (cMe * cC ^ 2)) (E / (cMe * cC ^ 2)) (e / (cMe * cC ^ 2)) hT hθ (div_pos he hm)
        (div_le_div_of_nonneg_right hE.2 hm.le) (div_pos hb0 hm)
      rw [one_mul]
      refine h1.trans ?_
      by_cases hlt' : e < b
      · rw [if_pos (div_lt_div_of_pos_right hlt' hm), Set.indicator_of_mem (show e ∈ Set.Iio b from hlt')]
      · have : ¬ (e / (cMe * cC ^ 2) < b / (cMe * cC ^ 2)) := by
          rw [div_lt_div_iff_of_pos_right hm]; exact hlt'
        rw [if_neg this, Set.indicator_of_notMem (show e ∉ Set.Iio b from hlt')])
  set κ := dens / (4 * cSigma / cC * T ^ 4) * cEV / (cMe * cC ^ 2) with hκ
  have hpl : 0 < 4 * cSigma / cC * T ^ 4 := by
    have := cC_pos
    have : 0 < cSigma := by unfold cSigma; norm_num
    positivity
  have hκ0 : 0 < κ := by rw [hκ]; positivity
  have e1 : ∀ n, (fun e => (κ * binSum rbin (((G n).map (· * cMec2)).map (fun x => (x, p x * pd.unit.scale * K x e))) / cEV)) =
      fun e => κ / cEV * (1 * binSum rbin (((G n).map (· * cMec2)).map (fun x => (x, p x * pd.unit.scale * K x e)))) := by
    intro n; funext e; ring
  refine ⟨fun n e => κ * binSum rbin (((G n).map (· * cMec2)).map (fun x => (x, p x * pd.unit.scale * K x e))),
    fun n e he => rate_value { m with nEed := n } pd hu hus hlo hhi hlt T dens θ hT hθ p hp hs.nonneg (G n) (hG n) e he,
    fun n => ?_, κ / cEV * ∫ E in a..b, p E * pd.unit.scale * ∫ e in Set.Ioi 0, 1 * K E e, ?_, ?_, ?_⟩
  · show IntegrableOn (fun e => (κ * binSum rbin (((G n).map (· * cMec2)).map (fun x => (x, p x * pd.unit.scale * K x e))) / cEV)) _
    rw [e1]; exact (w1 n).const_mul _
  · have : (fun n => ∫ e in Set.Ioi 0, (κ * binSum rbin (((G n).map (· * cMec2)).map (fun x => (x, p x * pd.unit.scale * K x e))) / cEV)) =
        fun n => κ / cEV * ∫ e in Set.Ioi 0, 1 * binSum rbin (((G n).map (· * cMec2)).map (fun x => (x, p x * pd.unit.scale * K x e))) := by
      funext n; rw [e1, integral_const_mul]
    rw [this]
    exact w3.const_mul _
  all_goals
    -- the photons of one electron
    have hone : ∀ E ∈ Set.Icc a b, ∫ e in Set.Ioi 0, 1 * K E e =
        cMe * cC ^ 2 * ∫ ε in Set.Ioi 0, thermalRate T θ (E / (cMe * cC ^ 2)) ε := by
      intro E _
      have h1 := integral_comp_mul_left_Ioi (fun ε => thermalRate T θ (E / (cMe * cC ^ 2)) ε) 0 (inv_pos.2 hm)
      rw [mul_zero, inv_inv, smul_eq_mul] at h1
      rw [← h1]
      congr 1
      funext e
      simp only [hK]
      rw [show e / (cMe * cC ^ 2) = (cMe * cC ^ 2)⁻¹ * e by ring, one_mul]
    have hloss : κ / cEV * (cMe * cC ^ 2) * scatterRate cE cMe cC (planckNumber T) θ =
        scatterRate cE cMe cC (dens / planckDensity T * planckNumber T) θ := by
      rw [hκ]; unfold scatterRate planckDensity
      field_simp
    have hg30 : ∀ E ∈ Set.Icc a b, 1 < E / (cMe * cC ^ 2) := fun E hE => by
      rw [lt_div_iff₀ hm, one_mul]; exact h30.trans_le hE.1
    have hκ2 : 0 < κ / cEV * (cMe * cC ^ 2) := by positivity
    have hn0 : 0 < dens / planckDensity T * planckNumber T := mul_pos (div_pos hd hpl) (planckNumber_pos T hT)
    have hls : Spectrum (fun E => p E * pd.unit.scale * scatterRate cE cMe cC (dens / planckDensity T * planckNumber T) θ) a b :=
      hN.mul (Spectrum.of_continuous (fun E hE => (scatterRate_pos _ θ hn0 hθ).le) continuousOn_const)
  · rw [← intervalIntegral.integral_const_mul]
    apply intervalIntegral.integral_mono_on hlt.le _ (w2.const_mul _)
    · intro E hE
      have h1 := (C124_one_electron T θ _ hT hθ (hg30 E hE)).1
      have h2 := mul_le_mul_of_nonneg_left h1 hκ2.le
      have h3 := mul_le_mul_of_nonneg_left h2 (hN.nonneg E hE)
      rw [hone E hE]
      calc _ = p E * pd.unit.scale * (κ / cEV * (cMe * cC ^ 2) * ((0.99 - 8 * (E / (cMe * cC ^ 2)) *
            (kBoltzmann * T / (cMe * cC ^ 2)) * encounter θ) * scatterRate cE cMe cC (planckNumber T) θ)) := by
            rw [← hloss]; ring
        _ ≤ _ := h3
        _ = _ := by ring
    · have h1 : IntervalIntegrable (fun E => p E * pd.unit.scale * scatterRate cE cMe cC (dens / planckDensity T * planckNumber T) θ)
          volume a b := hls.integrable hlt.le
      have h2 := h1.continuousOn_mul (g := fun E => 0.99 - 8 * (E / (cMe * cC ^ 2)) * (kBoltzmann * T / (cMe * cC ^ 2)) * encounter θ)
        (by fun_prop)
      refine h2.congr ?_
      intro E hE
      simp only []; ring
  · rw [← intervalIntegral.integral_const_mul, ← intervalIntegral.integral_const_mul]
    apply intervalIntegral.integral_mono_on hlt.le (w2.const_mul _) ((hls.integrable hlt.le).const_mul _)
    intro E hE
    have h1 := (C124_one_electron T θ _ hT hθ (hg30 E hE)).2
    have h2 := mul_le_mul_of_nonneg_left h1 hκ2.le
    have h3 := mul_le_mul_of_nonneg_left h2 (hN.nonneg E hE)
    rw [hone E hE]
    calc _ = p E * pd.unit.scale * (κ / cEV * (cMe * cC ^ 2) *
          ∫ ε in Set.Ioi 0, thermalRate T θ (E / (cMe * cC ^ 2)) ε) := by ring
      _ ≤ _ := h3
      _ = _ := by rw [← hloss]; ring

/-! ### The hypotheses are met -/

/-- A power law of index 3 from 1 GeV to 1 TeV in a beam of photons of 2.72 K at right angles: the limit is within 5 % of the Thomson rate. -/
example : ∃ L : ℝ → ℝ → ℝ, ∃ Q : ℝ, 0 ≤ Q ∧
    (∀ n, ∀ e > 0, icSpectrum ⟨⟨1, PhysUnit.GeV⟩, ⟨1, PhysUnit.TeV⟩, n⟩ [.thermal 2.72 4.2e-13 (some (Real.pi / 2))]
      (PowerLaw.toPDist ⟨fin 1e33, (⟨1, PhysUnit.TeV⟩ : Qty ℝ).lift, fin 3⟩ ⟨1 / cEV, Dim.diffEnergy⟩) [e] = .ok [fin (L n e)]) ∧
    ∃ P, Tendsto (fun n => ∫ e in Set.Ioi 0, L n e / cEV) atTop (𝓝 P) ∧ 0.95 * Q ≤ P ∧ P ≤ 1.01 * Q := by
  have hev := cEV_pos
  have hm : 0 < cMe * cC ^ 2 := cMec2_pos
  have hX1 : encounter (some (Real.pi / 2)) = 1 := by simp [encounter]
  have hX : 0 < encounter (some (Real.pi / 2)) := by rw [hX1]; norm_num
  have h0 : (⟨1, PhysUnit.TeV⟩ : Qty ℝ).PosEnergy := ⟨rfl, by simp [PhysUnit.TeV]; positivity, by norm_num⟩
  let m : ElModel := ⟨⟨1, PhysUnit.GeV⟩, ⟨1, PhysUnit.TeV⟩, 100⟩
  have hlo : m.Eemin.PosEnergy := ⟨rfl, GeV_pos, by norm_num [m]⟩
  have hlt : m.Eemin.phys < m.Eemax.phys := by simp only [m, Qty.phys, PhysUnit.GeV, PhysUnit.TeV]; norm_num
  have h30 : cMe * cC ^ 2 < m.Eemin.phys := by
    simp only [m, Qty.phys, PhysUnit.GeV, cMe, cC]; norm_num
  have hsp : Spectrum (fun E => 1e33 * (E / (⟨1, PhysUnit.TeV⟩ : Qty ℝ).phys) ^ (-(3:ℝ))) m.Eemin.phys m.Eemax.phys :=
    Spectrum.of_continuous (fun E hE => by
        have := div_pos (hlo.phys_pos.trans_le hE.1) h0.phys_pos
        positivity)
      (ContinuousOn.mul continuousOn_const (ContinuousOn.rpow_const (by fun_prop)
        (fun E hE => Or.inl (div_pos (hlo.phys_pos.trans_le hE.1) h0.phys_pos).ne')))
  set pd := PowerLaw.toPDist ⟨fin 1e33, (⟨1, PhysUnit.TeV⟩ : Qty ℝ).lift, fin 3⟩ ⟨1 / cEV, Dim.diffEnergy⟩ with hpd
  have hus : 0 < pd.unit.scale := by simp only [hpd, PowerLaw.toPDist]; positivity
  obtain ⟨L, h1, -, P, h3, h4, h5⟩ := C124_total_number m pd rfl hus hlo
    ⟨rfl, by simp only [m, PhysUnit.TeV]; norm_num, by norm_num [m]⟩ hlt 2.72 4.2e-13 (some (Real.pi / 2)) (by norm_num) (fun x h => by cases h; norm_num [Real.cos_pi_div_two]) (by norm_num) _
    (fun E hE => powerLaw_pdist 1e33 3 _ h0 _ E (hlo.phys_pos.trans_le hE.1)) hsp h30
  set p : ℝ → ℝ := fun E => 1e33 * (E / (⟨1, PhysUnit.TeV⟩ : Qty ℝ).phys) ^ (-(3:ℝ)) with hpdef
  have hg1 : ∀ E ∈ Set.Icc m.Eemin.phys m.Eemax.phys, 1 < E / (cMe * cC ^ 2) := fun E hE => by
    rw [lt_div_iff₀ hm, one_mul]; exact h30.trans_le hE.1
  have hls : Spectrum (fun E => p E * pd.unit.scale * scatterRate cE cMe cC (4.2e-13 / planckDensity 2.72 * planckNumber 2.72) (some (Real.pi / 2))) m.Eemin.phys m.Eemax.phys := by
    have hT : (0:ℝ) < 2.72 := by norm_num
    have hd : 0 < planckDensity 2.72 := by
      have := cC_pos
      have : 0 < cSigma := by unfold cSigma; norm_num
      unfold planckDensity; positivity
    exact (hsp.mul (Spectrum.of_continuous (fun _ _ => hus.le) continuousOn_const)).mul
      (Spectrum.of_continuous (fun E hE => (scatterRate_pos _ _ (mul_pos (div_pos (by norm_num) hd) (planckNumber_pos _ hT))
        (fun x h => by cases h; norm_num [Real.cos_pi_div_two])).le) continuousOn_const)
  refine ⟨L, ∫ E in m.Eemin.phys..m.Eemax.phys, p E * pd.unit.scale * scatterRate cE cMe cC (4.2e-13 / planckDensity 2.72 * planckNumber 2.72) (some (Real.pi / 2)),
    intervalIntegral.integral_nonneg hlt.le (fun E hE => hls.nonneg E hE), h1, P, h3, le_trans ?_ h4, h5⟩
  rw [← intervalIntegral.integral_const_mul]
  apply intervalIntegral.integral_mono_on hlt.le ((hls.integrable hlt.le).const_mul _)
  · have h2 := (hls.integrable hlt.le).continuousOn_mul
      (g := fun E => 0.99 - 8 * (E / (cMe * cC ^ 2)) * (kBoltzmann * 2.72 / (cMe * cC ^ 2)) * encounter (some (Real.pi / 2))) (by fun_prop)
    refine h2.congr ?_
    intro E _
    simp only []; ring
  · intro E hE
    have hγ : E / (cMe * cC ^ 2) ≤ m.Eemax.phys / (cMe * cC ^ 2) := div_le_div_of_nonneg_right hE.2 hm.le
    have hk : 0 < kBoltzmann * 2.72 / (cMe * cC ^ 2) := by
      have : 0 < kBoltzmann := by unfold kBoltzmann; norm_num
      positivity
    have h6 : 8 * (m.Eemax.phys / (cMe * cC ^ 2)) * (kBoltzmann * 2.72 / (cMe * cC ^ 2)) * encounter (some (Real.pi / 2)) ≤ 0.04 := by
      rw [hX1]; simp only [m, Qty.phys, PhysUnit.TeV, kBoltzmann, cMe, cC]; norm_num
    have h7 : 8 * (E / (cMe * cC ^ 2)) * (kBoltzmann * 2.72 / (cMe * cC ^ 2)) * encounter (some (Real.pi / 2)) ≤ 0.04 := by
      refine le_trans (mul_le_mul_of_nonneg_right (mul_le_mul_of_nonneg_right (by linarith) hk.le) hX.le) h6
    have h8 := hls.nonneg E hE
    have h9 : 0.95 ≤ 0.99 - 8 * (E / (cMe * cC ^ 2)) * (kBoltzmann * 2.72 / (cMe * cC ^ 2)) * encounter (some (Real.pi / 2)) := by linarith
    calc _ ≤ (0.99 - 8 * (E / (cMe * cC ^ 2)) * (kBoltzmann * 2.72 / (cMe * cC ^ 2)) * encounter (some (Real.pi / 2))) *
          (p E * pd.unit.scale * scatterRate cE cMe cC (4.2e-13 / planckDensity 2.72 * planckNumber 2.72) (some (Real.pi / 2))) := mul_le_mul_of_nonneg_right h9 h8
      _ = _ := by ring

/-- The specification gives the textbook 411 photons per cubic centimetre for the cosmic microwave background. -/
theorem C124_cmb : 410 ≤ planckNumber 2.725 ∧ planckNumber 2.725 ≤ 411 := by
  obtain ⟨z1, z2⟩ := zeta3_bounds
  have hπ1 := Real.pi_gt_d6
  have hπ2 := Real.pi_lt_d6
  have hp1 : (9.8696:ℝ) ≤ Real.pi ^ 2 := by nlinarith
  have hp2 : Real.pi ^ 2 ≤ 9.86961 := by nlinarith
  have hq : 0 < kBoltzmann * 2.725 / (cHbar * cC) := by unfold kBoltzmann cHbar cC; norm_num
  unfold planckNumber
  constructor
  · have h2 : 410 ≤ 2 * 1.2008 / 9.86961 * (kBoltzmann * 2.725 / (cHbar * cC)) ^ 3 := by
      unfold kBoltzmann cHbar cC; norm_num
    refine h2.trans ?_
    gcongr
  · have h2 : 2 * 1.20207 / 9.8696 * (kBoltzmann * 2.725 / (cHbar * cC)) ^ 3 ≤ 411 := by
      unfold kBoltzmann cHbar cC; norm_num
    refine le_trans ?_ h2
    gcongr

end Naima.Props
