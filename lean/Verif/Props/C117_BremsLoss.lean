import Verif.Props.C72_Jump
import Mathlib.Analysis.SpecialFunctions.Integrals.Basic
import Mathlib.MeasureTheory.Integral.IntervalIntegral.FundThmCalculus

/-! # C117: the energy radiated by one electron as bremsstrahlung -/

namespace Naima.Props

open Naima XR Classical Topology MeasureTheory
open Filter (Tendsto)

/-! ### Specification -/

/-- Bethe and Heitler: energy (in electron rest energies) that an electron of Lorentz factor `γ ≫ 1` loses to photons per
unit path and per unit density of unscreened charges `e`, that is the integral of the photon energy over the cross
section, in cm². `r₀ = e²/mc²`. -/
noncomputable def betheHeitler (α r₀ γ : ℝ) : ℝ := 4 * α * r₀ ^ 2 * γ * (Real.log (2 * γ) - 1 / 3)

/-- Its constants are those of the model: `4 α r₀²`. -/
theorem betheHeitler_eq (γ : ℝ) : betheHeitler cAlpha (cE ^ 2 / (cMe * cC ^ 2)) γ =
    4 * r02alpha * γ * (Real.log (2 * γ) - 1 / 3) := by
  unfold betheHeitler r02alpha; ring

/-! ### The integral of A2 -/

/-- `ε σ₁(γ, ε) / 4 r₀²α` as a function of `u = ε/γ`, with `c = ln 2γ - 1/2`. -/
noncomputable def lossShape (c u : ℝ) : ℝ :=
  (4 / 3 - 4 / 3 * u + u ^ 2) * (c + Real.log (1 - u) - Real.log u)

theorem intervalIntegrable_log_one_sub : IntervalIntegrable (fun u : ℝ => Real.log (1 - u)) volume 0 1 := by
  have h := (intervalIntegral.intervalIntegrable_log' (a := 0) (b := 1)).comp_sub_left 1
  norm_num at h
  exact h.symm

theorem lossShape_integrable (c : ℝ) : IntervalIntegrable (lossShape c) volume 0 1 := by
  have h1 : IntervalIntegrable (fun u : ℝ => c + Real.log (1 - u) - Real.log u) volume 0 1 :=
    (intervalIntegrable_const.add intervalIntegrable_log_one_sub).sub intervalIntegral.intervalIntegrable_log'
  exact h1.continuousOn_mul (by fun_prop)

theorem lossShape_integral (c : ℝ) : ∫ u in (0:ℝ)..1, lossShape c u = c + 1 / 6 := by
  set G : ℝ → ℝ := fun u => c * (4 / 3 * u - 2 / 3 * u ^ 2 + u ^ 3 / 3) -
    (4 / 3 - 2 / 3 * u + u ^ 2 / 3) * (u * Real.log u) + (4 / 3 * u - u ^ 2 / 3 + u ^ 3 / 9) -
    (u ^ 2 / 3 - u / 3 + 1) * ((1 - u) * Real.log (1 - u)) - (u ^ 3 / 9 - u ^ 2 / 6 + u) with hG
  have hc : Continuous G := by
    have h1 : Continuous fun u : ℝ => u * Real.log u := Real.continuous_mul_log
    have h2 : Continuous fun u : ℝ => (1 - u) * Real.log (1 - u) :=
      Real.continuous_mul_log.comp (by fun_prop : Continuous fun u : ℝ => 1 - u)
    fun_prop
  have hd : ∀ u ∈ Set.Ioo (0:ℝ) 1, HasDerivAt G (lossShape c u) u := by
    rintro u ⟨h0, h1⟩
    have h1' : (1 - u) ≠ 0 := by linarith
    have d1 := Real.hasDerivAt_mul_log h0.ne'
    have d2 : HasDerivAt (fun u : ℝ => (1 - u) * Real.log (1 - u)) ((Real.log (1 - u) + 1) * (-1)) u := by
      have hs : HasDerivAt (fun u : ℝ => 1 - u) (-1) u := by simpa using (hasDerivAt_id u).const_sub 1
      exact (Real.hasDerivAt_mul_log h1').comp u hs
    have p1 : HasDerivAt (fun u : ℝ => 4 / 3 * u - 2 / 3 * u ^ 2 + u ^ 3 / 3) (4 / 3 - 4 / 3 * u + u ^ 2) u := by
      have := (((hasDerivAt_id u).const_mul (4 / 3 : ℝ)).sub ((hasDerivAt_pow 2 u).const_mul (2 / 3 : ℝ))).add
        ((hasDerivAt_pow 3 u).div_const 3)
      exact this.congr_deriv (by norm_num; ring)
    have p2 : HasDerivAt (fun u : ℝ => 4 / 3 - 2 / 3 * u + u ^ 2 / 3) (-2 / 3 + 2 / 3 * u) u := by
      have := (((hasDerivAt_id u).const_mul (2 / 3 : ℝ)).const_sub (4 / 3)).add ((hasDerivAt_pow 2 u).div_const 3)
      exact this.congr_deriv (by norm_num; ring)
    have p3 : HasDerivAt (fun u : ℝ => 4 / 3 * u - u ^ 2 / 3 + u ^ 3 / 9) (4 / 3 - 2 / 3 * u + u ^ 2 / 3) u := by
      have := (((hasDerivAt_id u).const_mul (4 / 3 : ℝ)).sub ((hasDerivAt_pow 2 u).div_const 3)).add
        ((hasDerivAt_pow 3 u).div_const 9)
      exact this.congr_deriv (by norm_num; ring)
    have p4 : HasDerivAt (fun u : ℝ => u ^ 2 / 3 - u / 3 + 1) (2 / 3 * u - 1 / 3) u := by
      have := (((hasDerivAt_pow 2 u).div_const 3).sub ((hasDerivAt_id u).div_const 3)).add_const 1
      exact this.congr_deriv (by norm_num; ring)
    have p5 : HasDerivAt (fun u : ℝ => u ^ 3 / 9 - u ^ 2 / 6 + u) (u ^ 2 / 3 - u / 3 + 1) u := by
      have := (((hasDerivAt_pow 3 u).div_const 9).sub ((hasDerivAt_pow 2 u).div_const 6)).add (hasDerivAt_id u)
      exact this.congr_deriv (by norm_num; ring)
    have := (((((p1.const_mul c).sub (p2.mul d1)).add p3).sub (p4.mul d2)).sub p5)
    refine this.congr_deriv ?_
    unfold lossShape
    ring
  rw [intervalIntegral.integral_eq_sub_of_hasDerivAt_of_le zero_le_one hc.continuousOn hd (lossShape_integrable c)]
  simp only [hG]
  norm_num
  ring

theorem baring1_shape (γ ε : ℝ) (hε : 0 < ε) (h : ε < γ) :
    ε * baring1 γ ε = 4 * r02alpha * lossShape (Real.log (2 * γ) - 1 / 2) (ε / γ) := by
  have hγ : 0 < γ := hε.trans h
  have h1 : 0 < 1 - ε / γ := by rw [sub_pos, div_lt_one hγ]; exact h
  have h2 : 0 < ε / γ := by positivity
  have e : 2 * γ * (γ - ε) / ε = 2 * γ * (1 - ε / γ) / (ε / γ) := by field_simp
  unfold baring1 lossShape
  rw [e, Real.log_div (by positivity) h2.ne', Real.log_mul (by positivity) h1.ne']
  field_simp
  ring

theorem lossShape_abs_le (c u : ℝ) (hc : 0 ≤ c) (h0 : 0 < u) (h1 : u < 1) :
    |lossShape c u| ≤ 4 / 3 * (c - Real.log (1 - u) - Real.log u) := by
  have l1 : Real.log (1 - u) ≤ 0 := Real.log_nonpos (by linarith) (by linarith)
  have l2 : Real.log u ≤ 0 := Real.log_nonpos h0.le h1.le
  have p1 : 0 ≤ 4 / 3 - 4 / 3 * u + u ^ 2 := by nlinarith
  have p2 : 4 / 3 - 4 / 3 * u + u ^ 2 ≤ 4 / 3 := by nlinarith
  unfold lossShape
  rw [abs_mul, abs_of_nonneg p1]
  refine mul_le_mul p2 ?_ (abs_nonneg _) (by norm_num)
  rw [abs_le]; constructor <;> linarith

theorem lossShape_abs_integral (c : ℝ) (hc : 0 ≤ c) : ∫ u in (0:ℝ)..1, |lossShape c u| ≤ 4 / 3 * (c + 2) := by
  have hi : IntervalIntegrable (fun u : ℝ => 4 / 3 * (c - Real.log (1 - u) - Real.log u)) volume 0 1 :=
    ((intervalIntegrable_const.sub intervalIntegrable_log_one_sub).sub
      intervalIntegral.intervalIntegrable_log').const_mul _
  have hv : ∫ u in (0:ℝ)..1, 4 / 3 * (c - Real.log (1 - u) - Real.log u) = 4 / 3 * (c + 2) := by
    rw [intervalIntegral.integral_const_mul, intervalIntegral.integral_sub
      (intervalIntegrable_const.sub intervalIntegrable_log_one_sub) intervalIntegral.intervalIntegrable_log',
      intervalIntegral.integral_sub intervalIntegrable_const intervalIntegrable_log_one_sub,
      intervalIntegral.integral_comp_sub_left (fun u => Real.log u)]
    norm_num
    ring
  rw [← hv]
  refine intervalIntegral.integral_mono_on_of_le_Ioo zero_le_one (lossShape_integrable c).abs hi fun u hu => ?_
  exact lossShape_abs_le c u hc hu.1 hu.2

/-- Integrals over all photon energies of functions that vanish above `γ`. -/
theorem integral_below' {f g : ℝ → ℝ} {γ : ℝ} (hγ : 0 < γ) (h0 : ∀ ε, γ < ε → f ε = 0)
    (h1 : ∀ ε, 0 < ε → ε < γ → ε ≠ 1 / 2 → f ε = g ε) (hi : IntervalIntegrable g volume 0 γ) :
    IntegrableOn f (Set.Ioi 0) ∧ ∫ ε in Set.Ioi 0, f ε = ∫ ε in (0:ℝ)..γ, g ε := by
  have hae : ∀ᵐ ε ∂(volume.restrict (Set.Ioc 0 γ)), f ε = g ε := by
    have n1 : ∀ᵐ ε : ℝ ∂(volume.restrict (Set.Ioc 0 γ)), ε ≠ γ :=
      ae_restrict_of_ae (by simp [ae_iff, measure_singleton])
    have n2 : ∀ᵐ ε : ℝ ∂(volume.restrict (Set.Ioc 0 γ)), ε ≠ 1 / 2 :=
      ae_restrict_of_ae (by simp [ae_iff, measure_singleton])
    filter_upwards [n1, n2, ae_restrict_mem measurableSet_Ioc] with ε h2 h2' h3
    exact h1 ε h3.1 (lt_of_le_of_ne h3.2 h2) h2'
  have hfi : IntegrableOn f (Set.Ioc 0 γ) :=
    ((intervalIntegrable_iff_integrableOn_Ioc_of_le hγ.le).1 hi).congr_fun_ae (hae.mono fun _ h => h.symm)
  have hz : IntegrableOn f (Set.Ioi γ) :=
    (integrableOn_zero (μ := volume)).congr_fun (fun ε hε => (h0 ε hε).symm) measurableSet_Ioi
  have hu : Set.Ioi (0:ℝ) = Set.Ioc 0 γ ∪ Set.Ioi γ := (Set.Ioc_union_Ioi_eq_Ioi hγ.le).symm
  refine ⟨hu ▸ hfi.union hz, ?_⟩
  rw [hu, setIntegral_union (Set.Ioc_disjoint_Ioi le_rfl) measurableSet_Ioi hfi hz,
    setIntegral_eq_zero_of_forall_eq_zero (t := Set.Ioi γ) (fun ε hε => h0 ε hε), add_zero,
    intervalIntegral.integral_of_le hγ.le]
  exact integral_congr_ae hae

/-- `ε σ₁(γ, ε)` on `(0, γ)`. -/
noncomputable def loss1 (γ ε : ℝ) : ℝ := 4 * r02alpha * lossShape (Real.log (2 * γ) - 1 / 2) (ε / γ)

theorem loss1_integrable (γ : ℝ) (hγ : 0 < γ) : IntervalIntegrable (loss1 γ) volume 0 γ := by
  have := (lossShape_integrable (Real.log (2 * γ) - 1 / 2)).comp_mul_left (c := γ⁻¹)
  simp only [zero_mul, div_inv_eq_mul, one_mul] at this
  simp only [← div_eq_inv_mul] at this
  exact this.const_mul _

theorem loss1_integral (γ : ℝ) (hγ : 0 < γ) : ∫ ε in (0:ℝ)..γ, loss1 γ ε =
    4 * r02alpha * γ * (Real.log (2 * γ) - 1 / 3) := by
  unfold loss1
  rw [intervalIntegral.integral_const_mul,
    intervalIntegral.integral_comp_div (fun u => lossShape (Real.log (2 * γ) - 1 / 2) u) hγ.ne', zero_div,
    div_self hγ.ne', lossShape_integral, smul_eq_mul]
  ring

theorem loss1_abs (γ : ℝ) (hγ : 2 ≤ γ) : ∫ ε in (0:ℝ)..γ, |loss1 γ ε| ≤
    4 * r02alpha * γ * (4 / 3 * (Real.log (2 * γ) + 3 / 2)) := by
  have hr := r02alpha_pos
  have hγ0 : 0 < γ := by linarith
  have hl : 1 ≤ Real.log (2 * γ) := by
    rw [Real.le_log_iff_exp_le (by linarith)]
    have := Real.exp_one_lt_d9
    linarith
  unfold loss1
  simp only [abs_mul, abs_of_pos hr, abs_of_pos (show (0:ℝ) < 4 by norm_num)]
  rw [intervalIntegral.integral_const_mul,
    intervalIntegral.integral_comp_div (fun u => |lossShape (Real.log (2 * γ) - 1 / 2) u|) hγ0.ne', zero_div,
    div_self hγ0.ne', smul_eq_mul]
  have := lossShape_abs_integral (Real.log (2 * γ) - 1 / 2) (by linarith)
  rw [mul_assoc (4 * r02alpha)]
  refine mul_le_mul_of_nonneg_left (mul_le_mul_of_nonneg_left ?_ hγ0.le) (by positivity)
  linarith

/-- **C117 (protons).** For every electron, the energy of the photons integrated over the computed electron-proton cross
section (finite at all photon energies but `ε = γ`) is exactly the energy loss of Bethe and Heitler. -/
theorem C117_protons (γ : ℝ) (hγ : 0 < γ) :
    ∃ σ : ℝ → ℝ, (∀ ε, 0 < ε → ε ≠ γ → bremsEp γ ε = fin (σ ε)) ∧ IntegrableOn (fun ε => ε * σ ε) (Set.Ioi 0) ∧
      ∫ ε in Set.Ioi 0, ε * σ ε = betheHeitler cAlpha (cE ^ 2 / (cMe * cC ^ 2)) γ := by
  refine ⟨baringEp γ, fun ε h1 h2 => (C72_cross_sections_partial γ ε hγ h1 h2).1, ?_⟩
  obtain ⟨h1, h2⟩ := integral_below' (f := fun ε => ε * baringEp γ ε) (g := loss1 γ) hγ
    (fun ε h => by simp only [baringEp, if_neg (not_lt.2 h.le), mul_zero])
    (fun ε h h' _ => by simp only [baringEp, if_pos h']; exact baring1_shape γ ε h h') (loss1_integrable γ hγ)
  exact ⟨h1, by rw [h2, loss1_integral γ hγ, betheHeitler_eq]⟩

/-! ### Electrons -/

theorem neg_log_le (x : ℝ) (h0 : 0 < x) (h1 : x < 1) :
    -Real.log (1 - x) ≤ x + x ^ 2 / 2 + x ^ 3 / (1 - x) := by
  have := Real.abs_log_sub_add_sum_range_le (by rwa [abs_of_pos h0] : |x| < 1) 2
  simp only [Finset.sum_range_succ, Finset.sum_range_zero, abs_of_pos h0] at this
  norm_num at this
  have := (abs_le.1 this).1
  linarith

theorem baring2_lo_le (γ ε : ℝ) (hγ : 1 ≤ γ) (hε : 0 < ε) (h : ε < 1 / 2) :
    ε * baring2 γ ε ≤ r02alpha / 3 * (16 * Real.log (γ / ε) + 28) := by
  have hr := r02alpha_pos
  unfold baring2
  rw [if_pos h.le]
  have hl := neg_log_le (2 * ε) (by linarith) (by linarith)
  have h1 : 0 < 1 - 2 * ε := by linarith
  have hlog : 0 ≤ Real.log (γ / ε) := Real.log_nonneg (by rw [le_div_iff₀ hε]; linarith)
  set Y := -Real.log (1 - 2 * ε) with hY
  have hq0 : 1 / (4 * ε ^ 3) - 1 / (2 * ε ^ 2) + 3 / ε - 2 + 4 * ε =
      (1 - 2 * ε + 12 * ε ^ 2 - 8 * ε ^ 3 + 16 * ε ^ 4) / (4 * ε ^ 3) := by field_simp; ring
  have hN : 0 < 1 - 2 * ε + 12 * ε ^ 2 - 8 * ε ^ 3 + 16 * ε ^ 4 := by nlinarith [sq_nonneg (ε ^ 2), sq_nonneg ε]
  have hN5 : 1 - 2 * ε + 12 * ε ^ 2 - 8 * ε ^ 3 + 16 * ε ^ 4 ≤ 5 := by
    have p2 : ε ^ 2 ≤ 1 / 4 := by nlinarith
    have p4 : ε ^ 4 ≤ 1 / 16 := by nlinarith [sq_nonneg ε]
    nlinarith [pow_pos hε 3]
  rw [hq0]
  set N := 1 - 2 * ε + 12 * ε ^ 2 - 8 * ε ^ 3 + 16 * ε ^ 4 with hNdef
  have hlogY : Real.log (1 - 2 * ε) = -Y := by rw [hY]; ring
  rw [hlogY]
  have key : 2 * (1 - 2 * ε) * Y * (N / (4 * ε ^ 3)) ≤
      2 * (1 - 2 * ε) * (2 * ε + (2 * ε) ^ 2 / 2 + (2 * ε) ^ 3 / (1 - 2 * ε)) * (N / (4 * ε ^ 3)) :=
    mul_le_mul_of_nonneg_right (mul_le_mul_of_nonneg_left hl (by linarith)) (by positivity)
  have e1 : 2 * (1 - 2 * ε) * (2 * ε + (2 * ε) ^ 2 / 2 + (2 * ε) ^ 3 / (1 - 2 * ε)) * (N / (4 * ε ^ 3)) =
      4 * N + (1 - ε - 2 * ε ^ 2) * N / ε ^ 2 := by
    field_simp
    ring
  have e2 : (1 - ε - 2 * ε ^ 2) * N / ε ^ 2 = 1 / ε ^ 2 - 3 / ε + 12 - 16 * ε - 32 * ε ^ 4 := by
    rw [hNdef]; field_simp; ring
  have e3 : 16 * (1 - ε + ε ^ 2) * Real.log (γ / ε) ≤ 16 * Real.log (γ / ε) :=
    mul_le_mul_of_nonneg_right (by nlinarith) hlog
  have e4 : ε * (r02alpha / (3 * ε) * (16 * (1 - ε + ε ^ 2) * Real.log (γ / ε) - 1 / ε ^ 2 + 3 / ε - 4 - 4 * ε - 8 * ε ^ 2 -
        2 * (1 - 2 * ε) * -Y * (N / (4 * ε ^ 3)))) =
      r02alpha / 3 * (16 * (1 - ε + ε ^ 2) * Real.log (γ / ε) - 1 / ε ^ 2 + 3 / ε - 4 - 4 * ε - 8 * ε ^ 2 +
        2 * (1 - 2 * ε) * Y * (N / (4 * ε ^ 3))) := by
    rw [← mul_assoc, show ε * (r02alpha / (3 * ε)) = r02alpha / 3 by field_simp]; ring
  rw [e4]
  refine mul_le_mul_of_nonneg_left ?_ (by positivity)
  have : 0 < ε ^ 4 := by positivity
  have : 0 < ε ^ 2 := by positivity
  linarith

theorem baring2_hi_le (γ ε : ℝ) (hγ : 1 ≤ γ) (h : 1 / 2 < ε) :
    ε * baring2 γ ε ≤ r02alpha / 3 * (8 * Real.log (2 * γ) * ε⁻¹) := by
  have hr := r02alpha_pos
  have hε : 0 < ε := by linarith
  have hl : 0 ≤ Real.log (2 * γ) := Real.log_nonneg (by linarith)
  unfold baring2
  rw [if_neg (not_le.2 h), ← mul_assoc, show ε * (r02alpha / (3 * ε)) = r02alpha / 3 by field_simp]
  refine mul_le_mul_of_nonneg_left ?_ (by positivity)
  set u := 1 / ε with hu
  have u0 : 0 < u := by positivity
  have u2 : u < 2 := by rw [hu, div_lt_iff₀ hε]; linarith
  have e1 : 1 / (4 * ε ^ 2) = u ^ 2 / 4 := by rw [hu]; field_simp
  have e2 : 2 / ε = 2 * u := by rw [hu]; ring
  have e3 : 5 / (8 * ε ^ 2) = 5 * u ^ 2 / 8 := by rw [hu]; field_simp
  have e4 : ε⁻¹ = u := by rw [hu]; ring
  rw [e1, e2, e3, e4]
  have h3 : (4 - u + u ^ 2 / 4) * Real.log (2 * γ) ≤ 4 * Real.log (2 * γ) :=
    mul_le_mul_of_nonneg_right (by nlinarith) hl
  have h4 : -2 + 2 * u - 5 * u ^ 2 / 8 ≤ 0 := by nlinarith [sq_nonneg (u - 8 / 5)]
  nlinarith

theorem baring2_measurable (γ : ℝ) : Measurable (baring2 γ) := by
  unfold baring2
  refine Measurable.mul (by fun_prop) (Measurable.ite measurableSet_Iic ?_ ?_)
  · have := Real.measurable_log
    fun_prop
  · fun_prop

/-- The part A3 of the energy loss. -/
theorem baring2_energy (γ : ℝ) (hγ : 3.9 ≤ γ) :
    IntervalIntegrable (fun ε => ε * baring2 γ ε) volume 0 γ ∧
      ∫ ε in (0:ℝ)..γ, ε * baring2 γ ε ≤
        r02alpha / 3 * (8 * Real.log (2 * γ) ^ 2 + 8 * Real.log (2 * γ) + 22) := by
  have hγ0 : 0 < γ := by linarith
  have hm : ∀ s : Set ℝ, AEStronglyMeasurable (fun ε => ε * baring2 γ ε) (volume.restrict s) := fun s =>
    (measurable_id.mul (baring2_measurable γ)).aestronglyMeasurable
  have i1 : IntervalIntegrable (fun ε => r02alpha / 3 * (16 * (Real.log γ - Real.log ε) + 28)) volume 0 (1 / 2) :=
    (((intervalIntegrable_const.sub intervalIntegral.intervalIntegrable_log').const_mul _).add
      intervalIntegrable_const).const_mul _
  have i2 : IntervalIntegrable (fun ε => r02alpha / 3 * (8 * Real.log (2 * γ) * ε⁻¹)) volume (1 / 2) γ := by
    refine ((intervalIntegrable_inv_iff.2 (Or.inr ?_)).const_mul _).const_mul _
    rw [Set.uIcc_of_le (by linarith)]
    simp
  have b1 : ∀ ε ∈ Set.Ioo (0:ℝ) (1 / 2), ε * baring2 γ ε ≤ r02alpha / 3 * (16 * (Real.log γ - Real.log ε) + 28) := by
    rintro ε ⟨h0, h1⟩
    rw [← Real.log_div hγ0.ne' h0.ne']
    exact baring2_lo_le γ ε (by linarith) h0 h1
  have b2 : ∀ ε ∈ Set.Ioo (1 / 2 : ℝ) γ, ε * baring2 γ ε ≤ r02alpha / 3 * (8 * Real.log (2 * γ) * ε⁻¹) :=
    fun ε hε => baring2_hi_le γ ε (by linarith) hε.1
  have aux : ∀ (f g : ℝ → ℝ) (a b : ℝ), a ≤ b → (∀ s : Set ℝ, AEStronglyMeasurable f (volume.restrict s)) →
      IntervalIntegrable g volume a b → (∀ ε ∈ Set.Ioo a b, 0 ≤ f ε) → (∀ ε ∈ Set.Ioo a b, f ε ≤ g ε) →
      IntervalIntegrable f volume a b := by
    intro f g a b hab hf hg h0 h1
    rw [intervalIntegrable_iff_integrableOn_Ioo_of_le hab] at hg ⊢
    refine Integrable.mono' hg (hf _) ?_
    filter_upwards [ae_restrict_mem measurableSet_Ioo] with ε hε
    rw [Real.norm_of_nonneg (h0 ε hε)]
    exact h1 ε hε
  have j1 := aux _ _ 0 (1 / 2) (by norm_num) hm i1
    (fun ε hε => mul_nonneg hε.1.le (baring2_nonneg γ ε hγ hε.1 (by linarith [hε.2]) hε.2.ne)) b1
  have j2 := aux _ _ (1 / 2) γ (by linarith) hm i2
    (fun ε hε => mul_nonneg (by linarith [hε.1]) (baring2_nonneg γ ε hγ (by linarith [hε.1]) hε.2 hε.1.ne')) b2
  refine ⟨j1.trans j2, ?_⟩
  rw [← intervalIntegral.integral_add_adjacent_intervals j1 j2]
  have k1 := intervalIntegral.integral_mono_on_of_le_Ioo (by norm_num) j1 i1 b1
  have k2 := intervalIntegral.integral_mono_on_of_le_Ioo (by linarith) j2 i2 b2
  have v1 : ∫ ε in (0:ℝ)..(1 / 2), r02alpha / 3 * (16 * (Real.log γ - Real.log ε) + 28) =
      r02alpha / 3 * (8 * Real.log (2 * γ) + 22) := by
    rw [intervalIntegral.integral_const_mul, intervalIntegral.integral_add
      ((intervalIntegrable_const.sub intervalIntegral.intervalIntegrable_log').const_mul _) intervalIntegrable_const,
      intervalIntegral.integral_const_mul,
      intervalIntegral.integral_sub intervalIntegrable_const intervalIntegral.intervalIntegrable_log',
      integral_log, Real.log_mul (by norm_num) hγ0.ne']
    have : Real.log (1 / 2) = -Real.log 2 := by rw [one_div, Real.log_inv]
    rw [this]
    simp only [intervalIntegral.integral_const, smul_eq_mul, Real.log_zero]
    ring
  have v2 : ∫ ε in (1 / 2 : ℝ)..γ, r02alpha / 3 * (8 * Real.log (2 * γ) * ε⁻¹) =
      r02alpha / 3 * (8 * Real.log (2 * γ) ^ 2) := by
    rw [intervalIntegral.integral_const_mul, intervalIntegral.integral_const_mul, integral_inv_of_pos (by norm_num) hγ0]
    have : γ / (1 / 2) = 2 * γ := by ring
    rw [this]
    ring
  rw [v1] at k1
  rw [v2] at k2
  linarith

/-- How far A4 is from 1. -/
noncomputable def cutA (γ : ℝ) : ℝ := 8 / 3 * (γ - 1) ^ ((1 : ℝ) / 5) / (γ + 1)

theorem baringA_bounds (γ ε : ℝ) (hγ : 2 ≤ γ) (hε : 0 < ε) (h : ε < γ) :
    1 - cutA γ ≤ baringA γ ε ∧ baringA γ ε ≤ 1 := by
  have hγ0 : 0 < γ := by linarith
  have h2 : (ε / γ) ^ ((1 : ℝ) / 3) ≤ 1 :=
    Real.rpow_le_one (by positivity) (by rw [div_le_one hγ0]; exact h.le) (by norm_num)
  have h3 : 0 ≤ (ε / γ) ^ ((1 : ℝ) / 3) := by positivity
  have h5 : 0 ≤ cutA γ := by
    have : 0 ≤ γ - 1 := by linarith
    unfold cutA
    positivity
  have e : baringA γ ε = 1 - cutA γ * (ε / γ) ^ ((1 : ℝ) / 3) := rfl
  rw [e]
  constructor <;> nlinarith

theorem baringA_continuous (γ : ℝ) : Continuous (baringA γ) := by
  unfold baringA
  have : Continuous (fun ε : ℝ => (ε / γ) ^ ((1 : ℝ) / 3)) :=
    Continuous.rpow_const (by fun_prop) (fun _ => Or.inr (by norm_num))
  fun_prop

theorem cutA_nonneg (γ : ℝ) (hγ : 2 ≤ γ) : 0 ≤ cutA γ := by
  have : 0 ≤ γ - 1 := by linarith
  unfold cutA
  positivity

/-- The energy loss on electrons differs from that on protons by little. -/
theorem ee_loss (γ : ℝ) (hγ : γTwoMeV < γ) :
    IntegrableOn (fun ε => ε * baringEe γ ε) (Set.Ioi 0) ∧
      |(∫ ε in Set.Ioi 0, ε * baringEe γ ε) - 4 * r02alpha * γ * (Real.log (2 * γ) - 1 / 3)| ≤
        cutA γ * (4 * r02alpha * γ * (4 / 3 * (Real.log (2 * γ) + 3 / 2))) +
        r02alpha / 3 * (8 * Real.log (2 * γ) ^ 2 + 8 * Real.log (2 * γ) + 22) := by
  have h39 := γTwoMeV_gt
  have hγ0 : 0 < γ := by linarith
  obtain ⟨i2, b2⟩ := baring2_energy γ (by linarith)
  have i1 := loss1_integrable γ hγ0
  have hA := (baringA_continuous γ).continuousOn (s := Set.uIcc 0 γ)
  obtain ⟨h1, h2⟩ := integral_below' (f := fun ε => ε * baringEe γ ε)
    (g := fun ε => loss1 γ ε * baringA γ ε + ε * baring2 γ ε * baringA γ ε) hγ0
    (fun ε h => by simp only [baringEe, if_neg (not_le.2 hγ), if_neg (not_lt.2 h.le), mul_zero])
    (fun ε h h' _ => by
      simp only [baringEe, if_neg (not_le.2 hγ), if_pos h', loss1, ← baring1_shape γ ε h h']
      ring)
    ((i1.mul_continuousOn hA).add (i2.mul_continuousOn hA))
  refine ⟨h1, ?_⟩
  rw [h2, ← loss1_integral γ hγ0, intervalIntegral.integral_add (i1.mul_continuousOn hA) (i2.mul_continuousOn hA),
    add_sub_right_comm, ← intervalIntegral.integral_sub (i1.mul_continuousOn hA) i1]
  have hc := cutA_nonneg γ (by linarith)
  have e1 : |∫ ε in (0:ℝ)..γ, (loss1 γ ε * baringA γ ε - loss1 γ ε)| ≤
      cutA γ * (4 * r02alpha * γ * (4 / 3 * (Real.log (2 * γ) + 3 / 2))) := by
    refine (intervalIntegral.abs_integral_le_integral_abs hγ0.le).trans ?_
    refine (intervalIntegral.integral_mono_on_of_le_Ioo (g := fun ε => cutA γ * |loss1 γ ε|) hγ0.le
      ((i1.mul_continuousOn hA).sub i1).abs (i1.abs.const_mul _) fun ε hε => ?_).trans ?_
    · obtain ⟨a1, a2⟩ := baringA_bounds γ ε (by linarith) hε.1 hε.2
      rw [show loss1 γ ε * baringA γ ε - loss1 γ ε = (baringA γ ε - 1) * loss1 γ ε by ring, abs_mul]
      refine mul_le_mul_of_nonneg_right ?_ (abs_nonneg _)
      rw [abs_le]; constructor <;> linarith
    · rw [intervalIntegral.integral_const_mul]
      exact mul_le_mul_of_nonneg_left (loss1_abs γ (by linarith)) hc
  have e2 : |∫ ε in (0:ℝ)..γ, ε * baring2 γ ε * baringA γ ε| ≤
      r02alpha / 3 * (8 * Real.log (2 * γ) ^ 2 + 8 * Real.log (2 * γ) + 22) := by
    have hn : ∀ᵐ ε : ℝ ∂(volume.restrict (Set.Ioc 0 γ)), 0 ≤ ε * baring2 γ ε ∧ 0 ≤ baringA γ ε ∧ baringA γ ε ≤ 1 := by
      have n1 : ∀ᵐ ε : ℝ ∂(volume.restrict (Set.Ioc 0 γ)), ε ≠ γ :=
        ae_restrict_of_ae (by simp [ae_iff, measure_singleton])
      have n2 : ∀ᵐ ε : ℝ ∂(volume.restrict (Set.Ioc 0 γ)), ε ≠ 1 / 2 :=
        ae_restrict_of_ae (by simp [ae_iff, measure_singleton])
      filter_upwards [n1, n2, ae_restrict_mem measurableSet_Ioc] with ε h2 h2' h3
      have h4 : ε < γ := lt_of_le_of_ne h3.2 h2
      exact ⟨mul_nonneg h3.1.le (baring2_nonneg γ ε (by linarith) h3.1 h4 h2'),
        baringA_nonneg γ ε (by linarith) h3.1 h4, (baringA_bounds γ ε (by linarith) h3.1 h4).2⟩
    have hnn : 0 ≤ ∫ ε in (0:ℝ)..γ, ε * baring2 γ ε * baringA γ ε := by
      rw [intervalIntegral.integral_of_le hγ0.le]
      exact integral_nonneg_of_ae (hn.mono fun ε h => mul_nonneg h.1 h.2.1)
    rw [abs_of_nonneg hnn]
    refine le_trans ?_ b2
    rw [intervalIntegral.integral_of_le hγ0.le, intervalIntegral.integral_of_le hγ0.le]
    refine integral_mono_ae ?_ ?_ (hn.mono fun ε h => mul_le_of_le_one_right h.1 h.2.2)
    · exact (intervalIntegrable_iff_integrableOn_Ioc_of_le hγ0.le).1 (i2.mul_continuousOn hA)
    · exact (intervalIntegrable_iff_integrableOn_Ioc_of_le hγ0.le).1 i2
  exact (abs_add_le _ _).trans (add_le_add e1 e2)

/-- For `γ ≥ 1900` the difference is at most 2 %. -/
theorem ee_small (γ : ℝ) (hγ : 1900 ≤ γ) :
    cutA γ * (4 / 3 * (Real.log (2 * γ) + 3 / 2)) + (8 * Real.log (2 * γ) ^ 2 + 8 * Real.log (2 * γ) + 22) / (12 * γ) ≤
      0.02 * (Real.log (2 * γ) - 1 / 3) := by
  have e8 : Real.exp 8 < 2982 := by
    have := Real.exp_one_lt_d9
    rw [show (8:ℝ) = ((8:ℕ):ℝ) * 1 by norm_num, Real.exp_nat_mul]
    exact (pow_lt_pow_left₀ this (Real.exp_pos _).le (by norm_num)).trans_le (by norm_num)
  have e8' : 2979 < Real.exp 8 := by
    have := Real.exp_one_gt_d9
    rw [show (8:ℝ) = ((8:ℕ):ℝ) * 1 by norm_num, Real.exp_nat_mul]
    exact lt_of_le_of_lt (by norm_num) (pow_lt_pow_left₀ this (by norm_num) (by norm_num : (8:ℕ) ≠ 0))
  obtain ⟨x, hx⟩ : ∃ x, x = Real.log (2 * γ) := ⟨_, rfl⟩
  have hx8 : 8 ≤ x := by rw [hx, Real.le_log_iff_exp_le (by linarith)]; linarith
  have hex : 2 * γ = Real.exp x := by rw [hx, Real.exp_log (by linarith)]
  have hpoly : 2979 * (1 + (x - 8) + (x - 8) ^ 2 / 2) ≤ 2 * γ := by
    have h1 := Real.quadratic_le_exp_of_nonneg (show 0 ≤ x - 8 by linarith)
    rw [hex, show Real.exp x = Real.exp 8 * Real.exp (x - 8) by rw [← Real.exp_add]; ring_nf]
    exact mul_le_mul e8'.le h1 (by nlinarith) (by positivity)
  have hcut : cutA γ ≤ 0.0065 := by
    have h1 : (γ - 1) ^ ((1 : ℝ) / 5) ≤ 4.6 * ((4 + γ / 2059) / 5) := by
      have h46 : (4.6 : ℝ) = (4.6 ^ 5 : ℝ) ^ ((1 : ℝ) / 5) := by
        rw [← Real.rpow_natCast, ← Real.rpow_mul (by norm_num)]; norm_num
      have h2 := rpow_one_add_le_one_add_mul_self (s := (γ - 1) / 4.6 ^ 5 - 1) (p := 1 / 5)
        (by have : 0 ≤ (γ - 1) / 4.6 ^ 5 := div_nonneg (by linarith) (by norm_num)
            linarith) (by norm_num) (by norm_num)
      rw [show 1 + ((γ - 1) / 4.6 ^ 5 - 1) = (γ - 1) / 4.6 ^ 5 by ring,
        Real.div_rpow (by linarith) (by norm_num), ← h46] at h2
      rw [div_le_iff₀ (by norm_num)] at h2
      refine h2.trans ?_
      rw [mul_comm (4.6 : ℝ)]
      refine mul_le_mul_of_nonneg_right ?_ (by norm_num)
      have : (γ - 1) / 4.6 ^ 5 ≤ γ / 2059 := by
        rw [div_le_div_iff₀ (by norm_num) (by norm_num)]; nlinarith
      linarith
    unfold cutA
    rw [div_le_iff₀ (by linarith)]
    nlinarith
  have hc0 := cutA_nonneg γ (by linarith)
  rw [← hx]
  have h2 : (8 * x ^ 2 + 8 * x + 22) / (12 * γ) ≤ 0.005 * (x - 1 / 3) := by
    rw [div_le_iff₀ (by linarith)]
    obtain ⟨y, rfl⟩ : ∃ y, x = 8 + y := ⟨x - 8, by ring⟩
    have hy : 0 ≤ y := by linarith
    have h3 : 0.005 * (8 + y - 1 / 3) * (6 * (2979 * (1 + (8 + y - 8) + (8 + y - 8) ^ 2 / 2))) ≤
        0.005 * (8 + y - 1 / 3) * (6 * (2 * γ)) :=
      mul_le_mul_of_nonneg_left (by linarith) (by linarith)
    have h4 : 0 ≤ y ^ 3 := by positivity
    nlinarith
  have h1 : cutA γ * (4 / 3 * (x + 3 / 2)) ≤ 0.0065 * (4 / 3 * (x + 3 / 2)) :=
    mul_le_mul_of_nonneg_right hcut (by linarith)
  linarith

/-- **C117 (electrons).** For every electron of at least 1 GeV, the energy of the photons integrated over the computed
electron-electron cross section (finite at all photon energies but `ε = γ` and `ε = 1/2`) is that same loss within 2 %. -/
theorem C117_electrons (γ : ℝ) (hγ : 1e9 * cEV ≤ γ * (cMe * cC ^ 2)) :
    ∃ σ : ℝ → ℝ, (∀ ε, 0 < ε → ε ≠ γ → ε ≠ 1 / 2 → bremsEe γ ε = fin (σ ε)) ∧
      IntegrableOn (fun ε => ε * σ ε) (Set.Ioi 0) ∧
      |(∫ ε in Set.Ioi 0, ε * σ ε) - betheHeitler cAlpha (cE ^ 2 / (cMe * cC ^ 2)) γ| ≤
        0.02 * betheHeitler cAlpha (cE ^ 2 / (cMe * cC ^ 2)) γ := by
  have hm : 0 < cMe * cC ^ 2 := cMec2_pos
  have h19 : 1900 ≤ γ := by
    have : (1900 : ℝ) ≤ 1e9 * cEV / (cMe * cC ^ 2) := by unfold cEV cMe cC; norm_num
    rw [← div_le_iff₀ hm] at hγ
    linarith
  have h2 : γTwoMeV < γ := by
    have : γTwoMeV < 4 := by unfold γTwoMeV cEV cMe cC; norm_num
    linarith
  have hγ0 : 0 < γ := by linarith
  have hr := r02alpha_pos
  obtain ⟨h1, h3⟩ := ee_loss γ h2
  refine ⟨baringEe γ, fun ε e0 e1 e2 => (C72_cross_sections_partial γ ε hγ0 e0 e1).2 e2, h1, ?_⟩
  rw [betheHeitler_eq]
  refine h3.trans ?_
  have h4 := mul_le_mul_of_nonneg_left (ee_small γ h19) (show 0 ≤ 4 * r02alpha * γ by positivity)
  have e : 4 * r02alpha * γ * (cutA γ * (4 / 3 * (Real.log (2 * γ) + 3 / 2)) +
      (8 * Real.log (2 * γ) ^ 2 + 8 * Real.log (2 * γ) + 22) / (12 * γ)) =
      cutA γ * (4 * r02alpha * γ * (4 / 3 * (Real.log (2 * γ) + 3 / 2))) +
        r02alpha / 3 * (8 * Real.log (2 * γ) ^ 2 + 8 * Real.log (2 * γ) + 22) := by
    field_simp
    ring
  linarith

end Naima.Props
