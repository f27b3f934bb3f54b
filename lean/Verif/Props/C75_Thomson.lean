import Verif.Props.C71_ICFormula
import Mathlib.MeasureTheory.Integral.IntervalIntegral.IntegrationByParts
import Mathlib.Analysis.SpecialFunctions.Trigonometric.DerivHyp

/-! # C75: inverse Compton scattering conserves photons: the Thomson limit

Energies in electron rest masses. One electron of Lorentz factor `γ` in a monochromatic field of one photon
of energy `ε₀` per cm³. -/

namespace Naima.Props

open Naima XR Classical MeasureTheory

/-- Photons scattered per second and unit energy, as the code computes it. -/
noncomputable def rateOf (γ ε₀ ε : ℝ) : XR := monoKernel γ ε [ε₀] [fin ε₀]

/-- Scatterings per second: the integral over all photon energies. -/
noncomputable def scatterings (γ ε₀ : ℝ) : ℝ := ∫ ε in Set.Ioo 0 γ, (rateOf γ ε₀ ε).toReal

/-- Energy emitted per second. -/
noncomputable def power (γ ε₀ : ℝ) : ℝ := ∫ ε in Set.Ioo 0 γ, ε * (rateOf γ ε₀ ε).toReal

/-! ### Proof -/

theorem rateOf_eq (γ ε₀ ε : ℝ) (hγ : 0 < γ) (h0 : 0 < ε₀) (hε : 0 < ε) :
    rateOf γ ε₀ ε = fin (monoRate γ ε₀ ε) := by
  unfold rateOf
  rw [monoKernel_one γ ε ε₀ ε₀ hγ h0 hε, div_self h0.ne', one_mul]

/-- the photon energy at kinematic variable `q` -/
noncomputable def epsAt (γ ε₀ q : ℝ) : ℝ := γ * (4 * ε₀ * γ) * q / (1 + 4 * ε₀ * γ * q)

/-- the Thomson part of the kernel -/
noncomputable def K0 (q : ℝ) : ℝ := 2 * q * Real.log q + (1 + 2 * q) * (1 - q)

/-- the kernel -/
noncomputable def Kq (b q : ℝ) : ℝ := K0 q + (b * q) ^ 2 * (1 - q) / (2 * (1 + b * q))

theorem epsAt_facts (γ ε₀ q : ℝ) (hγ : 0 < γ) (h0 : 0 < ε₀) (hq : 0 < q) :
    0 < epsAt γ ε₀ q ∧ epsAt γ ε₀ q < γ ∧ Spec.kinQ γ ε₀ (epsAt γ ε₀ q) = q := by
  have hb : 0 < 4 * ε₀ * γ := by positivity
  have hd : 0 < 1 + 4 * ε₀ * γ * q := by positivity
  refine ⟨by unfold epsAt; positivity, ?_, ?_⟩
  · unfold epsAt
    rw [div_lt_iff₀ hd]
    have : γ * (4 * ε₀ * γ) * q = γ * (4 * ε₀ * γ * q) := by ring
    rw [this]
    nlinarith [mul_pos hb hq]
  · unfold Spec.kinQ epsAt
    have e : γ - γ * (4 * ε₀ * γ) * q / (1 + 4 * ε₀ * γ * q) = γ / (1 + 4 * ε₀ * γ * q) := by
      field_simp
      ring
    rw [e]
    field_simp

theorem kinQ_lt (γ ε₀ ε q : ℝ) (hγ : 0 < γ) (h0 : 0 < ε₀) (hq : 0 < q) (hlt : ε < γ) :
    (Spec.kinQ γ ε₀ ε < q ↔ ε < epsAt γ ε₀ q) := by
  have hb : 0 < 4 * ε₀ * γ := by positivity
  have hd : 0 < 1 + 4 * ε₀ * γ * q := by positivity
  have hge : 0 < γ - ε := by linarith
  unfold Spec.kinQ epsAt
  rw [div_lt_iff₀ (by positivity), lt_div_iff₀ hd]
  constructor <;> intro h <;> nlinarith

theorem kinQ_gt (γ ε₀ ε q : ℝ) (hγ : 0 < γ) (h0 : 0 < ε₀) (hq : 0 < q) (hlt : ε < γ) :
    (q < Spec.kinQ γ ε₀ ε ↔ epsAt γ ε₀ q < ε) := by
  have hb : 0 < 4 * ε₀ * γ := by positivity
  have hd : 0 < 1 + 4 * ε₀ * γ * q := by positivity
  have hge : 0 < γ - ε := by linarith
  unfold Spec.kinQ epsAt
  rw [lt_div_iff₀ (by positivity), div_lt_iff₀ hd]
  constructor <;> intro h <;> nlinarith

theorem epsAt_deriv (γ ε₀ q : ℝ) (hγ : 0 < γ) (h0 : 0 < ε₀) (hq : 0 < q) :
    HasDerivAt (epsAt γ ε₀) (γ * (4 * ε₀ * γ) / (1 + 4 * ε₀ * γ * q) ^ 2) q := by
  have hd : 0 < 1 + 4 * ε₀ * γ * q := by positivity
  have h1 : HasDerivAt (fun q : ℝ => γ * (4 * ε₀ * γ) * q) (γ * (4 * ε₀ * γ)) q := by
    simpa using (hasDerivAt_id q).const_mul (γ * (4 * ε₀ * γ))
  have h2 : HasDerivAt (fun q : ℝ => 1 + 4 * ε₀ * γ * q) (4 * ε₀ * γ) q := by
    simpa using ((hasDerivAt_id q).const_mul (4 * ε₀ * γ)).const_add 1
  refine (h1.div h2 hd.ne').congr_deriv ?_
  congr 1
  ring

theorem epsAt_mono (γ ε₀ p q : ℝ) (hγ : 0 < γ) (h0 : 0 < ε₀) (hp : 0 < p) (h : p ≤ q) :
    epsAt γ ε₀ p ≤ epsAt γ ε₀ q := by
  unfold epsAt
  rw [div_le_div_iff₀ (by positivity) (by have := hp.trans_le h; positivity)]
  nlinarith [mul_pos hγ h0, mul_pos (mul_pos hγ h0) hγ]

/-- the change of variables -/
theorem integral_q (γ ε₀ : ℝ) (hγ : 1 ≤ γ) (h0 : 0 < ε₀) (W : ℝ → ℝ) :
    ∫ ε in Set.Ioo 0 γ, W ε * (rateOf γ ε₀ ε).toReal =
      ∫ q in (1 / (4 * γ ^ 2))..1, W (epsAt γ ε₀ q) * (3 * (sigmaT * cC) * (Kq (4 * ε₀ * γ) q /
        (1 + 4 * ε₀ * γ * q) ^ 2)) := by
  have hγ0 : 0 < γ := by linarith
  set q0 := 1 / (4 * γ ^ 2) with hq0d
  have hq0 : 0 < q0 := by positivity
  have hq1 : q0 ≤ 1 := by
    rw [hq0d, div_le_one (by positivity)]; nlinarith
  obtain ⟨a1, a2, a3⟩ := epsAt_facts γ ε₀ q0 hγ0 h0 hq0
  obtain ⟨b1, b2, b3⟩ := epsAt_facts γ ε₀ 1 hγ0 h0 one_pos
  have hab := epsAt_mono γ ε₀ q0 1 hγ0 h0 hq0 hq1
  -- restrict to the kinematic range
  have hrestrict : ∫ ε in Set.Ioo 0 γ, W ε * (rateOf γ ε₀ ε).toReal =
      ∫ ε in Set.Icc (epsAt γ ε₀ q0) (epsAt γ ε₀ 1), W ε * (rateOf γ ε₀ ε).toReal := by
    apply setIntegral_eq_of_subset_of_forall_diff_eq_zero measurableSet_Ioo
    · intro x hx; exact ⟨by linarith [hx.1], by linarith [hx.2]⟩
    · rintro x ⟨⟨hx0, hx1⟩, hx⟩
      rw [rateOf_eq γ ε₀ x hγ0 h0 hx0, toReal_fin]
      unfold monoRate
      rw [if_pos hx1]
      rcases lt_or_ge x (epsAt γ ε₀ q0) with h | h
      · have := (kinQ_lt γ ε₀ x q0 hγ0 h0 hq0 hx1).2 h
        have hs : step (Spec.kinQ γ ε₀ x - 1 / (4 * γ ^ 2)) = 0 := by
          unfold step; rw [if_pos (by rw [← hq0d]; linarith)]
        rw [hs]; ring
      · have h' : epsAt γ ε₀ 1 < x := by
          by_contra hc; exact hx ⟨h, not_lt.1 hc⟩
        have := (kinQ_gt γ ε₀ x 1 hγ0 h0 one_pos hx1).2 h'
        have hs : step (1 - Spec.kinQ γ ε₀ x) = 0 := by
          unfold step; rw [if_pos (by linarith)]
        rw [hs]; ring
  rw [hrestrict, integral_Icc_eq_integral_Ioc, ← intervalIntegral.integral_of_le hab]
  have hsub := intervalIntegral.integral_comp_mul_deriv_of_deriv_nonneg
    (a := q0) (b := 1) (f := epsAt γ ε₀)
    (f' := fun q => γ * (4 * ε₀ * γ) / (1 + 4 * ε₀ * γ * q) ^ 2)
    (g := fun ε => W ε * (rateOf γ ε₀ ε).toReal) (by
      intro x hx
      rw [Set.uIcc_of_le hq1] at hx
      exact (epsAt_deriv γ ε₀ x hγ0 h0 (by linarith [hx.1])).continuousAt.continuousWithinAt) (by
      intro x hx
      rw [min_eq_left hq1, max_eq_right hq1] at hx
      exact epsAt_deriv γ ε₀ x hγ0 h0 (by linarith [hx.1])) (by
      intro x _; positivity)
  rw [← hsub, intervalIntegral.integral_of_le hq1, intervalIntegral.integral_of_le hq1,
    integral_Ioc_eq_integral_Ioo, integral_Ioc_eq_integral_Ioo]
  apply setIntegral_congr_fun measurableSet_Ioo
  intro q hq
  have hqp : 0 < q := by linarith [hq.1]
  obtain ⟨c1, c2, c3⟩ := epsAt_facts γ ε₀ q hγ0 h0 hqp
  simp only [Function.comp_apply]
  rw [rateOf_eq γ ε₀ _ hγ0 h0 c1, toReal_fin]
  unfold monoRate
  rw [if_pos c2, c3]
  have s1 : step (1 - q) = 1 := by
    unfold step; rw [if_neg (by linarith [hq.2]), if_pos (by linarith [hq.2])]
  have s2 : step (q - 1 / (4 * γ ^ 2)) = 1 := by
    have := hq.1
    unfold step; rw [if_neg (by linarith), if_pos (by linarith)]
  rw [s1, s2]
  unfold Spec.isoMono
  simp only [c3]
  unfold Kq K0
  have : 0 < 1 + 4 * ε₀ * γ * q := by positivity
  field_simp

/-! bounds on the kernel -/

theorem two_log_ge (s : ℝ) (hs : 0 < s) (h1 : s ≤ 1) : s - 1 / s ≤ 2 * Real.log s := by
  have hx : 0 ≤ -Real.log s := by
    have := Real.log_nonpos hs.le h1; linarith
  have := Real.self_le_sinh_iff.2 hx
  rw [Real.sinh_eq, neg_neg, Real.exp_log hs, Real.exp_neg, Real.exp_log hs] at this
  rw [one_div]
  linarith

theorem K0_ge (q : ℝ) (hq : 0 < q) (h1 : q ≤ 1) : (1 - q) / 2 ≤ K0 q := by
  have hs : 0 < Real.sqrt q := Real.sqrt_pos.2 hq
  have hs1 : Real.sqrt q ≤ 1 := Real.sqrt_le_one.2 h1
  have hsq : Real.sqrt q ^ 2 = q := Real.sq_sqrt hq.le
  have hlog : Real.log q = 2 * Real.log (Real.sqrt q) := by
    conv_lhs => rw [← hsq]
    rw [Real.log_pow]; norm_num
  have hl := two_log_ge _ hs hs1
  rw [← hlog] at hl
  unfold K0
  set s := Real.sqrt q
  have h2 : 2 * q * (s - 1 / s) ≤ 2 * q * Real.log q := by
    apply mul_le_mul_of_nonneg_left hl; positivity
  have e : 2 * q * (s - 1 / s) = 2 * s * (q - 1) := by
    rw [← hsq]; field_simp
  rw [e] at h2
  have h3 : 0 ≤ 1 - q := by linarith
  nlinarith [mul_nonneg h3 (sq_nonneg (2 * s - 1))]

theorem Kq_le (b q : ℝ) (hb : 0 < b) (hq : 0 < q) (h1 : q ≤ 1) :
    Kq b q / (1 + b * q) ^ 2 ≤ K0 q := by
  have hK := K0_ge q hq h1
  have hbq : 0 < b * q := by positivity
  have h3 : 0 ≤ 1 - q := by linarith
  rw [div_le_iff₀ (by positivity)]
  unfold Kq
  generalize b * q = x at hbq
  have hx1 : x ^ 2 * (1 - q) / (2 * (1 + x)) ≤ x * (1 - q) / 2 := by
    rw [div_le_div_iff₀ (by positivity) (by norm_num)]
    nlinarith [mul_nonneg hbq.le h3]
  nlinarith [mul_nonneg hbq.le h3, mul_le_mul_of_nonneg_right hK (by positivity : 0 ≤ x * (2 + x)),
    mul_nonneg (sq_nonneg x) h3]

theorem Kq_ge (b q : ℝ) (hb : 0 < b) (hq : 0 < q) (h1 : q ≤ 1) : K0 q ≤ Kq b q := by
  unfold Kq
  have h3 : 0 ≤ 1 - q := by linarith
  have : 0 ≤ (b * q) ^ 2 * (1 - q) / (2 * (1 + b * q)) := by positivity
  linarith

theorem cont_K0 (q0 : ℝ) (hq0 : 0 < q0) : ContinuousOn K0 (Set.Icc q0 1) := by
  unfold K0
  apply ContinuousOn.add
  · apply ContinuousOn.mul (by fun_prop)
    apply ContinuousOn.log continuousOn_id
    intro t ht; simp only [id]; linarith [ht.1]
  · fun_prop

theorem cont_Kq (b q0 : ℝ) (hb : 0 < b) (hq0 : 0 < q0) : ContinuousOn (Kq b) (Set.Icc q0 1) := by
  unfold Kq
  apply (cont_K0 q0 hq0).add
  apply ContinuousOn.div (by fun_prop) (by fun_prop)
  intro t ht
  have : 0 < t := by linarith [ht.1]
  positivity

theorem int_K0 (q0 : ℝ) (hq0 : 0 < q0) (h1 : q0 ≤ 1) :
    ∫ q in q0..1, K0 q = 1 / 3 - (q0 ^ 2 * Real.log q0 + q0 - 2 / 3 * q0 ^ 3) := by
  have hd : ∀ x ∈ Set.uIcc q0 1, HasDerivAt (fun q : ℝ => q ^ 2 * Real.log q + q - 2 / 3 * q ^ 3)
      (K0 x) x := by
    intro x hx
    rw [Set.uIcc_of_le h1] at hx
    have hx0 : x ≠ 0 := by linarith [hx.1]
    have := (((hasDerivAt_pow 2 x).mul (Real.hasDerivAt_log hx0)).add (hasDerivAt_id x)).sub
      ((hasDerivAt_pow 3 x).const_mul (2 / 3))
    refine this.congr_deriv ?_
    unfold K0
    norm_num
    field_simp
    ring
  rw [intervalIntegral.integral_eq_sub_of_hasDerivAt hd]
  · norm_num
  · rw [intervalIntegrable_iff_integrableOn_Icc_of_le h1]
    exact (cont_K0 q0 hq0).integrableOn_Icc

theorem int_qK0 (q0 : ℝ) (hq0 : 0 < q0) (h1 : q0 ≤ 1) :
    ∫ q in q0..1, q * K0 q = 1 / 9 -
      (2 / 3 * (q0 ^ 3 * Real.log q0) + (1 / 9 * q0 ^ 3 + (1 / 2 * q0 ^ 2 - 1 / 2 * q0 ^ 4))) := by
  have hd : ∀ x ∈ Set.uIcc q0 1, HasDerivAt (fun q : ℝ => 2 / 3 * (q ^ 3 * Real.log q) +
      (1 / 9 * q ^ 3 + (1 / 2 * q ^ 2 - 1 / 2 * q ^ 4))) (x * K0 x) x := by
    intro x hx
    rw [Set.uIcc_of_le h1] at hx
    have hx0 : x ≠ 0 := by linarith [hx.1]
    have := (((hasDerivAt_pow 3 x).mul (Real.hasDerivAt_log hx0)).const_mul (2 / 3)).add
      (((hasDerivAt_pow 3 x).const_mul (1 / 9)).add
      (((hasDerivAt_pow 2 x).const_mul (1 / 2)).sub ((hasDerivAt_pow 4 x).const_mul (1 / 2))))
    refine this.congr_deriv ?_
    unfold K0
    norm_num
    field_simp
    ring
  rw [intervalIntegral.integral_eq_sub_of_hasDerivAt hd]
  · norm_num
  · rw [intervalIntegrable_iff_integrableOn_Icc_of_le h1]
    exact (continuousOn_id.mul (cont_K0 q0 hq0)).integrableOn_Icc

/-- **C75 (number of scatterings).** For every electron (`γ ≥ 1`) and seed photon energy: the rate of
scatterings, integrated over all photon energies, never exceeds that of the Thomson cross section,
`σ_T c`, and is at least `(1 - 3/4γ²)/(1 + 4γε₀)²` of it; so it tends to `σ_T c` in the Thomson limit
`γ → ∞`, `γε₀ → 0`. -/
theorem C75_scatterings (γ ε₀ : ℝ) (hγ : 1 ≤ γ) (h0 : 0 < ε₀) :
    sigmaT * cC * (1 - 3 / (4 * γ ^ 2)) / (1 + 4 * γ * ε₀) ^ 2 ≤ scatterings γ ε₀ ∧
      scatterings γ ε₀ ≤ sigmaT * cC := by
  have hγ0 : 0 < γ := by linarith
  have hS : 0 < sigmaT * cC := by have := cC_pos; unfold sigmaT; positivity
  have key := integral_q γ ε₀ hγ h0 (fun _ => 1)
  simp only [one_mul] at key
  unfold scatterings
  rw [key]
  set b := 4 * ε₀ * γ with hb
  have hb0 : 0 < b := by positivity
  set q0 := 1 / (4 * γ ^ 2) with hq0d
  have hq0 : 0 < q0 := by positivity
  have hq1 : q0 ≤ 1 := by rw [hq0d, div_le_one (by positivity)]; nlinarith
  have hI1 : IntervalIntegrable (fun q => 3 * (sigmaT * cC) * (Kq b q / (1 + b * q) ^ 2)) volume q0 1 := by
    rw [intervalIntegrable_iff_integrableOn_Icc_of_le hq1]
    apply ContinuousOn.integrableOn_Icc
    apply ContinuousOn.mul continuousOn_const
    apply (cont_Kq b q0 hb0 hq0).div (by fun_prop)
    intro t ht
    have : 0 < t := by linarith [ht.1]
    positivity
  have hI0 : ∀ c : ℝ, IntervalIntegrable (fun q => c * K0 q) volume q0 1 := by
    intro c
    rw [intervalIntegrable_iff_integrableOn_Icc_of_le hq1]
    exact (continuousOn_const.mul (cont_K0 q0 hq0)).integrableOn_Icc
  have hlog : Real.log q0 ≤ 0 := Real.log_nonpos hq0.le hq1
  have hlog2 : 1 - 1 / q0 ≤ Real.log q0 := by rw [one_div]; exact Real.one_sub_inv_le_log_of_pos hq0
  constructor
  · have hm := intervalIntegral.integral_mono_on hq1 (hI0 (3 * (sigmaT * cC) / (1 + b) ^ 2)) hI1 (by
      intro q hq
      have hqp : 0 < q := by linarith [hq.1]
      have h1 := Kq_ge b q hb0 hqp hq.2
      have h2 : 0 ≤ K0 q := by have := K0_ge q hqp hq.2; have := hq.2; linarith
      have h3 : b * q ≤ b := by nlinarith [hq.2]
      have h4 : K0 q / (1 + b) ^ 2 ≤ Kq b q / (1 + b * q) ^ 2 := by
        apply div_le_div₀ (by linarith) h1 (by positivity)
        have : 0 < b * q := by positivity
        apply pow_le_pow_left₀ (by positivity); linarith
      have e : 3 * (sigmaT * cC) / (1 + b) ^ 2 * K0 q = 3 * (sigmaT * cC) * (K0 q / (1 + b) ^ 2) := by ring
      rw [e]
      exact mul_le_mul_of_nonneg_left h4 (by positivity))
    refine le_trans ?_ hm
    rw [intervalIntegral.integral_const_mul, int_K0 q0 hq0 hq1]
    have e1 : 1 + 4 * γ * ε₀ = 1 + b := by rw [hb]; ring
    have e2 : 3 / (4 * γ ^ 2) = 3 * q0 := by rw [hq0d]; ring
    rw [e1, e2, div_mul_eq_mul_div, div_le_div_iff_of_pos_right (by positivity)]
    have : (1 - 3 * q0) ≤ 3 * (1 / 3 - (q0 ^ 2 * Real.log q0 + q0 - 2 / 3 * q0 ^ 3)) := by
      have : q0 ^ 2 * Real.log q0 ≤ 0 := mul_nonpos_of_nonneg_of_nonpos (by positivity) hlog
      have : 0 < q0 ^ 3 := by positivity
      linarith
    nlinarith [mul_le_mul_of_nonneg_left this hS.le]
  · have hm := intervalIntegral.integral_mono_on hq1 hI1 (hI0 (3 * (sigmaT * cC))) (by
      intro q hq
      exact mul_le_mul_of_nonneg_left (Kq_le b q hb0 (by linarith [hq.1]) hq.2) (by positivity))
    refine le_trans hm ?_
    rw [intervalIntegral.integral_const_mul, int_K0 q0 hq0 hq1]
    have h1 : q0 ^ 2 * (1 - 1 / q0) ≤ q0 ^ 2 * Real.log q0 := mul_le_mul_of_nonneg_left hlog2 (by positivity)
    have e : q0 ^ 2 * (1 - 1 / q0) = q0 ^ 2 - q0 := by field_simp
    rw [e] at h1
    have h2 : 0 ≤ q0 ^ 2 * Real.log q0 + q0 - 2 / 3 * q0 ^ 3 := by nlinarith [sq_nonneg q0]
    nlinarith [mul_nonneg hS.le h2]

/-- **C75 (power).** The power emitted by one electron never exceeds `4/3 σ_T c γ² ε₀` and is at least
`(1 - 9/16γ⁴)/(1 + 4γε₀)³` of it: the classical result for inverse Compton losses. -/
theorem C75_power (γ ε₀ : ℝ) (hγ : 1 ≤ γ) (h0 : 0 < ε₀) :
    4 / 3 * (sigmaT * cC) * γ ^ 2 * ε₀ * (1 - 9 / (16 * γ ^ 4)) / (1 + 4 * γ * ε₀) ^ 3 ≤ power γ ε₀ ∧
      power γ ε₀ ≤ 4 / 3 * (sigmaT * cC) * γ ^ 2 * ε₀ := by
  have hγ0 : 0 < γ := by linarith
  have hS : 0 < sigmaT * cC := by have := cC_pos; unfold sigmaT; positivity
  have key := integral_q γ ε₀ hγ h0 (fun ε => ε)
  unfold power
  rw [key]
  have hform : ∀ q, epsAt γ ε₀ q * (3 * (sigmaT * cC) * (Kq (4 * ε₀ * γ) q / (1 + 4 * ε₀ * γ * q) ^ 2)) =
      12 * (sigmaT * cC) * γ ^ 2 * ε₀ * (q * (Kq (4 * ε₀ * γ) q / (1 + 4 * ε₀ * γ * q) ^ 3)) := by
    intro q
    unfold epsAt
    by_cases c : 1 + 4 * ε₀ * γ * q = 0
    · rw [c]; simp
    · field_simp
      ring
  simp only [hform]
  set b := 4 * ε₀ * γ with hb
  have hb0 : 0 < b := by positivity
  set q0 := 1 / (4 * γ ^ 2) with hq0d
  have hq0 : 0 < q0 := by positivity
  have hq1' : q0 ≤ 1 / 4 := by
    rw [hq0d, div_le_div_iff₀ (by positivity) (by norm_num)]; nlinarith
  have hq1 : q0 ≤ 1 := by linarith
  set A := 12 * (sigmaT * cC) * γ ^ 2 * ε₀ with hA
  have hA0 : 0 < A := by positivity
  have hI1 : IntervalIntegrable (fun q => A * (q * (Kq b q / (1 + b * q) ^ 3))) volume q0 1 := by
    rw [intervalIntegrable_iff_integrableOn_Icc_of_le hq1]
    apply ContinuousOn.integrableOn_Icc
    apply ContinuousOn.mul continuousOn_const
    apply ContinuousOn.mul continuousOn_id
    apply (cont_Kq b q0 hb0 hq0).div (by fun_prop)
    intro t ht
    have : 0 < t := by linarith [ht.1]
    positivity
  have hI0 : ∀ c : ℝ, IntervalIntegrable (fun q => c * (q * K0 q)) volume q0 1 := by
    intro c
    rw [intervalIntegrable_iff_integrableOn_Icc_of_le hq1]
    exact (continuousOn_const.mul (continuousOn_id.mul (cont_K0 q0 hq0))).integrableOn_Icc
  have hlog : Real.log q0 ≤ 0 := Real.log_nonpos hq0.le hq1
  have hqlog : -(1 / 2) ≤ q0 * Real.log q0 := by
    have hs : 0 < Real.sqrt q0 := Real.sqrt_pos.2 hq0
    have hsq : Real.sqrt q0 ^ 2 = q0 := Real.sq_sqrt hq0.le
    have hl : Real.log q0 = 2 * Real.log (Real.sqrt q0) := by
      conv_lhs => rw [← hsq]
      rw [Real.log_pow]; norm_num
    have h1 := Real.one_sub_inv_le_log_of_pos hs
    rw [hl]
    set s := Real.sqrt q0
    rw [← hsq]
    have h2 : s ^ 2 * (2 * (1 - s⁻¹)) ≤ s ^ 2 * (2 * Real.log s) :=
      mul_le_mul_of_nonneg_left (by linarith) (by positivity)
    have e : s ^ 2 * (2 * (1 - s⁻¹)) = 2 * s ^ 2 - 2 * s := by field_simp
    nlinarith [sq_nonneg (2 * s - 1)]
  constructor
  · have hm := intervalIntegral.integral_mono_on hq1 (hI0 (A / (1 + b) ^ 3)) hI1 (by
      intro q hq
      have hqp : 0 < q := by linarith [hq.1]
      have h1 := Kq_ge b q hb0 hqp hq.2
      have h2 : 0 ≤ K0 q := by have := K0_ge q hqp hq.2; have := hq.2; linarith
      have h3 : b * q ≤ b := by nlinarith [hq.2]
      have h4 : K0 q / (1 + b) ^ 3 ≤ Kq b q / (1 + b * q) ^ 3 := by
        apply div_le_div₀ (by linarith) h1 (by positivity)
        have : 0 < b * q := by positivity
        apply pow_le_pow_left₀ (by positivity); linarith
      have e : A / (1 + b) ^ 3 * (q * K0 q) = A * (q * (K0 q / (1 + b) ^ 3)) := by ring
      rw [e]
      exact mul_le_mul_of_nonneg_left (mul_le_mul_of_nonneg_left h4 hqp.le) hA0.le)
    refine le_trans ?_ hm
    rw [intervalIntegral.integral_const_mul, int_qK0 q0 hq0 hq1]
    have e1 : 1 + 4 * γ * ε₀ = 1 + b := by rw [hb]; ring
    have e2 : 9 / (16 * γ ^ 4) = 9 * q0 ^ 2 := by rw [hq0d]; field_simp; norm_num
    have e3 : 4 / 3 * (sigmaT * cC) * γ ^ 2 * ε₀ = A / 9 := by rw [hA]; ring
    rw [e1, e2, e3, div_mul_eq_mul_div (A) ((1 + b) ^ 3), div_le_div_iff_of_pos_right (by positivity)]
    have h1 : q0 ^ 3 * Real.log q0 ≤ 0 := mul_nonpos_of_nonneg_of_nonpos (by positivity) hlog
    have h2 : 1 / 9 * q0 ^ 3 ≤ 1 / 2 * q0 ^ 2 := by nlinarith [sq_nonneg q0]
    have h3 : 0 < q0 ^ 4 := by positivity
    have : (1 - 9 * q0 ^ 2) / 9 ≤ 1 / 9 -
      (2 / 3 * (q0 ^ 3 * Real.log q0) + (1 / 9 * q0 ^ 3 + (1 / 2 * q0 ^ 2 - 1 / 2 * q0 ^ 4))) := by linarith
    have := mul_le_mul_of_nonneg_left this hA0.le
    calc A / 9 * (1 - 9 * q0 ^ 2) = A * ((1 - 9 * q0 ^ 2) / 9) := by ring
      _ ≤ _ := this
  · have hm := intervalIntegral.integral_mono_on hq1 hI1 (hI0 A) (by
      intro q hq
      have hqp : 0 < q := by linarith [hq.1]
      have hd : 0 < b * q := by positivity
      have h1 := Kq_le b q hb0 hqp hq.2
      have h2 : 0 ≤ K0 q := by have := K0_ge q hqp hq.2; have := hq.2; linarith
      have h3 := Kq_ge b q hb0 hqp hq.2
      have h4 : Kq b q / (1 + b * q) ^ 3 ≤ Kq b q / (1 + b * q) ^ 2 := by
        apply div_le_div_of_nonneg_left (by linarith) (by positivity)
        apply pow_le_pow_right₀ (by linarith) (by norm_num)
      exact mul_le_mul_of_nonneg_left (mul_le_mul_of_nonneg_left (h4.trans h1) hqp.le) hA0.le)
    refine le_trans hm ?_
    rw [intervalIntegral.integral_const_mul, int_qK0 q0 hq0 hq1]
    have e3 : 4 / 3 * (sigmaT * cC) * γ ^ 2 * ε₀ = A / 9 := by rw [hA]; ring
    rw [e3]
    have h1 : q0 ^ 2 * (-(1 / 2)) ≤ q0 ^ 2 * (q0 * Real.log q0) := mul_le_mul_of_nonneg_left hqlog (by positivity)
    have e : q0 ^ 2 * (q0 * Real.log q0) = q0 ^ 3 * Real.log q0 := by ring
    rw [e] at h1
    have h4 : q0 ^ 4 ≤ q0 ^ 2 / 16 := by nlinarith [sq_nonneg q0, mul_nonneg (sq_nonneg q0) (by nlinarith : 0 ≤ 1 / 16 - q0 ^ 2)]
    have h5 : 0 < q0 ^ 3 := by positivity
    have h6 : 0 < q0 ^ 2 := by positivity
    have : 0 ≤ 2 / 3 * (q0 ^ 3 * Real.log q0) + (1 / 9 * q0 ^ 3 + (1 / 2 * q0 ^ 2 - 1 / 2 * q0 ^ 4)) := by
      linarith
    nlinarith [mul_nonneg hA0.le this]

/-- **C75 (Thomson limit).** Along every family of electrons and photons with `γ → ∞` and `γε₀ → 0`, the
rate of scatterings tends to `σ_T c` and the mean energy of the scattered photons, in units of `γ²ε₀`,
to 4/3. -/
theorem C75_thomson_limit {ι : Type} (l : Filter ι) (γ ε₀ : ι → ℝ) (h1 : ∀ i, 1 ≤ γ i)
    (h0 : ∀ i, 0 < ε₀ i) (hγ : Filter.Tendsto γ l Filter.atTop)
    (hb : Filter.Tendsto (fun i => γ i * ε₀ i) l (nhds 0)) :
    Filter.Tendsto (fun i => scatterings (γ i) (ε₀ i)) l (nhds (sigmaT * cC)) ∧
    Filter.Tendsto (fun i => power (γ i) (ε₀ i) / scatterings (γ i) (ε₀ i) / (γ i ^ 2 * ε₀ i)) l
      (nhds (4 / 3)) := by
  have hS : 0 < sigmaT * cC := by have := cC_pos; unfold sigmaT; positivity
  have hg2 : Filter.Tendsto (fun i => 3 / (4 * γ i ^ 2)) l (nhds 0) := by
    apply Filter.Tendsto.const_div_atTop
    apply Filter.Tendsto.const_mul_atTop (by norm_num)
    exact (Filter.tendsto_pow_atTop (by norm_num)).comp hγ
  have hg4 : Filter.Tendsto (fun i => 9 / (16 * γ i ^ 4)) l (nhds 0) := by
    apply Filter.Tendsto.const_div_atTop
    apply Filter.Tendsto.const_mul_atTop (by norm_num)
    exact (Filter.tendsto_pow_atTop (by norm_num)).comp hγ
  have hd : Filter.Tendsto (fun i => 1 + 4 * γ i * ε₀ i) l (nhds 1) := by
    have := (hb.const_mul 4).const_add 1
    simp only [mul_zero, add_zero] at this
    refine this.congr (fun i => by ring)
  have hs : Filter.Tendsto (fun i => scatterings (γ i) (ε₀ i)) l (nhds (sigmaT * cC)) := by
    refine tendsto_of_tendsto_of_tendsto_of_le_of_le (g := fun i =>
      sigmaT * cC * (1 - 3 / (4 * γ i ^ 2)) / (1 + 4 * γ i * ε₀ i) ^ 2) ?_ tendsto_const_nhds
      (fun i => (C75_scatterings _ _ (h1 i) (h0 i)).1) (fun i => (C75_scatterings _ _ (h1 i) (h0 i)).2)
    have := ((hg2.const_sub 1).const_mul (sigmaT * cC)).div (hd.pow 2) (by norm_num)
    simp only [sub_zero, mul_one, one_pow, div_one] at this
    exact this
  refine ⟨hs, ?_⟩
  have hp : Filter.Tendsto (fun i => power (γ i) (ε₀ i) / (γ i ^ 2 * ε₀ i)) l
      (nhds (4 / 3 * (sigmaT * cC))) := by
    refine tendsto_of_tendsto_of_tendsto_of_le_of_le (g := fun i =>
      4 / 3 * (sigmaT * cC) * (1 - 9 / (16 * γ i ^ 4)) / (1 + 4 * γ i * ε₀ i) ^ 3) (h :=
      fun _ => 4 / 3 * (sigmaT * cC)) ?_ tendsto_const_nhds ?_ ?_
    · have := ((hg4.const_sub 1).const_mul (4 / 3 * (sigmaT * cC))).div (hd.pow 3) (by norm_num)
      simp only [sub_zero, mul_one, one_pow, div_one] at this
      exact this
    · intro i
      have hγ0 : 0 < γ i := by linarith [h1 i]
      have he := h0 i
      have := (C75_power _ _ (h1 i) (h0 i)).1
      show _ ≤ power (γ i) (ε₀ i) / (γ i ^ 2 * ε₀ i)
      rw [le_div_iff₀ (by positivity)]
      refine le_trans (le_of_eq ?_) this
      ring
    · intro i
      have hγ0 : 0 < γ i := by linarith [h1 i]
      have he := h0 i
      have := (C75_power _ _ (h1 i) (h0 i)).2
      show power (γ i) (ε₀ i) / (γ i ^ 2 * ε₀ i) ≤ _
      rw [div_le_iff₀ (by positivity)]
      linarith
  have := hp.div hs hS.ne'
  have e : 4 / 3 * (sigmaT * cC) / (sigmaT * cC) = 4 / 3 := mul_div_cancel_right₀ _ hS.ne'
  rw [e] at this
  refine this.congr (fun i => ?_)
  simp only [Pi.div_apply]
  ring

/-- Non-vacuity: electrons of `γ = n + 1` and photons of `ε₀ = 1/(n + 1)²`. -/
example : ∃ γ ε₀ : ℕ → ℝ, (∀ i, 1 ≤ γ i) ∧ (∀ i, 0 < ε₀ i) ∧
    Filter.Tendsto γ Filter.atTop Filter.atTop ∧
    Filter.Tendsto (fun i => γ i * ε₀ i) Filter.atTop (nhds 0) := by
  refine ⟨fun n => n + 1, fun n => 1 / ((n:ℝ) + 1) ^ 2, fun i => by
    have : (0:ℝ) ≤ i := Nat.cast_nonneg i
    linarith, fun i => by positivity, ?_, ?_⟩
  · exact Filter.tendsto_atTop_add_const_right _ _ tendsto_natCast_atTop_atTop
  · refine tendsto_one_div_add_atTop_nhds_zero_nat.congr (fun n => ?_)
    field_simp

end Naima.Props
