import Verif.Props.C74_KelnerFormula
import Mathlib.Analysis.SpecialFunctions.Integrals.Basic
import Mathlib.Analysis.SpecialFunctions.Log.NegMulLog

/-! # The energy that the photons of a p-p collision carry -/

namespace Naima.Props

open Naima XR Classical MeasureTheory

/-! ### Moments -/

/-- `∫₀¹ -ln(x) x^c dx = 1/(c+1)²` -/
theorem log_moment (c : ℝ) (hc : 0 ≤ c) :
    IntervalIntegrable (fun x : ℝ => -Real.log x * x ^ c) volume 0 1 ∧
      ∫ x in (0:ℝ)..1, -Real.log x * x ^ c = 1 / (c + 1) ^ 2 := by
  have h1 : c + 1 ≠ 0 := by positivity
  have hp : Continuous fun x : ℝ => x ^ c := Real.continuous_rpow_const hc
  have hi : IntervalIntegrable (fun x : ℝ => -Real.log x * x ^ c) volume 0 1 :=
    (intervalIntegral.intervalIntegrable_log'.neg).mul_continuousOn hp.continuousOn
  refine ⟨hi, ?_⟩
  set G : ℝ → ℝ := fun x => x * x ^ c / (c + 1) ^ 2 - x ^ c * (x * Real.log x) / (c + 1) with hG
  have hGc : Continuous G := by
    have := Real.continuous_mul_log
    fun_prop
  have hd : ∀ x ∈ Set.Ioo (0:ℝ) 1, HasDerivAt G (-Real.log x * x ^ c) x := by
    rintro x ⟨h0, -⟩
    have d1 : HasDerivAt (fun x : ℝ => x ^ c) (c * (x ^ c / x)) x := by
      have := Real.hasDerivAt_rpow_const (p := c) (Or.inl h0.ne')
      rwa [Real.rpow_sub_one h0.ne'] at this
    have d2 := Real.hasDerivAt_mul_log h0.ne'
    have := (((hasDerivAt_id x).mul d1).div_const ((c + 1) ^ 2)).sub ((d1.mul d2).div_const (c + 1))
    refine this.congr_deriv ?_
    simp only [id]
    have := h0.ne'
    field_simp
    ring
  rw [intervalIntegral.integral_eq_sub_of_hasDerivAt_of_le zero_le_one hGc.continuousOn hd hi]
  simp [hG]

/-! ### The energy per collision as an integral of the number of photons -/

/-- The shape of the integrand, with `β = 1/a`. -/
noncomputable def fracShape (a k x : ℝ) : ℝ :=
  -Real.log x * ((1 - x ^ (1 / a)) / (1 + k * x ^ (1 / a) * (1 - x ^ (1 / a)))) ^ 4

noncomputable def fracInt (a k : ℝ) : ℝ := ∫ x in (0:ℝ)..1, fracShape a k x

theorem unit_rpow (a x : ℝ) (ha : 0 < a) (hx : x ∈ Set.Icc (0:ℝ) 1) : 0 ≤ x ^ (1 / a) ∧ x ^ (1 / a) ≤ 1 :=
  ⟨Real.rpow_nonneg hx.1 _, Real.rpow_le_one hx.1 hx.2 (by positivity)⟩

theorem den_pos (k y : ℝ) (hk : 0 ≤ k) (h0 : 0 ≤ y) (h1 : y ≤ 1) : 0 < 1 + k * y * (1 - y) := by
  have : 0 ≤ 1 - y := by linarith
  positivity

theorem ratio_continuousOn (a k : ℝ) (ha : 0 < a) (hk : 0 ≤ k) :
    ContinuousOn (fun x : ℝ => ((1 - x ^ (1 / a)) / (1 + k * x ^ (1 / a) * (1 - x ^ (1 / a)))) ^ 4) (Set.Icc 0 1) := by
  have hp : Continuous fun x : ℝ => x ^ (1 / a) := Real.continuous_rpow_const (by positivity)
  refine (ContinuousOn.div (by fun_prop) (by fun_prop) fun x hx => ?_).pow 4
  obtain ⟨h0, h1⟩ := unit_rpow a x ha hx
  exact (den_pos k _ hk h0 h1).ne'

theorem fracShape_integrable (a k : ℝ) (ha : 0 < a) (hk : 0 ≤ k) :
    IntervalIntegrable (fracShape a k) volume 0 1 := by
  refine (intervalIntegral.intervalIntegrable_log'.neg).mul_continuousOn ?_
  rw [Set.uIcc_of_le zero_le_one]
  exact ratio_continuousOn a k ha hk

theorem above_eq (E x : ℝ) : KAB06.above E x =
    -(KAB06.B (Real.log E) * fracShape (kBetaInv (Real.log E)) (1 / kKInv (Real.log E)) x) := by
  unfold KAB06.above fracShape KAB06.β KAB06.k kBetaInv kKInv
  simp only []
  ring

/-- Energy per collision, in units of the energy of the proton. -/
theorem energy_by_parts (E : ℝ) :
    IntervalIntegrable (fun x => x * KAB06.F x E) volume 0 1 ∧
      ∫ x in (0:ℝ)..1, x * KAB06.F x E =
        KAB06.B (Real.log E) * fracInt (kBetaInv (Real.log E)) (1 / kKInv (Real.log E)) := by
  set a := kBetaInv (Real.log E) with ha'
  set k := 1 / kKInv (Real.log E) with hk'
  set B := KAB06.B (Real.log E)
  have ha : 0 < a := kBetaInv_pos _
  have hk : 0 < k := one_div_pos.2 (kKInv_pos _)
  have hae : KAB06.above E = fun x => -(B * fracShape a k x) := funext (above_eq E)
  have hi := fracShape_integrable a k ha hk.le
  set P : ℝ → ℝ := fun x => ∫ t in (0:ℝ)..x, fracShape a k t with hP
  set G : ℝ → ℝ := fun x => x * KAB06.above E x + B * P x with hG
  have hcont : ContinuousOn G (Set.Icc 0 1) := by
    refine ContinuousOn.add ?_ (continuousOn_const.mul ?_)
    · have : ∀ x, x * KAB06.above E x = B * (x * Real.log x) *
          ((1 - x ^ (1 / a)) / (1 + k * x ^ (1 / a) * (1 - x ^ (1 / a)))) ^ 4 := by
        intro x; rw [above_eq]; unfold fracShape; ring
      simp only [this]
      exact (continuousOn_const.mul Real.continuous_mul_log.continuousOn).mul (ratio_continuousOn a k ha hk.le)
    · have := intervalIntegral.continuousOn_primitive_interval (a := (0:ℝ)) (b := 1) (f := fracShape a k)
        (μ := volume) (by
          rw [Set.uIcc_of_le zero_le_one, integrableOn_Icc_iff_integrableOn_Ioc]
          exact (intervalIntegrable_iff_integrableOn_Ioc_of_le zero_le_one).1 hi)
      rwa [Set.uIcc_of_le zero_le_one] at this
  have hder : ∀ x ∈ Set.Ioo (0:ℝ) 1, HasDerivAt G (x * KAB06.F x E) x := by
    intro x hx
    obtain ⟨r, _, hd⟩ := above_hasDeriv x E hx.1 hx.2
    have hF : KAB06.F x E = r := by unfold KAB06.F; exact hd.deriv
    have hs : ContinuousAt (fracShape a k) x := by
      refine ContinuousAt.mul (Real.continuousAt_log hx.1.ne').neg ?_
      exact (ratio_continuousOn a k ha hk.le).continuousAt (Icc_mem_nhds hx.1 hx.2)
    have hpd : HasDerivAt P (fracShape a k x) x := by
      refine intervalIntegral.integral_hasDerivAt_right (hi.mono_set ?_) ?_ hs
      · rw [Set.uIcc_of_le hx.1.le, Set.uIcc_of_le zero_le_one]
        exact Set.Icc_subset_Icc le_rfl hx.2.le
      · have hco : ContinuousOn (fracShape a k) (Set.Ioo 0 1) := by
          refine ContinuousOn.mul (ContinuousOn.neg (Real.continuousOn_log.mono fun y hy => hy.1.ne')) ?_
          exact (ratio_continuousOn a k ha hk.le).mono Set.Ioo_subset_Icc_self
        exact hco.stronglyMeasurableAtFilter isOpen_Ioo x hx
    have := ((hasDerivAt_id x).mul hd).add (hpd.const_mul B)
    refine this.congr_deriv ?_
    rw [hF, hae]
    simp only [id]
    ring
  have hnn : ∀ x ∈ Set.Ioo (0:ℝ) 1, 0 ≤ x * KAB06.F x E := by
    intro t ht
    obtain ⟨r, hr, e⟩ := kFgamma_pos t E ht.1 ht.2
    rw [kFgamma_eq t E ht.1 ht.2, fin_inj] at e
    rw [e]; exact mul_nonneg ht.1.le hr.le
  have hint : IntervalIntegrable (fun x => x * KAB06.F x E) volume 0 1 := by
    rw [intervalIntegrable_iff_integrableOn_Ioc_of_le zero_le_one]
    exact intervalIntegral.integrableOn_deriv_of_nonneg hcont hder hnn
  refine ⟨hint, ?_⟩
  rw [intervalIntegral.integral_eq_sub_of_hasDerivAt_of_le zero_le_one hcont hder hint]
  simp [hG, hP, fracInt, KAB06.above]

/-! ### Monotonicity in the parameters -/

theorem ratio_mono (k k' y y' : ℝ) (hk : 0 ≤ k) (hkk : k ≤ k') (h0 : 0 ≤ y) (hy : y ≤ y') (h1 : y' ≤ 1) :
    (1 - y') / (1 + k' * y' * (1 - y')) ≤ (1 - y) / (1 + k * y * (1 - y)) := by
  have d1 := den_pos k y hk h0 (hy.trans h1)
  have d2 := den_pos k' y' (hk.trans hkk) (h0.trans hy) h1
  rw [div_le_div_iff₀ d2 d1]
  have e1 : 0 ≤ 1 - y' := by linarith
  have e2 : 0 ≤ 1 - y := by linarith
  have e3 : 0 ≤ (k' - k) * (y' * ((1 - y) * (1 - y'))) :=
    mul_nonneg (by linarith) (mul_nonneg (h0.trans hy) (mul_nonneg e2 e1))
  have e4 : 0 ≤ k * ((1 - y) * (1 - y') * (y' - y)) :=
    mul_nonneg hk (mul_nonneg (mul_nonneg e2 e1) (by linarith))
  nlinarith

theorem fracInt_mono (a a' k k' : ℝ) (ha : 0 < a) (haa : a ≤ a') (hk : 0 ≤ k) (hkk : k ≤ k') :
    fracInt a' k' ≤ fracInt a k := by
  have ha' : 0 < a' := ha.trans_le haa
  refine intervalIntegral.integral_mono_on zero_le_one (fracShape_integrable a' k' ha' (hk.trans hkk))
    (fracShape_integrable a k ha hk) fun x hx => ?_
  unfold fracShape
  have hl : 0 ≤ -Real.log x := neg_nonneg.2 (Real.log_nonpos hx.1 hx.2)
  refine mul_le_mul_of_nonneg_left ?_ hl
  obtain ⟨h0, h1⟩ := unit_rpow a' x ha' hx
  obtain ⟨h2, h3⟩ := unit_rpow a x ha hx
  have hy : x ^ (1 / a) ≤ x ^ (1 / a') := by
    rcases hx.1.eq_or_lt with h | h
    · rw [← h, Real.zero_rpow (by positivity), Real.zero_rpow (by positivity)]
    · exact Real.rpow_le_rpow_of_exponent_ge h hx.2 (one_div_le_one_div_of_le ha haa)
  have d2 := den_pos k' _ (hk.trans hkk) h0 h1
  exact pow_le_pow_left₀ (div_nonneg (by linarith) d2.le) (ratio_mono k k' _ _ hk hkk h2 hy h1) 4

/-! ### Polynomial bounds -/

/-- `a² / (a + j)²`, the integral of `-ln(x) x^(j/a)`. -/
noncomputable def mom (a : ℝ) (j : ℝ) : ℝ := a ^ 2 / (a + j) ^ 2

theorem mom_eq (a : ℝ) (ha : 0 < a) (j : ℕ) :
    IntervalIntegrable (fun x : ℝ => -Real.log x * (x ^ (1 / a)) ^ j) volume 0 1 ∧
      ∫ x in (0:ℝ)..1, -Real.log x * (x ^ (1 / a)) ^ j = mom a j := by
  obtain ⟨h1, h2⟩ := log_moment (j / a) (by positivity)
  have e : Set.EqOn (fun x : ℝ => -Real.log x * x ^ ((j:ℝ) / a)) (fun x : ℝ => -Real.log x * (x ^ (1 / a)) ^ j)
      (Set.uIcc 0 1) := by
    intro x hx
    rw [Set.uIcc_of_le zero_le_one] at hx
    simp only
    rw [← Real.rpow_natCast, ← Real.rpow_mul hx.1]
    congr 2
    ring
  refine ⟨h1.congr (e.mono Set.uIoc_subset_uIcc), ?_⟩
  rw [← intervalIntegral.integral_congr e, h2]
  unfold mom
  field_simp
  ring

/-- Integral of a polynomial in `x^(1/a)`. -/
theorem poly_int (a : ℝ) (ha : 0 < a) (c : ℕ → ℝ) (n : ℕ) :
    IntervalIntegrable (fun x : ℝ => -Real.log x * ∑ j ∈ Finset.range n, c j * (x ^ (1 / a)) ^ j) volume 0 1 ∧
      ∫ x in (0:ℝ)..1, -Real.log x * ∑ j ∈ Finset.range n, c j * (x ^ (1 / a)) ^ j =
        ∑ j ∈ Finset.range n, c j * mom a j := by
  have e : (fun x : ℝ => -Real.log x * ∑ j ∈ Finset.range n, c j * (x ^ (1 / a)) ^ j) =
      fun x => ∑ j ∈ Finset.range n, c j * (-Real.log x * (x ^ (1 / a)) ^ j) := by
    funext x
    rw [Finset.mul_sum]
    exact Finset.sum_congr rfl fun j _ => by ring
  rw [e]
  constructor
  · have := IntervalIntegrable.sum (Finset.range n) (f := fun j x => c j * (-Real.log x * (x ^ (1 / a)) ^ j))
      (fun j _ => ((mom_eq a ha j).1).const_mul (c j))
    rwa [Finset.sum_fn] at this
  · rw [intervalIntegral.integral_finset_sum (fun j _ => ((mom_eq a ha j).1).const_mul (c j))]
    exact Finset.sum_congr rfl fun j _ => by rw [intervalIntegral.integral_const_mul, (mom_eq a ha j).2]

/-- `∫₀¹ -ln(x) (1-y)⁴ (p₀ + p₁ s + p₂ s²) dx` with `y = x^(1/a)`, `s = k y (1-y)`. -/
noncomputable def gSum (p0 p1 p2 a k : ℝ) : ℝ :=
  p0 * (mom a 0 - 4 * mom a 1 + 6 * mom a 2 - 4 * mom a 3 + mom a 4) +
  p1 * k * (mom a 1 - 5 * mom a 2 + 10 * mom a 3 - 10 * mom a 4 + 5 * mom a 5 - mom a 6) +
  p2 * k ^ 2 * (mom a 2 - 6 * mom a 3 + 15 * mom a 4 - 20 * mom a 5 + 15 * mom a 6 - 6 * mom a 7 + mom a 8)

theorem gSum_int (p0 p1 p2 a k : ℝ) (ha : 0 < a) :
    IntervalIntegrable (fun x : ℝ => -Real.log x * ((1 - x ^ (1 / a)) ^ 4 * (p0 + p1 * (k * x ^ (1 / a) * (1 - x ^ (1 / a))) +
      p2 * (k * x ^ (1 / a) * (1 - x ^ (1 / a))) ^ 2))) volume 0 1 ∧
    ∫ x in (0:ℝ)..1, -Real.log x * ((1 - x ^ (1 / a)) ^ 4 * (p0 + p1 * (k * x ^ (1 / a) * (1 - x ^ (1 / a))) +
      p2 * (k * x ^ (1 / a) * (1 - x ^ (1 / a))) ^ 2)) = gSum p0 p1 p2 a k := by
  set c : ℕ → ℝ := fun j => [p0, -4 * p0 + p1 * k, 6 * p0 - 5 * (p1 * k) + p2 * k ^ 2,
    -4 * p0 + 10 * (p1 * k) - 6 * (p2 * k ^ 2), p0 - 10 * (p1 * k) + 15 * (p2 * k ^ 2),
    5 * (p1 * k) - 20 * (p2 * k ^ 2), -(p1 * k) + 15 * (p2 * k ^ 2), -6 * (p2 * k ^ 2), p2 * k ^ 2].getD j 0 with hc
  obtain ⟨h1, h2⟩ := poly_int a ha c 9
  have e : (fun x : ℝ => -Real.log x * ∑ j ∈ Finset.range 9, c j * (x ^ (1 / a)) ^ j) =
      fun x : ℝ => -Real.log x * ((1 - x ^ (1 / a)) ^ 4 * (p0 + p1 * (k * x ^ (1 / a) * (1 - x ^ (1 / a))) +
      p2 * (k * x ^ (1 / a) * (1 - x ^ (1 / a))) ^ 2)) := by
    funext x
    congr 1
    generalize x ^ (1 / a) = y
    simp only [Finset.sum_range_succ, Finset.sum_range_zero, hc, List.getD_cons_zero, List.getD_cons_succ]
    ring
  rw [e] at h1 h2
  refine ⟨h1, h2.trans ?_⟩
  simp only [Finset.sum_range_succ, Finset.sum_range_zero, hc, List.getD_cons_zero, List.getD_cons_succ, gSum]
  push_cast
  ring

theorem quarter (k y : ℝ) (hk : 0 ≤ k) (hk1 : k ≤ 4 / 3) (h0 : 0 ≤ y) (h1 : y ≤ 1) :
    0 ≤ k * y * (1 - y) ∧ k * y * (1 - y) ≤ 1 / 3 := by
  have h2 : 0 ≤ 1 - y := by linarith
  refine ⟨by positivity, ?_⟩
  have : y * (1 - y) ≤ 1 / 4 := by nlinarith [sq_nonneg (y - 1 / 2)]
  have h3 : 0 ≤ y * (1 - y) := by positivity
  nlinarith

/-- `(1+s)⁻⁴` from above -/
theorem hi_poly (s : ℝ) (h : 0 ≤ s) : 1 ≤ (1 + s) ^ 4 * (1 + -10664 / 3125 * s + 13136 / 3125 * s ^ 2) := by
  have : (1 + s) ^ 4 * (1 + -10664 / 3125 * s + 13136 / 3125 * s ^ 2) - 1 =
      s * (s - 1 / 4) ^ 2 * (13136 / 3125 * s ^ 3 + 48448 / 3125 * s ^ 2 + 62688 / 3125 * s + 29376 / 3125) := by
    ring
  have h2 : 0 ≤ s * (s - 1 / 4) ^ 2 * (13136 / 3125 * s ^ 3 + 48448 / 3125 * s ^ 2 + 62688 / 3125 * s + 29376 / 3125) := by
    positivity
  linarith

/-- `(1+s)⁻⁴` from below -/
theorem lo_poly (s : ℝ) (h : 0 ≤ s) (h1 : s ≤ 1 / 3) :
    (1 + s) ^ 4 * (3087477 / 3200000 + -5112477 / 1600000 * s + 12000069 / 3200000 * s ^ 2) ≤ 1 := by
  have : 1 - (1 + s) ^ 4 * (3087477 / 3200000 + -5112477 / 1600000 * s + 12000069 / 3200000 * s ^ 2) =
      (1 / 3 - s) * ((s - 1 / 9) ^ 2 * (12000069 / 3200000 * s ^ 3 + 44442027 / 3200000 * s ^ 2 +
        57841047 / 3200000 * s + 27343089 / 3200000)) := by
    ring
  have h2 : 0 ≤ (1 / 3 - s) * ((s - 1 / 9) ^ 2 * (12000069 / 3200000 * s ^ 3 + 44442027 / 3200000 * s ^ 2 +
        57841047 / 3200000 * s + 27343089 / 3200000)) :=
    mul_nonneg (by linarith) (by positivity)
  linarith

theorem fracInt_le (a k : ℝ) (ha : 0 < a) (hk : 0 ≤ k) :
    fracInt a k ≤ gSum 1 (-10664 / 3125) (13136 / 3125) a k := by
  obtain ⟨h1, h2⟩ := gSum_int 1 (-10664 / 3125) (13136 / 3125) a k ha
  rw [← h2]
  refine intervalIntegral.integral_mono_on zero_le_one (fracShape_integrable a k ha hk) h1 fun x hx => ?_
  refine mul_le_mul_of_nonneg_left ?_ (neg_nonneg.2 (Real.log_nonpos hx.1 hx.2))
  obtain ⟨h3, h4⟩ := unit_rpow a x ha hx
  have hd := den_pos k _ hk h3 h4
  generalize x ^ (1 / a) = y at *
  have h5 : 0 ≤ 1 - y := by linarith
  have hp := hi_poly (k * y * (1 - y)) (by positivity)
  rw [div_pow, div_le_iff₀ (by positivity)]
  nlinarith [mul_le_mul_of_nonneg_left hp (by positivity : 0 ≤ (1 - y) ^ 4)]

theorem le_fracInt (a k : ℝ) (ha : 0 < a) (hk : 0 ≤ k) (hk1 : k ≤ 4 / 3) :
    gSum (3087477 / 3200000) (-5112477 / 1600000) (12000069 / 3200000) a k ≤ fracInt a k := by
  obtain ⟨h1, h2⟩ := gSum_int (3087477 / 3200000) (-5112477 / 1600000) (12000069 / 3200000) a k ha
  rw [← h2]
  refine intervalIntegral.integral_mono_on zero_le_one h1 (fracShape_integrable a k ha hk) fun x hx => ?_
  refine mul_le_mul_of_nonneg_left ?_ (neg_nonneg.2 (Real.log_nonpos hx.1 hx.2))
  obtain ⟨h3, h4⟩ := unit_rpow a x ha hx
  have hd := den_pos k _ hk h3 h4
  generalize x ^ (1 / a) = y at *
  have h5 : 0 ≤ 1 - y := by linarith
  obtain ⟨q1, q2⟩ := quarter k y hk hk1 h3 h4
  have hp := lo_poly (k * y * (1 - y)) q1 q2
  rw [div_pow, le_div_iff₀ (by positivity)]
  nlinarith [mul_le_mul_of_nonneg_left hp (by positivity : 0 ≤ (1 - y) ^ 4)]

/-! ### The numbers -/

def momQ (a j : ℚ) : ℚ := a ^ 2 / (a + j) ^ 2

def gSumQ (p0 p1 p2 a k : ℚ) : ℚ :=
  p0 * (momQ a 0 - 4 * momQ a 1 + 6 * momQ a 2 - 4 * momQ a 3 + momQ a 4) +
  p1 * k * (momQ a 1 - 5 * momQ a 2 + 10 * momQ a 3 - 10 * momQ a 4 + 5 * momQ a 5 - momQ a 6) +
  p2 * k ^ 2 * (momQ a 2 - 6 * momQ a 3 + 15 * momQ a 4 - 20 * momQ a 5 + 15 * momQ a 6 - 6 * momQ a 7 + momQ a 8)

def bQ (L : ℚ) : ℚ := 130 / 100 + 14 / 100 * L + 11 / 1000 * L ^ 2
def aQ (L : ℚ) : ℚ := 179 / 100 + 11 / 100 * L + 8 / 1000 * L ^ 2
def kQ (L : ℚ) : ℚ := 801 / 1000 + 49 / 1000 * L + 14 / 1000 * L ^ 2

theorem gSumQ_cast (p0 p1 p2 a k : ℚ) : ((gSumQ p0 p1 p2 a k : ℚ) : ℝ) = gSum p0 p1 p2 a k := by
  unfold gSumQ gSum momQ mom; push_cast; ring

theorem bQ_cast (L : ℚ) : ((bQ L : ℚ) : ℝ) = KAB06.B L := by unfold bQ KAB06.B; push_cast; ring
theorem aQ_cast (L : ℚ) : ((aQ L : ℚ) : ℝ) = kBetaInv L := by unfold aQ kBetaInv; push_cast; ring
theorem kQ_cast (L : ℚ) : ((kQ L : ℚ) : ℝ) = kKInv L := by unfold kQ kKInv; push_cast; ring

def hiQ (l u ku : ℚ) : ℚ := bQ u * gSumQ 1 (-10664 / 3125) (13136 / 3125) (aQ l) (1 / ku)
def loQ (l u kl : ℚ) : ℚ :=
  bQ l * gSumQ (3087477 / 3200000) (-5112477 / 1600000) (12000069 / 3200000) (aQ u) (1 / kl)

theorem B_mono (l u : ℝ) (h : -6 ≤ l) (h1 : l ≤ u) : KAB06.B l ≤ KAB06.B u := by
  unfold KAB06.B; nlinarith [mul_nonneg (sub_nonneg.2 h1) (by linarith : 0 ≤ u + l + 12)]

theorem a_mono (l u : ℝ) (h : -6 ≤ l) (h1 : l ≤ u) : kBetaInv l ≤ kBetaInv u := by
  unfold kBetaInv; nlinarith [mul_nonneg (sub_nonneg.2 h1) (by linarith : 0 ≤ u + l + 12)]

theorem k_mono (l u : ℝ) (h : -7 / 4 ≤ l) (h1 : l ≤ u) : kKInv l ≤ kKInv u := by
  unfold kKInv; nlinarith [mul_nonneg (sub_nonneg.2 h1) (by linarith : 0 ≤ u + l + 7 / 2)]

theorem fracInt_nonneg (a k : ℝ) (ha : 0 < a) (hk : 0 ≤ k) : 0 ≤ fracInt a k := by
  refine intervalIntegral.integral_nonneg zero_le_one fun x hx => ?_
  refine mul_nonneg (neg_nonneg.2 (Real.log_nonpos hx.1 hx.2)) (by positivity)

theorem hi_step (l u ku : ℚ) (L : ℝ) (h6 : (-6 : ℝ) ≤ l) (h1 : (l:ℝ) ≤ L) (h2 : L ≤ u) (hk0 : 0 < ku)
    (hk : kKInv L ≤ ku) :
    KAB06.B L * fracInt (kBetaInv L) (1 / kKInv L) ≤ (hiQ l u ku : ℚ) := by
  have ha : 0 < kBetaInv l := kBetaInv_pos _
  have hk0' : (0:ℝ) < ku := by exact_mod_cast hk0
  have e : ((hiQ l u ku : ℚ) : ℝ) = KAB06.B u * gSum 1 (-10664 / 3125) (13136 / 3125) (kBetaInv l) (1 / ku) := by
    unfold hiQ
    push_cast [gSumQ_cast, bQ_cast, aQ_cast]
    norm_num
  rw [e]
  have hB : 0 < KAB06.B L := kB_pos L
  have t1 := fracInt_mono (kBetaInv l) (kBetaInv L) (1 / ku) (1 / kKInv L) ha (a_mono _ _ h6 h1) (by positivity)
    (one_div_le_one_div_of_le (kKInv_pos L) hk)
  have t2 := fracInt_le (kBetaInv l) (1 / ku) ha (by positivity)
  have t3 := fracInt_nonneg (kBetaInv l) (1 / ku) ha (by positivity)
  have t4 := B_mono L u (h6.trans h1) h2
  exact mul_le_mul t4 (t1.trans t2) (fracInt_nonneg _ _ (kBetaInv_pos _) (one_div_pos.2 (kKInv_pos _)).le)
    (hB.le.trans t4)

theorem lo_step (l u kl : ℚ) (L : ℝ) (h6 : (-6 : ℝ) ≤ l) (h1 : (l:ℝ) ≤ L) (h2 : L ≤ u) (hk0 : 3 / 4 ≤ kl)
    (hk : kl ≤ kKInv L) :
    (loQ l u kl : ℚ) ≤ KAB06.B L * fracInt (kBetaInv L) (1 / kKInv L) := by
  have ha : 0 < kBetaInv u := kBetaInv_pos _
  have hk0'' : (3/4:ℝ) ≤ kl := by
    have : ((3 / 4 : ℚ) : ℝ) ≤ kl := by exact_mod_cast hk0
    push_cast at this; exact this
  have hk0' : (0:ℝ) < kl := by linarith
  have e : ((loQ l u kl : ℚ) : ℝ) = KAB06.B l *
      gSum (3087477 / 3200000) (-5112477 / 1600000) (12000069 / 3200000) (kBetaInv u) (1 / kl) := by
    unfold loQ
    push_cast [gSumQ_cast, bQ_cast, aQ_cast]
    norm_num
  rw [e]
  have hB : 0 < KAB06.B l := kB_pos l
  have t1 := fracInt_mono (kBetaInv L) (kBetaInv u) (1 / kKInv L) (1 / kl) (kBetaInv_pos L)
    (a_mono _ _ (h6.trans h1) h2) (one_div_pos.2 (kKInv_pos _)).le (one_div_le_one_div_of_le hk0' hk)
  have t2 := le_fracInt (kBetaInv u) (1 / kl) ha (by positivity) (by
    rw [div_le_iff₀ hk0']; linarith)
  have t4 := B_mono l L h6 h1
  exact (mul_le_mul_of_nonneg_left (t2.trans t1) hB.le).trans
    (mul_le_mul_of_nonneg_right t4 (fracInt_nonneg _ _ (kBetaInv_pos _) (one_div_pos.2 (kKInv_pos _)).le))

/-- End points of the intervals: `-7/4 + i/4`. -/
def gridL (i : ℕ) : ℚ := -7 / 4 + i / 4

theorem hi_numbers : ∀ i < 59, hiQ (gridL i) (gridL (i + 1)) (kQ (gridL (i + 1))) ≤ 1 / 5 := by decide +kernel

theorem lo_numbers : ∀ i < 54, 3 / 20 ≤ loQ (gridL i) (gridL (i + 1)) (kQ (gridL i)) := by decide +kernel

theorem k_numbers : ∀ i < 54, 3 / 4 ≤ kQ (gridL i) := by decide +kernel

end Naima.Props
