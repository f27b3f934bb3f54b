import Verif.Props.C105_ICPower
import Verif.Props.C83_Fields
import Verif.Props.C103_SyncShape

/-!
# C128: inverse Compton scattering of photons of one energy, and of tabulated photon fields

Spec (Blumenthal & Gould 1970): an electron of Lorentz factor `γ` in `n` isotropic photons per cm³ of energy `ε₀` (in mc²)
scatters `σ_T c n (1 - 8/3 γ ε₀)` of them per second and radiates `4/3 σ_T c γ² n ε₀ (1 - 63/10 γ ε₀)`, to first order in `γ ε₀`.
-/

namespace Naima.Props

open Naima XR Classical Topology MeasureTheory
open Filter (Tendsto atTop)

/-! ### Moments of the kernel -/

/-- the kernel without recoil: `2 x ln x + (1 + 2 x) (1 - x)` -/
noncomputable def lineM0 (x : ℝ) : ℝ := 2 * x * Real.log x + (1 + 2 * x) * (1 - x)

/-- the kernel with recoil -/
noncomputable def lineM (b x : ℝ) : ℝ := lineM0 x + (b * x) ^ 2 * (1 - x) / (2 * (1 + b * x))

theorem lineM0_continuous : Continuous lineM0 := by
  unfold lineM0
  have := Real.continuous_mul_log
  have h : (fun x : ℝ => 2 * x * Real.log x + (1 + 2 * x) * (1 - x)) =
      fun x : ℝ => 2 * (x * Real.log x) + (1 + 2 * x) * (1 - x) := by funext x; ring
  rw [h]
  fun_prop

theorem lineM0_le_one (x : ℝ) (hx : 0 < x) : lineM0 x ≤ 1 := by
  have h := Real.log_le_sub_one_of_pos hx
  unfold lineM0
  nlinarith

theorem log_sqrt_bound (s : ℝ) (h0 : 0 < s) (h1 : s ≤ 1) : s - 1 / s ≤ 2 * Real.log s := by
  have hd : ∀ t ∈ Set.Icc s 1, HasDerivAt (fun t : ℝ => 2 * Real.log t - t + t⁻¹) (2 * t⁻¹ - 1 + -(t ^ 2)⁻¹) t := by
    intro t ht
    have ht0 : t ≠ 0 := (h0.trans_le ht.1).ne'
    exact (((Real.hasDerivAt_log ht0).const_mul 2).sub (hasDerivAt_id t)).add (hasDerivAt_inv ht0)
  have ha : AntitoneOn (fun t : ℝ => 2 * Real.log t - t + t⁻¹) (Set.Icc s 1) := by
    apply antitoneOn_of_deriv_nonpos (convex_Icc s 1)
    · exact fun t ht => (hd t ht).continuousAt.continuousWithinAt
    · intro t ht
      rw [interior_Icc] at ht
      exact (hd t ⟨ht.1.le, ht.2.le⟩).differentiableAt.differentiableWithinAt
    · intro t ht
      rw [interior_Icc] at ht
      rw [(hd t ⟨ht.1.le, ht.2.le⟩).deriv]
      have : 2 * t⁻¹ - 1 + -(t ^ 2)⁻¹ = -(1 - t⁻¹) ^ 2 := by rw [← inv_pow]; ring
      rw [this]
      nlinarith [sq_nonneg (1 - t⁻¹)]
  have h := ha (Set.left_mem_Icc.2 h1) (Set.right_mem_Icc.2 h1) h1
  simp only [Real.log_one] at h
  rw [one_div]
  linarith

theorem lineM0_ge (x : ℝ) (h0 : 0 < x) (h1 : x ≤ 1) : (1 - x) / 2 ≤ lineM0 x := by
  have hs := log_sqrt_bound (Real.sqrt x) (Real.sqrt_pos.2 h0) (Real.sqrt_le_one.2 h1)
  have hq : Real.sqrt x ^ 2 = x := Real.sq_sqrt h0.le
  have hs0 := Real.sqrt_pos.2 h0
  have hl : Real.log x = 2 * Real.log (Real.sqrt x) := by rw [Real.log_sqrt h0.le]; ring
  unfold lineM0
  rw [hl]
  set s := Real.sqrt x
  have hs1 : s ≤ 1 := Real.sqrt_le_one.2 h1
  rw [← hq]
  have h3 : 2 * s ^ 2 * (s - 1 / s) ≤ 2 * s ^ 2 * (2 * Real.log s) := mul_le_mul_of_nonneg_left hs (by positivity)
  have h4 : 2 * s ^ 2 * (s - 1 / s) = 2 * s ^ 3 - 2 * s := by field_simp
  have h5 : (0:ℝ) ≤ (1 - s) := by linarith
  -- 2 s³ - 2 s + (1 + 2 s²)(1 - s²) - (1 - s²)/2 = (1 - s²)(1/2 + 2 s² - 2 s)
  nlinarith [mul_nonneg (mul_nonneg h5 (by linarith : (0:ℝ) ≤ 1 + s)) (sq_nonneg (2 * s - 1))]

theorem lineM_bounds (k : ℕ) (b x : ℝ) (hb : 0 < b) (h0 : 0 < x) (h1 : x ≤ 1) :
    x ^ k * lineM0 x - (k + 2) * b * (x ^ (k + 1) * lineM0 x) ≤ x ^ k / (1 + b * x) ^ (k + 2) * lineM b x ∧
      x ^ k / (1 + b * x) ^ (k + 2) * lineM b x ≤ x ^ k * lineM0 x ∧ 0 ≤ x ^ k / (1 + b * x) ^ (k + 2) * lineM b x := by
  have hM := lineM0_ge x h0 h1
  have hu : 0 ≤ 1 - x := by linarith
  have hM0 : 0 ≤ lineM0 x := le_trans (by linarith) hM
  have hy : 0 < b * x := by positivity
  have hxk : 0 < x ^ k := by positivity
  have e : x ^ k * lineM0 x - (k + 2) * b * (x ^ (k + 1) * lineM0 x) = x ^ k * lineM0 x * (1 - (k + 2) * (b * x)) := by ring
  rw [e]
  set y := b * x with hydef
  have hex : 0 ≤ y ^ 2 * (1 - x) / (2 * (1 + y)) := by positivity
  have hMM : lineM0 x ≤ lineM b x := by unfold lineM; rw [← hydef]; linarith
  refine ⟨?_, ?_, by have := hM0.trans hMM; positivity⟩
  · have hbern : 1 - (k + 2) * y ≤ 1 / (1 + y) ^ (k + 2) := by
      have h2 := one_add_mul_le_pow (show (-2:ℝ) ≤ -(y / (1 + y)) by
        have : y / (1 + y) ≤ 1 := by rw [div_le_one (by positivity)]; linarith
        linarith) (k + 2)
      have h3 : 1 + -(y / (1 + y)) = 1 / (1 + y) := by field_simp; ring
      rw [h3, div_pow, one_pow] at h2
      have h4 : y / (1 + y) ≤ y := div_le_self hy.le (by linarith)
      refine le_trans ?_ h2
      push_cast
      nlinarith
    calc x ^ k * lineM0 x * (1 - (k + 2) * y) ≤ x ^ k * lineM0 x * (1 / (1 + y) ^ (k + 2)) :=
          mul_le_mul_of_nonneg_left hbern (by positivity)
      _ = x ^ k / (1 + y) ^ (k + 2) * lineM0 x := by ring
      _ ≤ _ := mul_le_mul_of_nonneg_left hMM (by positivity)
  · have h2 : lineM b x ≤ (1 + y) ^ 2 * lineM0 x := by
      unfold lineM
      rw [← hydef]
      have h3 : y ^ 2 * (1 - x) / (2 * (1 + y)) ≤ y ^ 2 * lineM0 x := by
        rw [div_le_iff₀ (by positivity)]
        have : y ^ 2 * (1 - x) ≤ y ^ 2 * (2 * lineM0 x) := mul_le_mul_of_nonneg_left (by linarith) (by positivity)
        nlinarith [mul_nonneg (mul_nonneg (sq_nonneg y) hM0) hy.le]
      nlinarith [mul_nonneg hy.le hM0]
    have h3 : (1 + y) ^ 2 ≤ (1 + y) ^ (k + 2) := pow_le_pow_right₀ (by linarith) (by omega)
    calc x ^ k / (1 + y) ^ (k + 2) * lineM b x ≤ x ^ k / (1 + y) ^ (k + 2) * ((1 + y) ^ (k + 2) * lineM0 x) := by
          apply mul_le_mul_of_nonneg_left _ (by positivity)
          exact h2.trans (mul_le_mul_of_nonneg_right h3 hM0)
      _ = _ := by field_simp

theorem log_power_moment (k : ℕ) : ∫ x in (0:ℝ)..1, x ^ (k + 1) * Real.log x = -1 / ((k:ℝ) + 2) ^ 2 := by
  have hc : Continuous (fun x : ℝ => x ^ k * (x * Real.log x)) := by
    have := Real.continuous_mul_log
    fun_prop
  have hk : ((k:ℝ) + 2) ≠ 0 := by positivity
  have h := intervalIntegral.integral_eq_sub_of_hasDerivAt_of_le (f := fun x : ℝ => x ^ (k + 1) * (x * Real.log x) / (k + 2) - x ^ (k + 2) / (k + 2) ^ 2)
    (f' := fun x : ℝ => x ^ k * (x * Real.log x)) (zero_le_one' ℝ) (by
      have := Real.continuous_mul_log
      apply Continuous.continuousOn
      fun_prop) (by
      intro x hx
      have hx0 : x ≠ 0 := hx.1.ne'
      have h1 := ((hasDerivAt_pow (k + 1) x).mul (Real.hasDerivAt_mul_log hx0)).div_const ((k:ℝ) + 2)
      have h2 := (hasDerivAt_pow (k + 2) x).div_const (((k:ℝ) + 2) ^ 2)
      refine (h1.sub h2).congr_deriv ?_
      push_cast
      field_simp
      ring) (hc.intervalIntegrable _ _)
  have e : (fun x : ℝ => x ^ (k + 1) * Real.log x) = fun x => x ^ k * (x * Real.log x) := by funext x; ring
  rw [e, h]
  simp
  field_simp

theorem lineM0_moment (k : ℕ) : ∫ x in (0:ℝ)..1, x ^ k * lineM0 x =
    -2 / ((k:ℝ) + 2) ^ 2 + 1 / (k + 1) + 1 / (k + 2) - 2 / (k + 3) := by
  have hc : Continuous (fun x : ℝ => x ^ (k + 1) * Real.log x) := by
    have : (fun x : ℝ => x ^ (k + 1) * Real.log x) = fun x => x ^ k * (x * Real.log x) := by funext x; ring
    rw [this]
    have := Real.continuous_mul_log
    fun_prop
  have e : (fun x : ℝ => x ^ k * lineM0 x) = fun x => 2 * (x ^ (k + 1) * Real.log x) + (x ^ k + x ^ (k + 1) - 2 * x ^ (k + 2)) := by
    funext x; unfold lineM0; ring
  rw [e, intervalIntegral.integral_add ((hc.const_mul 2).intervalIntegrable _ _) ((by fun_prop : Continuous _).intervalIntegrable _ _),
    intervalIntegral.integral_const_mul, log_power_moment,
    intervalIntegral.integral_sub ((by fun_prop : Continuous _).intervalIntegrable _ _) ((by fun_prop : Continuous _).intervalIntegrable _ _),
    intervalIntegral.integral_add ((by fun_prop : Continuous _).intervalIntegrable _ _) ((by fun_prop : Continuous _).intervalIntegrable _ _),
    intervalIntegral.integral_const_mul, integral_pow, integral_pow, integral_pow]
  push_cast
  simp
  ring


/-! ### One electron -/

/-- the part of the range of `x` that the code keeps -/
noncomputable def window (γ x : ℝ) : ℝ := step (1 - x) * step (x - 1 / (4 * γ ^ 2))

theorem window_measurable (γ : ℝ) : Measurable (window γ) := by
  unfold window step
  have h1 : MeasurableSet {x : ℝ | 1 - x < 0} := measurableSet_lt (by fun_prop) (by fun_prop)
  have h2 : MeasurableSet {x : ℝ | 0 < 1 - x} := measurableSet_lt (by fun_prop) (by fun_prop)
  have h3 : MeasurableSet {x : ℝ | x - 1 / (4 * γ ^ 2) < 0} := measurableSet_lt (by fun_prop) (by fun_prop)
  have h4 : MeasurableSet {x : ℝ | 0 < x - 1 / (4 * γ ^ 2)} := measurableSet_lt (by fun_prop) (by fun_prop)
  exact (Measurable.ite h1 measurable_const (Measurable.ite h2 measurable_const measurable_const)).mul
    (Measurable.ite h3 measurable_const (Measurable.ite h4 measurable_const measurable_const))

theorem kinQ_phi (γ ε₀ x : ℝ) (hγ : 0 < γ) (h0 : 0 < ε₀) (hx : 0 < x) :
    Spec.kinQ γ ε₀ (icPhi γ (4 * ε₀ * γ) x) = x := by
  have hb : 0 < 4 * ε₀ * γ := by positivity
  unfold Spec.kinQ icPhi
  set b := 4 * ε₀ * γ with hbd
  have h1 : γ - γ * (b * x / (1 + b * x)) = γ / (1 + b * x) := by field_simp; ring
  rw [h1]
  field_simp

theorem monoRate_phi (k : ℕ) (γ ε₀ x : ℝ) (hγ : 0 < γ) (h0 : 0 < ε₀) (hx : 0 < x) :
    |γ * ((4 * ε₀ * γ) / (1 + 4 * ε₀ * γ * x) ^ 2)| • (icPhi γ (4 * ε₀ * γ) x ^ k * monoRate γ ε₀ (icPhi γ (4 * ε₀ * γ) x)) =
      3 * sigmaT * cC * (4 * ε₀ * γ ^ 2) ^ k *
        (x ^ k / (1 + 4 * ε₀ * γ * x) ^ (k + 2) * lineM (4 * ε₀ * γ) x * window γ x) := by
  have hb : 0 < 4 * ε₀ * γ := by positivity
  have hlt : icPhi γ (4 * ε₀ * γ) x < γ := by
    have : icPhi γ (4 * ε₀ * γ) x ∈ Set.Ioo 0 γ := by
      rw [← icPhi_image γ _ hγ hb]; exact ⟨x, hx, rfl⟩
    exact this.2
  have hq := kinQ_phi γ ε₀ x hγ h0 hx
  have hM : Spec.isoMono γ ε₀ (icPhi γ (4 * ε₀ * γ) x) = lineM (4 * ε₀ * γ) x := by
    unfold Spec.isoMono lineM lineM0
    simp only [hq]
  unfold monoRate
  rw [if_pos hlt, hM, hq, abs_of_pos (by positivity), smul_eq_mul]
  unfold window
  generalize step (1 - x) = s1
  generalize step (x - 1 / (4 * γ ^ 2)) = s2
  generalize lineM (4 * ε₀ * γ) x = M
  have h4 : 4 * ε₀ * γ ^ 2 = γ * (4 * ε₀ * γ) := by ring
  unfold icPhi
  have hy : 0 < 1 + 4 * ε₀ * γ * x := by positivity
  have h5 : γ * (4 * ε₀ * γ * x / (1 + 4 * ε₀ * γ * x)) = γ * (4 * ε₀ * γ) * (x / (1 + 4 * ε₀ * γ * x)) := by ring
  rw [h4, h5, mul_pow _ (x / _), div_pow, pow_add]
  generalize (γ * (4 * ε₀ * γ)) ^ k = P
  generalize 1 + 4 * ε₀ * γ * x = y at hy
  have hyk : 0 < y ^ k := by positivity
  generalize y ^ k = Y at hyk
  generalize x ^ k = X
  field_simp

/-- the integrand over `x`, without the window -/
noncomputable def lineF (k : ℕ) (b x : ℝ) : ℝ := x ^ k / (1 + b * x) ^ (k + 2) * lineM b x

theorem lineF_continuousOn (k : ℕ) (b : ℝ) (hb : 0 < b) : ContinuousOn (lineF k b) (Set.Ici 0) := by
  unfold lineF lineM
  have hM := lineM0_continuous
  apply ContinuousOn.mul
  · apply ContinuousOn.div (by fun_prop) (by fun_prop)
    intro x hx
    have hx : (0:ℝ) ≤ x := hx
    positivity
  · apply ContinuousOn.add hM.continuousOn
    apply ContinuousOn.div (by fun_prop) (by fun_prop)
    intro x hx
    have hx : (0:ℝ) ≤ x := hx
    positivity

theorem lineF_window (k : ℕ) (γ b : ℝ) (hγ : 1 ≤ γ) (hb : 0 < b) :
    IntegrableOn (fun x => lineF k b x * window γ x) (Set.Ioi 0) ∧
      ∫ x in Set.Ioi 0, lineF k b x * window γ x = ∫ x in (1 / (4 * γ ^ 2))..1, lineF k b x := by
  set δ := 1 / (4 * γ ^ 2) with hδ
  have hδ0 : 0 < δ := by positivity
  have hδ1 : δ ≤ 1 := by rw [hδ, div_le_one (by positivity)]; nlinarith
  have hsub : Set.Ioo δ 1 ⊆ Set.Ioi 0 := fun x hx => hδ0.trans hx.1
  have hzero : ∀ᵐ x : ℝ, x ∈ Set.Ioi (0:ℝ) \ Set.Ioo δ 1 → lineF k b x * window γ x = 0 := by
    filter_upwards [Measure.ae_ne volume δ, Measure.ae_ne volume (1:ℝ)] with x h1 h2
    rintro ⟨-, h⟩
    unfold window
    by_cases hx : x < δ
    · rw [step_neg (x - 1 / (4 * γ ^ 2)) (by rw [← hδ]; linarith)]; ring
    · have hx1 : ¬ x < 1 := fun h' => h ⟨lt_of_le_of_ne (not_lt.1 hx) h1.symm, h'⟩
      have : 1 < x := lt_of_le_of_ne (not_lt.1 hx1) h2.symm
      rw [step_neg (1 - x) (by linarith)]; ring
  have heq : Set.EqOn (fun x => lineF k b x * window γ x) (lineF k b) (Set.Ioo δ 1) := by
    intro x hx
    have s1 : step (1 - x) = 1 := by unfold step; rw [if_neg (by linarith [hx.2]), if_pos (by linarith [hx.2])]
    have s2 : step (x - 1 / (4 * γ ^ 2)) = 1 := by
      unfold step; rw [← hδ, if_neg (by linarith [hx.1]), if_pos (by linarith [hx.1])]
    simp only [window, s1, s2, mul_one]
  have hint : IntegrableOn (lineF k b) (Set.Ioo δ 1) := by
    have hc : ContinuousOn (lineF k b) (Set.Icc δ 1) :=
      (lineF_continuousOn k b hb).mono (fun x hx => hδ0.le.trans hx.1)
    exact (hc.integrableOn_Icc).mono_set Set.Ioo_subset_Icc_self
  constructor
  · have h1 : IntegrableOn (fun x => lineF k b x * window γ x) (Set.Ioo δ 1) := by
      rw [integrableOn_congr_fun heq measurableSet_Ioo]; exact hint
    exact h1.of_ae_diff_eq_zero measurableSet_Ioi.nullMeasurableSet hzero
  · rw [setIntegral_eq_of_subset_of_ae_diff_eq_zero measurableSet_Ioi.nullMeasurableSet hsub hzero,
      setIntegral_congr_fun measurableSet_Ioo heq, intervalIntegral.integral_of_le hδ1, integral_Ioc_eq_integral_Ioo]

theorem lineF_integral (k : ℕ) (γ b : ℝ) (hγ : 1 ≤ γ) (hb : 0 < b) :
    (-2 / ((k:ℝ) + 2) ^ 2 + 1 / (k + 1) + 1 / (k + 2) - 2 / (k + 3)) - (1 / (4 * γ ^ 2)) ^ (k + 1) / (k + 1) -
        (k + 2) * b * (-2 / ((k:ℝ) + 3) ^ 2 + 1 / (k + 2) + 1 / (k + 3) - 2 / (k + 4)) ≤ ∫ x in (1 / (4 * γ ^ 2))..1, lineF k b x ∧
      ∫ x in (1 / (4 * γ ^ 2))..1, lineF k b x ≤ -2 / ((k:ℝ) + 2) ^ 2 + 1 / (k + 1) + 1 / (k + 2) - 2 / (k + 3) ∧
      0 ≤ ∫ x in (1 / (4 * γ ^ 2))..1, lineF k b x := by
  set δ := 1 / (4 * γ ^ 2) with hδ
  have hδ0 : 0 < δ := by positivity
  have hδ1 : δ ≤ 1 := by rw [hδ, div_le_one (by positivity)]; nlinarith
  have hM := lineM0_continuous
  have ci : ∀ (j : ℕ) (u v : ℝ), IntervalIntegrable (fun x => x ^ j * lineM0 x) volume u v := fun j u v =>
    (by fun_prop : Continuous fun x => x ^ j * lineM0 x).intervalIntegrable _ _
  have hFi : IntervalIntegrable (lineF k b) volume δ 1 := by
    apply ContinuousOn.intervalIntegrable
    rw [Set.uIcc_of_le hδ1]
    exact (lineF_continuousOn k b hb).mono (fun x hx => hδ0.le.trans hx.1)
  have hsplit : ∀ j : ℕ, ∫ x in (0:ℝ)..δ, x ^ j * lineM0 x = (∫ x in (0:ℝ)..1, x ^ j * lineM0 x) - ∫ x in δ..1, x ^ j * lineM0 x := by
    intro j
    rw [← intervalIntegral.integral_add_adjacent_intervals (ci j 0 δ) (ci j δ 1)]; ring
  have hnn : ∀ j : ℕ, 0 ≤ ∫ x in (0:ℝ)..δ, x ^ j * lineM0 x := by
    intro j
    apply intervalIntegral.integral_nonneg hδ0.le
    intro x hx
    rcases hx.1.eq_or_lt with h | h
    · rw [← h]; unfold lineM0; simp
    · have := lineM0_ge x h (hx.2.trans hδ1)
      have h1 : x ≤ 1 := hx.2.trans hδ1
      exact mul_nonneg (by positivity) (by linarith)
  have hup : ∫ x in (0:ℝ)..δ, x ^ k * lineM0 x ≤ δ ^ (k + 1) / (k + 1) := by
    have h1 : ∫ x in (0:ℝ)..δ, x ^ k * lineM0 x ≤ ∫ x in (0:ℝ)..δ, x ^ k := by
      apply intervalIntegral.integral_mono_on hδ0.le (ci k 0 δ) ((by fun_prop : Continuous _).intervalIntegrable _ _)
      intro x hx
      rcases hx.1.eq_or_lt with h | h
      · rw [← h]; unfold lineM0; simp
      · have := mul_le_mul_of_nonneg_left (lineM0_le_one x h) (by positivity : 0 ≤ x ^ k)
        simpa using this
    rw [integral_pow] at h1
    simpa using h1
  have m0 := lineM0_moment k
  have m1 := lineM0_moment (k + 1)
  push_cast at m1
  refine ⟨?_, ?_, ?_⟩
  · have h1 : ∫ x in δ..1, (x ^ k * lineM0 x - (k + 2) * b * (x ^ (k + 1) * lineM0 x)) ≤ ∫ x in δ..1, lineF k b x := by
      apply intervalIntegral.integral_mono_on hδ1 ((ci k δ 1).sub ((ci (k + 1) δ 1).const_mul _)) hFi
      intro x hx
      exact (lineM_bounds k b x hb (hδ0.trans_le hx.1) hx.2).1
    rw [intervalIntegral.integral_sub (ci k δ 1) ((ci (k + 1) δ 1).const_mul _), intervalIntegral.integral_const_mul] at h1
    have h2 := hsplit k
    have h3 := hsplit (k + 1)
    have h4 := hnn (k + 1)
    rw [m0] at h2
    rw [m1] at h3
    have hkb : 0 ≤ ((k:ℝ) + 2) * b := by positivity
    have h5 : ∫ x in δ..1, x ^ (k + 1) * lineM0 x ≤ -2 / ((k:ℝ) + 3) ^ 2 + 1 / (k + 2) + 1 / (k + 3) - 2 / (k + 4) := by
      have e1 : (k:ℝ) + 1 + 2 = k + 3 := by ring
      have e2 : (k:ℝ) + 1 + 1 = k + 2 := by ring
      have e3 : (k:ℝ) + 1 + 3 = k + 4 := by ring
      rw [e1, e2, e3] at h3
      linarith
    have h6 := mul_le_mul_of_nonneg_left h5 hkb
    linarith
  · have h1 : ∫ x in δ..1, lineF k b x ≤ ∫ x in δ..1, x ^ k * lineM0 x := by
      apply intervalIntegral.integral_mono_on hδ1 hFi (ci k δ 1)
      intro x hx
      exact (lineM_bounds k b x hb (hδ0.trans_le hx.1) hx.2).2.1
    have h2 := hsplit k
    have h4 := hnn k
    rw [m0] at h2
    linarith
  · apply intervalIntegral.integral_nonneg hδ1
    intro x hx
    exact (lineM_bounds k b x hb (hδ0.trans_le hx.1) hx.2).2.2

/-- moments of the rate of one electron -/
theorem line_moment (k : ℕ) (γ ε₀ : ℝ) (hγ : 1 ≤ γ) (h0 : 0 < ε₀) :
    IntegrableOn (fun ε => ε ^ k * monoRate γ ε₀ ε) (Set.Ioi 0) ∧
    ∫ ε in Set.Ioi 0, ε ^ k * monoRate γ ε₀ ε =
      3 * sigmaT * cC * (4 * ε₀ * γ ^ 2) ^ k * ∫ x in (1 / (4 * γ ^ 2))..1, lineF k (4 * ε₀ * γ) x := by
  have hγ0 : 0 < γ := by linarith
  have hb : 0 < 4 * ε₀ * γ := by positivity
  obtain ⟨w1, w2⟩ := lineF_window k γ (4 * ε₀ * γ) hγ hb
  have hzero : ∀ ε ∈ Set.Ioi (0:ℝ) \ Set.Ioo 0 γ, ε ^ k * monoRate γ ε₀ ε = 0 := by
    rintro ε ⟨h1, h2⟩
    have : ¬ (ε < γ) := fun h => h2 ⟨h1, h⟩
    unfold monoRate
    rw [if_neg this, mul_zero]
  have hsub : Set.Ioo (0:ℝ) γ ⊆ Set.Ioi 0 := fun x hx => hx.1
  have hpt : Set.EqOn (fun x => |γ * ((4 * ε₀ * γ) / (1 + 4 * ε₀ * γ * x) ^ 2)| •
      (icPhi γ (4 * ε₀ * γ) x ^ k * monoRate γ ε₀ (icPhi γ (4 * ε₀ * γ) x)))
      (fun x => 3 * sigmaT * cC * (4 * ε₀ * γ ^ 2) ^ k * (lineF k (4 * ε₀ * γ) x * window γ x)) (Set.Ioi 0) := fun x hx =>
    monoRate_phi k γ ε₀ x hγ0 h0 hx
  have hder : ∀ x ∈ Set.Ioi (0:ℝ), HasDerivWithinAt (icPhi γ (4 * ε₀ * γ)) (γ * ((4 * ε₀ * γ) / (1 + 4 * ε₀ * γ * x) ^ 2))
      (Set.Ioi 0) x := fun x hx => (icPhi_deriv γ _ x hb hx).hasDerivWithinAt
  have hinj := icPhi_injOn γ (4 * ε₀ * γ) hγ0 hb
  constructor
  · have h1 : IntegrableOn (fun ε => ε ^ k * monoRate γ ε₀ ε) (Set.Ioo 0 γ) := by
      rw [← icPhi_image γ (4 * ε₀ * γ) hγ0 hb,
        integrableOn_image_iff_integrableOn_abs_deriv_smul measurableSet_Ioi hder hinj,
        integrableOn_congr_fun hpt measurableSet_Ioi]
      exact w1.const_mul _
    exact h1.of_forall_diff_eq_zero measurableSet_Ioi hzero
  · rw [setIntegral_eq_of_subset_of_forall_diff_eq_zero measurableSet_Ioi hsub hzero, ← icPhi_image γ (4 * ε₀ * γ) hγ0 hb,
      integral_image_eq_integral_abs_deriv_smul measurableSet_Ioi hder hinj,
      setIntegral_congr_fun measurableSet_Ioi hpt, integral_const_mul, w2]

theorem monoRate_nonneg' (γ ε₀ ε : ℝ) (h0 : 0 < ε₀) (hε : 0 < ε) : 0 ≤ monoRate γ ε₀ ε := by
  unfold monoRate
  split
  · rename_i h
    have hσ : (0:ℝ) ≤ 3 / 4 * sigmaT * cC := by unfold sigmaT cC; norm_num
    have := hε.trans h
    exact mul_nonneg (by positivity) (isoMono_step_nonneg γ ε₀ ε h0 hε h)
  · exact le_rfl

/-- **C128 (one electron, photons).** An electron of Lorentz factor `γ ≥ 1` in one photon of energy `ε₀` per cm³, isotropic,
scatters between `σ_T c (0.9999 - 8/3 γ ε₀ - 1/γ²)` and `1.0001 σ_T c` photons per second. -/
theorem C128_scattered (γ ε₀ : ℝ) (hγ : 1 ≤ γ) (h0 : 0 < ε₀) :
    (0.9999 - 8 / 3 * γ * ε₀ - 1 / γ ^ 2) * (thomsonCgs cE cMe cC * cC) ≤ ∫ ε in Set.Ioi 0, monoRate γ ε₀ ε ∧
      ∫ ε in Set.Ioi 0, monoRate γ ε₀ ε ≤ 1.0001 * (thomsonCgs cE cMe cC * cC) := by
  have h := (line_moment 0 γ ε₀ hγ h0).2
  simp only [pow_zero, one_mul, mul_one] at h
  have hb : 0 < 4 * ε₀ * γ := by have : 0 < γ := by linarith
                                 positivity
  obtain ⟨i1, i2, i3⟩ := lineF_integral 0 γ (4 * ε₀ * γ) hγ hb
  rw [h]
  set I := ∫ x in (1 / (4 * γ ^ 2))..1, lineF 0 (4 * ε₀ * γ) x with hI
  clear_value I
  obtain ⟨s1, s2⟩ := thomsonCgs_near
  have hσ : 0 < sigmaT := by unfold sigmaT; norm_num
  have hc := cC_pos
  have hg2 : (1 / (4 * γ ^ 2)) = 1 / 4 * (1 / γ ^ 2) := by ring
  rw [hg2] at i1
  have hg : 0 < 1 / γ ^ 2 := by positivity
  set g := 1 / γ ^ 2
  have hx : 0 < γ * ε₀ := by have : 0 < γ := by linarith
                             positivity
  norm_num at i1 i2
  have j1 : 1 - 3 / 4 * g - 8 / 3 * (γ * ε₀) ≤ 3 * I := by linarith
  have j2 : 3 * I ≤ 1 := by linarith
  have hs' : 0 < thomsonCgs cE cMe cC := by linarith [mul_pos (by norm_num : (0:ℝ) < 0.99999) hσ]
  generalize thomsonCgs cE cMe cC = σ' at s1 s2 hs'
  constructor
  · by_cases hneg : 0.9999 - 8 / 3 * γ * ε₀ - g ≤ 0
    · exact (mul_nonpos_of_nonpos_of_nonneg hneg (by positivity)).trans (by positivity)
    · push Not at hneg
      have k1 : (0.9999 - 8 / 3 * γ * ε₀ - g) * σ' ≤ (0.9999 - 8 / 3 * γ * ε₀ - g) * (1.00002 * sigmaT) :=
        mul_le_mul_of_nonneg_left s2 hneg.le
      have k2 : (0.9999 - 8 / 3 * γ * ε₀ - g) * 1.00002 ≤ 3 * I := by norm_num; linarith
      calc _ = (0.9999 - 8 / 3 * γ * ε₀ - g) * σ' * cC := by ring
        _ ≤ (0.9999 - 8 / 3 * γ * ε₀ - g) * (1.00002 * sigmaT) * cC := by gcongr
        _ = (0.9999 - 8 / 3 * γ * ε₀ - g) * 1.00002 * (sigmaT * cC) := by ring
        _ ≤ 3 * I * (sigmaT * cC) := by gcongr
        _ = _ := by ring
  · have k1 : sigmaT ≤ 1.0001 * σ' := by norm_num at s1 ⊢; linarith
    calc _ = 3 * I * (sigmaT * cC) := by ring
      _ ≤ 1 * (sigmaT * cC) := by gcongr
      _ ≤ 1.0001 * σ' * cC := by rw [one_mul]; gcongr
      _ = _ := by ring

/-- **C128 (one electron, energy).** It radiates between `4/3 σ_T c γ² ε₀ (0.9999 - 63/10 γ ε₀ - 1/γ⁴)` and
`1.0001 · 4/3 σ_T c γ² ε₀` (in mc² per second). -/
theorem C128_radiated (γ ε₀ : ℝ) (hγ : 1 ≤ γ) (h0 : 0 < ε₀) :
    (0.9999 - 63 / 10 * γ * ε₀ - 1 / γ ^ 4) * (4 / 3 * thomsonCgs cE cMe cC * cC * γ ^ 2 * ε₀) ≤
        ∫ ε in Set.Ioi 0, ε * monoRate γ ε₀ ε ∧
      ∫ ε in Set.Ioi 0, ε * monoRate γ ε₀ ε ≤ 1.0001 * (4 / 3 * thomsonCgs cE cMe cC * cC * γ ^ 2 * ε₀) := by
  have h := (line_moment 1 γ ε₀ hγ h0).2
  simp only [pow_one] at h
  have hγ0 : 0 < γ := by linarith
  have hb : 0 < 4 * ε₀ * γ := by positivity
  obtain ⟨i1, i2, i3⟩ := lineF_integral 1 γ (4 * ε₀ * γ) hγ hb
  rw [h]
  set I := ∫ x in (1 / (4 * γ ^ 2))..1, lineF 1 (4 * ε₀ * γ) x with hI
  clear_value I
  obtain ⟨s1, s2⟩ := thomsonCgs_near
  have hσ : 0 < sigmaT := by unfold sigmaT; norm_num
  have hc := cC_pos
  have hg2 : (1 / (4 * γ ^ 2)) ^ (1 + 1) = 1 / 16 * (1 / γ ^ 4) := by rw [div_pow, mul_pow]; ring
  rw [hg2] at i1
  have hg : 0 < 1 / γ ^ 4 := by positivity
  set g := 1 / γ ^ 4
  have hx : 0 < γ * ε₀ := by positivity
  norm_num at i1 i2
  have j1 : 1 - 9 / 32 * g - 63 / 10 * (γ * ε₀) ≤ 9 * I := by linarith
  have j2 : 9 * I ≤ 1 := by linarith
  have hs' : 0 < thomsonCgs cE cMe cC := by linarith [mul_pos (by norm_num : (0:ℝ) < 0.99999) hσ]
  generalize thomsonCgs cE cMe cC = σ' at s1 s2 hs'
  constructor
  · by_cases hneg : 0.9999 - 63 / 10 * γ * ε₀ - g ≤ 0
    · exact (mul_nonpos_of_nonpos_of_nonneg hneg (by positivity)).trans (by positivity)
    · push Not at hneg
      have k2 : (0.9999 - 63 / 10 * γ * ε₀ - g) * 1.00002 ≤ 9 * I := by norm_num; linarith
      calc _ = (0.9999 - 63 / 10 * γ * ε₀ - g) * σ' * (4 / 3 * cC * γ ^ 2 * ε₀) := by ring
        _ ≤ (0.9999 - 63 / 10 * γ * ε₀ - g) * (1.00002 * sigmaT) * (4 / 3 * cC * γ ^ 2 * ε₀) := by
            apply mul_le_mul_of_nonneg_right _ (by positivity)
            exact mul_le_mul_of_nonneg_left s2 hneg.le
        _ = (0.9999 - 63 / 10 * γ * ε₀ - g) * 1.00002 * (sigmaT * (4 / 3 * cC * γ ^ 2 * ε₀)) := by ring
        _ ≤ 9 * I * (sigmaT * (4 / 3 * cC * γ ^ 2 * ε₀)) := by gcongr
        _ = _ := by ring
  · have k1 : sigmaT ≤ 1.0001 * σ' := by norm_num at s1 ⊢; linarith
    calc _ = 9 * I * (sigmaT * (4 / 3 * cC * γ ^ 2 * ε₀)) := by ring
      _ ≤ 1 * (sigmaT * (4 / 3 * cC * γ ^ 2 * ε₀)) := by gcongr
      _ ≤ 1.0001 * σ' * (4 / 3 * cC * γ ^ 2 * ε₀) := by rw [one_mul]; gcongr
      _ = _ := by ring

/-! ### All electrons -/

theorem monoRate_measurable3 (ε₀ c : ℝ) : Measurable (fun z : ℝ × ℝ => monoRate (z.1 / c) ε₀ (z.2 / c)) := by
  unfold monoRate Spec.isoMono Spec.kinQ step
  have hite : ∀ f : ℝ × ℝ → ℝ, Measurable f → Measurable (fun z => if f z < 0 then (0:ℝ) else if 0 < f z then 1 else 1 / 2) := by
    intro f hf
    have h1 : MeasurableSet {z | f z < 0} := measurableSet_lt hf measurable_const
    have h2 : MeasurableSet {z | 0 < f z} := measurableSet_lt measurable_const hf
    exact Measurable.ite h1 measurable_const (Measurable.ite h2 measurable_const measurable_const)
  have h0 : MeasurableSet {z : ℝ × ℝ | z.2 / c < z.1 / c} := measurableSet_lt (by fun_prop) (by fun_prop)
  refine Measurable.ite h0 ?_ measurable_const
  have m1 := hite (fun z : ℝ × ℝ => 1 - z.2 / c / (4 * ε₀ * (z.1 / c) * (z.1 / c - z.2 / c))) (by fun_prop)
  have m2 := hite (fun z : ℝ × ℝ => z.2 / c / (4 * ε₀ * (z.1 / c) * (z.1 / c - z.2 / c)) - 1 / (4 * (z.1 / c) ^ 2)) (by fun_prop)
  refine Measurable.mul (by fun_prop) ((Measurable.mul ?_ m1).mul m2)
  fun_prop

theorem line_rate_bound (ε₀ a b γ ε : ℝ) (h0 : 0 < ε₀) (hε : 0 < ε) (ha : 0 < a) (h1 : a ≤ γ) (h2 : γ ≤ b) :
    monoRate γ ε₀ ε ≤ if ε < b then 3 / 4 * sigmaT * cC / a ^ 2 / ε₀ * (3 + (4 * ε₀ * b) ^ 2) else 0 := by
  have hσ : (0:ℝ) ≤ 3 / 4 * sigmaT * cC := by unfold sigmaT cC; norm_num
  have hb0 : 0 < b := ha.trans_le (h1.trans h2)
  unfold monoRate
  by_cases h : ε < γ
  · rw [if_pos h, if_pos (h.trans_le h2)]
    refine mul_le_mul ?_ (isoMono_step_le γ ε₀ ε b h0 hε h h2) (isoMono_step_nonneg γ ε₀ ε h0 hε h) (by positivity)
    gcongr
  · rw [if_neg h]
    split <;> positivity

/-- the spectrum as a multiple of the sum over the grid -/
theorem line_value (m : ElModel) (pd : PDist) (hu : pd.unit.dim = Dim.diffEnergy)
    (hus : 0 < pd.unit.scale) (hlo : m.Eemin.PosEnergy) (hhi : m.Eemax.PosEnergy)
    (hlt : m.Eemin.phys < m.Eemax.phys) (ε₀ d : ℝ) (h0 : 0 < ε₀)
    (p : ℝ → ℝ) (hp : ∀ E ∈ Set.Icc m.Eemin.phys m.Eemax.phys, pd.f E = fin (p E))
    (hp0 : ∀ E ∈ Set.Icc m.Eemin.phys m.Eemax.phys, 0 ≤ p E) (gam : List ℝ)
    (hg : gamGrid m.nEed m.Eemin m.Eemax = .ok gam) (hd : 0 < d) (e : ℝ) (he : 0 < e) :
    icSpectrum m [.array [ε₀] [fin d] none] pd [e] = .ok [fin (cEV / (cMe * cC ^ 2) * (d / ε₀) *
      binSum rbin ((gam.map (· * cMec2)).map (fun x => (x, p x * pd.unit.scale *
        monoRate (x / (cMe * cC ^ 2)) ε₀ (e / (cMe * cC ^ 2))))))] := by
  have hm := cMec2_pos
  have hmem := gam_mem m.nEed m.Eemin m.Eemax hlo hhi hlt.le gam hg
  obtain ⟨gam', hg', hgp', hgs'⟩ := gamGrid_facts m.nEed m.Eemin m.Eemax hlo hhi hlt.le
  have e1 : gam' = gam := by rw [hg] at hg'; injection hg' with h; exact h.symm
  subst e1
  obtain ⟨gam2, hg2, -, h⟩ := C71_monochromatic m pd hu hlo hhi hlt.le ε₀ d h0 none [e] (by simpa using he)
  have e2 : gam2 = gam' := by
    have h1 : m.gam = .ok gam' := hg
    rw [h1] at hg2; injection hg2 with h'; exact h'.symm
  subst e2
  rw [h]
  simp only [List.map_cons, List.map_nil]
  have hdd : 0 < d / ε₀ := div_pos hd h0
  have key := trapz_binSum cMec2 hm gam2 hgp' hgs' (fun x => d / ε₀ * (p x * pd.unit.scale *
    monoRate (x / (cMe * cC ^ 2)) ε₀ (e / (cMe * cC ^ 2)))) (by
      intro g hgm
      exact mul_nonneg hdd.le (mul_nonneg (mul_nonneg (hp0 _ (hmem g hgm)) hus.le) (monoRate_nonneg' _ _ _ h0 (div_pos he hm))))
  have hscale : binSum rbin ((gam2.map (· * cMec2)).map (fun x => (x, d / ε₀ * (p x * pd.unit.scale *
      monoRate (x / (cMe * cC ^ 2)) ε₀ (e / (cMe * cC ^ 2)))))) = d / ε₀ *
      binSum rbin ((gam2.map (· * cMec2)).map (fun x => (x, p x * pd.unit.scale *
        monoRate (x / (cMe * cC ^ 2)) ε₀ (e / (cMe * cC ^ 2))))) := by
    apply binSum_rbin_scale (d / ε₀) hdd (gam2.map (· * cMec2)) (fun x => p x * pd.unit.scale *
        monoRate (x / (cMe * cC ^ 2)) ε₀ (e / (cMe * cC ^ 2)))
    · intro x hx
      obtain ⟨g, hgm, rfl⟩ := List.mem_map.1 hx
      exact mul_pos (hgp' g hgm) hm
    · rw [List.pairwise_map]
      exact hgs'.imp (fun h => mul_le_mul_of_nonneg_right h hm.le)
    · intro x hx
      obtain ⟨g, hgm, rfl⟩ := List.mem_map.1 hx
      exact mul_nonneg (mul_nonneg (hp0 _ (hmem g hgm)) hus.le) (monoRate_nonneg' _ _ _ h0 (div_pos he hm))
  rw [hscale] at key
  rw [mul_assoc, ← mul_fin, ← key]
  congr 4
  apply List.map_congr_left
  intro g hgm
  have e3 : g * cMec2 / (cMe * cC ^ 2) = g := by
    show g * cMec2 / cMec2 = g; field_simp
  rw [e3]
  show (fin g, pd.f (g * cMec2) * fin (pd.unit.scale * cMec2) * _) = _
  rw [hp _ (hmem g hgm), mul_fin, mul_fin]
  congr 2
  ring

/-- moments of the spectrum, as the electron grid is refined -/
theorem line_total (k : ℕ) (m : ElModel) (pd : PDist) (hu : pd.unit.dim = Dim.diffEnergy)
    (hus : 0 < pd.unit.scale) (hlo : m.Eemin.PosEnergy) (hhi : m.Eemax.PosEnergy)
    (hlt : m.Eemin.phys < m.Eemax.phys) (ε₀ d : ℝ) (h0 : 0 < ε₀) (hd : 0 < d)
    (p : ℝ → ℝ) (hp : ∀ E ∈ Set.Icc m.Eemin.phys m.Eemax.phys, pd.f E = fin (p E))
    (hs : Spectrum p m.Eemin.phys m.Eemax.phys) :
    ∃ L : ℝ → ℝ → ℝ, (∀ n, ∀ e > 0, icSpectrum { m with nEed := n } [.array [ε₀] [fin d] none] pd [e] = .ok [fin (L n e)]) ∧
      (∀ n, IntegrableOn (fun e => e ^ k * (L n e / cEV)) (Set.Ioi 0)) ∧
      IntervalIntegrable (fun E => p E * pd.unit.scale * (d / ε₀ * (cMe * cC ^ 2) ^ k *
        ∫ ε in Set.Ioi 0, ε ^ k * monoRate (E / (cMe * cC ^ 2)) ε₀ ε)) volume m.Eemin.phys m.Eemax.phys ∧
      Tendsto (fun n => ∫ e in Set.Ioi 0, e ^ k * (L n e / cEV)) atTop (𝓝 (∫ E in m.Eemin.phys..m.Eemax.phys,
        p E * pd.unit.scale * (d / ε₀ * (cMe * cC ^ 2) ^ k *
          ∫ ε in Set.Ioi 0, ε ^ k * monoRate (E / (cMe * cC ^ 2)) ε₀ ε))) := by
  have hm : 0 < cMe * cC ^ 2 := cMec2_pos
  have hev := cEV_pos
  set a := m.Eemin.phys with ha
  set b := m.Eemax.phys with hb
  have ha0 : 0 < a := hlo.phys_pos
  have hb0 : 0 < b := ha0.trans hlt
  have hsc : Spectrum (fun _ => pd.unit.scale) a b := Spectrum.of_continuous (fun _ _ => hus.le) continuousOn_const
  have hN : Spectrum (fun E => p E * pd.unit.scale) a b := hs.mul hsc
  have hgrid : ∀ n : ℝ, ∃ gam, gamGrid n m.Eemin m.Eemax = .ok gam := by
    intro n
    obtain ⟨gam, hg, -⟩ := gamGrid_facts n m.Eemin m.Eemax hlo hhi hlt.le
    exact ⟨gam, hg⟩
  choose G hG using hgrid
  have hfine := electron_fine m.Eemin m.Eemax hlo hhi hlt G hG
  set c := cMe * cC ^ 2 with hc
  set K : ℝ → ℝ → ℝ := fun E e => monoRate (E / c) ε₀ (e / c) with hK
  set A : ℝ := 3 / 4 * sigmaT * cC / (a / c) ^ 2 / ε₀ * (3 + (4 * ε₀ * (b / c)) ^ 2) with hA
  have hA0 : 0 ≤ A := by
    have : (0:ℝ) ≤ 3 / 4 * sigmaT * cC := by unfold sigmaT cC; norm_num
    positivity
  obtain ⟨w1, w2, w3⟩ := weighted_limit hfine ha0 hlt (fun E => p E * pd.unit.scale) hN K
    (monoRate_measurable3 ε₀ c)
    (fun e he => Spectrum.comp_div (c := c) hm (monoRate_spectrum ε₀ _ _ _ h0 (div_pos he hm) (div_pos ha0 hm)))
    (fun e => e ^ k) (Set.indicator (Set.Iio b) (fun _ => b ^ k * A)) (measurable_id.pow_const k)
    (fun e he => pow_nonneg (le_of_lt he) k)
    (by
      rw [integrableOn_indicator_iff measurableSet_Iio]
      rw [show Set.Iio b ∩ Set.Ioi 0 = Set.Ioo 0 b by ext x; simp [and_comm]]
      exact integrableOn_const (by simp))
    (by
      intro E hE e he
      have he : 0 < e := he
      have h1 := line_rate_bound ε₀ (a / c) (b / c) (E / c) (e / c) h0 (div_pos he hm) (div_pos ha0 hm)
        (div_le_div_of_nonneg_right hE.1 hm.le) (div_le_div_of_nonneg_right hE.2 hm.le)
      by_cases hlt' : e < b
      · rw [if_pos (div_lt_div_of_pos_right hlt' hm)] at h1
        rw [Set.indicator_of_mem (show e ∈ Set.Iio b from hlt')]
        exact mul_le_mul (pow_le_pow_left₀ he.le hlt'.le k) h1 (monoRate_nonneg' _ _ _ h0 (div_pos he hm)) (by positivity)
      · have : ¬ (e / c < b / c) := by
          rw [div_lt_div_iff_of_pos_right hm]; exact hlt'
        rw [if_neg this] at h1
        rw [Set.indicator_of_notMem (show e ∉ Set.Iio b from hlt')]
        exact mul_nonpos_of_nonneg_of_nonpos (by positivity) h1)
  set κ := cEV / c * (d / ε₀) with hκ
  have hone : ∀ E : ℝ, ∫ e in Set.Ioi 0, e ^ k * K E e = c ^ (k + 1) * ∫ ε in Set.Ioi 0, ε ^ k * monoRate (E / c) ε₀ ε := by
    intro E
    have h1 := integral_comp_mul_left_Ioi (fun ε => ε ^ k * monoRate (E / c) ε₀ ε) 0 (inv_pos.2 hm)
    rw [mul_zero, inv_inv, smul_eq_mul] at h1
    have h2 : ∫ e in Set.Ioi 0, e ^ k * K E e = ∫ e in Set.Ioi 0, c ^ k * ((c⁻¹ * e) ^ k * monoRate (E / c) ε₀ (c⁻¹ * e)) := by
      congr 1
      funext e
      simp only [hK]
      rw [show e / c = c⁻¹ * e by ring, ← mul_assoc, ← mul_pow, mul_inv_cancel_left₀ hm.ne']
    rw [h2, integral_const_mul, h1]
    ring
  have hfun : (fun E => p E * pd.unit.scale * (d / ε₀ * c ^ k * ∫ ε in Set.Ioi 0, ε ^ k * monoRate (E / c) ε₀ ε)) =
      fun E => κ / cEV * (p E * pd.unit.scale * ∫ e in Set.Ioi 0, e ^ k * K E e) := by
    funext E
    rw [hone, hκ, pow_succ]
    field_simp
  have e1 : ∀ n, (fun e => e ^ k * (κ * binSum rbin (((G n).map (· * cMec2)).map (fun x => (x, p x * pd.unit.scale * K x e))) / cEV)) =
      fun e => κ / cEV * (e ^ k * binSum rbin (((G n).map (· * cMec2)).map (fun x => (x, p x * pd.unit.scale * K x e)))) := by
    intro n; funext e; ring
  refine ⟨fun n e => κ * binSum rbin (((G n).map (· * cMec2)).map (fun x => (x, p x * pd.unit.scale * K x e))),
    fun n e he => line_value { m with nEed := n } pd hu hus hlo hhi hlt ε₀ d h0 p hp hs.nonneg (G n) (hG n) hd e he,
    fun n => ?_, ?_, ?_⟩
  · show IntegrableOn (fun e => e ^ k * (κ * binSum rbin (((G n).map (· * cMec2)).map (fun x => (x, p x * pd.unit.scale * K x e))) / cEV)) _
    rw [e1]; exact (w1 n).const_mul _
  · rw [hfun]; exact w2.const_mul _
  · have : (fun n => ∫ e in Set.Ioi 0, e ^ k * (κ * binSum rbin (((G n).map (· * cMec2)).map (fun x => (x, p x * pd.unit.scale * K x e))) / cEV)) =
        fun n => κ / cEV * ∫ e in Set.Ioi 0, e ^ k * binSum rbin (((G n).map (· * cMec2)).map (fun x => (x, p x * pd.unit.scale * K x e))) := by
      funext n; rw [e1, integral_const_mul]
    rw [this, hfun, intervalIntegral.integral_const_mul]
    exact w3.const_mul _

/-- two-sided bounds carried from one electron to all of them -/
theorem line_squeeze (a b : ℝ) (hlt : a < b) (N J lo hi : ℝ → ℝ) (hN : Spectrum N a b)
    (hJ : IntervalIntegrable (fun E => N E * J E) volume a b) (hlo : ContinuousOn lo (Set.Icc a b)) (hhi : ContinuousOn hi (Set.Icc a b))
    (h1 : ∀ E ∈ Set.Icc a b, lo E ≤ J E) (h2 : ∀ E ∈ Set.Icc a b, J E ≤ hi E) :
    ∫ E in a..b, N E * lo E ≤ ∫ E in a..b, N E * J E ∧ ∫ E in a..b, N E * J E ≤ ∫ E in a..b, N E * hi E := by
  have hi1 := hN.integrable hlt.le
  rw [← Set.uIcc_of_le hlt.le] at hlo hhi
  refine ⟨intervalIntegral.integral_mono_on hlt.le (hi1.mul_continuousOn hlo) hJ fun E hE => ?_,
    intervalIntegral.integral_mono_on hlt.le hJ (hi1.mul_continuousOn hhi) fun E hE => ?_⟩
  · exact mul_le_mul_of_nonneg_left (h1 E hE) (hN.nonneg E hE)
  · exact mul_le_mul_of_nonneg_left (h2 E hE) (hN.nonneg E hE)

/-- **C128 (photon number).** Electrons of at least their rest energy in photons of one energy `ε₀` (mc²) with the energy density
`d` (mc²/cm³): as the electron grid is refined, the number of photons in the spectrum tends to a value between
`0.9999 - 8/3 γ ε₀ - 1/γ²` and 1.0001 of `σ_T c d/ε₀` per electron. -/
theorem C128_total_number (m : ElModel) (pd : PDist) (hu : pd.unit.dim = Dim.diffEnergy)
    (hus : 0 < pd.unit.scale) (hlo : m.Eemin.PosEnergy) (hhi : m.Eemax.PosEnergy)
    (hlt : m.Eemin.phys < m.Eemax.phys) (h1 : cMe * cC ^ 2 ≤ m.Eemin.phys) (ε₀ d : ℝ) (h0 : 0 < ε₀) (hd : 0 < d)
    (p : ℝ → ℝ) (hp : ∀ E ∈ Set.Icc m.Eemin.phys m.Eemax.phys, pd.f E = fin (p E))
    (hs : Spectrum p m.Eemin.phys m.Eemax.phys) :
    ∃ L : ℝ → ℝ → ℝ, (∀ n, ∀ e > 0, icSpectrum { m with nEed := n } [.array [ε₀] [fin d] none] pd [e] = .ok [fin (L n e)]) ∧
      (∀ n, IntegrableOn (fun e => L n e / cEV) (Set.Ioi 0)) ∧
      ∃ P, Tendsto (fun n => ∫ e in Set.Ioi 0, L n e / cEV) atTop (𝓝 P) ∧
        ∫ E in m.Eemin.phys..m.Eemax.phys, p E * pd.unit.scale * ((0.9999 - 8 / 3 * (E / (cMe * cC ^ 2)) * ε₀ -
            1 / (E / (cMe * cC ^ 2)) ^ 2) * (thomsonCgs cE cMe cC * cC * (d / ε₀))) ≤ P ∧
        P ≤ ∫ E in m.Eemin.phys..m.Eemax.phys, p E * pd.unit.scale * (1.0001 * (thomsonCgs cE cMe cC * cC * (d / ε₀))) := by
  have hm : 0 < cMe * cC ^ 2 := cMec2_pos
  obtain ⟨L, l1, l2, l3, l4⟩ := line_total 0 m pd hu hus hlo hhi hlt ε₀ d h0 hd p hp hs
  simp only [pow_zero, one_mul, mul_one] at l2 l3 l4
  have hsc : Spectrum (fun _ => pd.unit.scale) m.Eemin.phys m.Eemax.phys :=
    Spectrum.of_continuous (fun _ _ => hus.le) continuousOn_const
  have hdd : 0 ≤ d / ε₀ := by positivity
  have hg : ∀ E ∈ Set.Icc m.Eemin.phys m.Eemax.phys, 1 ≤ E / (cMe * cC ^ 2) := fun E hE => by
    rw [le_div_iff₀ hm, one_mul]; exact h1.trans hE.1
  obtain ⟨s1, s2⟩ := line_squeeze m.Eemin.phys m.Eemax.phys hlt _ _
    (fun E => (0.9999 - 8 / 3 * (E / (cMe * cC ^ 2)) * ε₀ - 1 / (E / (cMe * cC ^ 2)) ^ 2) * (thomsonCgs cE cMe cC * cC * (d / ε₀)))
    (fun _ => 1.0001 * (thomsonCgs cE cMe cC * cC * (d / ε₀))) (hs.mul hsc) l3
    (by
      apply ContinuousOn.mul _ continuousOn_const
      apply ContinuousOn.sub (by fun_prop)
      apply ContinuousOn.div continuousOn_const (by fun_prop)
      intro E hE
      have := hg E hE
      positivity) continuousOn_const
    (fun E hE => by
      have := mul_le_mul_of_nonneg_left (C128_scattered _ ε₀ (hg E hE) h0).1 hdd
      calc _ = d / ε₀ * ((0.9999 - 8 / 3 * (E / (cMe * cC ^ 2)) * ε₀ - 1 / (E / (cMe * cC ^ 2)) ^ 2) * (thomsonCgs cE cMe cC * cC)) := by ring
        _ ≤ _ := this)
    (fun E hE => by
      have := mul_le_mul_of_nonneg_left (C128_scattered _ ε₀ (hg E hE) h0).2 hdd
      calc _ ≤ _ := this
        _ = _ := by ring)
  exact ⟨L, l1, l2, _, l4, s1, s2⟩

/-- **C128 (power).** And the energy in the spectrum tends to a value between `0.9999 - 63/10 γ ε₀ - 1/γ⁴` and 1.0001 of
`4/3 σ_T c γ² U` per electron, `U` the energy density in erg/cm³. -/
theorem C128_total_power (m : ElModel) (pd : PDist) (hu : pd.unit.dim = Dim.diffEnergy)
    (hus : 0 < pd.unit.scale) (hlo : m.Eemin.PosEnergy) (hhi : m.Eemax.PosEnergy)
    (hlt : m.Eemin.phys < m.Eemax.phys) (h1 : cMe * cC ^ 2 ≤ m.Eemin.phys) (ε₀ U : ℝ) (h0 : 0 < ε₀) (hU : 0 < U)
    (p : ℝ → ℝ) (hp : ∀ E ∈ Set.Icc m.Eemin.phys m.Eemax.phys, pd.f E = fin (p E))
    (hs : Spectrum p m.Eemin.phys m.Eemax.phys) :
    ∃ L : ℝ → ℝ → ℝ, (∀ n, ∀ e > 0, icSpectrum { m with nEed := n } [.array [ε₀] [fin (U / (cMe * cC ^ 2))] none] pd [e] =
        .ok [fin (L n e)]) ∧
      (∀ n, IntegrableOn (fun e => e * (L n e / cEV)) (Set.Ioi 0)) ∧
      ∃ P, Tendsto (fun n => ∫ e in Set.Ioi 0, e * (L n e / cEV)) atTop (𝓝 P) ∧
        ∫ E in m.Eemin.phys..m.Eemax.phys, p E * pd.unit.scale * ((0.9999 - 63 / 10 * (E / (cMe * cC ^ 2)) * ε₀ -
            1 / (E / (cMe * cC ^ 2)) ^ 4) * (4 / 3 * thomsonCgs cE cMe cC * cC * (E / (cMe * cC ^ 2)) ^ 2 * U)) ≤ P ∧
        P ≤ ∫ E in m.Eemin.phys..m.Eemax.phys, p E * pd.unit.scale *
            (1.0001 * (4 / 3 * thomsonCgs cE cMe cC * cC * (E / (cMe * cC ^ 2)) ^ 2 * U)) := by
  have hm : 0 < cMe * cC ^ 2 := cMec2_pos
  obtain ⟨L, l1, l2, l3, l4⟩ := line_total 1 m pd hu hus hlo hhi hlt ε₀ (U / (cMe * cC ^ 2)) h0 (by positivity) p hp hs
  simp only [pow_one] at l2 l3 l4
  have hsc : Spectrum (fun _ => pd.unit.scale) m.Eemin.phys m.Eemax.phys :=
    Spectrum.of_continuous (fun _ _ => hus.le) continuousOn_const
  have hdd : 0 ≤ U / (cMe * cC ^ 2) / ε₀ * (cMe * cC ^ 2) := by positivity
  have e0' : ∀ v K : ℝ, U / (cMe * cC ^ 2) / ε₀ * (cMe * cC ^ 2) * (v * (K * ε₀)) = v * (K * U) := by
    intro v K
    have h := hm.ne'
    generalize cMe * cC ^ 2 = c at h
    field_simp
  have hg : ∀ E ∈ Set.Icc m.Eemin.phys m.Eemax.phys, 1 ≤ E / (cMe * cC ^ 2) := fun E hE => by
    rw [le_div_iff₀ hm, one_mul]; exact h1.trans hE.1
  obtain ⟨s1, s2⟩ := line_squeeze m.Eemin.phys m.Eemax.phys hlt _ _
    (fun E => (0.9999 - 63 / 10 * (E / (cMe * cC ^ 2)) * ε₀ - 1 / (E / (cMe * cC ^ 2)) ^ 4) *
      (4 / 3 * thomsonCgs cE cMe cC * cC * (E / (cMe * cC ^ 2)) ^ 2 * U))
    (fun E => 1.0001 * (4 / 3 * thomsonCgs cE cMe cC * cC * (E / (cMe * cC ^ 2)) ^ 2 * U)) (hs.mul hsc) l3
    (by
      refine ContinuousOn.mul ?_ (by fun_prop)
      apply ContinuousOn.sub (by fun_prop)
      apply ContinuousOn.div continuousOn_const (by fun_prop)
      intro E hE
      have := hg E hE
      positivity) (by fun_prop)
    (fun E hE => by
      have := mul_le_mul_of_nonneg_left (C128_radiated _ ε₀ (hg E hE) h0).1 hdd
      calc _ = U / (cMe * cC ^ 2) / ε₀ * (cMe * cC ^ 2) * ((0.9999 - 63 / 10 * (E / (cMe * cC ^ 2)) * ε₀ -
            1 / (E / (cMe * cC ^ 2)) ^ 4) * (4 / 3 * thomsonCgs cE cMe cC * cC * (E / (cMe * cC ^ 2)) ^ 2 * ε₀)) := by
            exact (e0' _ _).symm
        _ ≤ _ := this)
    (fun E hE => by
      have := mul_le_mul_of_nonneg_left (C128_radiated _ ε₀ (hg E hE) h0).2 hdd
      calc _ ≤ _ := this
        _ = _ := e0' _ _)
  exact ⟨L, l1, l2, _, l4, s1, s2⟩

/-! ### The hypotheses are met -/

/-- A power law of index 3 from 1 GeV to 1 TeV in 1 eV/cm³ of photons of the energy 10⁻⁹ mc². -/
example : ∃ (m : ElModel) (pd : PDist) (p : ℝ → ℝ), pd.unit.dim = Dim.diffEnergy ∧ 0 < pd.unit.scale ∧ m.Eemin.PosEnergy ∧
    m.Eemax.PosEnergy ∧ m.Eemin.phys < m.Eemax.phys ∧ cMe * cC ^ 2 ≤ m.Eemin.phys ∧
    (∀ E ∈ Set.Icc m.Eemin.phys m.Eemax.phys, pd.f E = fin (p E)) ∧ Spectrum p m.Eemin.phys m.Eemax.phys ∧
    (0:ℝ) < 1e-9 ∧ 0 < cEV := by
  have hev := cEV_pos
  have h0 : (⟨1, PhysUnit.TeV⟩ : Qty ℝ).PosEnergy := ⟨rfl, by simp [PhysUnit.TeV]; positivity, by norm_num⟩
  let m : ElModel := ⟨⟨1, PhysUnit.GeV⟩, ⟨1, PhysUnit.TeV⟩, 100⟩
  have hlo : m.Eemin.PosEnergy := ⟨rfl, GeV_pos, by norm_num [m]⟩
  have hlt : m.Eemin.phys < m.Eemax.phys := by simp only [m, Qty.phys, PhysUnit.GeV, PhysUnit.TeV]; norm_num
  have h1 : cMe * cC ^ 2 ≤ m.Eemin.phys := by
    simp only [m, Qty.phys, PhysUnit.GeV, cMe, cC]; norm_num
  refine ⟨m, PowerLaw.toPDist ⟨fin 1e33, (⟨1, PhysUnit.TeV⟩ : Qty ℝ).lift, fin 3⟩ ⟨1 / cEV, Dim.diffEnergy⟩, _, rfl, ?_, hlo, h0, hlt, h1,
    (fun E hE => powerLaw_pdist 1e33 3 _ h0 _ E (hlo.phys_pos.trans_le hE.1)),
    Spectrum.of_continuous (fun E hE => ?_) (ContinuousOn.mul continuousOn_const (ContinuousOn.rpow_const (by fun_prop)
        (fun E hE => Or.inl (div_pos (hlo.phys_pos.trans_le hE.1) h0.phys_pos).ne'))), by norm_num, hev⟩
  · simp only [PowerLaw.toPDist]; positivity
  · have := div_pos (hlo.phys_pos.trans_le hE.1) h0.phys_pos
    positivity

end Naima.Props
