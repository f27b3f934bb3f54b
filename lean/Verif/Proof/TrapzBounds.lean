import Verif.Proof.Trapz
import Mathlib.Analysis.MeanInequalities
import Mathlib.MeasureTheory.Integral.IntervalIntegral.Basic

/-! Order properties of the log-log trapezoid rule and its convergence -/

namespace Naima

open XR

/-- the local index -/
noncomputable def locIdx (x1 x2 y1 y2 : ℝ) : ℝ := Real.logb 10 (y2 / y1) / Real.logb 10 (x2 / x1)

theorem locIdx_log (x1 x2 y1 y2 : ℝ) : locIdx x1 x2 y1 y2 = Real.log (y2 / y1) / Real.log (x2 / x1) := by
  unfold locIdx Real.logb
  have : Real.log 10 ≠ 0 := Real.log_ne_zero_of_pos_of_ne_one (by norm_num) (by norm_num)
  field_simp

/-- the interpolating power law, as a weighted geometric mean of the two samples -/
noncomputable def geo (x1 x2 y1 y2 t : ℝ) : ℝ :=
  y1 ^ (1 - Real.log (t / x1) / Real.log (x2 / x1)) * y2 ^ (Real.log (t / x1) / Real.log (x2 / x1))

theorem weight_mem (x1 x2 t : ℝ) (h1 : 0 < x1) (h12 : x1 < x2) (ht : t ∈ Set.Icc x1 x2) :
    0 ≤ Real.log (t / x1) / Real.log (x2 / x1) ∧ Real.log (t / x1) / Real.log (x2 / x1) ≤ 1 := by
  have hr : 0 < Real.log (x2 / x1) := Real.log_pos (by rwa [one_lt_div h1])
  have ht0 : 0 < t := lt_of_lt_of_le h1 ht.1
  constructor
  · apply div_nonneg _ hr.le
    apply Real.log_nonneg
    rw [one_le_div h1]; exact ht.1
  · rw [div_le_one hr]
    apply Real.log_le_log (div_pos ht0 h1)
    exact div_le_div_of_nonneg_right ht.2 h1.le

theorem geo_eq (x1 x2 y1 y2 t : ℝ) (h1 : 0 < x1) (h12 : x1 < x2) (hy1 : 0 < y1) (hy2 : 0 < y2)
    (ht : 0 < t) : geo x1 x2 y1 y2 t = y1 * (t / x1) ^ locIdx x1 x2 y1 y2 := by
  have hr : 0 < Real.log (x2 / x1) := Real.log_pos (by rwa [one_lt_div h1])
  unfold geo
  rw [Real.rpow_sub hy1, Real.rpow_one, div_mul_eq_mul_div, mul_div_assoc, ← Real.div_rpow hy2.le hy1.le]
  congr 1
  rw [locIdx_log, Real.rpow_def_of_pos (div_pos hy2 hy1), Real.rpow_def_of_pos (div_pos ht h1)]
  congr 1
  ring

theorem geo_continuousOn (x1 x2 y1 y2 : ℝ) (h1 : 0 < x1) (hy1 : 0 < y1) (hy2 : 0 < y2) :
    ContinuousOn (geo x1 x2 y1 y2) (Set.Icc x1 x2) := by
  unfold geo
  have hl : ContinuousOn (fun t => Real.log (t / x1) / Real.log (x2 / x1)) (Set.Icc x1 x2) := by
    apply ContinuousOn.div_const
    apply ContinuousOn.log (continuousOn_id.div_const _)
    intro t ht
    exact (div_pos (lt_of_lt_of_le h1 ht.1) h1).ne'
  apply ContinuousOn.mul
  · exact ContinuousOn.rpow continuousOn_const (continuousOn_const.sub hl) (fun t _ => Or.inl hy1.ne')
  · exact ContinuousOn.rpow continuousOn_const hl (fun t _ => Or.inl hy2.ne')

theorem geo_integrable (x1 x2 y1 y2 : ℝ) (h1 : 0 < x1) (h12 : x1 ≤ x2) (hy1 : 0 < y1) (hy2 : 0 < y2) :
    IntervalIntegrable (geo x1 x2 y1 y2) MeasureTheory.volume x1 x2 := by
  apply ContinuousOn.intervalIntegrable
  rw [Set.uIcc_of_le h12]
  exact geo_continuousOn x1 x2 y1 y2 h1 hy1 hy2

theorem geo_nonneg (x1 x2 y1 y2 t : ℝ) (hy1 : 0 ≤ y1) (hy2 : 0 ≤ y2) : 0 ≤ geo x1 x2 y1 y2 t := by
  unfold geo; positivity

/-- the value of a bin, exact in the local index -/
noncomputable def gbin (x1 x2 y1 y2 : ℝ) : ℝ :=
  if y1 = 0 ∨ y2 = 0 then 0 else ∫ t in x1..x2, geo x1 x2 y1 y2 t

/-- the value of a bin as computed -/
noncomputable def rbin (x1 x2 y1 y2 : ℝ) : ℝ :=
  if y1 = 0 ∨ y2 = 0 ∨ x1 = x2 then 0 else realBin x1 x2 y1 y2

theorem trapzBin_rbin (x1 x2 y1 y2 : ℝ) (h1 : 0 < x1) (h12 : x1 ≤ x2) (hy1 : 0 ≤ y1) (hy2 : 0 ≤ y2) :
    trapzBin (fin x1) (fin x2) (fin y1) (fin y2) = fin (rbin x1 x2 y1 y2) := by
  unfold rbin
  by_cases hz : y1 = 0 ∨ y2 = 0 ∨ x1 = x2
  · rw [if_pos hz]; exact trapzBin_zero _ _ _ _ (by simpa using hz)
  · rw [if_neg hz]
    push Not at hz
    obtain ⟨a, b, c⟩ := hz
    exact trapzBin_fin _ _ _ _ h1 (h1.trans_le h12) c a
      (div_pos (lt_of_le_of_ne hy2 (Ne.symm b)) (lt_of_le_of_ne hy1 (Ne.symm a)))

/-- the computed bin integrates a power law whose index is off by at most 1e-10 -/
theorem realBin_near (x1 x2 y1 y2 : ℝ) (h1 : 0 < x1) (h12 : x1 < x2) (hy1 : 0 < y1) (hy2 : 0 < y2) :
    ∃ w : ℝ, |w| ≤ 1e-10 ∧
      realBin x1 x2 y1 y2 = ∫ t in x1..x2, geo x1 x2 y1 y2 t * (t / x1) ^ w := by
  have h2 := h1.trans h12
  have conv : ∀ w : ℝ, (∫ t in x1..x2, geo x1 x2 y1 y2 t * (t / x1) ^ w) =
      ∫ t in x1..x2, y1 * (t / x1) ^ (locIdx x1 x2 y1 y2 + w) := by
    intro w
    apply intervalIntegral.integral_congr
    intro t ht
    rw [Set.uIcc_of_le h12.le] at ht
    have ht0 : 0 < t := lt_of_lt_of_le h1 ht.1
    simp only []
    rw [geo_eq x1 x2 y1 y2 t h1 h12 hy1 hy2 ht0, mul_assoc, ← Real.rpow_add (div_pos ht0 h1)]
  by_cases hgood : locIdx x1 x2 y1 y2 = -1 ∨ 1e-10 < |locIdx x1 x2 y1 y2 + 1|
  · refine ⟨0, by norm_num, ?_⟩
    rw [conv, add_zero]
    exact realBin_eq_powerlaw x1 x2 y1 y2 h1 h2 _ rfl hgood
  · push Not at hgood
    refine ⟨-1 - locIdx x1 x2 y1 y2, ?_, ?_⟩
    · rw [show -1 - locIdx x1 x2 y1 y2 = -(locIdx x1 x2 y1 y2 + 1) by ring, abs_neg]
      exact hgood.2
    · rw [conv, show locIdx x1 x2 y1 y2 + (-1 - locIdx x1 x2 y1 y2) = -1 by ring]
      have e : realBin x1 x2 y1 y2 = realBin x1 x2 y1 (y1 * (x2 / x1) ^ (-1 : ℝ)) := by
        have hidx : -1 = Real.logb 10 (y1 * (x2 / x1) ^ (-1 : ℝ) / y1) / Real.logb 10 (x2 / x1) := by
          rw [mul_comm y1, mul_div_assoc, div_self hy1.ne', mul_one,
            Real.logb_rpow_eq_mul_logb_of_pos (div_pos h2 h1), mul_div_assoc,
            div_self (logb_ratio_ne x1 x2 h1 h2 h12.ne), mul_one]
        unfold realBin
        have h3 : ¬ (1e-10 : ℝ) < |Real.logb 10 (y2 / y1) / Real.logb 10 (x2 / x1) + 1| :=
          not_lt.2 hgood.2
        rw [← hidx, if_neg h3, if_neg (by norm_num)]
      have hidx : -1 = Real.logb 10 (y1 * (x2 / x1) ^ (-1 : ℝ) / y1) / Real.logb 10 (x2 / x1) := by
        rw [mul_comm y1, mul_div_assoc, div_self hy1.ne', mul_one,
          Real.logb_rpow_eq_mul_logb_of_pos (div_pos h2 h1), mul_div_assoc,
          div_self (logb_ratio_ne x1 x2 h1 h2 h12.ne), mul_one]
      rw [e, realBin_eq_powerlaw x1 x2 y1 _ h1 h2 (-1) hidx (Or.inl rfl)]

theorem rpow_near (r u w : ℝ) (hr : 1 ≤ r) (hu : 1 ≤ u) (hur : u ≤ r) (hw : |w| ≤ 1e-10) :
    r ^ (-(1e-10) : ℝ) ≤ u ^ w ∧ u ^ w ≤ r ^ (1e-10 : ℝ) := by
  obtain ⟨h1, h2⟩ := abs_le.1 hw
  constructor
  · calc r ^ (-(1e-10) : ℝ) ≤ u ^ (-(1e-10) : ℝ) :=
        Real.rpow_le_rpow_of_nonpos (by linarith) hur (by norm_num)
      _ ≤ u ^ w := Real.rpow_le_rpow_of_exponent_le hu h1
  · calc u ^ w ≤ u ^ (1e-10 : ℝ) := Real.rpow_le_rpow_of_exponent_le hu h2
      _ ≤ r ^ (1e-10 : ℝ) := Real.rpow_le_rpow (by linarith) hur (by norm_num)

theorem rbin_near (x1 x2 y1 y2 : ℝ) (h1 : 0 < x1) (h12 : x1 ≤ x2) (hy1 : 0 ≤ y1) (hy2 : 0 ≤ y2) :
    (x2 / x1) ^ (-(1e-10) : ℝ) * gbin x1 x2 y1 y2 ≤ rbin x1 x2 y1 y2 ∧
    rbin x1 x2 y1 y2 ≤ (x2 / x1) ^ (1e-10 : ℝ) * gbin x1 x2 y1 y2 := by
  unfold rbin gbin
  by_cases hz : y1 = 0 ∨ y2 = 0
  · have h3 : y1 = 0 ∨ y2 = 0 ∨ x1 = x2 := by rcases hz with h | h <;> simp [h]
    rw [if_pos hz, if_pos h3]; simp
  by_cases hx : x1 = x2
  · have h3 : y1 = 0 ∨ y2 = 0 ∨ x1 = x2 := by simp [hx]
    rw [if_neg hz, if_pos h3, hx]; simp
  push Not at hz
  rw [if_neg (by push Not; exact hz), if_neg (by push Not; exact ⟨hz.1, hz.2, hx⟩)]
  have hlt : x1 < x2 := lt_of_le_of_ne h12 hx
  have y1p : 0 < y1 := lt_of_le_of_ne hy1 (Ne.symm hz.1)
  have y2p : 0 < y2 := lt_of_le_of_ne hy2 (Ne.symm hz.2)
  obtain ⟨w, hw, e⟩ := realBin_near x1 x2 y1 y2 h1 hlt y1p y2p
  have hr : 1 ≤ x2 / x1 := by rw [one_le_div h1]; exact h12
  have hcont : ContinuousOn (fun t => geo x1 x2 y1 y2 t * (t / x1) ^ w) (Set.Icc x1 x2) := by
    apply (geo_continuousOn x1 x2 y1 y2 h1 y1p y2p).mul
    apply ContinuousOn.rpow_const (continuousOn_id.div_const _)
    intro t ht
    exact Or.inl (div_pos (lt_of_lt_of_le h1 ht.1) h1).ne'
  have hint : IntervalIntegrable (fun t => geo x1 x2 y1 y2 t * (t / x1) ^ w) MeasureTheory.volume x1 x2 := by
    apply ContinuousOn.intervalIntegrable
    rwa [Set.uIcc_of_le h12]
  have hg := geo_integrable x1 x2 y1 y2 h1 h12 y1p y2p
  have key : ∀ t ∈ Set.Icc x1 x2, (x2 / x1) ^ (-(1e-10) : ℝ) ≤ (t / x1) ^ w ∧
      (t / x1) ^ w ≤ (x2 / x1) ^ (1e-10 : ℝ) := by
    intro t ht
    exact rpow_near _ _ _ hr (by rw [one_le_div h1]; exact ht.1)
      (div_le_div_of_nonneg_right ht.2 h1.le) hw
  rw [e, ← intervalIntegral.integral_const_mul, ← intervalIntegral.integral_const_mul]
  constructor
  · apply intervalIntegral.integral_mono_on h12 (hg.const_mul _) hint
    intro t ht
    rw [mul_comm]
    exact mul_le_mul_of_nonneg_left (key t ht).1 (geo_nonneg _ _ _ _ _ hy1 hy2)
  · apply intervalIntegral.integral_mono_on h12 hint (hg.const_mul _)
    intro t ht
    rw [mul_comm ((x2 / x1) ^ _)]
    exact mul_le_mul_of_nonneg_left (key t ht).2 (geo_nonneg _ _ _ _ _ hy1 hy2)

theorem gbin_nonneg (x1 x2 y1 y2 : ℝ) (h12 : x1 ≤ x2) (hy1 : 0 ≤ y1) (hy2 : 0 ≤ y2) :
    0 ≤ gbin x1 x2 y1 y2 := by
  unfold gbin
  split
  · exact le_rfl
  · exact intervalIntegral.integral_nonneg h12 (fun t _ => geo_nonneg _ _ _ _ _ hy1 hy2)

theorem gbin_mono (x1 x2 y1 y2 z1 z2 : ℝ) (h1 : 0 < x1) (h12 : x1 ≤ x2) (hy1 : 0 ≤ y1) (hy2 : 0 ≤ y2)
    (hz1 : y1 ≤ z1) (hz2 : y2 ≤ z2) : gbin x1 x2 y1 y2 ≤ gbin x1 x2 z1 z2 := by
  rcases eq_or_lt_of_le h12 with h | hlt
  · subst h; unfold gbin; simp
  by_cases hz : y1 = 0 ∨ y2 = 0
  · have : gbin x1 x2 y1 y2 = 0 := by unfold gbin; rw [if_pos hz]
    rw [this]
    exact gbin_nonneg _ _ _ _ h12 (hy1.trans hz1) (hy2.trans hz2)
  push Not at hz
  have y1p : 0 < y1 := lt_of_le_of_ne hy1 (Ne.symm hz.1)
  have y2p : 0 < y2 := lt_of_le_of_ne hy2 (Ne.symm hz.2)
  have z1p := y1p.trans_le hz1
  have z2p := y2p.trans_le hz2
  unfold gbin
  rw [if_neg (by push Not; exact hz), if_neg (by push Not; exact ⟨z1p.ne', z2p.ne'⟩)]
  apply intervalIntegral.integral_mono_on h12 (geo_integrable _ _ _ _ h1 h12 y1p y2p)
    (geo_integrable _ _ _ _ h1 h12 z1p z2p)
  intro t ht
  obtain ⟨w0, w1⟩ := weight_mem x1 x2 t h1 hlt ht
  unfold geo
  exact mul_le_mul (Real.rpow_le_rpow hy1 hz1 (by linarith)) (Real.rpow_le_rpow hy2 hz2 w0)
    (by positivity) (by positivity)

/-- Hölder: the weighted geometric mean is superadditive -/
theorem geo_superadd (a b c d s : ℝ) (ha : 0 < a) (hb : 0 < b) (hc : 0 < c) (hd : 0 < d) (h0 : 0 ≤ s)
    (h1 : s ≤ 1) : a ^ (1 - s) * b ^ s + c ^ (1 - s) * d ^ s ≤ (a + c) ^ (1 - s) * (b + d) ^ s := by
  have hac : 0 < a + c := by positivity
  have hbd : 0 < b + d := by positivity
  have k1 := Real.geom_mean_le_arith_mean2_weighted (by linarith : 0 ≤ 1 - s) h0
    (div_nonneg ha.le hac.le) (div_nonneg hb.le hbd.le) (by ring)
  have k2 := Real.geom_mean_le_arith_mean2_weighted (by linarith : 0 ≤ 1 - s) h0
    (div_nonneg hc.le hac.le) (div_nonneg hd.le hbd.le) (by ring)
  rw [Real.div_rpow ha.le hac.le, Real.div_rpow hb.le hbd.le] at k1
  rw [Real.div_rpow hc.le hac.le, Real.div_rpow hd.le hbd.le] at k2
  have P : 0 < (a + c) ^ (1 - s) := by positivity
  have Q : 0 < (b + d) ^ s := by positivity
  have e : (1 - s) * (a / (a + c)) + s * (b / (b + d)) + ((1 - s) * (c / (a + c)) + s * (d / (b + d))) = 1 := by
    field_simp
    ring
  have hsum : a ^ (1 - s) / (a + c) ^ (1 - s) * (b ^ s / (b + d) ^ s) +
      c ^ (1 - s) / (a + c) ^ (1 - s) * (d ^ s / (b + d) ^ s) ≤ 1 := by linarith
  have e2 : a ^ (1 - s) / (a + c) ^ (1 - s) * (b ^ s / (b + d) ^ s) +
      c ^ (1 - s) / (a + c) ^ (1 - s) * (d ^ s / (b + d) ^ s) =
      (a ^ (1 - s) * b ^ s + c ^ (1 - s) * d ^ s) / ((a + c) ^ (1 - s) * (b + d) ^ s) := by
    field_simp
  rw [e2, div_le_one (by positivity)] at hsum
  exact hsum

theorem gbin_superadd (x1 x2 y1 y2 z1 z2 : ℝ) (h1 : 0 < x1) (h12 : x1 ≤ x2) (hy1 : 0 ≤ y1) (hy2 : 0 ≤ y2)
    (hz1 : 0 ≤ z1) (hz2 : 0 ≤ z2) :
    gbin x1 x2 y1 y2 + gbin x1 x2 z1 z2 ≤ gbin x1 x2 (y1 + z1) (y2 + z2) := by
  rcases eq_or_lt_of_le h12 with h | hlt
  · subst h; unfold gbin; simp
  by_cases hy : y1 = 0 ∨ y2 = 0
  · have : gbin x1 x2 y1 y2 = 0 := by unfold gbin; rw [if_pos hy]
    rw [this, zero_add]
    exact gbin_mono _ _ _ _ _ _ h1 h12 hz1 hz2 (by linarith) (by linarith)
  by_cases hz : z1 = 0 ∨ z2 = 0
  · have : gbin x1 x2 z1 z2 = 0 := by unfold gbin; rw [if_pos hz]
    rw [this, add_zero]
    exact gbin_mono _ _ _ _ _ _ h1 h12 hy1 hy2 (by linarith) (by linarith)
  push Not at hy hz
  have y1p : 0 < y1 := lt_of_le_of_ne hy1 (Ne.symm hy.1)
  have y2p : 0 < y2 := lt_of_le_of_ne hy2 (Ne.symm hy.2)
  have z1p : 0 < z1 := lt_of_le_of_ne hz1 (Ne.symm hz.1)
  have z2p : 0 < z2 := lt_of_le_of_ne hz2 (Ne.symm hz.2)
  unfold gbin
  rw [if_neg (by push Not; exact hy), if_neg (by push Not; exact hz),
    if_neg (by push Not; constructor <;> positivity)]
  have i1 := geo_integrable x1 x2 y1 y2 h1 h12 y1p y2p
  have i2 := geo_integrable x1 x2 z1 z2 h1 h12 z1p z2p
  rw [← intervalIntegral.integral_add i1 i2]
  apply intervalIntegral.integral_mono_on h12 (i1.add i2)
    (geo_integrable _ _ _ _ h1 h12 (by positivity) (by positivity))
  intro t ht
  obtain ⟨w0, w1⟩ := weight_mem x1 x2 t h1 hlt ht
  exact geo_superadd _ _ _ _ _ y1p y2p z1p z2p w0 w1

theorem geo_between (x1 x2 y1 y2 t : ℝ) (h1 : 0 < x1) (h12 : x1 < x2) (hy1 : 0 < y1) (hy2 : 0 < y2)
    (ht : t ∈ Set.Icc x1 x2) : min y1 y2 ≤ geo x1 x2 y1 y2 t ∧ geo x1 x2 y1 y2 t ≤ max y1 y2 := by
  obtain ⟨w0, w1⟩ := weight_mem x1 x2 t h1 h12 ht
  unfold geo
  set s := Real.log (t / x1) / Real.log (x2 / x1)
  have hm : 0 < min y1 y2 := lt_min hy1 hy2
  have hM : 0 < max y1 y2 := lt_max_of_lt_left hy1
  have e : ∀ m : ℝ, 0 < m → m ^ (1 - s) * m ^ s = m := by
    intro m hm
    rw [← Real.rpow_add hm]; simp
  constructor
  · conv_lhs => rw [← e _ hm]
    exact mul_le_mul (Real.rpow_le_rpow hm.le (min_le_left _ _) (by linarith))
      (Real.rpow_le_rpow hm.le (min_le_right _ _) w0) (by positivity) (by positivity)
  · conv_rhs => rw [← e _ hM]
    exact mul_le_mul (Real.rpow_le_rpow hy1.le (le_max_left _ _) (by linarith))
      (Real.rpow_le_rpow hy2.le (le_max_right _ _) w0) (by positivity) (by positivity)

theorem gbin_between (x1 x2 y1 y2 : ℝ) (h1 : 0 < x1) (h12 : x1 ≤ x2) (hy1 : 0 ≤ y1) (hy2 : 0 ≤ y2) :
    min y1 y2 * (x2 - x1) ≤ gbin x1 x2 y1 y2 ∧ gbin x1 x2 y1 y2 ≤ max y1 y2 * (x2 - x1) := by
  rcases eq_or_lt_of_le h12 with h | hlt
  · subst h; unfold gbin; simp
  by_cases hy : y1 = 0 ∨ y2 = 0
  · have hg : gbin x1 x2 y1 y2 = 0 := by unfold gbin; rw [if_pos hy]
    have hm : min y1 y2 = 0 := by
      rcases hy with h | h
      · rw [h]; exact min_eq_left hy2
      · rw [h]; exact min_eq_right hy1
    rw [hg, hm]
    refine ⟨by simp, mul_nonneg (le_max_of_le_left hy1) (by linarith)⟩
  push Not at hy
  have y1p : 0 < y1 := lt_of_le_of_ne hy1 (Ne.symm hy.1)
  have y2p : 0 < y2 := lt_of_le_of_ne hy2 (Ne.symm hy.2)
  unfold gbin
  rw [if_neg (by push Not; exact hy)]
  have i1 := geo_integrable x1 x2 y1 y2 h1 h12 y1p y2p
  have c : ∀ m : ℝ, m * (x2 - x1) = ∫ _ in x1..x2, m := by
    intro m; rw [intervalIntegral.integral_const, smul_eq_mul, mul_comm]
  rw [c, c]
  constructor
  · exact intervalIntegral.integral_mono_on h12 intervalIntegrable_const i1
      (fun t ht => (geo_between x1 x2 y1 y2 t h1 hlt y1p y2p ht).1)
  · exact intervalIntegral.integral_mono_on h12 i1 intervalIntegrable_const
      (fun t ht => (geo_between x1 x2 y1 y2 t h1 hlt y1p y2p ht).2)

/-! ### Sums -/

/-- sum over the bins of real samples -/
noncomputable def binSum (B : ℝ → ℝ → ℝ → ℝ → ℝ) : List (ℝ × ℝ) → ℝ
  | p :: q :: rest => B p.1 q.1 p.2 q.2 + binSum B (q :: rest)
  | _ => 0

theorem trapzLL_rbin (pts : List (ℝ × ℝ)) (hx : ∀ p ∈ pts, 0 < p.1) (hy : ∀ p ∈ pts, 0 ≤ p.2)
    (hs : (pts.map (·.1)).Pairwise (· ≤ ·)) :
    trapzLL (pts.map (fun p => (fin p.1, fin p.2))) = fin (binSum rbin pts) := by
  induction pts with
  | nil => simp [trapzLL, trapzIntervals, binSum]
  | cons p rest ih =>
    cases rest with
    | nil => simp [trapzLL, trapzIntervals, binSum]
    | cons q rest =>
      have e := ih (fun a ha => hx a (by simp [ha])) (fun a ha => hy a (by simp [ha]))
        (List.Pairwise.of_cons (by simpa using hs))
      have hpq : p.1 ≤ q.1 := by
        simp only [List.map_cons, List.pairwise_cons] at hs
        exact hs.1 q.1 (by simp)
      have e2 := trapzBin_rbin p.1 q.1 p.2 q.2 (hx p (by simp)) hpq (hy p (by simp)) (hy q (by simp))
      unfold trapzLL at e ⊢
      simp only [List.map_cons, trapzIntervals, sum_cons, binSum] at e ⊢
      rw [e, e2, add_fin]

/-- consecutive abscissae -/
def Adj (R : ℝ → ℝ → Prop) : List ℝ → Prop
  | a :: b :: rest => R a b ∧ Adj R (b :: rest)
  | _ => True

/-- comparison of two sums over the same abscissae, bin by bin -/
theorem binSum_le {α : Type} (B C : ℝ → ℝ → ℝ → ℝ → ℝ) (k : ℝ) (l : List α) (x y z : α → ℝ)
    (P : ℝ → ℝ → Prop) (hadj : Adj P (l.map x))
    (h : ∀ a ∈ l, ∀ b ∈ l, P (x a) (x b) → B (x a) (x b) (y a) (y b) ≤ k * C (x a) (x b) (z a) (z b)) :
    binSum B (l.map (fun a => (x a, y a))) ≤ k * binSum C (l.map (fun a => (x a, z a))) := by
  induction l with
  | nil => simp [binSum]
  | cons a l ih =>
    cases l with
    | nil => simp [binSum]
    | cons b l =>
      simp only [List.map_cons, Adj] at hadj
      have h1 := h a (by simp) b (by simp) hadj.1
      have h2 := ih (by simpa using hadj.2) (fun a ha b hb => h a (by simp [ha]) b (by simp [hb]))
      simp only [List.map_cons, binSum] at h2 ⊢
      linarith

theorem rbin_mono (R x1 x2 y1 y2 z1 z2 : ℝ) (h1 : 0 < x1) (h12 : x1 ≤ x2) (hR : x2 / x1 ≤ R)
    (hy1 : 0 ≤ y1) (hy2 : 0 ≤ y2) (hz1 : y1 ≤ z1) (hz2 : y2 ≤ z2) :
    rbin x1 x2 y1 y2 ≤ R ^ (2e-10 : ℝ) * rbin x1 x2 z1 z2 := by
  have hr0 : 0 < x2 / x1 := div_pos (h1.trans_le h12) h1
  have hR0 : 0 < R := hr0.trans_le hR
  have a := (rbin_near x1 x2 y1 y2 h1 h12 hy1 hy2).2
  have b := gbin_mono x1 x2 y1 y2 z1 z2 h1 h12 hy1 hy2 hz1 hz2
  have c := (rbin_near x1 x2 z1 z2 h1 h12 (hy1.trans hz1) (hy2.trans hz2)).1
  have hg := gbin_nonneg x1 x2 z1 z2 h12 (hy1.trans hz1) (hy2.trans hz2)
  have hp : 0 < (x2 / x1) ^ (1e-10 : ℝ) := by positivity
  have hinv : (x2 / x1) ^ (-(1e-10) : ℝ) = ((x2 / x1) ^ (1e-10 : ℝ))⁻¹ := Real.rpow_neg hr0.le _
  have c' : gbin x1 x2 z1 z2 ≤ (x2 / x1) ^ (1e-10 : ℝ) * rbin x1 x2 z1 z2 := by
    rw [hinv] at c
    rwa [inv_mul_le_iff₀ hp] at c
  have hrb : 0 ≤ rbin x1 x2 z1 z2 := by
    refine le_trans ?_ c
    positivity
  calc rbin x1 x2 y1 y2 ≤ (x2 / x1) ^ (1e-10 : ℝ) * gbin x1 x2 y1 y2 := a
    _ ≤ (x2 / x1) ^ (1e-10 : ℝ) * gbin x1 x2 z1 z2 := mul_le_mul_of_nonneg_left b hp.le
    _ ≤ (x2 / x1) ^ (1e-10 : ℝ) * ((x2 / x1) ^ (1e-10 : ℝ) * rbin x1 x2 z1 z2) :=
        mul_le_mul_of_nonneg_left c' hp.le
    _ = (x2 / x1) ^ (2e-10 : ℝ) * rbin x1 x2 z1 z2 := by
        rw [← mul_assoc, ← Real.rpow_add hr0]; norm_num
    _ ≤ R ^ (2e-10 : ℝ) * rbin x1 x2 z1 z2 :=
        mul_le_mul_of_nonneg_right (Real.rpow_le_rpow hr0.le hR (by norm_num)) hrb

theorem rbin_superadd (R x1 x2 y1 y2 z1 z2 : ℝ) (h1 : 0 < x1) (h12 : x1 ≤ x2) (hR : x2 / x1 ≤ R)
    (hy1 : 0 ≤ y1) (hy2 : 0 ≤ y2) (hz1 : 0 ≤ z1) (hz2 : 0 ≤ z2) :
    rbin x1 x2 y1 y2 + rbin x1 x2 z1 z2 ≤ R ^ (2e-10 : ℝ) * rbin x1 x2 (y1 + z1) (y2 + z2) := by
  have hr0 : 0 < x2 / x1 := div_pos (h1.trans_le h12) h1
  have hR0 : 0 < R := hr0.trans_le hR
  have a := (rbin_near x1 x2 y1 y2 h1 h12 hy1 hy2).2
  have a' := (rbin_near x1 x2 z1 z2 h1 h12 hz1 hz2).2
  have b := gbin_superadd x1 x2 y1 y2 z1 z2 h1 h12 hy1 hy2 hz1 hz2
  have c := (rbin_near x1 x2 (y1 + z1) (y2 + z2) h1 h12 (by positivity) (by positivity)).1
  have hg := gbin_nonneg x1 x2 (y1 + z1) (y2 + z2) h12 (by positivity) (by positivity)
  have hp : 0 < (x2 / x1) ^ (1e-10 : ℝ) := by positivity
  have hinv : (x2 / x1) ^ (-(1e-10) : ℝ) = ((x2 / x1) ^ (1e-10 : ℝ))⁻¹ := Real.rpow_neg hr0.le _
  have c' : gbin x1 x2 (y1 + z1) (y2 + z2) ≤ (x2 / x1) ^ (1e-10 : ℝ) * rbin x1 x2 (y1 + z1) (y2 + z2) := by
    rw [hinv] at c
    rwa [inv_mul_le_iff₀ hp] at c
  have hrb : 0 ≤ rbin x1 x2 (y1 + z1) (y2 + z2) := by
    refine le_trans ?_ c
    positivity
  calc rbin x1 x2 y1 y2 + rbin x1 x2 z1 z2
      ≤ (x2 / x1) ^ (1e-10 : ℝ) * (gbin x1 x2 y1 y2 + gbin x1 x2 z1 z2) := by rw [mul_add]; linarith
    _ ≤ (x2 / x1) ^ (1e-10 : ℝ) * gbin x1 x2 (y1 + z1) (y2 + z2) := mul_le_mul_of_nonneg_left b hp.le
    _ ≤ (x2 / x1) ^ (1e-10 : ℝ) * ((x2 / x1) ^ (1e-10 : ℝ) * rbin x1 x2 (y1 + z1) (y2 + z2)) :=
        mul_le_mul_of_nonneg_left c' hp.le
    _ = (x2 / x1) ^ (2e-10 : ℝ) * rbin x1 x2 (y1 + z1) (y2 + z2) := by
        rw [← mul_assoc, ← Real.rpow_add hr0]; norm_num
    _ ≤ R ^ (2e-10 : ℝ) * rbin x1 x2 (y1 + z1) (y2 + z2) :=
        mul_le_mul_of_nonneg_right (Real.rpow_le_rpow hr0.le hR (by norm_num)) hrb

/-! ### Convergence -/

/-- a bin against the integral over it of a function that varies little -/
theorem rbin_integral (f : ℝ → ℝ) (x1 x2 M η h a : ℝ) (ha : 0 < a) (hax : a ≤ x1) (h12 : x1 ≤ x2)
    (hh : x2 - x1 ≤ h) (i1 : IntervalIntegrable f MeasureTheory.volume x1 x2) (h0 : ∀ t ∈ Set.Icc x1 x2, 0 ≤ f t)
    (hM : ∀ t ∈ Set.Icc x1 x2, f t ≤ M)
    (hη : ∀ s ∈ Set.Icc x1 x2, ∀ t ∈ Set.Icc x1 x2, |f s - f t| ≤ η) :
    |rbin x1 x2 (f x1) (f x2) - ∫ t in x1..x2, f t| ≤ (x2 - x1) * (η + M * (h / a)) := by
  have h1 : 0 < x1 := ha.trans_le hax
  have m1 : x1 ∈ Set.Icc x1 x2 := ⟨le_rfl, h12⟩
  have m2 : x2 ∈ Set.Icc x1 x2 := ⟨h12, le_rfl⟩
  have hd : 0 ≤ x2 - x1 := by linarith
  have hh0 : 0 ≤ h := by linarith
  have hM0 : 0 ≤ M := (h0 x1 m1).trans (hM x1 m1)
  obtain ⟨n1, n2⟩ := rbin_near x1 x2 (f x1) (f x2) h1 h12 (h0 _ m1) (h0 _ m2)
  obtain ⟨g1, g2⟩ := gbin_between x1 x2 (f x1) (f x2) h1 h12 (h0 _ m1) (h0 _ m2)
  have hr : 1 ≤ x2 / x1 := by rw [one_le_div h1]; exact h12
  have hr0 : 0 < x2 / x1 := by linarith
  have hrle : x2 / x1 ≤ 1 + h / a := by
    have : x2 / x1 = 1 + (x2 - x1) / x1 := by field_simp; ring
    rw [this]
    have : (x2 - x1) / x1 ≤ h / a := div_le_div₀ hh0 hh ha hax
    linarith
  have u1 : (x2 / x1) ^ (1e-10 : ℝ) ≤ 1 + h / a := by
    calc (x2 / x1) ^ (1e-10 : ℝ) ≤ (x2 / x1) ^ (1 : ℝ) :=
          Real.rpow_le_rpow_of_exponent_le hr (by norm_num)
      _ ≤ _ := by rwa [Real.rpow_one]
  have u2 : 1 - h / a ≤ (x2 / x1) ^ (-(1e-10) : ℝ) := by
    rw [Real.rpow_neg hr0.le]
    have hp : 0 < (x2 / x1) ^ (1e-10 : ℝ) := by positivity
    have hp1 : 1 ≤ (x2 / x1) ^ (1e-10 : ℝ) := Real.one_le_rpow hr (by norm_num)
    have hha : 0 ≤ h / a := by positivity
    have e : ((x2 / x1) ^ (1e-10 : ℝ))⁻¹ * (x2 / x1) ^ (1e-10 : ℝ) = 1 := inv_mul_cancel₀ hp.ne'
    have hi : 0 < ((x2 / x1) ^ (1e-10 : ℝ))⁻¹ := by positivity
    have hi1 : ((x2 / x1) ^ (1e-10 : ℝ))⁻¹ ≤ 1 := inv_le_one_of_one_le₀ hp1
    nlinarith
  have c : ∀ m : ℝ, m * (x2 - x1) = ∫ _ in x1..x2, m := by
    intro m; rw [intervalIntegral.integral_const, smul_eq_mul, mul_comm]
  have Ilo : (max (f x1) (f x2) - η) * (x2 - x1) ≤ ∫ t in x1..x2, f t := by
    rw [c]
    apply intervalIntegral.integral_mono_on h12 intervalIntegrable_const i1
    intro t ht
    have k1 := abs_le.1 (hη x1 m1 t ht)
    have k2 := abs_le.1 (hη x2 m2 t ht)
    rcases max_cases (f x1) (f x2) with ⟨e, _⟩ | ⟨e, _⟩ <;> rw [e] <;> linarith [k1.2, k2.2]
  have Ihi : ∫ t in x1..x2, f t ≤ (min (f x1) (f x2) + η) * (x2 - x1) := by
    rw [c]
    apply intervalIntegral.integral_mono_on h12 i1 intervalIntegrable_const
    intro t ht
    have k1 := abs_le.1 (hη t ht x1 m1)
    have k2 := abs_le.1 (hη t ht x2 m2)
    rcases min_cases (f x1) (f x2) with ⟨e, _⟩ | ⟨e, _⟩ <;> rw [e] <;> linarith [k1.2, k2.2]
  have hmax : max (f x1) (f x2) ≤ M := max_le (hM _ m1) (hM _ m2)
  have hmin : min (f x1) (f x2) ≤ M := (min_le_left _ _).trans (hM _ m1)
  have hmin0 : 0 ≤ min (f x1) (f x2) := le_min (h0 _ m1) (h0 _ m2)
  have hmax0 : 0 ≤ max (f x1) (f x2) := hmin0.trans min_le_max
  have hha : 0 ≤ h / a := by positivity
  have hg0 := gbin_nonneg x1 x2 (f x1) (f x2) h12 (h0 _ m1) (h0 _ m2)
  rw [abs_le]
  constructor
  · have : (1 - h / a) * gbin x1 x2 (f x1) (f x2) ≤ rbin x1 x2 (f x1) (f x2) :=
      (mul_le_mul_of_nonneg_right u2 hg0).trans n1
    have k : gbin x1 x2 (f x1) (f x2) * (h / a) ≤ M * (x2 - x1) * (h / a) :=
      mul_le_mul_of_nonneg_right (g2.trans (mul_le_mul_of_nonneg_right hmax hd)) hha
    nlinarith
  · have : rbin x1 x2 (f x1) (f x2) ≤ (1 + h / a) * (max (f x1) (f x2) * (x2 - x1)) :=
      n2.trans (mul_le_mul u1 g2 hg0 (by positivity))
    have : max (f x1) (f x2) * (x2 - x1) * (h / a) ≤ M * (x2 - x1) * (h / a) := by gcongr
    nlinarith

theorem Adj_of_get (R : ℝ → ℝ → Prop) (l : List ℝ)
    (h : ∀ (i : ℕ) (a b : ℝ), l[i]? = some a → l[i + 1]? = some b → R a b) : Adj R l := by
  induction l with
  | nil => trivial
  | cons a l ih =>
    cases l with
    | nil => trivial
    | cons b l =>
      refine ⟨h 0 a b rfl rfl, ih ?_⟩
      intro i x y hx hy
      exact h (i + 1) x y (by simpa using hx) (by simpa using hy)

theorem Adj.imp {R S : ℝ → ℝ → Prop} {l : List ℝ} (h : Adj R l) (hi : ∀ a b, R a b → S a b) : Adj S l := by
  induction l with
  | nil => trivial
  | cons a l ih =>
    cases l with
    | nil => trivial
    | cons b l => exact ⟨hi _ _ h.1, ih h.2⟩

/-- the sum over a grid against the integral between its ends, the oscillation of `f` over a bin being
bounded by an integral over it -/
theorem binSum_integral (f φ : ℝ → ℝ) (a b M h : ℝ) (ha : 0 < a)
    (hf : ∀ x y, a ≤ x → x ≤ y → y ≤ b → IntervalIntegrable f MeasureTheory.volume x y)
    (hφ : ∀ x y, IntervalIntegrable φ MeasureTheory.volume x y)
    (h0 : ∀ t ∈ Set.Icc a b, 0 ≤ f t) (hM : ∀ t ∈ Set.Icc a b, f t ≤ M)
    (hη : ∀ x y, a ≤ x → x ≤ y → y ≤ b → y - x ≤ h → ∃ η,
      (∀ s ∈ Set.Icc x y, ∀ t ∈ Set.Icc x y, |f s - f t| ≤ η) ∧ (y - x) * η ≤ ∫ t in x..y, φ t) :
    ∀ (l : List ℝ) (lo hi : ℝ), l.head? = some lo → l.getLast? = some hi → (∀ x ∈ l, x ∈ Set.Icc a b) →
      Adj (fun x y => x ≤ y ∧ y - x ≤ h) l →
      lo ≤ hi ∧ |binSum rbin (l.map (fun x => (x, f x))) - ∫ t in lo..hi, f t| ≤
        (∫ t in lo..hi, φ t) + (hi - lo) * (M * (h / a)) := by
  intro l
  induction l with
  | nil => intro lo hi h1; simp at h1
  | cons x l ih =>
    cases l with
    | nil =>
      intro lo hi h1 h2 _ _
      simp at h1 h2
      subst h1; subst h2
      simp [binSum]
    | cons y l =>
      intro lo hi h1 h2 hm hadj
      simp at h1
      subst h1
      have mx := hm x (by simp)
      have my := hm y (by simp)
      obtain ⟨hle, hb⟩ := ih y hi rfl (by simpa using h2) (fun z hz => hm z (by simp [hz])) hadj.2
      obtain ⟨hxy, hh⟩ := hadj.1
      have mhi : hi ∈ Set.Icc a b := hm hi (List.mem_of_getLast? h2)
      have sub : Set.Icc x y ⊆ Set.Icc a b := Set.Icc_subset_Icc mx.1 my.2
      obtain ⟨η, ho, hi'⟩ := hη x y mx.1 hxy my.2 hh
      have j1 := hf x y mx.1 hxy my.2
      have j2 := hf y hi my.1 hle mhi.2
      have k := rbin_integral f x y M η h a ha mx.1 hxy hh j1 (fun t ht => h0 t (sub ht))
        (fun t ht => hM t (sub ht)) ho
      refine ⟨hxy.trans hle, ?_⟩
      rw [← intervalIntegral.integral_add_adjacent_intervals j1 j2,
        ← intervalIntegral.integral_add_adjacent_intervals (hφ x y) (hφ y hi)]
      simp only [List.map_cons, binSum] at hb ⊢
      rw [abs_le] at *
      constructor <;> nlinarith [k.1, k.2, hb.1, hb.2]

theorem pc_integrable (f : ℝ → ℝ) (a b M : ℝ) (S : Finset ℝ) (hf : ContinuousOn f (Set.Icc a b \ S))
    (h0 : ∀ t ∈ Set.Icc a b, 0 ≤ f t) (hM : ∀ t ∈ Set.Icc a b, f t ≤ M) (x y : ℝ) (hx : a ≤ x)
    (hxy : x ≤ y) (hy : y ≤ b) : IntervalIntegrable f MeasureTheory.volume x y := by
  rw [intervalIntegrable_iff_integrableOn_Icc_of_le hxy]
  have sub : Set.Icc x y ⊆ Set.Icc a b := Set.Icc_subset_Icc hx hy
  have hS : MeasureTheory.volume (S : Set ℝ) = 0 := S.finite_toSet.measure_zero _
  have e : (Set.Icc x y \ S : Set ℝ) =ᵐ[MeasureTheory.volume] Set.Icc x y :=
    MeasureTheory.diff_null_ae_eq_self hS
  have hms : MeasurableSet (Set.Icc x y \ S : Set ℝ) := measurableSet_Icc.diff S.measurableSet
  have m : MeasureTheory.AEStronglyMeasurable f (MeasureTheory.volume.restrict (Set.Icc x y)) := by
    rw [← MeasureTheory.Measure.restrict_congr_set e]
    exact (hf.mono (Set.diff_subset_diff_left sub)).aestronglyMeasurable hms
  refine MeasureTheory.Integrable.of_bound m M ?_
  rw [MeasureTheory.ae_restrict_iff' measurableSet_Icc]
  refine Filter.Eventually.of_forall (fun t ht => ?_)
  rw [Real.norm_eq_abs, abs_of_nonneg (h0 t (sub ht))]
  exact hM t (sub ht)

/-- neighbourhoods of finitely many points, counted -/
noncomputable def nearCount (S : Finset ℝ) (ρ t : ℝ) : ℝ :=
  ∑ s ∈ S, (Set.Icc (s - ρ) (s + ρ)).indicator (fun _ => (1 : ℝ)) t

theorem nearCount_integrable (S : Finset ℝ) (ρ x y : ℝ) :
    IntervalIntegrable (nearCount S ρ) MeasureTheory.volume x y := by
  unfold nearCount
  refine (MeasureTheory.integrable_finset_sum _ (fun s _ => ?_)).intervalIntegrable
  rw [MeasureTheory.integrable_indicator_iff measurableSet_Icc]
  exact MeasureTheory.integrableOn_const (by simp)

theorem nearCount_nonneg (S : Finset ℝ) (ρ t : ℝ) : 0 ≤ nearCount S ρ t :=
  Finset.sum_nonneg (fun s _ => Set.indicator_nonneg (fun _ _ => zero_le_one) _)

theorem nearCount_ge (S : Finset ℝ) (ρ t s : ℝ) (hs : s ∈ S) (ht : t ∈ Set.Icc (s - ρ) (s + ρ)) :
    1 ≤ nearCount S ρ t := by
  unfold nearCount
  have h := Finset.single_le_sum
    (f := fun s => (Set.Icc (s - ρ) (s + ρ)).indicator (fun _ => (1 : ℝ)) t)
    (fun s _ => Set.indicator_nonneg (fun _ _ => zero_le_one) _) hs
  rw [Set.indicator_of_mem ht] at h
  exact h

theorem nearCount_integral (S : Finset ℝ) (ρ a b : ℝ) (hρ : 0 ≤ ρ) (hab : a ≤ b) :
    ∫ t in a..b, nearCount S ρ t ≤ S.card * (2 * ρ) := by
  have hi : MeasureTheory.Integrable (nearCount S ρ) MeasureTheory.volume := by
    unfold nearCount
    refine MeasureTheory.integrable_finset_sum _ (fun s _ => ?_)
    rw [MeasureTheory.integrable_indicator_iff measurableSet_Icc]
    exact MeasureTheory.integrableOn_const (by simp)
  rw [intervalIntegral.integral_of_le hab]
  calc ∫ t in Set.Ioc a b, nearCount S ρ t ≤ ∫ t, nearCount S ρ t :=
        MeasureTheory.setIntegral_le_integral hi (Filter.Eventually.of_forall (nearCount_nonneg S ρ))
    _ = ∑ s ∈ S, ∫ t, (Set.Icc (s - ρ) (s + ρ)).indicator (fun _ => (1 : ℝ)) t := by
        unfold nearCount
        rw [MeasureTheory.integral_finset_sum]
        intro s _
        rw [MeasureTheory.integrable_indicator_iff measurableSet_Icc]
        exact MeasureTheory.integrableOn_const (by simp)
    _ = ∑ s ∈ S, 2 * ρ := by
        apply Finset.sum_congr rfl
        intro s _
        rw [MeasureTheory.integral_indicator measurableSet_Icc]
        simp
        rw [max_eq_left (by linarith)]; ring
    _ = S.card * (2 * ρ) := by simp

/-- **Convergence.** For a bounded non-negative function on `[a, b]` that is continuous except at finitely
many points, the log-log sum over any grid from `a` to `b` whose steps are small enough is as close to the
integral as one likes. -/
theorem binSum_converges (f : ℝ → ℝ) (a b M : ℝ) (ha : 0 < a) (hab : a ≤ b) (S : Finset ℝ)
    (hf : ContinuousOn f (Set.Icc a b \ S)) (h0 : ∀ t ∈ Set.Icc a b, 0 ≤ f t)
    (hM' : ∀ t ∈ Set.Icc a b, f t ≤ M) (ε : ℝ) (hε : 0 < ε) :
    ∃ δ > 0, ∀ l : List ℝ, l.head? = some a → l.getLast? = some b → (∀ x ∈ l, x ∈ Set.Icc a b) →
      Adj (fun x y => x ≤ y ∧ y - x ≤ δ) l →
      |binSum rbin (l.map (fun x => (x, f x))) - ∫ t in a..b, f t| < ε := by
  have hM0 : 0 ≤ M := (h0 a ⟨le_rfl, hab⟩).trans (hM' a ⟨le_rfl, hab⟩)
  set L := b - a + 1 with hL
  have hL0 : 0 < L := by linarith
  set c : ℝ := S.card + 1 with hc
  have hc0 : 0 < c := by positivity
  set r := ε / (16 * (M + 1) * c) with hr
  have hr0 : 0 < r := by positivity
  set K : Set ℝ := Set.Icc a b \ ⋃ s ∈ S, Set.Ioo (s - r) (s + r) with hK
  have hKc : IsCompact K := by
    apply isCompact_Icc.diff
    exact isOpen_biUnion (fun s _ => isOpen_Ioo)
  have hKs : K ⊆ Set.Icc a b \ S := by
    intro t ht
    refine ⟨ht.1, fun hs => ht.2 ?_⟩
    simp only [Set.mem_iUnion]
    exact ⟨t, hs, by constructor <;> linarith⟩
  have huc := hKc.uniformContinuousOn_of_continuous (hf.mono hKs)
  rw [Metric.uniformContinuousOn_iff] at huc
  obtain ⟨d, hd, hu⟩ := huc (ε / (8 * L)) (by positivity)
  set δ := min (min (d / 2) r) (ε * a / (8 * L * (M + 1))) with hδ
  have hδ0 : 0 < δ := lt_min (lt_min (by positivity) hr0) (by positivity)
  have hδd : δ ≤ d / 2 := (min_le_left _ _).trans (min_le_left _ _)
  have hδr : δ ≤ r := (min_le_left _ _).trans (min_le_right _ _)
  refine ⟨δ, hδ0, ?_⟩
  intro l h1 h2 hm hadj
  have hint : ∀ x y, IntervalIntegrable (fun t => ε / (8 * L) + M * nearCount S (r + δ) t)
      MeasureTheory.volume x y := fun x y =>
    intervalIntegrable_const.add ((nearCount_integrable S (r + δ) x y).const_mul M)
  have k := (binSum_integral f (fun t => ε / (8 * L) + M * nearCount S (r + δ) t) a b M δ ha
    (fun x y hx hxy hy => pc_integrable f a b M S hf h0 hM' x y hx hxy hy) hint h0 hM' (by
      intro x y hx hxy hy hh
      have sub : Set.Icc x y ⊆ Set.Icc a b := Set.Icc_subset_Icc hx hy
      by_cases hg : Set.Icc x y ⊆ K
      · refine ⟨ε / (8 * L), ?_, ?_⟩
        · intro s hs t ht
          have hst : dist s t < d := by
            rw [Real.dist_eq]
            have : |s - t| ≤ y - x := by
              rw [abs_le]; constructor <;> linarith [hs.1, hs.2, ht.1, ht.2]
            linarith
          have := hu s (hg hs) t (hg ht) hst
          rw [Real.dist_eq] at this
          exact this.le
        · have e : (y - x) * (ε / (8 * L)) = ∫ _ in x..y, ε / (8 * L) := by
            rw [intervalIntegral.integral_const, smul_eq_mul]
          rw [e]
          apply intervalIntegral.integral_mono_on hxy intervalIntegrable_const (hint x y)
          intro t _
          have := mul_nonneg hM0 (nearCount_nonneg S (r + δ) t)
          linarith
      · refine ⟨M, ?_, ?_⟩
        · intro s hs t ht
          rw [abs_le]
          constructor <;> linarith [h0 s (sub hs), h0 t (sub ht), hM' s (sub hs), hM' t (sub ht)]
        · obtain ⟨t0, ht0, hn⟩ := Set.not_subset.1 hg
          have : t0 ∈ ⋃ s ∈ S, Set.Ioo (s - r) (s + r) := by
            by_contra hh'
            exact hn ⟨sub ht0, hh'⟩
          simp only [Set.mem_iUnion] at this
          obtain ⟨s, hs, hst⟩ := this
          have e : (y - x) * M = ∫ _ in x..y, M := by
            rw [intervalIntegral.integral_const, smul_eq_mul]
          rw [e]
          apply intervalIntegral.integral_mono_on hxy intervalIntegrable_const (hint x y)
          intro t ht
          have hn1 : 1 ≤ nearCount S (r + δ) t := by
            apply nearCount_ge S (r + δ) t s hs
            constructor <;> linarith [hst.1, hst.2, ht0.1, ht0.2, ht.1, ht.2]
          have : 0 < ε / (8 * L) := by positivity
          nlinarith) l a b h1 h2 hm hadj).2
  refine lt_of_le_of_lt k ?_
  have e1 : M * (δ / a) ≤ ε / (8 * L) := by
    have : δ ≤ ε * a / (8 * L * (M + 1)) := min_le_right _ _
    rw [le_div_iff₀ (by positivity)] at this
    rw [mul_div_assoc', div_le_div_iff₀ ha (by positivity)]
    nlinarith [mul_pos hδ0 hL0]
  have e2 : ∫ t in a..b, (ε / (8 * L) + M * nearCount S (r + δ) t) ≤
      (b - a) * (ε / (8 * L)) + M * (S.card * (2 * (r + δ))) := by
    rw [intervalIntegral.integral_add intervalIntegrable_const
      ((nearCount_integrable S (r + δ) a b).const_mul M), intervalIntegral.integral_const,
      intervalIntegral.integral_const_mul, smul_eq_mul]
    have := mul_le_mul_of_nonneg_left (nearCount_integral S (r + δ) a b (by linarith) hab) hM0
    linarith
  have e3 : M * (S.card * (2 * (r + δ))) ≤ ε / 4 := by
    calc M * (S.card * (2 * (r + δ))) ≤ (M + 1) * (c * (2 * (r + r))) := by
          apply mul_le_mul (by linarith) _ (by positivity) (by positivity)
          apply mul_le_mul (by linarith) (by linarith) (by positivity) hc0.le
      _ = ε / 4 := by rw [hr]; field_simp; ring
  have e4 : (b - a) * (ε / (8 * L)) ≤ ε / 8 := by
    rw [mul_div_assoc', div_le_div_iff₀ (by positivity) (by norm_num)]
    nlinarith
  have e5 : (b - a) * (M * (δ / a)) ≤ ε / 8 :=
    (mul_le_mul_of_nonneg_left e1 (by linarith)).trans e4
  linarith

end Naima
