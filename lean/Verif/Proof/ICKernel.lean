import Verif.Model.ICKernel
import Verif.Proof.Synchrotron
import Mathlib.Analysis.SpecialFunctions.Exponential
import Mathlib.Analysis.Complex.ExponentialBounds

namespace Naima

open XR Classical

theorem pi26_pos : 0 < pi26 := by unfold pi26; positivity

theorem gInterp_NN (x alpha a beta b : ℝ) (hx : 0 < x) (ha : 0 ≤ a) (hb : 0 ≤ b) :
    NN (gInterp (fin x) alpha a beta b) := by
  unfold gInterp
  simp only [pow_fin _ _ hx, mul_fin, add_fin]
  have h1 : 0 < 1 + b * x ^ beta := by positivity
  rw [div_fin _ _ h1.ne', add_fin]
  apply NN.div (NN.fin (by norm_num))
  positivity

theorem G34_NN (x alpha a beta b c : ℝ) (hx : 0 < x) (ha : 0 ≤ a) (hb : 0 ≤ b) (hc : 0 ≤ c) :
    NN (G34 (fin x) alpha a beta b c) := by
  unfold G34
  have := pi26_pos
  apply NN.mul _ (gInterp_NN x alpha a beta b hx ha hb)
  simp only [mul_fin, add_fin, neg_fin, exp_fin]
  rw [div_fin _ _ (by positivity)]
  exact NN.fin (by positivity)

theorem G12_NN (x alpha a beta b : ℝ) (hx : 0 < x) (ha : 0 ≤ a) (hb : 0 ≤ b) :
    NN (G12 (fin x) alpha a beta b) := by
  unfold G12
  have := pi26_pos
  apply NN.mul _ (gInterp_NN x alpha a beta b hx ha hb)
  simp only [mul_fin, add_fin, neg_fin, exp_fin]
  exact NN.fin (by positivity)

theorem planckCross_NN (g t z : ℝ) (hg : 0 < g) (ht : 0 < t) (hz : 0 < z) (hz1 : z < 1) (h h' : XR)
    (hh : NN h) (hh' : NN h') : NN (planckCross g t (fin z) h h') := by
  unfold planckCross
  have h1 : 0 < 1 - z := by linarith
  have hd : 0 < t / g := div_pos ht hg
  simp only [div_fin _ _ hg.ne', pow_fin _ _ hd, pow_fin _ _ hz, sub_fin, mul_fin]
  apply NN.mul (NN.fin (by positivity))
  apply NN.add _ hh'
  apply NN.mul _ hh
  exact NN.div (NN.fin (by positivity)) (by positivity)

theorem Ktomec2_pos : 0 < Ktomec2 := by unfold Ktomec2; norm_num

/-- scaled energy of the thermal kernels -/
theorem planck_x (g eg k : ℝ) (hg : 0 < g) (heg : 0 < eg) (hlt : eg < g) (hk : 0 < k) :
    ∃ x : ℝ, 0 < x ∧ (fin eg / fin g) / (fin 1 - fin eg / fin g) / fin k = fin x := by
  have hz1 : eg / g < 1 := by rwa [div_lt_one hg]
  have h1 : 0 < 1 - eg / g := by linarith
  refine ⟨eg / g / (1 - eg / g) / k, by positivity, ?_⟩
  rw [div_fin _ _ hg.ne', sub_fin, div_fin _ _ h1.ne', div_fin _ _ hk.ne']

theorem isoPlanck_NN (g T eg : ℝ) (hT : 0 < T) (heg : 0 < eg) : NN (isoPlanck g T eg) := by
  unfold isoPlanck
  have hK := Ktomec2_pos
  by_cases h : eg < g ∧ 1 < g
  · rw [if_pos h]
    have hg : 0 < g := by linarith [h.2]
    have hz1 : eg / g < 1 := by rw [div_lt_one hg]; exact h.1
    obtain ⟨x, hx, e⟩ := planck_x g eg (4 * g * (T * Ktomec2)) hg heg h.1 (by positivity)
    rw [e, div_fin _ _ hg.ne']
    apply planckCross_NN g _ _ hg (by positivity) (by positivity) hz1
    · exact G34_NN x _ _ _ _ _ hx (by norm_num) (by norm_num) (by norm_num)
    · exact G34_NN x _ _ _ _ _ hx (by norm_num) (by norm_num) (by norm_num)
  · rw [if_neg h]; exact NN.fin le_rfl

theorem aniPlanck_NN (g T eg theta : ℝ) (hT : 0 < T) (heg : 0 < eg) (hth : Real.cos theta ≠ 1) :
    NN (aniPlanck g T eg theta) := by
  unfold aniPlanck
  have hK := Ktomec2_pos
  have hc : 0 < 1 - Real.cos theta := by
    have := Real.cos_le_one theta
    rcases lt_or_eq_of_le this with h | h
    · linarith
    · exact absurd h hth
  by_cases h : eg < g ∧ 1 < g
  · rw [if_pos h]
    have hg : 0 < g := by linarith [h.2]
    have hz1 : eg / g < 1 := by rw [div_lt_one hg]; exact h.1
    obtain ⟨x, hx, e⟩ := planck_x g eg (2 * g * (T * Ktomec2) * (1 - Real.cos theta)) hg heg h.1
      (by positivity)
    rw [e, div_fin _ _ hg.ne']
    apply planckCross_NN g _ _ hg (by positivity) (by positivity) hz1
    · exact G12_NN x _ _ _ _ hx (by norm_num) (by norm_num)
    · exact G12_NN x _ _ _ _ hx (by norm_num) (by norm_num)
  · rw [if_neg h]; exact NN.fin le_rfl

/-- `log q ≥ 1 - 1/q` -/
theorem log_ge (q : ℝ) (hq : 0 < q) : 1 - 1 / q ≤ Real.log q := by
  have := Real.one_sub_inv_le_log_of_pos hq
  simpa using this

theorem fic_core_nonneg (q : ℝ) (hq : 0 < q) (hq1 : q ≤ 1) :
    0 ≤ 2 * q * Real.log q + (1 + 2 * q) * (1 - q) := by
  rcases le_or_gt (1 / 2) q with h | h
  · have h1 := log_ge q hq
    have h2 : q * (1 - 1 / q) ≤ q * Real.log q := mul_le_mul_of_nonneg_left h1 hq.le
    have h3 : q * (1 - 1 / q) = q - 1 := by field_simp
    nlinarith [mul_nonneg (by linarith : 0 ≤ 2 * q - 1) (by linarith : (0:ℝ) ≤ 1 - q)]
  · have he : (2.7 : ℝ) < Real.exp 1 := by have := Real.exp_one_gt_d9; linarith
    have hep : 0 < Real.exp 1 := Real.exp_pos 1
    have h1 := log_ge (Real.exp 1 * q) (by positivity)
    rw [Real.log_mul hep.ne' hq.ne', Real.log_exp] at h1
    have h2 : -(1 / (Real.exp 1 * q)) ≤ Real.log q := by linarith
    have h3 : q * -(1 / (Real.exp 1 * q)) ≤ q * Real.log q := mul_le_mul_of_nonneg_left h2 hq.le
    have h4 : q * -(1 / (Real.exp 1 * q)) = -(1 / Real.exp 1) := by field_simp
    have h5 : 1 / Real.exp 1 < 1 / 2 := by
      apply one_div_lt_one_div_of_lt <;> linarith
    nlinarith [mul_nonneg hq.le (by linarith : (0:ℝ) ≤ 1 - 2 * q)]

theorem heaviside_fin (x : ℝ) : ∃ r : ℝ, 0 ≤ r ∧ r ≤ 1 ∧ heaviside (fin x) = fin r ∧
    (x < 0 → r = 0) ∧ (0 < x → r = 1) := by
  unfold heaviside xsign
  rcases lt_trichotomy x 0 with h | h | h
  · refine ⟨0, le_rfl, by norm_num, ?_, fun _ => rfl, fun h' => by linarith⟩
    simp only [h, if_true, add_fin]
    rw [div_fin _ _ (by norm_num)]; norm_num
  · refine ⟨1 / 2, by norm_num, by norm_num, ?_, fun h' => by linarith, fun h' => by linarith⟩
    simp only [h, lt_self_iff_false, if_false, add_fin]
    rw [div_fin _ _ (by norm_num)]; norm_num
  · refine ⟨1, by norm_num, le_rfl, ?_, fun h' => by linarith, fun _ => rfl⟩
    simp only [h, not_lt.2 h.le, if_true, if_false, add_fin]
    rw [div_fin _ _ (by norm_num)]; norm_num

theorem nanToZero_NN {a : XR} (h : NN a) : NN (nanToZero a) := by
  obtain ⟨r, hr, rfl⟩ := h
  exact ⟨r, hr, rfl⟩

theorem monoGamint_NN (g e0 eg : ℝ) (hg : 0 < g) (he0 : 0 < e0) (heg : 0 < eg) (hlt : eg < g) :
    NN (monoGamint g e0 eg) := by
  unfold monoGamint monoQ
  have hw1 : eg / g < 1 := by rwa [div_lt_one hg]
  have h1 : 0 < 1 - eg / g := by linarith
  have hb : 0 < 4 * e0 * g := by positivity
  simp only [div_fin _ _ hg.ne', sub_fin, mul_fin]
  rw [div_fin _ _ (by positivity)]
  set b := 4 * e0 * g with hbdef
  set qq : ℝ := eg / g / (b * (1 - eg / g)) with hqq
  have hq : 0 < qq := by positivity
  unfold monoFic
  simp only [log_fin _ hq, mul_fin, add_fin, sub_fin]
  rw [pow_fin _ _ (by positivity : 0 < b * qq)]
  simp only [mul_fin]
  rw [div_fin _ _ (by positivity)]
  simp only [add_fin]
  obtain ⟨r1, h10, _, e1, hneg, _⟩ := heaviside_fin (1 - qq)
  obtain ⟨r2, h20, _, e2, _, _⟩ := heaviside_fin (qq - 1 / (4 * g ^ 2))
  rw [e1, e2]
  simp only [mul_fin]
  apply nanToZero_NN
  apply NN.fin
  rcases le_or_gt qq 1 with hle | hgt
  · apply mul_nonneg (mul_nonneg _ h10) h20
    have hc := fic_core_nonneg qq hq hle
    have : 0 ≤ 1 / 2 * (b * qq) ^ (2 : ℝ) * (1 - qq) / (1 + b * qq) := by
      have : 0 ≤ 1 - qq := by linarith
      positivity
    linarith
  · rw [hneg (by linarith)]; simp

theorem heaviside_ninf : heaviside ninf = fin 0 := by
  unfold heaviside xsign
  simp only [add_fin]
  rw [div_fin _ _ (by norm_num)]; norm_num

theorem nan_mul' (a : XR) : nan * a = nan := by cases a <;> rfl
theorem mul_nan'' (a : XR) : a * nan = nan := by cases a <;> rfl

theorem monoGamint_zero (g e0 eg : ℝ) (hg : 0 < g) (he0 : 0 < e0) (hge : g ≤ eg) :
    monoGamint g e0 eg = fin 0 := by
  unfold monoGamint monoQ
  have heg : 0 < eg := lt_of_lt_of_le hg hge
  have hb : 0 < 4 * e0 * g := by positivity
  simp only [div_fin _ _ hg.ne', sub_fin, mul_fin]
  rcases eq_or_lt_of_le hge with h | h
  · -- q is infinite, the product is NaN
    have h1 : eg / g = 1 := by rw [← h]; field_simp
    rw [h1]
    have hinf : (fin 1 / fin (4 * e0 * g * (1 - 1)) : XR) = pinf := by
      show XR.div _ _ = _
      simp [XR.div, infMul]
    rw [hinf]
    have hf : monoFic (4 * e0 * g) pinf = nan := by
      unfold monoFic
      have a1 : (fin 2 * pinf : XR) = pinf := scale_pinf 2 (by norm_num)
      have a2 : XR.log pinf = pinf := rfl
      have a3 : (pinf * pinf : XR) = pinf := rfl
      have a4 : (fin 1 + pinf : XR) = pinf := rfl
      have a5 : (fin 1 - pinf : XR) = ninf := rfl
      have a6 : (pinf * ninf : XR) = ninf := rfl
      have a7 : (pinf + ninf : XR) = nan := rfl
      rw [a1, a2, a3, a4, a5, a6, a7, nan_add]
    rw [hf, nan_mul', nan_mul']
    rfl
  · -- q is negative, its logarithm NaN
    have h1 : 1 < eg / g := by rwa [one_lt_div hg]
    have hneg : 4 * e0 * g * (1 - eg / g) < 0 := mul_neg_of_pos_of_neg hb (by linarith)
    rw [div_fin _ _ hneg.ne]
    have hq : eg / g / (4 * e0 * g * (1 - eg / g)) < 0 := div_neg_of_pos_of_neg (by linarith) hneg
    have hf : monoFic (4 * e0 * g) (fin (eg / g / (4 * e0 * g * (1 - eg / g)))) = nan := by
      unfold monoFic
      have : XR.log (fin (eg / g / (4 * e0 * g * (1 - eg / g)))) = nan := by simp [XR.log, hq]
      rw [this, mul_nan'', nan_add, nan_add]
    rw [hf, nan_mul', nan_mul']
    rfl

end Naima
