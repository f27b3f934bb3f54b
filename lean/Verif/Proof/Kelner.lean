import Verif.Model.Kelner
import Verif.Proof.IC

namespace Naima

open XR Classical

theorem TeV_pos : 0 < PhysUnit.TeV.scale := by simp only [PhysUnit.TeV]; norm_num

theorem kB_pos (L : ℝ) : 0 < kB L := by unfold kB; nlinarith [sq_nonneg (L + 70 / 11)]
theorem kBetaInv_pos (L : ℝ) : 0 < kBetaInv L := by unfold kBetaInv; nlinarith [sq_nonneg (L + 55 / 8)]
theorem kKInv_pos (L : ℝ) : 0 < kKInv L := by unfold kKInv; nlinarith [sq_nonneg (L + 49 / 28)]

/-- the photon spectrum per collision is positive -/
theorem kFgamma_pos (x Ep : ℝ) (hx : 0 < x) (hx1 : x < 1) :
    ∃ r, 0 < r ∧ kFgamma x Ep = fin r := by
  set L := Real.log Ep with hL
  have hB := kB_pos L
  have hb := kBetaInv_pos L
  have hk := kKInv_pos L
  have hlog : Real.log x < 0 := Real.log_neg hx hx1
  unfold kFgamma
  simp only [← hL]
  rw [div_fin _ _ hb.ne', div_fin _ _ hk.ne', pow_fin _ _ hx, log_fin _ hx]
  set b := 1 / kBetaInv L with hbdef
  set k := 1 / kKInv L with hkdef
  have hb0 : 0 < b := by positivity
  have hk0 : 0 < k := by positivity
  set y := x ^ b with hy
  have hy0 : 0 < y := by positivity
  have hy1 : y < 1 := Real.rpow_lt_one hx.le hx1 hb0
  have hd : 0 < 1 + k * y * (1 - y) := by
    have : 0 < 1 - y := by linarith
    positivity
  have h1y : 0 < 1 - y := by linarith
  simp only [mul_fin, sub_fin, add_fin]
  rw [div_fin _ _ hd.ne', pow_fin _ _ (by positivity), div_fin _ _ hx.ne', div_fin _ _ hlog.ne,
    div_fin _ _ h1y.ne', div_fin _ _ hd.ne']
  simp only [mul_fin, sub_fin]
  refine ⟨_, ?_, rfl⟩
  have f1 : kB L * (Real.log x / x) * ((1 - y) / (1 + k * y * (1 - y))) ^ (4 : ℝ) < 0 := by
    apply mul_neg_of_neg_of_pos
    · exact mul_neg_of_pos_of_neg hB (div_neg_of_neg_of_pos hlog hx)
    · positivity
  have f2 : 1 / Real.log x - 4 * b * y / (1 - y) - 4 * k * b * y * (1 - 2 * y) / (1 + k * y * (1 - y)) < 0 := by
    have a1 : 1 / Real.log x < 0 := one_div_neg.2 hlog
    have a2 : 0 < 4 * b * y / (1 - y) + 4 * k * b * y * (1 - 2 * y) / (1 + k * y * (1 - y)) := by
      have e : 4 * b * y / (1 - y) + 4 * k * b * y * (1 - 2 * y) / (1 + k * y * (1 - y)) =
          4 * b * y * (1 + k * (1 - y) ^ 2) / ((1 - y) * (1 + k * y * (1 - y))) := by
        field_simp
        ring
      rw [e]
      positivity
    linarith
  exact mul_pos_of_neg_of_neg f1 f2

theorem kSigma_facts (Ep : ℝ) (h : 0 < Ep) :
    (1.22e-3 < Ep → 0 < kSigma Ep) ∧ (Ep ≤ 1.22e-3 → kSigma Ep = 0) := by
  have hs : 0 < 34.3 + 1.88 * Real.log Ep + 0.25 * Real.log Ep ^ 2 := by
    nlinarith [sq_nonneg (Real.log Ep + 3.76)]
  unfold kSigma
  constructor
  · intro ht
    simp only []
    by_cases c : Ep ≤ 0.1
    · rw [if_pos c]
      have hr : 1.22e-3 / Ep < 1 := by rw [div_lt_one h]; exact ht
      have hr0 : 0 < 1.22e-3 / Ep := by positivity
      have hp : (1.22e-3 / Ep) ^ 4 < 1 := pow_lt_one₀ hr0.le hr (by norm_num)
      have hh : kHeaviside (Ep - 1.22e-3) = 1 := by
        unfold kHeaviside
        rw [sign_pos (by linarith)]
        norm_num
      rw [hh]
      have : 0 < (1 - (1.22e-3 / Ep) ^ 4) := by linarith
      positivity
    · rw [if_neg c]; positivity
  · intro ht
    simp only []
    rw [if_pos (by norm_num at ht ⊢; linarith)]
    rcases eq_or_lt_of_le ht with e | e
    · rw [e]; norm_num
    · have hh : kHeaviside (Ep - 1.22e-3) = 0 := by
        unfold kHeaviside
        rw [sign_neg (by linarith)]
        norm_num
      rw [hh]; norm_num

theorem kSigma_nonneg (Ep : ℝ) (h : 0 < Ep) : 0 ≤ kSigma Ep := by
  obtain ⟨h1, h2⟩ := kSigma_facts Ep h
  rcases le_or_gt Ep 1.22e-3 with c | c
  · rw [h2 c]
  · exact (h1 c).le

theorem kDist_scale (pd : PDist) (c : ℝ) (hc : 0 < c) (E : ℝ) :
    kDist (pd.scale c) E = fin c * kDist pd E := by
  unfold kDist
  show fin c * pd.f _ * _ = _
  rw [scale_mul c hc]
  rfl

theorem kPhoton_scale (pd : PDist) (c : ℝ) (hc : 0 < c) (eg x : ℝ) :
    kPhoton (pd.scale c) eg x = fin c * kPhoton pd eg x := by
  unfold kPhoton
  rw [kDist_scale _ _ hc, mul_left_swap c hc, scale_mul c hc, scale_div c hc]

theorem kDelta_scale (pd : PDist) (c : ℝ) (hc : 0 < c) (n : XR) (epi : ℝ) :
    kDelta (pd.scale c) n epi = fin c * kDelta pd n epi := by
  unfold kDelta
  simp only []
  rw [kDist_scale _ _ hc, mul_left_swap c hc, scale_div c hc]

theorem kDelta_nhat (pd : PDist) (c : ℝ) (hc : 0 < c) (epi : ℝ) :
    kDelta pd (fin c) epi = fin c * kDelta pd (fin 1) epi := by
  unfold kDelta
  simp only []
  rw [div_fin _ _ (by norm_num), div_fin _ _ (by norm_num), mul_fin, mul_fin, mul_fin, mul_fin,
    ← scale_div c hc, ← scale_mul c hc, mul_fin]
  congr 3
  ring

end Naima
