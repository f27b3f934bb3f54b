import Verif.Proof.PionState

namespace Naima

open XR Classical

theorem pM_gt : (0.938 : ℝ) < pM := by
  unfold pM cMp cC
  rw [lt_div_iff₀ GeV_pos]
  simp only [PhysUnit.GeV]; norm_num

theorem pM_lt : pM < (0.939 : ℝ) := by
  unfold pM cMp cC
  rw [div_lt_iff₀ GeV_pos]
  simp only [PhysUnit.GeV]; norm_num

theorem pM_pos : 0 < pM := by linarith [pM_gt]
theorem pMpi_pos : 0 < pMpi := by unfold pMpi; norm_num
theorem pTth_pos : 0 < pTth := by unfold pTth; norm_num

/-- the code's threshold is (just) above the kinematic threshold -/
theorem threshold (Tp : ℝ) (h : pTth ≤ Tp) : 4 * pM * pMpi + pMpi ^ 2 < 2 * pM * Tp := by
  have h1 : 4 * pM * pMpi + pMpi ^ 2 < 2 * pM * pTth := by
    have : pMpi ^ 2 < pM * (2 * pTth - 4 * pMpi) := by
      unfold pM pMpi pTth cMp cC
      rw [div_mul_eq_mul_div, lt_div_iff₀ GeV_pos]
      simp only [PhysUnit.GeV]; norm_num
    linarith
  have := mul_le_mul_of_nonneg_left h (by linarith [pM_pos] : 0 ≤ 2 * pM)
  linarith

theorem xsq_fin (x : ℝ) : xsq (fin x) = fin (x ^ 2) := by
  unfold xsq
  show powFin x 2 = _
  unfold powFin
  have e : x ^ (2 : ℝ) = x ^ 2 := by
    rw [show (2 : ℝ) = ((2 : ℕ) : ℝ) by norm_num, Real.rpow_natCast]
  rw [if_neg (by norm_num)]
  split_ifs with h1 h2 h3 h4
  · rw [e]
  · rw [h2]; norm_num
  · norm_num at h3
  · rw [e]
  · exact absurd ⟨2, by norm_num⟩ h4

theorem pow_NN {a : XR} (h : NN a) {y : ℝ} (hy : 0 < y) : NN (pow a (fin y)) := by
  obtain ⟨r, hr, rfl⟩ := h
  rcases eq_or_lt_of_le hr with h | h
  · subst h
    exact ⟨0, le_rfl, by show powFin 0 y = _; simp [powFin, hy.ne', hy]⟩
  · exact ⟨r ^ y, by positivity, pow_fin _ _ h⟩

theorem pow_neg2 (x : ℝ) (hx : 0 < x) : pow (fin x) (fin (-2)) = fin (1 / x ^ 2) := by
  rw [pow_fin _ _ hx, fin_inj, Real.rpow_neg hx.le, show (2 : ℝ) = ((2 : ℕ) : ℝ) by norm_num,
    Real.rpow_natCast]
  norm_num

/-! ### Kinematics -/

theorem pS_pos (Tp : ℝ) (h : 0 < Tp) : 0 < pS Tp := by
  have := pM_pos; unfold pS; positivity

theorem epiCM_ge (Tp : ℝ) (h : pTth ≤ Tp) :
    pMpi < (pS Tp - 4 * pM ^ 2 + pMpi ^ 2) / (2 * Real.sqrt (pS Tp)) := by
  have hm := pM_pos
  have hpi := pMpi_pos
  have hT : 0 < Tp := lt_of_lt_of_le pTth_pos h
  have hs := pS_pos Tp hT
  have hth := threshold Tp h
  set r := Real.sqrt (pS Tp) with hr
  have hr0 : 0 < r := Real.sqrt_pos.2 hs
  have hr2 : r ^ 2 = pS Tp := Real.sq_sqrt hs.le
  rw [lt_div_iff₀ (by positivity)]
  have h1 : (2 * pM + pMpi) ^ 2 < r ^ 2 := by rw [hr2]; unfold pS; nlinarith
  have h2 : 2 * pM + pMpi < r := lt_of_pow_lt_pow_left₀ 2 hr0.le h1
  nlinarith

theorem gCM_gt (Tp : ℝ) (h : 0 < Tp) : 1 < (Tp + 2 * pM) / Real.sqrt (pS Tp) := by
  have hm := pM_pos
  have hs := pS_pos Tp h
  set r := Real.sqrt (pS Tp) with hr
  have hr0 : 0 < r := Real.sqrt_pos.2 hs
  have hr2 : r ^ 2 = pS Tp := Real.sq_sqrt hs.le
  rw [one_lt_div hr0]
  apply lt_of_pow_lt_pow_left₀ 2 (by positivity)
  rw [hr2]; unfold pS; nlinarith

theorem epiMax_gt (Tp : ℝ) (h : pTth ≤ Tp) : pMpi < Spec.epiMax Tp := by
  have hT : 0 < Tp := lt_of_lt_of_le pTth_pos h
  have h1 := epiCM_ge Tp h
  have h2 := gCM_gt Tp hT
  have hpi := pMpi_pos
  unfold Spec.epiMax
  simp only []
  set g := (Tp + 2 * pM) / Real.sqrt (pS Tp)
  set E := (pS Tp - 4 * pM ^ 2 + pMpi ^ 2) / (2 * Real.sqrt (pS Tp))
  have h3 : 0 ≤ Real.sqrt (E ^ 2 - pMpi ^ 2) * Real.sqrt (1 - 1 / g ^ 2) := by positivity
  nlinarith

theorem epimaxLAB_eq (Tp : ℝ) (h : pTth ≤ Tp) : epimaxLAB Tp = fin (Spec.epiMax Tp) := by
  have hT : 0 < Tp := lt_of_lt_of_le pTth_pos h
  have h1 := epiCM_ge Tp h
  have h2 := gCM_gt Tp hT
  have hpi := pMpi_pos
  have hs := pS_pos Tp hT
  have hr0 : 0 < Real.sqrt (pS Tp) := Real.sqrt_pos.2 hs
  unfold epimaxLAB Spec.epiMax
  simp only [sqrt_fin _ hs.le, mul_fin, div_fin _ _ hr0.ne',
    div_fin _ _ (by positivity : 2 * Real.sqrt (pS Tp) ≠ 0), xsq_fin, sub_fin]
  set g := (Tp + 2 * pM) / Real.sqrt (pS Tp)
  set E := (pS Tp - 4 * pM ^ 2 + pMpi ^ 2) / (2 * Real.sqrt (pS Tp))
  have hg : 0 < g := by linarith
  rw [sqrt_fin _ (by nlinarith), pow_neg2 _ hg, sub_fin, sqrt_fin]
  · simp only [mul_fin, add_fin]
  · have : 1 / g ^ 2 ≤ 1 := by
      rw [div_le_one (by positivity)]; nlinarith
    linarith

theorem egmaxX_eq (Tp : ℝ) (h : pTth ≤ Tp) : egmaxX Tp = fin (Spec.egMax Tp) := by
  have hpi := pMpi_pos
  have hE := epiMax_gt Tp h
  unfold egmaxX Spec.egMax
  rw [epimaxLAB_eq Tp h]
  set E := Spec.epiMax Tp
  have hE0 : 0 < E := by linarith
  have hg : 0 < E / pMpi := by positivity
  simp only [div_fin _ _ hpi.ne', pow_neg2 _ hg, sub_fin]
  have hle : 0 ≤ 1 - 1 / (E / pMpi) ^ 2 := by
    have : 1 / (E / pMpi) ^ 2 ≤ 1 := by
      rw [div_le_one (by positivity), one_le_sq_iff₀ hg.le, le_div_iff₀ hpi]; linarith
    linarith
  rw [sqrt_fin _ hle]
  simp only [mul_fin, add_fin, fin_inj]
  have e : Real.sqrt (E ^ 2 - pMpi ^ 2) = E * Real.sqrt (1 - 1 / (E / pMpi) ^ 2) := by
    rw [show E ^ 2 - pMpi ^ 2 = E ^ 2 * (1 - 1 / (E / pMpi) ^ 2) by field_simp,
      Real.sqrt_mul (by positivity), Real.sqrt_sq hE0.le]
  rw [e]
  field_simp

theorem egMax_facts (Tp : ℝ) (h : pTth ≤ Tp) :
    pMpi / 2 < Spec.egMax Tp ∧ Spec.egMax Tp + pMpi ^ 2 / (4 * Spec.egMax Tp) = Spec.epiMax Tp := by
  have hpi := pMpi_pos
  have hE := epiMax_gt Tp h
  unfold Spec.egMax
  set E := Spec.epiMax Tp
  have hd : 0 < E ^ 2 - pMpi ^ 2 := by nlinarith
  set q := Real.sqrt (E ^ 2 - pMpi ^ 2)
  have hq : q ^ 2 = E ^ 2 - pMpi ^ 2 := Real.sq_sqrt hd.le
  have hq0 : 0 < q := Real.sqrt_pos.2 hd
  refine ⟨by linarith, ?_⟩
  have hE0 : 0 < E := by linarith
  have : E + q ≠ 0 := by positivity
  field_simp
  nlinarith

/-- `Xg` before clamping -/
noncomputable def xgR (Tp Eg : ℝ) : ℝ := (Eg + pMpi ^ 2 / (4 * Eg) - pMpi) / (Spec.epiMax Tp - pMpi)

theorem yg_ge (Eg : ℝ) (h : 0 < Eg) : pMpi ≤ Eg + pMpi ^ 2 / (4 * Eg) := by
  have : Eg + pMpi ^ 2 / (4 * Eg) - pMpi = (Eg - pMpi / 2) ^ 2 / Eg := by field_simp; ring
  have h2 : 0 ≤ (Eg - pMpi / 2) ^ 2 / Eg := by positivity
  linarith

theorem xgR_nonneg (Tp Eg : ℝ) (h : pTth ≤ Tp) (hE : 0 < Eg) : 0 ≤ xgR Tp Eg := by
  have := epiMax_gt Tp h
  have := yg_ge Eg hE
  exact div_nonneg (by linarith) (by linarith)

/-- photons within the kinematic limits -/
theorem xgR_lt_one (Tp Eg : ℝ) (h : pTth ≤ Tp) (hE : 0 < Eg) :
    xgR Tp Eg < 1 ↔ pMpi ^ 2 / (4 * Spec.egMax Tp) < Eg ∧ Eg < Spec.egMax Tp := by
  have hpi := pMpi_pos
  have hm := epiMax_gt Tp h
  obtain ⟨h1, h2⟩ := egMax_facts Tp h
  have hM : 0 < Spec.egMax Tp := by linarith
  unfold xgR
  rw [div_lt_one (by linarith), ← h2]
  set M := Spec.egMax Tp
  have key : Eg + pMpi ^ 2 / (4 * Eg) - (M + pMpi ^ 2 / (4 * M)) =
      (Eg - M) * (Eg - pMpi ^ 2 / (4 * M)) / Eg := by field_simp; ring
  have hsm : pMpi ^ 2 / (4 * M) < M := by
    rw [div_lt_iff₀ (by positivity)]; nlinarith
  constructor
  · intro hlt
    have hneg : (Eg - M) * (Eg - pMpi ^ 2 / (4 * M)) / Eg < 0 := by linarith
    have hneg' : (Eg - M) * (Eg - pMpi ^ 2 / (4 * M)) < 0 := by
      by_contra hc
      push Not at hc
      have : 0 ≤ (Eg - M) * (Eg - pMpi ^ 2 / (4 * M)) / Eg := div_nonneg hc hE.le
      linarith
    rcases mul_neg_iff.1 hneg' with ⟨a, b⟩ | ⟨a, b⟩
    · linarith
    · constructor <;> linarith
  · rintro ⟨a, b⟩
    have : (Eg - M) * (Eg - pMpi ^ 2 / (4 * M)) / Eg < 0 :=
      div_neg_of_neg_of_pos (mul_neg_of_neg_of_pos (by linarith) (by linarith)) hE
    linarith

/-- The shape function in closed form above threshold. -/
theorem fFunc_eq (Tp Eg lam al be ga : ℝ) (h : pTth ≤ Tp) (hE : 0 < Eg) (hl : 0 < lam)
    (hal : 0 < al) (hbe : 0 < be) :
    (xgR Tp Eg < 1 → ∃ r, 0 < r ∧ fFunc Tp Eg (fin lam) (fin al) (fin be) (fin ga) = fin r) ∧
    (1 ≤ xgR Tp Eg → fFunc Tp Eg (fin lam) (fin al) (fin be) (fin ga) = fin 0) := by
  have hpi := pMpi_pos
  have hm := epiMax_gt Tp h
  obtain ⟨h1, h2⟩ := egMax_facts Tp h
  have hM : 0 < Spec.egMax Tp := by linarith
  have hx0 := xgR_nonneg Tp Eg h hE
  unfold fFunc
  simp only [egmaxX_eq Tp h, mul_fin, div_fin _ _ (by positivity : 4 * Eg ≠ 0),
    div_fin _ _ (by positivity : 4 * Spec.egMax Tp ≠ 0), add_fin, h2, sub_fin,
    div_fin _ _ (by linarith : Spec.epiMax Tp - pMpi ≠ 0), div_fin _ _ (by linarith : Spec.epiMax Tp ≠ 0)]
  rw [show (Eg + pMpi ^ 2 / (4 * Eg) - pMpi) / (Spec.epiMax Tp - pMpi) = xgR Tp Eg from rfl]
  have hC : 0 < lam * pMpi / Spec.epiMax Tp := by
    have : 0 < Spec.epiMax Tp := by linarith
    positivity
  have hnum : ∀ x : ℝ, 0 ≤ x → ∃ y : ℝ, pow (fin x) (fin al) = fin y ∧ 0 ≤ y ∧ (x < 1 → y < 1) ∧
      (x = 1 → y = 1) := by
    intro x hx
    rcases eq_or_lt_of_le hx with e | e
    · subst e
      refine ⟨0, by show powFin 0 al = _; simp [powFin, hal.ne', hal], le_rfl, fun _ => one_pos,
        fun e => by norm_num at e⟩
    · refine ⟨x ^ al, pow_fin _ _ e, by positivity, fun h => Real.rpow_lt_one hx h hal, ?_⟩
      rintro rfl; simp
  have hden : ∀ x : ℝ, 0 ≤ x → ∃ d : ℝ, 0 < d ∧
      pow (fin 1 + fin x / fin (lam * pMpi / Spec.epiMax Tp)) (fin ga) = fin d := by
    intro x hx
    have hp : 0 < 1 + x / (lam * pMpi / Spec.epiMax Tp) := by positivity
    rw [div_fin _ _ hC.ne', add_fin, pow_fin _ _ hp]
    exact ⟨_, by positivity, rfl⟩
  constructor
  · intro hlt
    rw [if_neg (by rw [lt_fin]; linarith)]
    obtain ⟨y, hy, hy0, hy1, _⟩ := hnum _ hx0
    obtain ⟨d, hd, hde⟩ := hden _ hx0
    have hy1' : 0 < 1 - y := by linarith [hy1 hlt]
    rw [hy, hde, sub_fin, pow_fin _ _ hy1', div_fin _ _ hd.ne']
    exact ⟨_, by positivity, rfl⟩
  · intro hge
    have hX : (if (fin 1 : XR) < fin (xgR Tp Eg) then fin 1 else fin (xgR Tp Eg)) = fin 1 := by
      by_cases hc : 1 < xgR Tp Eg
      · rw [if_pos (by rwa [lt_fin])]
      · rw [if_neg (by rwa [lt_fin]), fin_inj]; linarith
    rw [hX]
    obtain ⟨y, hy, _, _, hy1⟩ := hnum 1 zero_le_one
    obtain ⟨d, hd, hde⟩ := hden 1 zero_le_one
    rw [hy, hde, hy1 rfl, sub_fin, sub_self]
    have : pow (fin 0) (fin be) = fin 0 := by
      show powFin 0 be = _; simp [powFin, hbe.ne', hbe]
    rw [this, div_fin _ _ hd.ne', zero_div]

/-! ### Parameters -/

theorem pMu_pos (Tp : ℝ) (h : 1 < Tp) : ∃ r, 0 < r ∧ pMu Tp = fin r := by
  have hm := pM_pos
  have hq : 0 < (Tp - 1) / pM := div_pos (by linarith) hm
  unfold pMu
  simp only [pow_fin _ _ hq, exp_fin, mul_fin]
  exact ⟨_, by positivity, rfl⟩

theorem pKappa_pos (Tp : ℝ) (h : pTth ≤ Tp) : ∃ r, 0 < r ∧ pKappa Tp = fin r := by
  have hm := pM_pos
  have hT : 0 < Tp := lt_of_lt_of_le pTth_pos h
  have hq : 0 < Tp / pM := div_pos hT hm
  unfold pKappa
  rw [pow_fin _ _ hq, div_fin _ _ (by norm_num), sub_fin]
  refine ⟨_, ?_, rfl⟩
  -- θ ≥ 0.29, θ^-1.5 ≤ 0.29^-2 < 12
  have hth : 0.29 ≤ Tp / pM := by
    rw [le_div_iff₀ hm]
    have h1 := pM_lt
    have h2 : (0.27966184 : ℝ) ≤ Tp := h
    nlinarith
  have hle : (Tp / pM) ^ (-1.5 : ℝ) ≤ 12 := by
    have e1 : (Tp / pM) ^ (-1.5 : ℝ) ≤ (0.29 : ℝ) ^ (-1.5 : ℝ) :=
      Real.rpow_le_rpow_of_nonpos (by norm_num) hth (by norm_num)
    have e2 : (0.29 : ℝ) ^ (-1.5 : ℝ) ≤ (0.29 : ℝ) ^ (-2 : ℝ) :=
      Real.rpow_le_rpow_of_exponent_ge (by norm_num) (by norm_num) (by norm_num)
    have e3 : (0.29 : ℝ) ^ (-2 : ℝ) ≤ 12 := by
      rw [Real.rpow_neg (by norm_num), show (2 : ℝ) = ((2 : ℕ) : ℝ) by norm_num, Real.rpow_natCast]
      norm_num
    linarith
  linarith

theorem shapeParams_pos (h : HiE) (Tp : ℝ) (hT : pTth ≤ Tp) :
    ∃ lam al be ga : ℝ, 0 < lam ∧ 0 < al ∧ 0 < be ∧
      Spec.shapeParams h Tp = (fin lam, fin al, fin be, fin ga) := by
  unfold Spec.shapeParams
  by_cases c5 : h.etrans < Tp
  · simp only [c5, if_true]
    cases h
    · exact ⟨3, 0.5, 4.9, 1, by norm_num, by norm_num, by norm_num, rfl⟩
    · exact ⟨3.5, 0.5, 4, 1, by norm_num, by norm_num, by norm_num, rfl⟩
    · exact ⟨3.55, 0.5, 3.6, 1, by norm_num, by norm_num, by norm_num, rfl⟩
    · exact ⟨3.55, 0.5, 4.5, 1, by norm_num, by norm_num, by norm_num, rfl⟩
  simp only [c5, if_false]
  by_cases c4 : 20 < Tp
  · simp only [c4, if_true]
    exact ⟨3, 0.5, 4.2, 1, by norm_num, by norm_num, by norm_num, rfl⟩
  simp only [c4, if_false]
  by_cases c3 : 4 < Tp
  · obtain ⟨r, hr, e⟩ := pMu_pos Tp (by linarith)
    simp only [c3, if_true, e, mul_fin, add_fin]
    exact ⟨3, 1, _, _, by norm_num, by norm_num, by positivity, rfl⟩
  simp only [c3, if_false]
  by_cases c2 : 1 < Tp
  · obtain ⟨r, hr, e⟩ := pMu_pos Tp c2
    simp only [c2, if_true, e, mul_fin, add_fin]
    exact ⟨3, 1, _, _, by norm_num, by norm_num, by positivity, rfl⟩
  simp only [c2, if_false]
  obtain ⟨r, hr, e⟩ := pKappa_pos Tp hT
  rw [e]
  exact ⟨1, 1, r, 0, by norm_num, by norm_num, hr, rfl⟩

theorem shape_sign (h : HiE) (Eg Tp : ℝ) (hT : pTth ≤ Tp) (hE : 0 < Eg) :
    (xgR Tp Eg < 1 → ∃ r, 0 < r ∧ Spec.shape h Eg Tp = fin r) ∧
    (1 ≤ xgR Tp Eg → Spec.shape h Eg Tp = fin 0) := by
  obtain ⟨lam, al, be, ga, h1, h2, h3, e⟩ := shapeParams_pos h Tp hT
  unfold Spec.shape
  rw [if_neg (by linarith), e]
  exact fFunc_eq Tp Eg lam al be ga hT hE h1 h2 h3

/-! ### Cross sections -/

theorem sigmaInel_pos (Tp : ℝ) (h : pTth < Tp) : ∃ r, 0 < r ∧ sigmaInel Tp = fin r := by
  have ht := pTth_pos
  have hT : 0 < Tp := by linarith
  unfold sigmaInel
  have hr : 0 < Tp / pTth := by positivity
  have hr' : 0 < pTth / Tp := by positivity
  have hlt : pTth / Tp < 1 := by rwa [div_lt_one hT]
  simp only [div_fin _ _ ht.ne', div_fin _ _ hT.ne', log_fin _ hr, xsq_fin, pow_fin _ _ hr', mul_fin,
    sub_fin, add_fin]
  have h1 : 0 < 1 - (pTth / Tp) ^ (1.9 : ℝ) := by
    have := Real.rpow_lt_one hr'.le hlt (by norm_num : (0:ℝ) < 1.9)
    linarith
  rw [pow_fin _ _ h1, mul_fin, mul_fin]
  refine ⟨_, ?_, rfl⟩
  have hq : ∀ L : ℝ, 0 < 30.7 - 0.96 * L + 0.18 * L ^ 2 := by
    intro L; nlinarith [sq_nonneg (L - 8 / 3)]
  have := hq (Real.log (Tp / pTth))
  positivity

/-- at threshold the inelastic cross section vanishes -/
theorem sigmaInel_th : sigmaInel pTth = fin 0 := by
  have ht := pTth_pos
  unfold sigmaInel
  simp only [div_fin _ _ ht.ne', div_self ht.ne', log_fin _ one_pos, Real.log_one, xsq_fin,
    pow_fin _ _ one_pos, mul_fin, sub_fin, add_fin, Real.one_rpow, sub_self]
  have : pow (fin 0) (fin 3) = fin 0 := by show powFin 0 3 = _; norm_num [powFin]
  rw [this, mul_fin, mul_fin]; norm_num

theorem pK_pos : 0 < pK := by
  unfold pK pGamma pMres pGres
  positivity

theorem sigmaPiLo_pos (Tp : ℝ) (h : pTth ≤ Tp) : ∃ r, 0 < r ∧ sigmaPiLo Tp = fin r := by
  have hm := pM_pos
  have hpi := pMpi_pos
  have hT : 0 < Tp := lt_of_lt_of_le pTth_pos h
  have hs := pS_pos Tp hT
  have hth := threshold Tp h
  have hr0 : 0 < Real.sqrt (pS Tp) := Real.sqrt_pos.2 hs
  have hK := pK_pos
  -- mu
  have hdisc : 0 < (pS Tp - pMpi ^ 2 - 4 * pM ^ 2) ^ 2 - 16 * pMpi ^ 2 * pM ^ 2 := by
    have e : (pS Tp - pMpi ^ 2 - 4 * pM ^ 2) ^ 2 - 16 * pMpi ^ 2 * pM ^ 2 =
        (pS Tp - (2 * pM + pMpi) ^ 2) * (pS Tp - (2 * pM - pMpi) ^ 2) := by ring
    rw [e]
    apply mul_pos
    · unfold pS; nlinarith
    · unfold pS; nlinarith [mul_pos hm hpi]
  have hmu : ∃ mu : ℝ, 0 < mu ∧ pMu1 Tp = fin mu := by
    unfold pMu1
    rw [sqrt_fin _ hdisc.le, sqrt_fin _ hs.le, mul_fin, div_fin _ _ (by positivity)]
    exact ⟨_, div_pos (Real.sqrt_pos.2 hdisc) (by positivity), rfl⟩
  obtain ⟨mu, hmu0, emu⟩ := hmu
  have hbw : ∃ f : ℝ, 0 < f ∧ pFBW Tp = fin f := by
    unfold pFBW
    rw [sqrt_fin _ hs.le, sub_fin, xsq_fin, sub_fin, xsq_fin, add_fin]
    have hG : 0 < pMres ^ 2 * pGres ^ 2 := by unfold pMres pGres; norm_num
    have hd : 0 < ((Real.sqrt (pS Tp) - pM) ^ 2 - pMres ^ 2) ^ 2 + pMres ^ 2 * pGres ^ 2 := by
      have := sq_nonneg ((Real.sqrt (pS Tp) - pM) ^ 2 - pMres ^ 2)
      linarith
    rw [div_fin _ _ hd.ne']
    exact ⟨_, by positivity, rfl⟩
  obtain ⟨f, hf, ef⟩ := hbw
  unfold sigmaPiLo
  simp only [emu, ef, pow_fin _ _ hmu0, pow_fin _ _ hf, mul_fin, add_fin]
  by_cases hc : Tp < 0.56
  · rw [if_pos hc, add_fin, mul_fin]
    exact ⟨_, by positivity, rfl⟩
  · rw [if_neg hc, exp_fin, add_fin, div_fin _ _ (by positivity), add_fin, mul_fin]
    exact ⟨_, by positivity, rfl⟩

theorem sigmaPiMid_pos (Tp : ℝ) (h : 2 ≤ Tp) (h5 : Tp < 5) : ∃ r, 0 < r ∧ sigmaPiMid Tp = fin r := by
  have hm := pM_pos
  obtain ⟨s, hs, e⟩ := sigmaInel_pos Tp (by unfold pTth; linarith)
  unfold sigmaPiMid
  rw [e, mul_fin]
  refine ⟨_, mul_pos hs ?_, rfl⟩
  have h1 := pM_gt
  have h2 := pM_lt
  set q := (Tp - pTth) / pM with hq
  have hqm : q * pM = Tp - pTth := by rw [hq]; field_simp
  have hlo : 1 < q := by
    rw [hq, one_lt_div hm]; unfold pTth; linarith
  have hhi : q < 6 := by
    rw [hq, div_lt_iff₀ hm]; unfold pTth; linarith
  nlinarith [mul_pos (sub_pos.2 hlo) (sub_pos.2 hhi)]

theorem sigmaPiHi_pos (Tp : ℝ) (h : 5 ≤ Tp) (a0 a1 a2 a3 a4 : ℝ) (h0 : 0 < a0) (h2 : 0 < a2) :
    ∃ r, 0 < r ∧ sigmaPiHi Tp (a0, a1, a2, a3, a4) = fin r := by
  have hm := pM_pos
  obtain ⟨s, hs, e⟩ := sigmaInel_pos Tp (by unfold pTth; linarith)
  have hx : 0 < (Tp - 3) / pM := div_pos (by linarith) hm
  unfold sigmaPiHi
  simp only [e, pow_fin _ _ hx, mul_fin, exp_fin, add_fin, sub_fin]
  refine ⟨_, mul_pos hs (mul_pos (by positivity) ?_), rfl⟩
  have : 0 < a2 * ((Tp - 3) / pM) ^ (0.25 : ℝ) := by positivity
  have h3 : Real.exp (-a2 * ((Tp - 3) / pM) ^ (0.25 : ℝ)) < 1 := by
    rw [Real.exp_lt_one_iff]; linarith
  linarith

theorem sigmaPi_pos (h : HiE) (Tp : ℝ) (hT : pTth ≤ Tp) : ∃ r, 0 < r ∧ sigmaPi h Tp = fin r := by
  unfold sigmaPi
  by_cases c2 : Tp < 2
  · rw [if_pos c2]; exact sigmaPiLo_pos Tp hT
  rw [if_neg c2]
  push Not at c2
  by_cases c5 : Tp < 5
  · rw [if_pos c5]; exact sigmaPiMid_pos Tp c2 c5
  rw [if_neg c5]
  push Not at c5
  by_cases ce : Tp < h.etrans
  · rw [if_pos ce]
    exact sigmaPiHi_pos Tp c5 _ _ _ _ _ (by norm_num) (by norm_num)
  · rw [if_neg ce]
    cases h <;> exact sigmaPiHi_pos Tp c5 _ _ _ _ _ (by norm_num) (by norm_num)

theorem aMax_pos (h : HiE) (Tp : ℝ) (hT : pTth ≤ Tp) : ∃ r, 0 < r ∧ aMax h Tp = fin r := by
  have hm := pM_pos
  have hpi := pMpi_pos
  have hT0 : 0 < Tp := lt_of_lt_of_le pTth_pos hT
  obtain ⟨s, hs, e⟩ := sigmaPi_pos h Tp hT
  unfold aMax
  by_cases c : Tp < 1
  · rw [if_pos c, e, epimaxLAB_eq Tp hT]
    have hE := epiMax_gt Tp hT
    have hE0 : 0 < Spec.epiMax Tp := by linarith
    rw [mul_fin, div_fin _ _ hE0.ne']
    exact ⟨_, by positivity, rfl⟩
  · rw [if_neg c, e]
    have hth : 0 < Tp / pM := by positivity
    have hb : 0 < (bParams h Tp).1 := by
      unfold bParams
      split_ifs
      · cases h <;> norm_num [HiE.b]
      · norm_num [HiE.b]
      · norm_num
    rcases hbp : bParams h Tp with ⟨b1, b2, b3⟩
    rw [hbp] at hb
    simp only [log_fin _ hth, xsq_fin, mul_fin, exp_fin, pow_fin _ _ hth, div_fin _ _ hm.ne']
    simp only at hb
    exact ⟨_, by positivity, rfl⟩

theorem nuclearFactor_pos (Tp : ℝ) (hT : pTth < Tp) : ∃ r, 0 < r ∧ nuclearFactor Tp = fin r := by
  unfold nuclearFactor
  by_cases c : pTth < Tp ∧ Tp < 1
  · rw [if_pos c]; exact ⟨_, by norm_num, rfl⟩
  rw [if_neg c, if_pos hT]
  obtain ⟨s, hs, e⟩ := sigmaInel_pos Tp hT
  obtain ⟨s3, hs3, e3⟩ := sigmaInel_pos 1e3 (by norm_num [pTth])
  rw [e, e3, div_fin _ _ hs3.ne']
  have hG : ∃ G : ℝ, 0 < G ∧ (fin 1 + XR.log (if fin 1 < fin (s / s3) then fin (s / s3) else fin 1)) = fin G := by
    by_cases c : 1 < s / s3
    · rw [if_pos (by rwa [lt_fin]), log_fin _ (by positivity), add_fin]
      exact ⟨_, by have := Real.log_pos c; linarith, rfl⟩
    · rw [if_neg (by rwa [lt_fin]), log_fin _ one_pos, add_fin]
      exact ⟨_, by simp, rfl⟩
  obtain ⟨G, hG, eG⟩ := hG
  simp only [eG, mul_fin, div_fin _ _ hs.ne', add_fin]
  exact ⟨_, by positivity, rfl⟩

theorem nuclearFactor_th : nuclearFactor pTth = fin 0 := by
  unfold nuclearFactor; simp

/-- The differential cross section above threshold. -/
theorem dsigma_sign (h : HiE) (nuc : Bool) (Eg Tp : ℝ) (hT : pTth < Tp) (hE : 0 < Eg) :
    (xgR Tp Eg < 1 → ∃ r, 0 < r ∧ Spec.dsigma h nuc Eg Tp = fin r) ∧
    (1 ≤ xgR Tp Eg → Spec.dsigma h nuc Eg Tp = fin 0) := by
  obtain ⟨a, ha, ea⟩ := aMax_pos h Tp hT.le
  obtain ⟨n, hn, en⟩ := nuclearFactor_pos Tp hT
  obtain ⟨s1, s2⟩ := shape_sign h Eg Tp hT.le hE
  unfold Spec.dsigma
  simp only [ea, en]
  constructor
  · intro hx
    obtain ⟨r, hr, er⟩ := s1 hx
    rw [er]
    cases nuc
    · exact ⟨a * r, by positivity, rfl⟩
    · exact ⟨a * r * n, by positivity, rfl⟩
  · intro hx
    rw [s2 hx]
    cases nuc <;> simp

/-- Below the kinematic threshold the one-pion cross section is NaN. -/
theorem dsigma_below (h : HiE) (nuc : Bool) (Eg Tp : ℝ) (h0 : 0 ≤ Tp)
    (hT : 2 * pM * Tp < 4 * pM * pMpi + pMpi ^ 2) : Spec.dsigma h nuc Eg Tp = nan := by
  have hm := pM_pos
  have hpi := pMpi_pos
  have hmm := pM_gt
  have hTp : Tp < 0.5 := by
    have : pMpi = 0.1349766 := rfl
    rw [this] at hT
    nlinarith
  have hdisc : (pS Tp - pMpi ^ 2 - 4 * pM ^ 2) ^ 2 - 16 * pMpi ^ 2 * pM ^ 2 < 0 := by
    have e : (pS Tp - pMpi ^ 2 - 4 * pM ^ 2) ^ 2 - 16 * pMpi ^ 2 * pM ^ 2 =
        (pS Tp - (2 * pM + pMpi) ^ 2) * (pS Tp - (2 * pM - pMpi) ^ 2) := by ring
    rw [e]
    apply mul_neg_of_neg_of_pos
    · unfold pS; nlinarith
    · unfold pS
      have : pMpi < pM := by unfold pMpi; linarith
      nlinarith [mul_pos hm hpi, mul_nonneg hm.le h0]
  have hmu : pMu1 Tp = nan := by
    unfold pMu1
    have : XR.sqrt (fin ((pS Tp - pMpi ^ 2 - 4 * pM ^ 2) ^ 2 - 16 * pMpi ^ 2 * pM ^ 2)) = nan := by
      simp [XR.sqrt, hdisc]
    rw [this]
    rfl
  have hlo : sigmaPiLo Tp = nan := by
    unfold sigmaPiLo
    have : pow nan (fin 1.95) = nan := by norm_num [XR.pow]
    simp only [hmu, this, mul_nan'', nan_mul', nan_add]
  have ha : aMax h Tp = nan := by
    unfold aMax sigmaPi
    rw [if_pos (by linarith), if_pos (by linarith), hlo, mul_nan'']
    generalize epimaxLAB Tp = z
    cases z <;> rfl
  unfold Spec.dsigma
  simp only [ha, nan_mul']
  simp

end Naima
