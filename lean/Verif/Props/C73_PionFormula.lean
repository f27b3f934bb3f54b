import Verif.Spec.Kafexhiu
import Verif.Props.C19_C20_Pion
import Verif.Props.C71_ICFormula

/-! # C73: the pion-decay spectrum is that of Kafexhiu et al. (2014), with its normalisation -/

namespace Naima.Props

open Naima XR Classical

/-- proton mass in GeV -/
noncomputable def mProton : ℝ := cMp * cC ^ 2 / (1e9 * cEV)

/-- Which model of the paper an option of the code stands for. -/
def modelOf : HiE → Kafexhiu.Model
  | .geant4 => .geant4
  | .pythia8 => .pythia8
  | .sibyll => .sibyll
  | .qgsjet => .qgsjet

theorem pM_eq : pM = mProton := by
  unfold pM mProton PhysUnit.GeV cEV; norm_num

theorem T0_eq (h : HiE) : (modelOf h).T0 = h.etrans := by cases h <;> rfl
theorem a_eq (h : HiE) : (modelOf h).a = h.a := by cases h <;> rfl
theorem b_eq (h : HiE) : (modelOf h).b = h.b := by cases h <;> rfl

theorem sigmaInel_eq (T : ℝ) (h : pTth < T) : sigmaInel T = fin (Kafexhiu.σinel T) := by
  have ht := pTth_pos
  have hT : 0 < T := by linarith
  have hr : 0 < T / pTth := by positivity
  have hr' : 0 < pTth / T := by positivity
  have hlt : pTth / T < 1 := by rwa [div_lt_one hT]
  have h1 : 0 < 1 - (pTth / T) ^ (1.9 : ℝ) := by
    have := Real.rpow_lt_one hr'.le hlt (by norm_num : (0:ℝ) < 1.9)
    linarith
  unfold sigmaInel
  simp only [div_fin _ _ ht.ne', div_fin _ _ hT.ne', log_fin _ hr, xsq_fin, pow_fin _ _ hr', mul_fin,
    sub_fin, add_fin]
  rw [pow_fin _ _ h1, mul_fin, mul_fin, fin_inj]
  have e3 : ∀ y : ℝ, y ^ (3 : ℝ) = y ^ 3 := fun y => by
    rw [show (3 : ℝ) = ((3 : ℕ) : ℝ) by norm_num, Real.rpow_natCast]
  rw [e3]
  rfl

theorem σinel_pos (T : ℝ) (h : pTth < T) : 0 < Kafexhiu.σinel T := by
  obtain ⟨r, hr, e⟩ := sigmaInel_pos T h
  rw [sigmaInel_eq T h, fin_inj] at e
  rwa [e]

theorem sigmaPiLo_eq (T : ℝ) (h : pTth ≤ T) :
    sigmaPiLo T = fin (Kafexhiu.σ1π mProton T + Kafexhiu.σ2π T) := by
  have hm := pM_pos
  have hpi := pMpi_pos
  have hT : 0 < T := lt_of_lt_of_le pTth_pos h
  have hs := pS_pos T hT
  have hth := threshold T h
  have hr0 : 0 < Real.sqrt (pS T) := Real.sqrt_pos.2 hs
  have hK := pK_pos
  have hdisc : 0 < (pS T - pMpi ^ 2 - 4 * pM ^ 2) ^ 2 - 16 * pMpi ^ 2 * pM ^ 2 := by
    have e : (pS T - pMpi ^ 2 - 4 * pM ^ 2) ^ 2 - 16 * pMpi ^ 2 * pM ^ 2 =
        (pS T - (2 * pM + pMpi) ^ 2) * (pS T - (2 * pM - pMpi) ^ 2) := by ring
    rw [e]
    apply mul_pos
    · unfold pS; nlinarith
    · unfold pS; nlinarith [mul_pos hm hpi]
  have hmu0 : 0 < Kafexhiu.η pM T := by
    unfold Kafexhiu.η
    exact div_pos (Real.sqrt_pos.2 hdisc) (by have := hpi; unfold Kafexhiu.mπ; unfold pS at hr0; unfold Kafexhiu.s; positivity)
  have emu : pMu1 T = fin (Kafexhiu.η pM T) := by
    unfold pMu1
    rw [sqrt_fin _ hdisc.le, sqrt_fin _ hs.le, mul_fin, div_fin _ _ (by positivity)]
    rfl
  have hG : 0 < pMres ^ 2 * pGres ^ 2 := by unfold pMres pGres; norm_num
  have hd : 0 < ((Real.sqrt (pS T) - pM) ^ 2 - pMres ^ 2) ^ 2 + pMres ^ 2 * pGres ^ 2 := by
    have := sq_nonneg ((Real.sqrt (pS T) - pM) ^ 2 - pMres ^ 2)
    linarith
  have ef : pFBW T = fin (Kafexhiu.fBW pM T) := by
    unfold pFBW
    rw [sqrt_fin _ hs.le, sub_fin, xsq_fin, sub_fin, xsq_fin, add_fin, div_fin _ _ hd.ne']
    rfl
  have hf : 0 < Kafexhiu.fBW pM T := by
    have : 0 < pM * pK / (((Real.sqrt (pS T) - pM) ^ 2 - pMres ^ 2) ^ 2 + pMres ^ 2 * pGres ^ 2) := by
      positivity
    exact this
  have e5 : (Kafexhiu.η pM T) ^ (5 : ℝ) = (Kafexhiu.η pM T) ^ 5 := by
    rw [show (5 : ℝ) = ((5 : ℕ) : ℝ) by norm_num, Real.rpow_natCast]
  unfold sigmaPiLo
  simp only [emu, ef, pow_fin _ _ hmu0, pow_fin _ _ hf, mul_fin, add_fin, e5]
  rw [← pM_eq]
  unfold Kafexhiu.σ2π Kafexhiu.σ1π Kafexhiu.mb
  by_cases hc : T < 0.56
  · rw [if_pos hc, if_pos hc, add_fin, mul_fin, fin_inj]; ring
  · rw [if_neg hc, if_neg hc, exp_fin, add_fin, div_fin _ _ (by positivity), add_fin, mul_fin, fin_inj]
    ring

theorem sigmaPiHi_eq (T : ℝ) (h : 5 ≤ T) (a : ℝ × ℝ × ℝ × ℝ × ℝ) :
    sigmaPiHi T a = fin (Kafexhiu.σinel T * Kafexhiu.nHigh mProton T a) := by
  obtain ⟨a0, a1, a2, a3, a4⟩ := a
  have hm := pM_pos
  have hx : 0 < (T - 3) / pM := div_pos (by linarith) hm
  unfold sigmaPiHi
  simp only [sigmaInel_eq T (by unfold pTth; linarith), pow_fin _ _ hx, mul_fin, exp_fin, add_fin,
    sub_fin, fin_inj]
  rw [← pM_eq]
  unfold Kafexhiu.nHigh
  have : (0.25 : ℝ) = 1 / 4 := by norm_num
  rw [this]

theorem sigmaPi_eq (h : HiE) (T : ℝ) (hT : pTth ≤ T) :
    sigmaPi h T = fin (Kafexhiu.σπ (modelOf h) mProton T) := by
  unfold sigmaPi Kafexhiu.σπ
  rw [T0_eq, a_eq]
  by_cases c2 : T < 2
  · rw [if_pos c2, if_pos c2, sigmaPiLo_eq T hT]
  rw [if_neg c2, if_neg c2]
  push Not at c2
  by_cases c5 : T < 5
  · rw [if_pos c5, if_pos c5]
    unfold sigmaPiMid
    rw [sigmaInel_eq T (by unfold pTth; linarith), mul_fin, ← pM_eq]
    rfl
  rw [if_neg c5, if_neg c5]
  push Not at c5
  by_cases ce : T < h.etrans
  · rw [if_pos ce, if_pos ce, sigmaPiHi_eq T c5]; rfl
  · rw [if_neg ce, if_neg ce, sigmaPiHi_eq T c5]

theorem epiMax_eq (T : ℝ) : Spec.epiMax T = Kafexhiu.Eπmax mProton T := by
  rw [← pM_eq]; rfl

theorem aMax_eq (h : HiE) (T : ℝ) (hT : pTth ≤ T) :
    aMax h T = fin (Kafexhiu.Amax (modelOf h) mProton T) := by
  have hm := pM_pos
  have hT0 : 0 < T := lt_of_lt_of_le pTth_pos hT
  unfold aMax Kafexhiu.Amax
  rw [sigmaPi_eq h T hT]
  by_cases c : T < 1
  · rw [if_pos c, if_pos c, epimaxLAB_eq T hT]
    have hE := epiMax_gt T hT
    have hE0 : 0 < Spec.epiMax T := by linarith [pMpi_pos]
    rw [mul_fin, div_fin _ _ hE0.ne', epiMax_eq]
  · rw [if_neg c, if_neg c]
    have hth : 0 < T / pM := by positivity
    rw [T0_eq, b_eq]
    have hb : bParams h T = (if T < 5 then (9.53, 0.52, 0.054) else if T < h.etrans then
        Kafexhiu.Model.geant4.b else h.b) := by
      unfold bParams
      by_cases c5 : T < 5
      · have : ¬ T ≥ h.etrans := by cases h <;> simp only [HiE.etrans] <;> linarith
        rw [if_neg this, if_neg (by linarith), if_pos c5]
      · rw [if_neg c5]
        by_cases ce : T < h.etrans
        · rw [if_neg (by linarith), if_pos (by linarith), if_pos ce]; rfl
        · rw [if_pos (by linarith), if_neg ce]
    rw [hb]
    generalize (if T < 5 then ((9.53, 0.52, 0.054) : ℝ × ℝ × ℝ) else if T < h.etrans then
        Kafexhiu.Model.geant4.b else h.b) = b
    obtain ⟨b1, b2, b3⟩ := b
    simp only [log_fin _ hth, xsq_fin, mul_fin, exp_fin, pow_fin _ _ hth, div_fin _ _ hm.ne', fin_inj]
    rw [← pM_eq]
    ring

theorem nuclearFactor_eq (T : ℝ) (hT : pTth < T) : nuclearFactor T = fin (Kafexhiu.nuclear T) := by
  unfold nuclearFactor Kafexhiu.nuclear
  by_cases c : T < 1
  · rw [if_pos ⟨hT, c⟩, if_pos c]
  · rw [if_neg (by tauto), if_pos hT, if_neg c]
    have h1 := σinel_pos T hT
    have h3 : 0 < Kafexhiu.σinel 1000 := σinel_pos 1000 (by norm_num [pTth])
    have e3 : sigmaInel 1e3 = fin (Kafexhiu.σinel 1000) := by
      rw [show (1e3:ℝ) = 1000 by norm_num]; exact sigmaInel_eq 1000 (by norm_num [pTth])
    rw [sigmaInel_eq T hT, e3, div_fin _ _ h3.ne']
    have hG : (if (fin 1 : XR) < fin (Kafexhiu.σinel T / Kafexhiu.σinel 1000) then
        fin (Kafexhiu.σinel T / Kafexhiu.σinel 1000) else fin 1) =
        fin (max 1 (Kafexhiu.σinel T / Kafexhiu.σinel 1000)) := by
      by_cases c : 1 < Kafexhiu.σinel T / Kafexhiu.σinel 1000
      · rw [if_pos (by rwa [lt_fin]), max_eq_right c.le]
      · rw [if_neg (by rwa [lt_fin]), max_eq_left (not_lt.1 c)]
    simp only [hG]
    rw [log_fin _ (by positivity), add_fin, mul_fin, div_fin _ _ h1.ne', add_fin, fin_inj]
    have : ((0.29:ℝ) + 0.1) = 0.39 := by norm_num
    rw [this]; rfl

theorem params_eq (h : HiE) (T : ℝ) (hT : pTth ≤ T) :
    Spec.shapeParams h T = (fin (Kafexhiu.params (modelOf h) mProton T).1,
      fin (Kafexhiu.params (modelOf h) mProton T).2.1,
      fin (Kafexhiu.params (modelOf h) mProton T).2.2.1,
      fin (Kafexhiu.params (modelOf h) mProton T).2.2.2) := by
  have hm := pM_pos
  have hT0 : 0 < T := lt_of_lt_of_le pTth_pos hT
  have hμ : 1 < T → pMu T = fin (Kafexhiu.μ mProton T) := by
    intro h1
    have hq : 0 < (T - 1) / pM := div_pos (by linarith) hm
    unfold pMu
    simp only [pow_fin _ _ hq, exp_fin, mul_fin, fin_inj]
    rw [← pM_eq]
    unfold Kafexhiu.μ
    have : (1.25 : ℝ) = 5 / 4 := by norm_num
    rw [this]
  unfold Spec.shapeParams Kafexhiu.params
  rw [T0_eq]
  by_cases c5 : h.etrans < T
  · simp only [c5, if_true]
    cases h <;> norm_num [Spec.hiParams, modelOf]
  simp only [c5, if_false]
  by_cases c4 : 20 < T
  · simp only [c4, if_true]; norm_num
  simp only [c4, if_false]
  by_cases c3 : 4 < T
  · simp only [c3, if_true, hμ (by linarith), mul_fin, add_fin]; norm_num
  simp only [c3, if_false]
  by_cases c2 : 1 < T
  · simp only [c2, if_true, hμ c2, mul_fin, add_fin]
  simp only [c2, if_false]
  have hq : 0 < T / pM := div_pos hT0 hm
  unfold pKappa Kafexhiu.κ
  rw [pow_fin _ _ hq, div_fin _ _ (by norm_num), sub_fin, ← pM_eq]
  norm_num

theorem fFunc_val (T E lam al be ga : ℝ) (h : pTth ≤ T) (hE : 0 < E) (hl : 0 < lam) (hal : 0 < al)
    (hbe : 0 < be) :
    fFunc T E (fin lam) (fin al) (fin be) (fin ga) = fin (if xgR T E < 1 then
      (1 - xgR T E ^ al) ^ be / (1 + xgR T E / (lam * pMpi / Spec.epiMax T)) ^ ga else 0) := by
  by_cases hlt : xgR T E < 1
  · rw [if_pos hlt]
    have hpi := pMpi_pos
    have hm := epiMax_gt T h
    obtain ⟨h1, h2⟩ := egMax_facts T h
    have hM : 0 < Spec.egMax T := by linarith
    have hx0 := xgR_nonneg T E h hE
    have hep : 0 < Spec.epiMax T := by linarith
    unfold fFunc
    simp only [egmaxX_eq T h, mul_fin, div_fin _ _ (by positivity : 4 * E ≠ 0),
      div_fin _ _ (by positivity : 4 * Spec.egMax T ≠ 0), add_fin, h2, sub_fin,
      div_fin _ _ (by linarith : Spec.epiMax T - pMpi ≠ 0), div_fin _ _ hep.ne']
    rw [show (E + pMpi ^ 2 / (4 * E) - pMpi) / (Spec.epiMax T - pMpi) = xgR T E from rfl]
    have hC : 0 < lam * pMpi / Spec.epiMax T := by positivity
    rw [if_neg (by rw [lt_fin]; linarith)]
    have hy : pow (fin (xgR T E)) (fin al) = fin (xgR T E ^ al) := by
      rcases eq_or_lt_of_le hx0 with e | e
      · rw [← e, Real.zero_rpow hal.ne']
        show powFin 0 al = _; simp [powFin, hal.ne', hal]
      · exact pow_fin _ _ e
    have hy1 : xgR T E ^ al < 1 := Real.rpow_lt_one hx0 hlt hal
    have hp : 0 < 1 + xgR T E / (lam * pMpi / Spec.epiMax T) := by positivity
    rw [hy, sub_fin, pow_fin _ _ (by linarith), div_fin _ _ hC.ne', add_fin, pow_fin _ _ hp,
      div_fin _ _ (by positivity)]
  · rw [if_neg hlt]
    exact (fFunc_eq T E lam al be ga h hE hl hal hbe).2 (not_lt.1 hlt)

theorem shape_eq (h : HiE) (E T : ℝ) (hT : pTth ≤ T) (hE : 0 < E) :
    Spec.shape h E T = fin (Kafexhiu.F (modelOf h) mProton T E) := by
  obtain ⟨lam, al, be, ga, h1, h2, h3, e⟩ := shapeParams_pos h T hT
  have e' := params_eq h T hT
  rw [e] at e'
  unfold Spec.shape Kafexhiu.F
  rw [if_neg (by linarith), e]
  rcases hp : Kafexhiu.params (modelOf h) mProton T with ⟨q1, q2, q3, q4⟩
  rw [hp] at e'
  simp only [Prod.mk.injEq, fin_inj] at e'
  obtain ⟨rfl, rfl, rfl, rfl⟩ := e'
  simp only
  rw [fFunc_val T E lam al be ga hT hE h1 h2 h3, fin_inj]
  rw [← epiMax_eq]
  rfl

/-- **C73 (cross section).** For every proton above the pion-production threshold, photon energy `> 0`,
high-energy model, with and without nuclear enhancement, and whatever was evaluated before: the
differential cross section of the code is the formula of the paper. -/
theorem C73_cross_section (tbl : FTable) (hr : Reachable tbl) (h : HiE) (nuc : Bool) (Eps : List ℝ)
    (E : ℝ) (hE : 0 < E) (hT : ∀ e ∈ Eps, Kafexhiu.Tth < e - mProton) :
    (diffsigma h nuc tbl Eps E).2 =
      Eps.map (fun e => fin (Kafexhiu.dσ (modelOf h) nuc mProton (e - mProton) E)) := by
  rw [(diffsigma_spec h nuc tbl Eps E hr.static).2]
  apply List.map_congr_left
  intro e he
  have hT := hT e he
  rw [← pM_eq] at hT
  have hT' : pTth < e - pM := hT
  unfold Spec.dsigma Kafexhiu.dσ
  rw [aMax_eq h _ hT'.le, shape_eq h E _ hT'.le hE, nuclearFactor_eq _ hT', mul_fin, pM_eq]
  cases nuc <;> simp

/-- Protons per GeV at an energy in GeV. -/
noncomputable def protons (pd : PDist) (Ep : ℝ) : XR :=
  pd.f (Ep * (1e9 * cEV)) * fin (pd.unit.scale * (1e9 * cEV))

/-- **C73 (spectrum).** For every proton distribution and range whose lower limit is above threshold,
every target density, model and photon energies `> 0`, after any history: the spectrum without lookup
table is `n_h c ∫ J(E_p) dσ/dE dE_p` with the cross section of the paper, the integral being log-log
trapezoidal on the energy grid, in 1/(s eV). -/
theorem C73_spectrum (m : PionModel) (pd : PDist) (hu : pd.unit.dim = Dim.diffEnergy)
    (hlo : m.Epmin.PosEnergy) (hhi : m.Epmax.PosEnergy) (hle : m.Epmin.phys ≤ m.Epmax.phys)
    (hth : Kafexhiu.Tth < m.Epmin.phys / (1e9 * cEV) - mProton)
    (hn : m.nh.unit.dim = Dim.numDensity) (tbl : FTable) (hr : Reachable tbl)
    (es : List ℝ) (hne : es ≠ []) (hes : ∀ e ∈ es, 0 < e) :
    ∃ ep, m.toPrModel.Ep = .ok ep ∧ (∀ e ∈ ep, m.Epmin.phys / (1e9 * cEV) ≤ e) ∧
      (m.spectrum pd tbl es).map Prod.snd = .ok (es.map (fun E =>
        trapzLL (ep.map (fun e => (fin e,
          fin (Kafexhiu.dσ (modelOf m.hiE) m.nuc mProton (e - mProton) (E / (1e9 * cEV))) *
            protons pd e))) * fin (m.nh.phys * cC) * fin 1e-9)) := by
  obtain ⟨ep, hep, hbnd, hsort⟩ := epGrid_facts m.toPrModel hlo hhi hle
  have hG : PhysUnit.GeV.scale = 1e9 * cEV := by unfold PhysUnit.GeV cEV; norm_num
  have hj := J_eq m.toPrModel pd hu ep hep
  have hnh : m.nh.toReal perCm3 = .ok m.nh.phys := by
    unfold Qty.toReal
    rw [if_pos (by rw [hn]; rfl)]
    unfold Qty.phys perCm3; simp
  refine ⟨ep, hep, fun e he => hG ▸ hbnd e he, ?_⟩
  rw [(pion_spectrum_eq m pd tbl es hr.static).1, hep, hj]
  simp only [bind, Except.bind, pure, Except.pure, hne, if_false, hnh]
  congr 1
  apply List.map_congr_left
  intro E hE
  have hE' : 0 < E / PhysUnit.GeV.scale := div_pos (hes E hE) GeV_pos
  unfold pionTotal pionAt trapz
  congr 3
  rw [List.zipWith_map, List.zipWith_self, zip_map_map]
  apply List.map_congr_left
  intro e he
  have hT : Kafexhiu.Tth < e - mProton := by
    have := hbnd e he
    rw [hG] at this
    linarith
  have key := C73_cross_section tbl hr m.hiE m.nuc [e] _ hE' (by simpa using hT)
  rw [(diffsigma_spec m.hiE m.nuc tbl [e] _ hr.static).2] at key
  simp only [List.map_cons, List.map_nil, List.cons.injEq, and_true] at key
  rw [key, hG]
  have : pd.unit.scale / perGeV.scale = pd.unit.scale * (1e9 * cEV) := by
    rw [← hG]; simp only [perGeV, one_div, div_inv_eq_mul]
  rw [this]
  rfl

/-- Non-vacuity: the default range (1.22 GeV to 1 PeV) is above threshold. -/
example : ∃ m : PionModel, m.Epmin.PosEnergy ∧ m.Epmax.PosEnergy ∧ m.Epmin.phys ≤ m.Epmax.phys ∧
    Kafexhiu.Tth < m.Epmin.phys / (1e9 * cEV) - mProton ∧ m.nh.unit.dim = Dim.numDensity := by
  refine ⟨⟨⟨⟨1.22, PhysUnit.GeV⟩, ⟨1000, PhysUnit.TeV⟩, 100⟩, ⟨1, ⟨1, Dim.numDensity⟩⟩, true, .pythia8⟩,
    ⟨rfl, GeV_pos, by norm_num⟩, ⟨rfl, by simp only [PhysUnit.TeV]; norm_num, by norm_num⟩, ?_, ?_, rfl⟩
  · simp only [Qty.phys, PhysUnit.GeV, PhysUnit.TeV]; norm_num
  · have h := pM_lt
    rw [pM_eq] at h
    have : (⟨1.22, PhysUnit.GeV⟩ : Qty ℝ).phys / (1e9 * cEV) = 1.22 := by
      simp only [Qty.phys, PhysUnit.GeV, cEV]; norm_num
    show Kafexhiu.Tth < (⟨1.22, PhysUnit.GeV⟩ : Qty ℝ).phys / (1e9 * cEV) - mProton
    rw [this]
    unfold Kafexhiu.Tth
    linarith

end Naima.Props
