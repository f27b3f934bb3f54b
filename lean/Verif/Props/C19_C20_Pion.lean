import Verif.Props.C15_ICKernel
import Verif.Proof.Pion
import Verif.Props.C14_Synchrotron
import Verif.Props.C21_LUT

/-! # C19, C20 and C08, C12 for PionDecay -/

namespace Naima.Props

open Naima XR Classical

/-- The class-level parameter tables that evaluations in the program can leave behind: those of the
fresh class, and what any evaluation (of any instance: any model, any protons, any photon energy)
makes of such tables. -/
inductive Reachable : FTable → Prop
  | fresh : Reachable fmpInit
  | evaluated (tbl : FTable) (h : HiE) (Tps : List ℝ) (Eg : ℝ) :
      Reachable tbl → Reachable (fEval h tbl Tps Eg).1

theorem Reachable.static {tbl : FTable} (h : Reachable tbl) : StaticOk tbl := by
  induction h with
  | fresh => exact staticOk_init
  | evaluated tbl h Tps Eg _ ih => exact (fEval_spec h tbl Tps Eg ih).1

/-! ### C20 -/

/-- **C20.** Whatever evaluations happened before, on whatever instances, the shape function is the
published one, proton by proton; so two evaluations with different pasts agree. -/
theorem C20_history_independent (tbl : FTable) (hr : Reachable tbl) (h : HiE) (Tps : List ℝ) (Eg : ℝ) :
    (fEval h tbl Tps Eg).2 = Tps.map (Spec.shape h Eg) ∧
    ∀ tbl', Reachable tbl' → (fEval h tbl' Tps Eg).2 = (fEval h tbl Tps Eg).2 := by
  refine ⟨(fEval_spec h tbl Tps Eg hr.static).2, fun tbl' hr' => ?_⟩
  rw [(fEval_spec h tbl' Tps Eg hr'.static).2, (fEval_spec h tbl Tps Eg hr.static).2]

/-- **C20 (whole spectra).** The spectrum returned does not depend on what was evaluated before. -/
theorem C20_spectrum (m : PionModel) (pd : PDist) (es : List ℝ) (tbl tbl' : FTable)
    (hr : Reachable tbl) (hr' : Reachable tbl') :
    (m.spectrum pd tbl es).map Prod.snd = (m.spectrum pd tbl' es).map Prod.snd := by
  rw [(pion_spectrum_eq m pd tbl es hr.static).1, (pion_spectrum_eq m pd tbl' es hr'.static).1]

/-- The tables do change: the history the theorems quantify over is not trivial. -/
example : ∃ tbl, Reachable tbl ∧ tbl .expData ≠ fmpInit .expData := by
  refine ⟨_, .evaluated fmpInit .pythia8 [1] 1 .fresh, ?_⟩
  have hth : pTth ≤ 1 := by norm_num [pTth]
  have het : (50 : ℝ) < 1 ↔ False := by norm_num
  intro h
  have : ((fEval .pythia8 fmpInit [1] 1).1 .expData).be = .vec [pKappa 1] := by
    unfold fEval fBlock
    norm_num [hth, HiE.etrans]
  rw [h] at this
  cases this

/-! The two halves of an evaluation below 1 GeV (radiative.py:1403-1406) as separate steps, which
threads can interleave. -/

/-- `mp[2] = kappa` for the protons of a thread (radiative.py:1404-1405). -/
noncomputable def storeKappa (mp : FParams) (Tps : List ℝ) : FParams :=
  { mp with be := .vec (Tps.map pKappa) }

/-- **C20 fails for threads.** Let two threads evaluate at different proton energies `T1 ≠ T2` below
1 GeV, at any photon energy that protons of energy `T1` can produce (other than half the pion mass). If
the second stores its parameter between the store and the use of the first, the first thread's result
is wrong; without the interference it is right. -/
theorem C20_false_threads (h : HiE) (T1 T2 Eg : ℝ) (h1 : pTth ≤ T1) (h1' : T1 ≤ 1) (h2 : pTth ≤ T2)
    (hne : T1 ≠ T2) (hlo : Spec.egMin T1 < Eg) (hhi : Eg < Spec.egMax T1)
    (hmid : Eg ≠ pMpi / 2) :
    fFuncVec [T1] Eg (storeKappa (fmpInit .expData) [T1]) = [Spec.shape h Eg T1] ∧
    fFuncVec [T1] Eg (storeKappa (storeKappa (fmpInit .expData) [T1]) [T2]) ≠
      [Spec.shape h Eg T1] := by
  have hpi := pMpi_pos
  have hm := pM_pos
  have hth := pTth_pos
  have hE : 0 < Eg := by
    have : 0 < Spec.egMin T1 := by
      unfold Spec.egMin
      have := (egMax_facts T1 h1).1
      have : 0 < Spec.egMax T1 := by linarith
      positivity
    linarith
  have hx1 : xgR T1 Eg < 1 := (xgR_lt_one T1 Eg h1 hE).2 ⟨hlo, hhi⟩
  have hx0 : 0 < xgR T1 Eg := by
    unfold xgR
    have := epiMax_gt T1 h1
    have e : Eg + pMpi ^ 2 / (4 * Eg) - pMpi = (Eg - pMpi / 2) ^ 2 / Eg := by field_simp; ring
    have h3 : 0 < (Eg - pMpi / 2) ^ 2 := by
      have : Eg - pMpi / 2 ≠ 0 := sub_ne_zero.2 hmid
      positivity
    rw [e]
    have : 0 < Spec.epiMax T1 - pMpi := by linarith
    positivity
  have hval : ∀ k : ℝ, fFunc T1 Eg (fin 1) (fin 1) (fin k) (fin 0) =
      fin ((1 - xgR T1 Eg) ^ k) := by
    intro k
    have hm' := epiMax_gt T1 h1
    obtain ⟨_, h4⟩ := egMax_facts T1 h1
    have hM : 0 < Spec.egMax T1 := by
      have := (egMax_facts T1 h1).1
      linarith
    unfold fFunc
    simp only [egmaxX_eq T1 h1, mul_fin, div_fin _ _ (by positivity : 4 * Eg ≠ 0),
      div_fin _ _ (by positivity : 4 * Spec.egMax T1 ≠ 0), add_fin, h4, sub_fin,
      div_fin _ _ (by linarith : Spec.epiMax T1 - pMpi ≠ 0),
      div_fin _ _ (by linarith : Spec.epiMax T1 ≠ 0)]
    rw [show (Eg + pMpi ^ 2 / (4 * Eg) - pMpi) / (Spec.epiMax T1 - pMpi) = xgR T1 Eg from rfl]
    rw [if_neg (by rw [lt_fin]; linarith), pow_fin _ _ hx0, Real.rpow_one, sub_fin,
      pow_fin _ _ (by linarith)]
    have hC : 0 < 1 * pMpi / Spec.epiMax T1 := by
      have : 0 < Spec.epiMax T1 := by linarith
      positivity
    rw [div_fin _ _ hC.ne', add_fin, pow_fin _ _ (by positivity), Real.rpow_zero,
      div_fin _ _ one_ne_zero, div_one]
  have hk : ∀ T, 0 < T → pKappa T = fin (3.29 - (T / pM) ^ (-1.5 : ℝ) / 5) := by
    intro T hT
    unfold pKappa
    rw [pow_fin _ _ (by positivity), div_fin _ _ (by norm_num), sub_fin]
  have hT1 : 0 < T1 := by linarith
  have hT2 : 0 < T2 := by linarith
  have hshape : Spec.shape h Eg T1 = fin ((1 - xgR T1 Eg) ^ (3.29 - (T1 / pM) ^ (-1.5 : ℝ) / 5)) := by
    have het : 20 ≤ h.etrans := by cases h <;> norm_num [HiE.etrans]
    unfold Spec.shape Spec.shapeParams
    rw [if_neg (by linarith)]
    simp only [if_neg (by linarith : ¬ h.etrans < T1), if_neg (by linarith : ¬ 20 < T1),
      if_neg (by linarith : ¬ 4 < T1), if_neg (by linarith : ¬ 1 < T1)]
    rw [hk T1 hT1, hval]
  rw [hshape]
  constructor
  · simp only [fFuncVec, storeKappa, fmpInit, Param.at, List.mapIdx_cons, List.mapIdx_nil,
      List.map_cons, List.map_nil, List.getD_cons_zero]
    rw [hk T1 hT1, hval]
  · simp only [fFuncVec, storeKappa, fmpInit, Param.at, List.mapIdx_cons, List.mapIdx_nil,
      List.map_cons, List.map_nil, List.getD_cons_zero]
    rw [hk T2 hT2, hval]
    intro e
    injection e with e _
    rw [fin_inj] at e
    have hb0 : 0 < 1 - xgR T1 Eg := by linarith
    have hb1 : 1 - xgR T1 Eg < 1 := by linarith
    have e2 : (3.29 - (T2 / pM) ^ (-1.5 : ℝ) / 5 : ℝ) = 3.29 - (T1 / pM) ^ (-1.5 : ℝ) / 5 :=
      (Real.strictAnti_rpow_of_base_lt_one hb0 hb1).injective e
    have e3 : (T2 / pM) ^ (-1.5 : ℝ) = (T1 / pM) ^ (-1.5 : ℝ) := by linarith
    have e4 : T2 / pM = T1 / pM := by
      rcases lt_trichotomy (T2 / pM) (T1 / pM) with c | c | c
      · exact absurd e3 (Real.rpow_lt_rpow_of_neg (by positivity) c (by norm_num)).ne'
      · exact c
      · exact absurd e3 (Real.rpow_lt_rpow_of_neg (by positivity) c (by norm_num)).ne
    field_simp at e4
    exact hne e4.symm

/-! ### C19 -/

/-- **C19 (partial): above threshold.** Whatever was evaluated before, for all models, with and without
nuclear enhancement, and all proton energies whose kinetic energy `Tp` is above threshold: the cross
section returned is a positive number for photons between the kinematic limits (the energies of the
backward and forward photon of the fastest pion) and exactly zero for all others. Missing from the full
property: below threshold the value is not zero but NaN, see `C19_false_below_threshold`. -/
theorem C19_sign_partial (tbl : FTable) (hr : Reachable tbl) (h : HiE) (nuc : Bool) (Eps : List ℝ)
    (Eg : ℝ) (hE : 0 < Eg) (i : ℕ) (e : ℝ) (v : XR) (he : Eps[i]? = some e)
    (hv : (diffsigma h nuc tbl Eps Eg).2[i]? = some v) (hT : pTth < e - pM) :
    (Spec.egMin (e - pM) < Eg ∧ Eg < Spec.egMax (e - pM) → ∃ r, 0 < r ∧ v = fin r) ∧
    (¬ (Spec.egMin (e - pM) < Eg ∧ Eg < Spec.egMax (e - pM)) → v = fin 0) := by
  rw [(diffsigma_spec h nuc tbl Eps Eg hr.static).2, List.getElem?_map, he] at hv
  simp only [Option.map_some, Option.some.injEq] at hv
  subst hv
  obtain ⟨s1, s2⟩ := dsigma_sign h nuc Eg (e - pM) hT hE
  have := xgR_lt_one (e - pM) Eg hT.le hE
  exact ⟨fun c => s1 (this.2 c), fun c => s2 (not_lt.1 (fun d => c (this.1 d)))⟩

/-- The kinematic limits are what they should be: `egMin · egMax = (mπ/2)²`, `egMax` is the energy of the
forward photon of the fastest pion, and they enclose `mπ/2`. -/
theorem C19_limits (Tp : ℝ) (h : pTth ≤ Tp) :
    Spec.egMin Tp * Spec.egMax Tp = (pMpi / 2) ^ 2 ∧ Spec.egMin Tp < pMpi / 2 ∧
    pMpi / 2 < Spec.egMax Tp ∧ Spec.egMin Tp + Spec.egMax Tp = Spec.epiMax Tp := by
  obtain ⟨h1, h2⟩ := egMax_facts Tp h
  have hpi := pMpi_pos
  have hM : 0 < Spec.egMax Tp := by linarith
  refine ⟨by unfold Spec.egMin; field_simp; norm_num, ?_, h1, ?_⟩
  · unfold Spec.egMin
    rw [div_lt_iff₀ (by positivity)]
    nlinarith
  · unfold Spec.egMin; linarith

/-- **C19 fails below threshold.** For protons at rest or with a kinetic energy below the threshold of
`p p → p p π⁰`, the cross section returned is NaN, not zero, at every photon energy. -/
theorem C19_false_below_threshold (tbl : FTable) (hr : Reachable tbl) (h : HiE) (nuc : Bool)
    (Eps : List ℝ) (Eg : ℝ) (i : ℕ) (e : ℝ) (he : Eps[i]? = some e) (h0 : pM ≤ e)
    (hT : 2 * pM * (e - pM) < 4 * pM * pMpi + pMpi ^ 2) :
    (diffsigma h nuc tbl Eps Eg).2[i]? = some nan := by
  rw [(diffsigma_spec h nuc tbl Eps Eg hr.static).2, List.getElem?_map, he]
  simp only [Option.map_some]
  rw [dsigma_below h nuc Eg (e - pM) (by linarith) hT]

theorem epGrid_facts (m : PrModel) (hlo : m.Epmin.PosEnergy) (hhi : m.Epmax.PosEnergy)
    (hle : m.Epmin.phys ≤ m.Epmax.phys) :
    ∃ ep, m.Ep = .ok ep ∧ (∀ e ∈ ep, m.Epmin.phys / PhysUnit.GeV.scale ≤ e) ∧ ep.Pairwise (· ≤ ·) := by
  obtain ⟨k, hk, e⟩ := epGrid_eq m.nEpd m.Epmin m.Epmax hlo hhi
  rw [epGrid_eq_Ep m hlo hhi] at e
  have hl : Real.logb 10 (m.Epmin.phys / PhysUnit.GeV.scale) ≤
      Real.logb 10 (m.Epmax.phys / PhysUnit.GeV.scale) :=
    (Real.logb_le_logb (by norm_num) (div_pos hlo.phys_pos GeV_pos)
      (div_pos hhi.phys_pos GeV_pos)).2 (div_le_div_of_nonneg_right hle GeV_pos.le)
  refine ⟨_, e, ?_, logspace_pairwise _ _ _ hl⟩
  intro x hx
  simp only [logspace, List.mem_map] at hx
  obtain ⟨i, _, rfl⟩ := hx
  have hk1 : (0 : ℝ) ≤ (k : ℝ) - 1 := by
    have : (10 : ℝ) ≤ k := by exact_mod_cast hk
    linarith
  conv_lhs => rw [← Real.rpow_logb (b := 10) (by norm_num) (by norm_num)
    (div_pos hlo.phys_pos GeV_pos)]
  apply Real.rpow_le_rpow_of_exponent_le (by norm_num)
  have : 0 ≤ (i : ℝ) * ((Real.logb 10 (m.Epmax.phys / PhysUnit.GeV.scale) -
      Real.logb 10 (m.Epmin.phys / PhysUnit.GeV.scale)) / ((k : ℝ) - 1)) := by
    apply mul_nonneg (by positivity)
    exact div_nonneg (by linarith) hk1
  linarith

theorem J_eq (m : PrModel) (pd : PDist) (hu : pd.unit.dim = Dim.diffEnergy) (ep : List ℝ)
    (hg : m.Ep = .ok ep) : m.J pd = .ok (ep.map (fun e => pd.f (e * PhysUnit.GeV.scale) *
      XR.fin (pd.unit.scale / perGeV.scale))) := by
  unfold PrModel.J protOf
  rw [hg]
  simp only [bind, Except.bind]
  unfold PDist.valuesIn
  rw [if_pos (by rw [hu]; rfl), List.map_map]
  rfl

/-- **C19 (spectrum).** For every finite non-negative proton distribution whose lower limit is above
threshold (as by default), every target density `≥ 0`, every model, after any history: the spectrum
without lookup table is computed, and is finite and non-negative at all photon energies. -/
theorem C19_spectrum_nonneg (m : PionModel) (pd : PDist) (hu : pd.unit.dim = Dim.diffEnergy)
    (hus : 0 < pd.unit.scale) (hpd : ∀ e, 0 < e → FiniteNonneg (pd.f e))
    (hlo : m.Epmin.PosEnergy) (hhi : m.Epmax.PosEnergy) (hle : m.Epmin.phys ≤ m.Epmax.phys)
    (hth : pTth < m.Epmin.phys / PhysUnit.GeV.scale - pM)
    (hn : m.nh.unit.dim = Dim.numDensity) (hnp : 0 ≤ m.nh.phys) (tbl : FTable) (hr : Reachable tbl)
    (es : List ℝ) (hne : es ≠ []) (hes : ∀ e ∈ es, 0 < e) :
    ∃ out, (m.spectrum pd tbl es).map Prod.snd = .ok out ∧ out.length = es.length ∧
      ∀ a ∈ out, FiniteNonneg a := by
  obtain ⟨ep, hep, hbnd, hsort⟩ := epGrid_facts m.toPrModel hlo hhi hle
  have hj := J_eq m.toPrModel pd hu ep hep
  have hnh : m.nh.toReal perCm3 = .ok (m.nh.value * (m.nh.unit.scale / perCm3.scale)) := by
    unfold Qty.toReal
    rw [if_pos (by rw [hn]; rfl)]
  rw [(pion_spectrum_eq m pd tbl es hr.static).1, hep, hj]
  simp only [bind, Except.bind, pure, Except.pure, hne, if_false, hnh]
  refine ⟨_, rfl, by simp, ?_⟩
  intro a ha
  simp only [List.mem_map] at ha
  obtain ⟨e, he, rfl⟩ := ha
  have hE : 0 < e / PhysUnit.GeV.scale := div_pos (hes e he) GeV_pos
  have hC := cC_pos
  unfold pionTotal pionAt trapz
  apply NN.mul
  · apply NN.mul
    · have e1 : (ep.map fin).zip (List.zipWith (· * ·)
          (ep.map (fun e' => Spec.dsigma m.hiE m.nuc (e / PhysUnit.GeV.scale) (e' - pM)))
          (ep.map (fun e => pd.f (e * PhysUnit.GeV.scale) * XR.fin (pd.unit.scale / perGeV.scale)))) =
          ep.map (fun e' => (fin e', Spec.dsigma m.hiE m.nuc (e / PhysUnit.GeV.scale) (e' - pM) *
            (pd.f (e' * PhysUnit.GeV.scale) * XR.fin (pd.unit.scale / perGeV.scale)))) := by
        rw [List.zipWith_map, List.zipWith_self, List.zip_map, List.zip_eq_zipWith,
          List.zipWith_self, List.map_map]
        rfl
      rw [e1]
      apply trapzLL_NN ep (fun e' => e')
      · intro x hx
        have := hbnd x hx
        have := div_pos hlo.phys_pos GeV_pos
        linarith
      · simpa using hsort
      · intro x hx
        have hb := hbnd x hx
        have hpos := div_pos hlo.phys_pos GeV_pos
        apply NN.mul
        · obtain ⟨s1, s2⟩ := dsigma_sign m.hiE m.nuc (e / PhysUnit.GeV.scale) (x - pM) (by linarith) hE
          by_cases c : xgR (x - pM) (e / PhysUnit.GeV.scale) < 1
          · obtain ⟨r, hr, er⟩ := s1 c
            exact ⟨r, hr.le, er⟩
          · exact ⟨0, le_rfl, s2 (not_lt.1 c)⟩
        · apply NN.mul (hpd _ (mul_pos (by linarith) GeV_pos))
          have := GeV_pos
          apply NN.fin
          simp only [perGeV]; positivity
    · apply NN.fin
      have : m.nh.value * (m.nh.unit.scale / perCm3.scale) = m.nh.phys := by
        unfold Qty.phys perCm3; ring
      rw [this]; positivity
  · exact NN.fin (by norm_num)

/-- **C19 fails for the spectrum.** If the lower limit of the proton distribution is set so low that the
first two protons of the grid (not below the rest mass) cannot produce pions, which should contribute
nothing, the whole spectrum without lookup table is NaN, at all photon energies. -/
theorem C19_false_spectrum (m : PionModel) (pd : PDist) (hu : pd.unit.dim = Dim.diffEnergy)
    (e0 e1 : ℝ) (rest : List ℝ) (hep : m.toPrModel.Ep = .ok (e0 :: e1 :: rest)) (hne : e0 ≠ e1)
    (h0 : pM ≤ e0) (h1 : pM ≤ e1) (ht0 : 2 * pM * (e0 - pM) < 4 * pM * pMpi + pMpi ^ 2)
    (ht1 : 2 * pM * (e1 - pM) < 4 * pM * pMpi + pMpi ^ 2)
    (hn : m.nh.unit.dim = Dim.numDensity) (tbl : FTable) (hr : Reachable tbl) (es : List ℝ)
    (hes : es ≠ []) :
    (m.spectrum pd tbl es).map Prod.snd = .ok (es.map (fun _ => nan)) := by
  have hj := J_eq m.toPrModel pd hu _ hep
  have hnh : m.nh.toReal perCm3 = .ok (m.nh.value * (m.nh.unit.scale / perCm3.scale)) := by
    unfold Qty.toReal
    rw [if_pos (by rw [hn]; rfl)]
  rw [(pion_spectrum_eq m pd tbl es hr.static).1, hep, hj]
  simp only [bind, Except.bind, pure, Except.pure, hes, if_false, hnh]
  congr 1
  apply List.map_congr_left
  intro e _
  unfold pionTotal pionAt trapz trapzLL
  simp only [List.map_cons, List.zipWith_cons_cons, List.zip_cons_cons, trapzIntervals,
    dsigma_below m.hiE m.nuc _ (e0 - pM) (by linarith) ht0,
    dsigma_below m.hiE m.nuc _ (e1 - pM) (by linarith) ht1, nan_mul', trapzBin_nan e0 e1 hne, sum_cons,
    nan_add]

/-- Such a grid: protons from 1 GeV to 10 PeV, 100 points per decade. -/
example : ∃ (m : PrModel) (e0 e1 : ℝ) (rest : List ℝ), m.Epmin = ⟨1, PhysUnit.GeV⟩ ∧
    m.Epmax = ⟨1e7, PhysUnit.GeV⟩ ∧ m.nEpd = 100 ∧ m.Ep = .ok (e0 :: e1 :: rest) ∧ e0 ≠ e1 ∧
    pM ≤ e0 ∧ pM ≤ e1 ∧ 2 * pM * (e0 - pM) < 4 * pM * pMpi + pMpi ^ 2 ∧
    2 * pM * (e1 - pM) < 4 * pM * pMpi + pMpi ^ 2 := by
  have hG := GeV_pos
  have hlog : Real.logb 10 1e7 = 7 := by
    rw [show (1e7 : ℝ) = 10 ^ (7 : ℝ) by norm_num, Real.logb_rpow (by norm_num) (by norm_num)]
  have hm := pM_gt
  have hm' := pM_lt
  have hEp : PrModel.Ep ⟨⟨1, PhysUnit.GeV⟩, ⟨1e7, PhysUnit.GeV⟩, 100⟩ = .ok (logspace 0 7 700) := by
    unfold PrModel.Ep inGeV Qty.toReal
    simp only [if_true, div_self hG.ne', bind, Except.bind, pure, Except.pure]
    have hd : decadesRatio ⟨1, PhysUnit.GeV⟩ ⟨1e7, PhysUnit.GeV⟩ = fin 7 := by
      unfold decadesRatio
      simp only [one_mul]
      rw [div_fin _ _ hG.ne', mul_div_assoc, div_self hG.ne', mul_one, log10_fin _ (by norm_num), hlog]
    rw [hd, gridSize_fin]
    have hk : (max 10 (if (0:ℝ) ≤ 100 * 7 then ⌊(100 * 7 : ℝ)⌋ else ⌈(100 * 7 : ℝ)⌉)).toNat = 700 := by
      have : ⌊(100 * 7 : ℝ)⌋ = 700 := by rw [Int.floor_eq_iff]; norm_num
      rw [if_pos (by norm_num), this]; rfl
    rw [hk]
    simp only [mul_one, Real.logb_one, hlog]
    rw [if_neg (by norm_num)]
  have hsplit : logspace 0 7 700 = (10 : ℝ) ^ (0 : ℝ) :: (10 : ℝ) ^ (7 / 699 : ℝ) ::
      (logspace 0 7 700).drop 2 := by
    conv_lhs => rw [← List.take_append_drop 2 (logspace 0 7 700)]
    have : (logspace 0 7 700).take 2 = [(10 : ℝ) ^ (0 : ℝ), (10 : ℝ) ^ (7 / 699 : ℝ)] := by
      unfold logspace
      rw [← List.map_take, List.take_range]
      simp [List.range_succ]
      norm_num
    rw [this, List.cons_append, List.cons_append, List.nil_append]
  have hq1 : (1 : ℝ) < 10 ^ (7 / 699 : ℝ) := Real.one_lt_rpow (by norm_num) (by norm_num)
  have hq2 : (10 : ℝ) ^ (7 / 699 : ℝ) < 1.1 := by
    have e : ((10 : ℝ) ^ (7 / 699 : ℝ)) ^ (699 : ℕ) = 10 ^ 7 := by
      rw [← Real.rpow_natCast, ← Real.rpow_mul (by norm_num)]
      norm_num
    by_contra hc
    push Not at hc
    have := pow_le_pow_left₀ (by norm_num) hc 699
    rw [e] at this
    have h2 : (10 : ℝ) ^ 7 < 1.1 ^ 699 := by
      calc (10 : ℝ) ^ 7 < 1.1 ^ 200 := by norm_num
        _ ≤ 1.1 ^ 699 := pow_le_pow_right₀ (by norm_num) (by norm_num)
    linarith
  refine ⟨⟨⟨1, PhysUnit.GeV⟩, ⟨1e7, PhysUnit.GeV⟩, 100⟩, _, _, _, rfl, rfl, rfl, hEp.trans (by rw [← hsplit]),
    ?_, ?_, ?_, ?_, ?_⟩
  · rw [Real.rpow_zero]; exact hq1.ne
  · rw [Real.rpow_zero]; linarith
  · linarith
  · rw [Real.rpow_zero]; unfold pMpi; nlinarith
  · unfold pMpi; nlinarith

/-! ### C08, C12 -/

/-- The photon spectrum part of an outcome. -/
def photons (r : Except PyErr (FTable × List XR)) : Except PyErr (List XR) := r.map Prod.snd

theorem J_scale (m : PrModel) (pd : PDist) (c : ℝ) (hc : 0 < c) :
    m.J (pd.scale c) = (m.J pd).map (List.map (fun a => fin c * a)) := by
  unfold PrModel.J protOf
  cases m.Ep with
  | error e => rfl
  | ok g => exact valuesIn_scale pd c hc _ _

theorem pionTotal_scale (m : PionModel) (ep : List ℝ) (j : List XR) (nh c : ℝ) (hc : 0 < c) (e : ℝ) :
    pionTotal m ep (j.map (fun a => fin c * a)) nh e = fin c * pionTotal m ep j nh e := by
  unfold pionTotal pionAt
  rw [← scale_mul c hc, ← scale_mul c hc, ← trapz_scale_y c hc]
  congr 4
  rw [List.zipWith_map_right, List.map_zipWith]
  congr 1
  funext a b
  exact mul_left_swap c hc a b

/-- **C08 (PionDecay).** Multiplying the proton distribution by any `c > 0` multiplies every value of the
spectrum by exactly `c`, after any history. -/
theorem C08_pion (m : PionModel) (c : ℝ) (hc : 0 < c) (pd pd' : PDist) (h : Renormalised c pd pd')
    (tbl tbl' : FTable) (hr : Reachable tbl) (hr' : Reachable tbl') (es : List ℝ) :
    ScaledOutcome c (photons (m.spectrum pd tbl es)) (photons (m.spectrum pd' tbl' es)) := by
  rw [h.eq]
  unfold ScaledOutcome photons
  rw [(pion_spectrum_eq m pd tbl es hr.static).1, (pion_spectrum_eq m _ tbl' es hr'.static).1,
    J_scale _ _ _ hc]
  cases m.toPrModel.Ep with
  | error e => rfl
  | ok ep =>
    cases m.toPrModel.J pd with
    | error e => rfl
    | ok j =>
      by_cases hn : es = []
      · simp only [hn, if_true]; rfl
      cases m.nh.toReal perCm3 with
      | error e => simp only [hn, if_false]; rfl
      | ok nh =>
        simp only [bind, Except.bind, pure, Except.pure, Except.map, hn, if_false, List.map_map]
        congr 1
        apply List.map_congr_left
        intro e _
        exact pionTotal_scale m ep j nh c hc e

/-- **C08 (PionDecay with a lookup table).** The same with any tabulated cross section. -/
theorem C08_pion_table (m : PionModel) (c : ℝ) (hc : 0 < c) (pd pd' : PDist)
    (h : Renormalised c pd pd') (lut : ℝ → ℝ → XR) (es : List ℝ) :
    ScaledOutcome c (m.spectrumLUT pd lut es) (m.spectrumLUT pd' lut es) := by
  rw [h.eq]
  unfold ScaledOutcome PionModel.spectrumLUT
  rw [J_scale _ _ _ hc]
  cases m.toPrModel.Ep with
  | error e => rfl
  | ok ep =>
    cases m.toPrModel.J pd with
    | error e => rfl
    | ok j =>
      by_cases hn : es = []
      · simp only [hn, if_true]; rfl
      cases m.nh.toReal perCm3 with
      | error e => simp only [hn, if_false]; rfl
      | ok nh =>
        simp only [bind, Except.bind, pure, Except.pure, Except.map, hn, if_false, List.map_map]
        congr 1
        apply List.map_congr_left
        intro e _
        simp only [Function.comp_apply]
        rw [← scale_mul c hc, ← scale_mul c hc, ← trapz_scale_y c hc]
        congr 4
        rw [List.zipWith_map_right, List.map_zipWith]
        congr 1
        funext a b
        exact mul_left_swap c hc a b

/-- **C61.** The spectrum is proportional to the density of target protons: a density `c > 0` times
larger, in whatever unit it is given, multiplies every value by exactly `c`, after any history. -/
theorem C61_target_density (m m' : PionModel) (c : ℝ) (hc : 0 < c) (pd : PDist) (tbl tbl' : FTable)
    (hr : Reachable tbl) (hr' : Reachable tbl') (es : List ℝ) (hp : m'.toPrModel = m.toPrModel)
    (h1 : m'.nuc = m.nuc) (h2 : m'.hiE = m.hiE) (hd : m'.nh.unit.dim = m.nh.unit.dim)
    (hn : m'.nh.phys = c * m.nh.phys) :
    ScaledOutcome c (photons (m.spectrum pd tbl es)) (photons (m'.spectrum pd tbl' es)) := by
  unfold ScaledOutcome photons
  rw [(pion_spectrum_eq m pd tbl es hr.static).1, (pion_spectrum_eq m' pd tbl' es hr'.static).1, hp]
  cases m.toPrModel.Ep with
  | error e => rfl
  | ok ep =>
    cases m.toPrModel.J pd with
    | error e => rfl
    | ok j =>
      by_cases hnil : es = []
      · simp only [hnil, if_true]; rfl
      unfold Qty.toReal
      by_cases hdim : m.nh.unit.dim = perCm3.dim
      · simp only [bind, Except.bind, pure, Except.pure, Except.map, hnil, if_false, hd, hdim, if_true,
          List.map_map]
        congr 1
        apply List.map_congr_left
        intro e _
        have k1 : m.nh.value * (m.nh.unit.scale / perCm3.scale) = m.nh.phys := by
          unfold Qty.phys perCm3; ring
        have k2 : m'.nh.value * (m'.nh.unit.scale / perCm3.scale) = m'.nh.phys := by
          unfold Qty.phys perCm3; ring
        simp only [Function.comp_apply]
        rw [k1, k2, hn]
        unfold pionTotal pionAt
        rw [h1, h2, mul_assoc c, ← mul_fin, mul_left_swap c hc, scale_mul c hc]
      · simp only [bind, Except.bind, hnil, if_false, hd, hdim]; rfl

/-- **C12 (PionDecay).** The value at each position of an array request is the one returned for a
one-element array with that energy, whatever was evaluated before either request. -/
theorem C12_pion (m : PionModel) (pd : PDist) (tbl tbl' : FTable) (hr : Reachable tbl)
    (hr' : Reachable tbl') (es : List ℝ) (out : List XR)
    (h : photons (m.spectrum pd tbl es) = .ok out) :
    out.length = es.length ∧
    ∀ (i : ℕ) e v, es[i]? = some e → out[i]? = some v →
      photons (m.spectrum pd tbl' [e]) = .ok [v] := by
  unfold photons at h ⊢
  rw [(pion_spectrum_eq m pd tbl es hr.static).1] at h
  simp only [fun es => (pion_spectrum_eq m pd tbl' es hr'.static).1]
  cases hg : m.toPrModel.Ep with
  | error x => rw [hg] at h; cases h
  | ok ep =>
    cases hj : m.toPrModel.J pd with
    | error x => rw [hg, hj] at h; cases h
    | ok j =>
      rw [hg, hj] at h
      by_cases hn : es = []
      · simp only [hn, if_true] at h; cases h
      cases hh : m.nh.toReal perCm3 with
      | error x => rw [hh] at h; simp only [hn, if_false] at h; cases h
      | ok nh =>
        rw [hh] at h
        simp only [bind, Except.bind, pure, Except.pure, hn, if_false, Except.ok.injEq] at h
        subst h
        refine ⟨by simp, ?_⟩
        intro i e v he hv
        rw [List.getElem?_map, he] at hv
        simp at hv
        simp [bind, Except.bind, pure, Except.pure, hv]

/-- **C12 fails for scalar requests.** A single photon energy that is not wrapped in an array raises an
exception, whatever the protons. -/
theorem C12_false_pion_scalar (m : PionModel) (pd : PDist) (tbl : FTable) (e : ℝ) :
    ∃ x, m.spectrumReq pd tbl (.scalar e) = .error x := by
  unfold PionModel.spectrumReq
  cases m.toPrModel.Ep with
  | error x => exact ⟨x, rfl⟩
  | ok ep =>
    cases m.toPrModel.J pd with
    | error x => exact ⟨x, rfl⟩
    | ok j => exact ⟨_, rfl⟩

/-- Non-vacuity: the default lower limit (radiative.py:1166-1168), upper limit and target density, and
`E^-2` protons, meet the hypotheses; and 1 GeV protons meet those of `C19_false_below_threshold`. -/
example : ∃ (m : PionModel) (pd : PDist), pd.unit.dim = Dim.diffEnergy ∧ 0 < pd.unit.scale ∧
    (∀ e, 0 < e → FiniteNonneg (pd.f e)) ∧ m.Epmin.PosEnergy ∧ m.Epmax.PosEnergy ∧
    m.Epmin.phys ≤ m.Epmax.phys ∧ pTth < m.Epmin.phys / PhysUnit.GeV.scale - pM ∧
    m.nh.unit.dim = Dim.numDensity ∧ 0 ≤ m.nh.phys ∧ pM ≤ 1 ∧
    2 * pM * (1 - pM) < 4 * pM * pMpi + pMpi ^ 2 := by
  have hm := pM_gt
  have hm' := pM_lt
  have hpi := pMpi_pos
  refine ⟨⟨⟨⟨pM + pTth + 1e-4, PhysUnit.GeV⟩, ⟨1e7, PhysUnit.GeV⟩, 100⟩, ⟨1, perCm3⟩, true, .pythia8⟩,
    ⟨⟨1, Dim.diffEnergy⟩, fun e => pow (fin e) (fin (-2))⟩, rfl, by norm_num, ?_,
    ⟨rfl, GeV_pos, by simp only [pTth]; linarith⟩, ⟨rfl, GeV_pos, by norm_num⟩, ?_, ?_, rfl, ?_,
    by linarith, ?_⟩
  · intro e he
    exact ⟨e ^ (-2 : ℝ), by positivity, pow_fin _ _ he⟩
  · simp only [Qty.phys]
    apply mul_le_mul_of_nonneg_right _ GeV_pos.le
    unfold pTth; linarith
  · simp only [Qty.phys]
    rw [mul_div_assoc, div_self GeV_pos.ne', mul_one]
    have : (0 : ℝ) < 1e-4 := by norm_num
    linarith
  · simp [Qty.phys, perCm3]
  · unfold pMpi
    nlinarith

/-! ### The other hypotheses are met -/

/-- Protons from 2 GeV to 10 PeV in a target of 1/cm3. -/
noncomputable def exPion (n : ℝ) : PionModel := ⟨exPr, ⟨n, perCm3⟩, true, .pythia8⟩

theorem exPion_ok : ∃ out, photons ((exPion 1).spectrum exPd fmpInit exEs) = .ok out ∧ out.length = 3 ∧
    ∀ a ∈ out, FiniteNonneg a := by
  have hm := pM_lt
  obtain ⟨out, h, hl, hn⟩ := C19_spectrum_nonneg (exPion 1) exPd rfl one_pos
    (fun e he => by obtain ⟨r, hr, h⟩ := exPd_f e he; exact ⟨r, hr.le, h⟩) exPr_lo exPr_hi exPr_lt.le
    (by
      simp only [exPion, exPr, Qty.phys, mul_div_assoc, div_self GeV_pos.ne', mul_one]
      unfold pTth; linarith) rfl (by simp [exPion, Qty.phys, perCm3]) fmpInit .fresh exEs exEs_ne exEs_pos
  exact ⟨out, h, hl.trans (by simp [exEs]), hn⟩

example : ∃ out, photons ((exPion 1).spectrum exPd (fEval .pythia8 fmpInit [1, 5] 1).1 exEs) = .ok out ∧
    ∀ (i : ℕ) e v, exEs[i]? = some e → out[i]? = some v →
      photons ((exPion 1).spectrum exPd fmpInit [e]) = .ok [v] := by
  obtain ⟨out, h, -⟩ := exPion_ok
  have e := C20_spectrum (exPion 1) exPd exEs fmpInit (fEval .pythia8 fmpInit [1, 5] 1).1 .fresh
    (.evaluated _ _ _ _ .fresh)
  have h' : photons ((exPion 1).spectrum exPd (fEval .pythia8 fmpInit [1, 5] 1).1 exEs) = .ok out :=
    e.symm.trans h
  exact ⟨out, h', (C12_pion (exPion 1) exPd _ fmpInit (.evaluated _ _ _ _ .fresh) .fresh exEs out h').2⟩

example := C08_pion (exPion 1) 3 (by norm_num) exPd exPd3 exPd_renorm fmpInit _ .fresh
  (.evaluated fmpInit .sibyll [7] 2 .fresh) exEs

example := C08_pion_table (exPion 1) 3 (by norm_num) exPd exPd3 exPd_renorm (fun _ _ => fin 1e-27) exEs

example := C61_target_density (exPion 1) (exPion 5) 5 (by norm_num) exPd fmpInit _ .fresh
  (.evaluated fmpInit .sibyll [7] 2 .fresh) exEs rfl rfl rfl rfl (by simp [exPion, Qty.phys])

example := C19_limits 1 (by norm_num [pTth])

end Naima.Props
