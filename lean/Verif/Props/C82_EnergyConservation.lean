import Verif.Props.C81_LookupTable
import Verif.Props.C76_PionBump
import Verif.Props.C72_BremsFormula
import Verif.Props.C15_ICKernel

/-! # C82: no photon carries more energy than the most energetic particle -/

namespace Naima.Props

open Naima XR Classical

theorem logspace_le (a b : ℝ) (n : ℕ) (hab : a ≤ b) : ∀ x ∈ logspace a b n, x ≤ (10 : ℝ) ^ b := by
  intro x hx
  obtain ⟨i, hi, rfl⟩ := List.mem_map.1 hx
  apply Real.rpow_le_rpow_of_exponent_le (by norm_num)
  have hi' : i < n := by simpa using hi
  rcases Nat.lt_or_ge 1 n with h1 | h1
  · have hn : (0 : ℝ) < (n : ℝ) - 1 := by
      have : (1 : ℝ) < n := by exact_mod_cast h1
      linarith
    have hin : (i : ℝ) ≤ (n : ℝ) - 1 := by
      have : (i : ℝ) + 1 ≤ n := by exact_mod_cast hi'
      linarith
    have : (i : ℝ) * ((b - a) / ((n : ℝ) - 1)) ≤ b - a := by
      rw [← mul_div_assoc, div_le_iff₀ hn, mul_comm]
      exact mul_le_mul_of_nonneg_left hin (by linarith)
    linarith
  · have : i = 0 := by omega
    subst this
    simpa using hab

theorem gam_le (m : ElModel) (hlo : m.Eemin.PosEnergy) (hhi : m.Eemax.PosEnergy)
    (hle : m.Eemin.phys ≤ m.Eemax.phys) (gam : List ℝ) (hg : m.gam = .ok gam) :
    ∀ g ∈ gam, g ≤ m.Eemax.phys / cMec2 := by
  have h := gamGrid_eq m.nEed m.Eemin m.Eemax hlo hhi
  have h' : m.gam = gamGrid m.nEed m.Eemin m.Eemax := rfl
  rw [h'] at hg
  cases hg.symm.trans h
  intro g hgm
  have := logspace_le _ _ _ ((Real.logb_le_logb (by norm_num) (div_pos hlo.phys_pos cMec2_pos)
    (div_pos hhi.phys_pos cMec2_pos)).2 (div_le_div_of_nonneg_right hle cMec2_pos.le)) g hgm
  rwa [ten_rpow_logb _ (div_pos hhi.phys_pos cMec2_pos)] at this

theorem ep_le (m : PrModel) (hlo : m.Epmin.PosEnergy) (hhi : m.Epmax.PosEnergy)
    (hle : m.Epmin.phys ≤ m.Epmax.phys) (ep : List ℝ) (hg : m.Ep = .ok ep) :
    ∀ e ∈ ep, e ≤ m.Epmax.phys / PhysUnit.GeV.scale := by
  obtain ⟨k, hk, h⟩ := epGrid_eq m.nEpd m.Epmin m.Epmax hlo hhi
  rw [epGrid_eq_Ep m hlo hhi] at h
  cases hg.symm.trans h
  intro g hgm
  have := logspace_le _ _ _ ((Real.logb_le_logb (by norm_num) (div_pos hlo.phys_pos GeV_pos)
    (div_pos hhi.phys_pos GeV_pos)).2 (div_le_div_of_nonneg_right hle GeV_pos.le)) g hgm
  rwa [ten_rpow_logb _ (div_pos hhi.phys_pos GeV_pos)] at this

theorem kernel_zero (s : SeedNum) (h : s.Valid) (g eg : ℝ) (hg : 0 < g) (hge : g ≤ eg) :
    s.kernel g eg = fin 0 := by
  match s, h with
  | .thermal T u none, h =>
    simp only [SeedNum.kernel, isoPlanck]
    rw [if_neg (by rintro ⟨h1, _⟩; linarith)]
  | .thermal T u (some theta), h =>
    simp only [SeedNum.kernel, aniPlanck]
    rw [if_neg (by rintro ⟨h1, _⟩; linarith)]
  | .array es ds _, h =>
    obtain ⟨h1, h2, h3, h4⟩ := h
    exact monoKernel_zero g eg es ds hg hge h1 h3 h4

theorem icAt_above (gam : List ℝ) (n : List XR) (s : SeedNum) (h : s.Valid) (e : ℝ) (he : 0 < e)
    (hg : ∀ g ∈ gam, 0 < g) (hge : ∀ g ∈ gam, g ≤ e / cMec2) (hlen : n.length = gam.length)
    (hn : ∀ a ∈ n, NN a) : icAt gam n s e = fin 0 := by
  unfold icAt
  obtain ⟨u, _, hu⟩ := uf_NN s h
  have : trapz (List.zipWith (· * ·) n (gam.map (fun g => s.kernel g (e / cMec2)))) (gam.map fin) =
      fin 0 := by
    unfold trapz
    apply trapzLL_zero
    intro p hp
    have hp2 := (List.of_mem_zip hp).2
    obtain ⟨i, hi, hpe⟩ := List.getElem_of_mem hp2
    simp only [List.length_zipWith, List.length_map] at hi
    rw [← hpe, List.getElem_zipWith, List.getElem_map]
    have hm := List.getElem_mem (by omega : i < gam.length)
    obtain ⟨x, _, hx⟩ := hn _ (List.getElem_mem (by omega : i < n.length))
    rw [kernel_zero s h _ _ (hg _ hm) (hge _ hm), hx, mul_fin, mul_zero]
  rw [this, hu]
  simp only [mul_fin, mul_zero, div_fin _ _ he.ne', zero_div, zero_mul]

/-- **C82 (InverseCompton).** For every finite non-negative electron distribution, every list of seed photon
fields with physical numbers (thermal, thermal with an angle, monochromatic or tabulated) and every request:
where the photon energy is at least `Eemax`, the spectrum is exactly zero. -/
theorem C82_inverse_compton (m : ElModel) (s : SeedNum) (rest : List SeedNum)
    (hvs : ∀ t ∈ s :: rest, ValidSeed t) (pd : PDist) (hu : pd.unit.dim = Dim.diffEnergy)
    (hus : 0 < pd.unit.scale) (hpd : ∀ e, 0 < e → FiniteNonneg (pd.f e))
    (hlo : m.Eemin.PosEnergy) (hhi : m.Eemax.PosEnergy) (hle : m.Eemin.phys ≤ m.Eemax.phys)
    (es : List ℝ) :
    ∃ out, icSpectrum m (s :: rest) pd es = .ok out ∧ out.length = es.length ∧
      ∀ (i : ℕ) (e : ℝ) (v : XR), es[i]? = some e → out[i]? = some v → m.Eemax.phys ≤ e → v = fin 0 := by
  have hv : ∀ t ∈ s :: rest, t.Valid := by
    intro t ht
    have := hvs t ht
    match t, this with
    | .thermal _ _ none, h => exact h
    | .thermal _ _ (some _), h => exact h
    | .array _ _ _, h => exact h
  obtain ⟨gam, n, hg, hn, hlen, hgp, hgs, hnn⟩ := gam_zip_facts m pd hu hus hpd hlo hhi hle
  refine ⟨es.map (icTotal gam n s rest), ?_, by simp, ?_⟩
  · rw [icSpectrum_eq, hg, hn]; rfl
  intro i e v he hv' hee
  rw [List.getElem?_map, he, Option.map_some, Option.some.injEq] at hv'
  subst hv'
  have he0 : 0 < e := lt_of_lt_of_le hhi.phys_pos hee
  have hge : ∀ g ∈ gam, g ≤ e / cMec2 := fun g hgm =>
    (gam_le m hlo hhi hle gam hg g hgm).trans (div_le_div_of_nonneg_right hee cMec2_pos.le)
  have key : ∀ t ∈ s :: rest, icAt gam n t e = fin 0 := fun t ht =>
    icAt_above gam n t (hv t ht) e he0 hgp hge hlen hnn
  unfold icTotal
  rw [key s (by simp)]
  have key' : ∀ t ∈ rest, icAt gam n t e = fin 0 := fun t ht => key t (by simp [ht])
  clear key hv hvs
  induction rest with
  | nil => rfl
  | cons t rest ih =>
    simp only [List.foldl_cons]
    rw [key' t (by simp), add_fin, add_zero]
    exact ih (fun t ht => key' t (by simp [ht]))

theorem gamTrans_lt : gamTrans < 4 := by
  rw [gamTrans_eq]; unfold γTwoMeV cEV cMe cC; norm_num

theorem ee_above (g e : ℝ) (hg : 0 < g) (h : g < e) : bremsEe g e = fin 0 := by
  unfold bremsEe
  have he : 0 < e := by linarith
  split
  · rename_i h1
    rw [nonrel_code g e hg he, if_neg]
    have := gamTrans_lt
    nlinarith
  · rename_i h1
    have := gamTrans_gt
    rw [rel_code g e (by linarith) he (by linarith) (by linarith), if_neg (by linarith)]

theorem bremsAt_zero (σ : ℝ → ℝ → XR) (gam : List ℝ) (n : List XR) (e : ℝ)
    (hσ : ∀ g ∈ gam, σ g (e / cMec2) = fin 0) (hn : ∀ a ∈ n, NN a) : bremsAt σ gam n e = fin 0 := by
  unfold bremsAt
  rw [trapzLL_zero, mul_fin, mul_zero]
  intro p hp
  obtain ⟨q, hq, rfl⟩ := List.mem_map.1 hp
  have := List.of_mem_zip hq
  obtain ⟨x, _, hx⟩ := hn _ this.2
  simp only [hσ _ this.1, hx, mul_fin, zero_mul, mul_zero]

/-- **C82 (Bremsstrahlung).** For every finite non-negative electron distribution, target density and
non-zero weights, and every request: where the photon energy exceeds `Eemax`, the spectrum is exactly zero. -/
theorem C82_bremsstrahlung (m : BremsModel) (pd : PDist) (hu : pd.unit.dim = Dim.diffEnergy)
    (hus : 0 < pd.unit.scale) (hpd : ∀ e, 0 < e → FiniteNonneg (pd.f e))
    (hlo : m.Eemin.PosEnergy) (hhi : m.Eemax.PosEnergy) (hle : m.Eemin.phys ≤ m.Eemax.phys)
    (hee : m.wee ≠ 0) (hep : m.wep ≠ 0) (hn0 : m.n0.unit.dim = Dim.numDensity) (es : List ℝ) :
    ∃ out, m.spectrum pd es = .ok out ∧ out.length = es.length ∧
      ∀ (i : ℕ) (e : ℝ) (v : XR), es[i]? = some e → out[i]? = some v → m.Eemax.phys < e → v = fin 0 := by
  obtain ⟨gam, n, hg, hn, hlen, hgp, hgs, hnn⟩ := gam_zip_facts m.toElModel pd hu hus hpd hlo hhi hle
  refine ⟨es.map (bremsTotal m gam n), ?_, by simp, ?_⟩
  · rw [brems_spectrum_eq m pd es hee hep, hg, hn]
    simp only [bind, Except.bind, hn0, if_true]
    rfl
  intro i e v he hv' hlt
  rw [List.getElem?_map, he, Option.map_some, Option.some.injEq] at hv'
  subst hv'
  have hge : ∀ g ∈ gam, g < e / cMec2 := fun g hgm =>
    lt_of_le_of_lt (gam_le m.toElModel hlo hhi hle gam hg g hgm) (div_lt_div_of_pos_right hlt cMec2_pos)
  unfold bremsTotal
  rw [bremsAt_zero bremsEe gam n e (fun g h => ee_above g _ (hgp g h) (hge g h)) hnn,
    bremsAt_zero bremsEp gam n e (fun g h => bremsSigma1_above g _ (hgp g h)
      ((hgp g h).trans (hge g h)) (hge g h)) hnn]
  simp only [mul_fin, mul_zero, add_fin, zero_mul, add_zero]

/-- The pion takes at most the kinetic energy: what is left in the laboratory is at least two protons at
rest. -/
theorem epiMax_le (T : ℝ) (h : pTth ≤ T) : Spec.epiMax T ≤ T := by
  have hT : 0 < T := lt_of_lt_of_le pTth_pos h
  have h1 := epiCM_ge T h
  have h2 := gCM_gt T hT
  have hpi := pMpi_pos
  have hm := pM_pos
  have hs := pS_pos T hT
  have hr0 : 0 < Real.sqrt (pS T) := Real.sqrt_pos.2 hs
  have hr2 : Real.sqrt (pS T) ^ 2 = pS T := Real.sq_sqrt hs.le
  unfold Spec.epiMax
  simp only []
  set r := Real.sqrt (pS T) with hr
  set g := (T + 2 * pM) / r with hgdef
  set E := (pS T - 4 * pM ^ 2 + pMpi ^ 2) / (2 * r) with hE
  have hg0 : 0 < g := by linarith
  set P := Real.sqrt (E ^ 2 - pMpi ^ 2) with hP
  have hP0 : 0 ≤ P := Real.sqrt_nonneg _
  have hP2 : P ^ 2 = E ^ 2 - pMpi ^ 2 := Real.sq_sqrt (by nlinarith)
  have hb : 0 ≤ 1 - 1 / g ^ 2 := by
    have : 1 / g ^ 2 ≤ 1 := by rw [div_le_one (by positivity)]; nlinarith
    linarith
  set b := Real.sqrt (1 - 1 / g ^ 2) with hbdef
  have hb0 : 0 ≤ b := Real.sqrt_nonneg _
  have hb2 : b ^ 2 = 1 - 1 / g ^ 2 := Real.sq_sqrt hb
  set w := g * b with hw
  have hw0 : 0 ≤ w := by positivity
  have hw2 : w ^ 2 = g ^ 2 - 1 := by
    rw [hw, mul_pow, hb2]; field_simp
  have hgr : g * r = T + 2 * pM := by rw [hgdef]; field_simp
  have hE2 : 2 * r * E = pS T - 4 * pM ^ 2 + pMpi ^ 2 := by rw [hE]; field_simp
  -- the recoiling system
  have hrec : (r - E) ^ 2 = P ^ 2 + 4 * pM ^ 2 := by rw [hP2]; nlinarith
  have hrE : 0 < r - E := by
    have : 0 < 2 * r * (r - E) := by
      have e : 2 * r * (r - E) = pS T + 4 * pM ^ 2 - pMpi ^ 2 := by nlinarith
      rw [e]
      have h3 : pMpi < pM := by have := pM_gt; unfold pMpi; linarith
      nlinarith
    exact (pos_iff_pos_of_mul_pos this).1 (by positivity)
  have key : w * P + 2 * pM ≤ g * (r - E) := by
    apply le_of_sq_le_sq _ (by positivity)
    have e : (g * (r - E)) ^ 2 = (w ^ 2 + 1) * (P ^ 2 + 4 * pM ^ 2) := by
      rw [mul_pow, hrec, hw2]; ring
    rw [e]
    nlinarith [sq_nonneg (P - 2 * pM * w)]
  have e : g * (E + P * b) = g * E + w * P := by rw [hw]; ring
  rw [e]
  nlinarith

theorem egMax_le (T : ℝ) (h : pTth ≤ T) : Spec.egMax T ≤ T := by
  have h1 := epiMax_le T h
  have h2 := epiMax_gt T h
  have hpi := pMpi_pos
  unfold Spec.egMax
  have : Real.sqrt (Spec.epiMax T ^ 2 - pMpi ^ 2) ≤ Spec.epiMax T := by
    rw [Real.sqrt_le_left (by linarith)]
    nlinarith
  linarith

/-- **C82 (PionDecay).** Without lookup table, for every finite proton distribution whose lower limit is above
threshold, every target density and model, after any history and for every request: where the photon energy is
at least the kinetic energy of the most energetic proton, the spectrum is exactly zero. (With a generated
table it is not: `C81_false_spectrum_above_grid`.) -/
theorem C82_pion_decay (m : PionModel) (pd : PDist) (hu : pd.unit.dim = Dim.diffEnergy)
    (hpd : ∀ e, 0 < e → FiniteNonneg (pd.f e))
    (hlo : m.Epmin.PosEnergy) (hhi : m.Epmax.PosEnergy) (hle : m.Epmin.phys ≤ m.Epmax.phys)
    (hth : Kafexhiu.Tth < m.Epmin.phys / (1e9 * cEV) - mProton)
    (hn : m.nh.unit.dim = Dim.numDensity) (tbl : FTable) (hr : Reachable tbl)
    (es : List ℝ) (hne : es ≠ []) :
    ∃ out, (m.spectrum pd tbl es).map Prod.snd = .ok out ∧ out.length = es.length ∧
      ∀ (i : ℕ) (e : ℝ) (v : XR), es[i]? = some e → out[i]? = some v → m.Epmax.phys - cMp * cC ^ 2 ≤ e → v = fin 0 := by
  obtain ⟨ep, hep, hbnd, hsort⟩ := epGrid_facts m.toPrModel hlo hhi hle
  have hub := ep_le m.toPrModel hlo hhi hle ep hep
  have hj := J_eq m.toPrModel pd hu ep hep
  have hG : PhysUnit.GeV.scale = 1e9 * cEV := by unfold PhysUnit.GeV cEV; norm_num
  have hth' : pTth < m.Epmin.phys / PhysUnit.GeV.scale - pM := by rw [hG, pM_eq]; exact hth
  have hnh : m.nh.toReal perCm3 = .ok (m.nh.value * (m.nh.unit.scale / perCm3.scale)) := by
    unfold Qty.toReal
    rw [if_pos (by rw [hn]; rfl)]
  rw [(pion_spectrum_eq m pd tbl es hr.static).1, hep, hj]
  simp only [bind, Except.bind, pure, Except.pure, hne, if_false, hnh]
  refine ⟨_, rfl, by simp, ?_⟩
  intro i e v he hv hee
  rw [List.getElem?_map, he, Option.map_some, Option.some.injEq] at hv
  subst hv
  have hG0 := GeV_pos
  have hpos := div_pos hlo.phys_pos GeV_pos
  have hEk : m.Epmax.phys / PhysUnit.GeV.scale - pM ≤ e / PhysUnit.GeV.scale := by
    unfold pM
    rw [← sub_div]
    exact div_le_div_of_nonneg_right hee hG0.le
  have hle' : m.Epmin.phys / PhysUnit.GeV.scale ≤ m.Epmax.phys / PhysUnit.GeV.scale :=
    div_le_div_of_nonneg_right hle hG0.le
  have hE : 0 < e / PhysUnit.GeV.scale := by
    have := pTth_pos
    linarith
  unfold pionTotal pionAt trapz
  rw [trapzLL_zero]
  · simp only [mul_fin, zero_mul]
  intro p hp
  have hp2 := (List.of_mem_zip hp).2
  rw [List.zipWith_map, List.zipWith_self] at hp2
  obtain ⟨x, hx, hpx⟩ := List.mem_map.1 hp2
  have hb := hbnd x hx
  have hT : pTth < x - pM := by linarith
  have h0 : Spec.dsigma m.hiE m.nuc (e / PhysUnit.GeV.scale) (x - pM) = fin 0 := by
    apply (dsigma_sign m.hiE m.nuc _ (x - pM) hT hE).2
    by_contra hc
    push Not at hc
    have h1 := ((xgR_lt_one (x - pM) _ hT.le hE).1 hc).2
    have h2 := egMax_le (x - pM) hT.le
    have := hub x hx
    linarith
  obtain ⟨y, _, hy⟩ := hpd (x * PhysUnit.GeV.scale) (mul_pos (by linarith) hG0)
  rw [← hpx, h0, hy]
  simp only [mul_fin, zero_mul]

/-- **C82 (PionDecayKelner06).** For every distribution that is zero above `Emax`, density and transition
energy: where the photon energy is at least `Emax`, the spectrum is exactly zero (provided that the quadrature
uses interior points only and integrates zero to zero), if this energy is not below `Etrans`, or the whole
request is below it. -/
theorem C82_kelner (Q : Quad) (hQ : Interior Q) (hQ0 : ∀ a b, Q (fun _ => fin 0) a b = fin 0)
    (m : KelnerModel) (pd : PDist) (hu : pd.unit.dim = Dim.diffEnergy) (Emax : ℝ) (h0 : 0 < Emax)
    (hpd : ∀ e, Emax < e → pd.f e = fin 0) (es : List ℝ) :
    ∃ out, m.spectrum Q pd (.array es) = .ok out ∧ out.length = es.length ∧
      ∀ (i : ℕ) (e : ℝ) (v : XR), es[i]? = some e → out[i]? = some v → Emax ≤ e →
        (m.Etrans.phys ≤ e ∨ ∀ e ∈ es, e < m.Etrans.phys) → v = fin 0 := by
  refine ⟨es.map (fun e => fin m.nh.phys * (m.at Q pd (m.nhat Q pd es) e * fin 1e-12)), ?_, by simp, ?_⟩
  · unfold KelnerModel.spectrum
    simp only [hu, ne_eq, not_true, and_false, if_false]
  intro i e v he hv hee htr
  rw [List.getElem?_map, he, Option.map_some, Option.some.injEq] at hv
  subst hv
  have he0 : 0 < e := lt_of_lt_of_le h0 hee
  have hT0 := TeV_pos
  have hE : 0 < e / PhysUnit.TeV.scale := by positivity
  have hd : ∀ E, e / PhysUnit.TeV.scale < E → kDist pd E = fin 0 := by
    intro E hE
    rw [div_lt_iff₀ hT0] at hE
    unfold kDist
    rw [hpd _ (by linarith), mul_fin, zero_mul]
  have : m.at Q pd (m.nhat Q pd es) e = fin 0 := by
    unfold KelnerModel.at
    by_cases c : m.Etrans.phys ≤ e
    · rw [if_pos c]
      unfold kHi
      have : Q (kPhoton pd (e / PhysUnit.TeV.scale)) 0 (some 1) = Q (fun _ => fin 0) 0 (some 1) := by
        apply (hQ _ _ _).1
        intro x hx hx1
        unfold kPhoton
        obtain ⟨r, _, hr⟩ := kFgamma_pos x (e / PhysUnit.TeV.scale / x) hx hx1
        rw [hd _ (by rw [lt_div_iff₀ hx]; nlinarith), hr]
        simp only [mul_fin, mul_zero, zero_mul, div_fin _ _ hx.ne', zero_div]
      rw [this, hQ0, mul_fin, mul_zero]
    · rw [if_neg c]
      have hall : ∀ e ∈ es, e < m.Etrans.phys := htr.resolve_left c
      have hnh : m.nhat Q pd es = fin 1 := by
        unfold KelnerModel.nhat
        rw [if_neg]
        rintro ⟨_, a, ha, h⟩
        have := hall a ha
        linarith
      rw [hnh]
      unfold kLo
      have hmp : 0 < kMp := by
        unfold kMp
        have := cMp_pos; have := cC_pos; positivity
      have hmpi : 0 < kMpi := by unfold kMpi; norm_num
      have : Q (kDelta pd (fin 1)) (e / PhysUnit.TeV.scale +
          kMpi ^ 2 / (4 * (e / PhysUnit.TeV.scale))) none = Q (fun _ => fin 0) (e / PhysUnit.TeV.scale +
          kMpi ^ 2 / (4 * (e / PhysUnit.TeV.scale))) none := by
        apply (hQ _ _ _).2
        intro x hx
        set y := e / PhysUnit.TeV.scale
        have hy : 0 < kMpi ^ 2 / (4 * y) := by positivity
        have hxm : kMpi < x := by
          have e1 : y + kMpi ^ 2 / (4 * y) - kMpi = (y - kMpi / 2) ^ 2 / y := by field_simp; ring
          have : 0 ≤ (y - kMpi / 2) ^ 2 / y := by positivity
          linarith
        have hd0 : kDist pd (kMp + x / 0.17) = fin 0 := by
          apply hd
          have : x ≤ x / 0.17 := by rw [le_div_iff₀ (by norm_num)]; nlinarith
          linarith
        have hsq : 0 < x ^ 2 - kMpi ^ 2 := by nlinarith
        unfold kDelta
        simp only [hd0, div_fin _ _ (by norm_num : (0.17:ℝ) ≠ 0), mul_fin, mul_zero, sqrt_fin _ hsq.le,
          div_fin _ _ (Real.sqrt_pos.2 hsq).ne', zero_div]
      rw [this, hQ0, mul_fin, mul_zero]
  rw [this]
  simp only [mul_fin, zero_mul, mul_zero]

/-- The exact integral of zero is zero. -/
theorem exactQuad_zero (a : ℝ) (b : Option ℝ) : exactQuad (fun _ => fin 0) a b = fin 0 := by
  unfold exactQuad
  have h : ∀ S : Set ℝ, (if ∀ x ∈ S, IsFin ((fun _ : ℝ => fin 0) x) then
      fin (∫ x in S, ((fun _ : ℝ => fin 0) x).toReal) else nan) = fin 0 := by
    intro S
    have hf : ∀ x ∈ S, IsFin ((fun _ : ℝ => fin 0) x) := fun x _ => trivial
    rw [if_pos hf]
    simp [XR.toReal]
  exact h _

/-- Non-vacuity: a power law of electrons between 1 GeV and 510 TeV on the microwave background, on starlight
seen at 90 degrees and on a monochromatic field; the models of the examples of C72 and C73; and for the last
theorem, with the exact integral, a distribution that ends at 1 PeV. -/
example : (∃ (m : ElModel) (pd : PDist), m.Eemin.PosEnergy ∧ m.Eemax.PosEnergy ∧
      m.Eemin.phys ≤ m.Eemax.phys ∧ pd.unit.dim = Dim.diffEnergy ∧ 0 < pd.unit.scale ∧
      (∀ e, 0 < e → FiniteNonneg (pd.f e)) ∧
      ∀ t ∈ [SeedNum.thermal 2.725 4.2e-13 none, .thermal 3000 1e-12 (some (Real.pi / 2)),
        .array [1e-6] [fin 1] none], ValidSeed t) ∧
    ∃ pd : PDist, (∀ e, PhysUnit.TeV.scale * 1000 < e → pd.f e = fin 0) ∧
      pd.f PhysUnit.TeV.scale ≠ fin 0 ∧ Interior exactQuad ∧
      ∀ a b, exactQuad (fun _ => fin 0) a b = fin 0 := by
  have hT := TeV_pos
  refine ⟨⟨⟨⟨1, PhysUnit.GeV⟩, ⟨510, PhysUnit.TeV⟩, 100⟩, ⟨perTeV, fun e => fin (e ^ (-2 : ℝ))⟩,
    ⟨rfl, GeV_pos, by norm_num⟩, ⟨rfl, hT, by norm_num⟩, ?_, rfl, ?_, ?_, ?_⟩, ?_⟩
  · simp only [Qty.phys, PhysUnit.GeV, PhysUnit.TeV]; norm_num
  · simp only [perTeV]; positivity
  · intro e he; exact ⟨_, by positivity, rfl⟩
  · intro t ht
    simp only [List.mem_cons, List.not_mem_nil, or_false] at ht
    rcases ht with rfl | rfl | rfl
    · simp only [ValidSeed]; norm_num
    · simp only [ValidSeed, Real.cos_pi_div_two]; norm_num
    · refine ⟨by norm_num, by simp, rfl, ?_⟩
      intro n hn
      simp only [List.mem_singleton] at hn
      exact ⟨1, by norm_num, hn⟩
  · refine ⟨⟨perTeV, fun e => fin (if PhysUnit.TeV.scale * 1000 < e then 0 else 1)⟩, ?_, ?_,
      exactQuad_interior, exactQuad_zero⟩
    · intro e he; simp only [he, if_true]
    · simp only [ne_eq, fin_inj]
      rw [if_neg (by linarith)]
      norm_num

end Naima.Props
