import Verif.Props.C113_NormFit
import Verif.Model.SherpaPars
import Verif.Props.C57_Sherpa
import Verif.Props.C16_Seeds

/-!
# C114: the parameters of the Sherpa models, their limits, and what the models give within them
-/

namespace Naima.Props

open Naima XR Classical

noncomputable section

/-- `v` are values of the parameters of the model, in order, all within their limits. -/
def WithinLimits (c : ShClass) (v : List ℝ) : Prop :=
  List.Forall₂ (fun (q : ShParam) x => q.min ≤ x ∧ x ≤ q.max) c.pars v

/-- The parameter `name`, if the model has it, is not 0. -/
def NonZero (c : ShClass) (v : List ℝ) (name : String) : Prop :=
  ∀ x, (name, x) ∈ (c.pars.map ShParam.name).zip v → x ≠ 0

/-- The photon counts are computed: `n` finite, non-negative numbers. -/
def GoodCounts (n : ℕ) (r : Except PyErr (List XR)) : Prop :=
  ∃ ph, r = .ok ph ∧ ph.length = n ∧ ∀ a ∈ ph, FiniteNonneg a

/-- **C114 (parameters).** The registered names are, in order, the ones `flux` unpacks; every default
value lies within its limits; a fit varies only the index and the amplitude. -/
theorem C114_parameters (c : ShClass) :
    c.pars.map ShParam.name = c.parNames ∧
    WithinLimits c (c.pars.map ShParam.val) ∧
    (c.pars.filter (fun q => !q.frozen)).map ShParam.name = ["index", "ampl"] ∧
    (∀ q ∈ c.pars, q.frozen = false → q.min < q.val ∧ q.val < q.max) := by
  refine ⟨?_, ?_, ?_, ?_⟩
  · cases c <;> rfl
  · cases c <;>
      simp [WithinLimits, ShClass.pars, shIndex, shRef, shAmpl, shCutoff, shBeta, shDistance, shVerbose,
        shHuge] <;> norm_num
  · cases c <;> rfl
  · intro q hq hf
    cases c <;>
      (simp only [ShClass.pars, List.mem_cons, List.not_mem_nil, or_false] at hq
       rcases hq with rfl | rfl | rfl | rfl | rfl | rfl | rfl | rfl | rfl | rfl | rfl) <;>
      first
        | (exfalso; simp [shRef, shCutoff, shBeta, shDistance, shVerbose] at hf; done)
        | (constructor <;> norm_num [shIndex, shAmpl])

/-! ### photon counts from a well-behaved spectrum -/

theorem pairwise_zip_counts (es : List ℝ) (F : List XR) (hl : F.length = es.length)
    (hp : ∀ e ∈ es, 0 < e) (hs : es.Pairwise (· ≤ ·)) (hF : ∀ a ∈ F, FiniteNonneg a) :
    ∀ a ∈ trapzIntervals ((es.map fin).zip F), FiniteNonneg a := by
  induction es generalizing F with
  | nil => intro a ha; simp [trapzIntervals] at ha
  | cons e es ih =>
    cases F with
    | nil => simp at hl
    | cons f F =>
      cases es with
      | nil =>
        cases F with
        | nil => intro a ha; simp [trapzIntervals] at ha
        | cons => simp at hl
      | cons e2 es =>
        cases F with
        | nil => simp at hl
        | cons f2 F =>
          intro a ha
          simp only [List.map_cons, List.zip_cons_cons, trapzIntervals, List.mem_cons] at ha
          rcases ha with rfl | ha
          · obtain ⟨y1, h1, rfl⟩ := hF f (by simp)
            obtain ⟨y2, h2, rfl⟩ := hF f2 (by simp)
            obtain ⟨r, hr, he, -⟩ := trapzBin_nonneg e e2 y1 y2 (hp e (by simp))
              ((List.pairwise_cons.1 hs).1 e2 (by simp)) h1 h2
            exact ⟨r, hr, he⟩
          · refine ih (f2 :: F) (by simpa using hl) (fun x hx => hp x (by simp [hx]))
              (List.pairwise_cons.1 hs).2 (fun x hx => hF x (by simp [hx])) a ?_
            simpa [List.map_cons, List.zip_cons_cons] using ha

theorem shFlux_good (lut : ℝ → ℝ → XR) (k : ShKind) (p : ShPars) (hd : p.distance ≠ 0) (pd : PDist)
    (hpd : shPdist p = .ok pd)
    (hS : ∀ es : List ℝ, es ≠ [] → (∀ e ∈ es, 0 < e) → GoodCounts es.length (shSpectrum lut k pd es))
    (xs : List ℝ) (hn : xs ≠ []) (hx : ∀ x ∈ xs, 0 < x) :
    GoodCounts xs.length (shFlux lut k p xs) := by
  have hk : 0 < keV.scale := mul_pos (by norm_num) cEV_pos
  obtain ⟨spec, h1, h2, h3⟩ := hS (xs.map (· * keV.scale)) (by simpa using hn) (by
    intro e he
    obtain ⟨x, hx', rfl⟩ := List.mem_map.1 he
    exact mul_pos (hx x hx') hk)
  refine ⟨_, shFlux_of lut k p xs pd spec hpd h1 hd, by simpa using h2, ?_⟩
  intro a ha
  obtain ⟨s, hs, rfl⟩ := List.mem_map.1 ha
  obtain ⟨r, hr, rfl⟩ := h3 s hs
  have hpos : 0 < 4 * Real.pi * (p.distance * kpc.scale) ^ 2 := by
    have : p.distance * kpc.scale ≠ 0 := mul_ne_zero hd (by norm_num [kpc])
    have := Real.pi_pos
    positivity
  have hsc : 0 ≤ uFlux.scale / perSCm2KeV.scale := by
    have := cEV_pos
    simp only [uFlux, perSCm2KeV]
    positivity
  rw [div_fin _ _ hpos.ne', mul_fin]
  exact ⟨_, mul_nonneg (div_nonneg hr hpos.le) hsc, rfl⟩

theorem shCalc_good (lut : ℝ → ℝ → XR) (k : ShKind) (p : ShPars) (hd : p.distance ≠ 0) (pd : PDist)
    (hpd : shPdist p = .ok pd)
    (hS : ∀ es : List ℝ, es ≠ [] → (∀ e ∈ es, 0 < e) → GoodCounts es.length (shSpectrum lut k pd es)) :
    (∀ x : List ℝ, x ≠ [] → (∀ e ∈ x, 0 < e) → GoodCounts x.length (shCalc lut k p x none)) ∧
    (∀ edges : List ℝ, 2 ≤ edges.length → (∀ e ∈ edges, 0 < e) → edges.Pairwise (· ≤ ·) →
      GoodCounts (edges.length - 1) (shCalc lut k p edges.dropLast (some edges.tail))) := by
  constructor
  · intro x hn hx
    obtain ⟨F, h1, h2, h3⟩ := shFlux_good lut k p hd pd hpd hS x hn hx
    refine ⟨List.zipWith (fun f e => f * fin e) F x, ?_, by simp [h2], ?_⟩
    · simp only [shCalc, h1, bind, Except.bind, pure, Except.pure]
    · intro a ha
      obtain ⟨i, hi, rfl⟩ := List.getElem_of_mem ha
      rw [List.getElem_zipWith]
      have hi' : i < F.length ∧ i < x.length := by simpa [h2] using hi
      obtain ⟨r, hr, e⟩ := h3 (F[i]'hi'.1) (List.getElem_mem _)
      have hxi := hx (x[i]'hi'.2) (List.getElem_mem _)
      rw [e, mul_fin]
      exact ⟨_, mul_nonneg hr hxi.le, rfl⟩
  · intro edges hl hx hs
    have hn : edges ≠ [] := by rintro rfl; simp at hl
    obtain ⟨F, h1, h2, h3⟩ := shFlux_good lut k p hd pd hpd hS edges hn hx
    have hm : mergex edges.dropLast edges.tail = .ok edges := by
      have : edges.tail.getLast? = some (edges.getLast hn) := by
        match edges, hl with
        | a :: b :: r, _ => simp [List.getLast?_cons_cons, List.getLast?_eq_some_getLast]
      simp only [mergex, this, List.dropLast_append_getLast]
    refine ⟨trapzIntervals ((edges.map fin).zip F), ?_, ?_, ?_⟩
    · simp only [shCalc, hm, h1, bind, Except.bind, pure, Except.pure]
    · rw [trapzIntervals_length]; simp [h2]
    · exact pairwise_zip_counts edges F h2 hx hs h3

/-! ### the spectra within the limits -/

theorem shPdist_good (p : ShPars) (href : 0 < p.ref) (hcut : 0 ≤ p.cutoff) (ha : 0 ≤ p.ampl) :
    ∃ pd, shPdist p = .ok pd ∧ pd.unit.dim = Dim.diffEnergy ∧ 0 < pd.unit.scale ∧
      ∀ e, 0 < e → FiniteNonneg (pd.f e) := by
  obtain ⟨pd, h1, hu, hf⟩ := C57_particles p href hcut
  refine ⟨pd, h1, by rw [hu], by rw [hu]; norm_num, fun e he => ⟨_, ?_, hf e he⟩⟩
  have hT : (0:ℝ) < PhysUnit.TeV.scale := by norm_num [PhysUnit.TeV]
  have : 0 < e / PhysUnit.TeV.scale / p.ref := by positivity
  refine mul_nonneg (mul_nonneg (mul_nonneg ha (by norm_num)) (Real.rpow_nonneg this.le _)) ?_
  split_ifs
  · norm_num
  · exact (Real.exp_pos _).le

theorem sync_good (lut : ℝ → ℝ → XR) (B : ℝ) (hB : 0 < B) (pd : PDist)
    (hu : pd.unit.dim = Dim.diffEnergy) (hs : 0 < pd.unit.scale)
    (hf : ∀ e, 0 < e → FiniteNonneg (pd.f e)) (es : List ℝ) (hes : ∀ e ∈ es, 0 < e) :
    GoodCounts es.length (shSpectrum lut (.sync B) pd es) := by
  obtain ⟨out, ho, hl, hn, -⟩ := C14_nonneg_partial
    ⟨⟨⟨1, PhysUnit.GeV⟩, eemaxDefault, 100⟩, ⟨B, gauss⟩⟩ pd hu hs hf
    ⟨rfl, by norm_num [PhysUnit.GeV], by norm_num⟩
    ⟨rfl, by norm_num [eemaxDefault, PhysUnit.erg], by
      simp only [eemaxDefault]; exact mul_pos (by norm_num) cMec2_pos⟩
    (by simp only [Qty.phys, eemaxDefault, PhysUnit.GeV, PhysUnit.erg, cMec2, cMe, cC]; norm_num)
    rfl (by simp only [Qty.phys, gauss]; positivity) es hes
  exact ⟨out, ho, hl, hn⟩

theorem shSeeds_parse (TF uF TN uN : ℝ) (hTF : 0 < TF) (hTN : 0 < TN) (huF : 0 ≤ uF)
    (huN : 0 ≤ uN) :
    ∃ (fs : List (String × SeedField)) (ss : List SeedNum),
      processInputSeed (shSeeds TF uF TN uN) = .ok fs ∧ fs.mapM (fun f => f.2.toNum) = .ok ss ∧
      ss ≠ [] ∧ ∀ s ∈ ss, ValidSeed s := by
  have hE := cEV_pos
  have p0 : parseSeed (.str "CMB") =
      .ok ("CMB", .thermal (q 2.72548 kelvin) (q (cAr * 2.72548 ^ 4) ⟨1, Dim.pressure⟩) none) := by
    rw [C16_named_fields, if_pos rfl]
  have hA := cAr_pos
  have n0 : SeedField.toNum (.thermal (q 2.72548 kelvin) (q (cAr * 2.72548 ^ 4) ⟨1, Dim.pressure⟩) none)
      = .ok (.thermal (2.72548 * 1) (cAr * 2.72548 ^ 4 * 1) none) := by
    simp [SeedField.toNum, sizeOf, scalarQty, q, kelvin, asFinite, thetaOf, bind, Except.bind, pure,
      Except.pure]
  have pL : ∀ name T x, 0 < T → 0 < x → parseSeed (.list3 name (.qty (fin T) kelvin) (.qty (fin x) eVcm3)) =
      .ok (name, .thermal (q T kelvin) (q x eVcm3) none) := by
    intro name T x hT hx
    have := (C16_thermal_density name T kelvin (by norm_num [kelvin]) rfl hT.le x hx.ne' eVcm3 hE).1
    rw [if_pos (show eVcm3.dim = Dim.pressure from rfl), if_pos hx] at this
    exact this
  have nL : ∀ T x : ℝ, SeedField.toNum (.thermal (q T kelvin) (q x eVcm3) none) =
      .ok (.thermal (T * 1) (x * cEV) none) := by
    intro T x
    simp [SeedField.toNum, sizeOf, scalarQty, q, kelvin, eVcm3, asFinite, thetaOf, bind, Except.bind, pure,
      Except.pure]
  have v0 : ValidSeed (.thermal (2.72548 * 1) (cAr * 2.72548 ^ 4 * 1) none) := by
    constructor
    · norm_num
    · positivity
  have vL : ∀ T x : ℝ, 0 < T → 0 < x → ValidSeed (.thermal (T * 1) (x * cEV) none) := by
    intro T x hT hx
    exact ⟨by simpa using hT, by positivity⟩
  unfold shSeeds
  by_cases h1 : 0 < uF <;> by_cases h2 : 0 < uN <;>
    simp only [h1, h2, if_true, if_false, List.append_nil, List.cons_append, List.nil_append]
  · refine ⟨_, [SeedNum.thermal (2.72548 * 1) (cAr * 2.72548 ^ 4 * 1) none, SeedNum.thermal (TF * 1) (uF * cEV) none, SeedNum.thermal (TN * 1) (uN * cEV) none], C16_in_order_partial _ _ (.cons p0 (.cons (pL _ _ _ hTF h1)
      (.cons (pL _ _ _ hTN h2) .nil))) (by simp), ?_, by simp, ?_⟩
    · simp only [List.mapM_cons, List.mapM_nil, n0, nL, bind, Except.bind, pure, Except.pure]
    · intro s hs
      simp only [List.mem_cons, List.not_mem_nil, or_false] at hs
      rcases hs with rfl | rfl | rfl
      exacts [v0, vL _ _ hTF h1, vL _ _ hTN h2]
  · refine ⟨_, [SeedNum.thermal (2.72548 * 1) (cAr * 2.72548 ^ 4 * 1) none, SeedNum.thermal (TF * 1) (uF * cEV) none], C16_in_order_partial _ _ (.cons p0 (.cons (pL _ _ _ hTF h1) .nil)) (by simp),
      ?_, by simp, ?_⟩
    · simp only [List.mapM_cons, List.mapM_nil, n0, nL, bind, Except.bind, pure, Except.pure]
    · intro s hs
      simp only [List.mem_cons, List.not_mem_nil, or_false] at hs
      rcases hs with rfl | rfl
      exacts [v0, vL _ _ hTF h1]
  · refine ⟨_, [SeedNum.thermal (2.72548 * 1) (cAr * 2.72548 ^ 4 * 1) none, SeedNum.thermal (TN * 1) (uN * cEV) none], C16_in_order_partial _ _ (.cons p0 (.cons (pL _ _ _ hTN h2) .nil)) (by simp),
      ?_, by simp, ?_⟩
    · simp only [List.mapM_cons, List.mapM_nil, n0, nL, bind, Except.bind, pure, Except.pure]
    · intro s hs
      simp only [List.mem_cons, List.not_mem_nil, or_false] at hs
      rcases hs with rfl | rfl
      exacts [v0, vL _ _ hTN h2]
  · refine ⟨_, [SeedNum.thermal (2.72548 * 1) (cAr * 2.72548 ^ 4 * 1) none], C16_in_order_partial _ _ (.cons p0 .nil) (by simp), ?_, by simp, ?_⟩
    · simp only [List.mapM_cons, List.mapM_nil, n0, bind, Except.bind, pure, Except.pure]
    · intro s hs
      simp only [List.mem_cons, List.not_mem_nil, or_false] at hs
      rcases hs with rfl
      exact v0

theorem ic_good (lut : ℝ → ℝ → XR) (TF uF TN uN : ℝ) (hTF : 0 < TF) (hTN : 0 < TN) (huF : 0 ≤ uF)
    (huN : 0 ≤ uN) (pd : PDist)
    (hu : pd.unit.dim = Dim.diffEnergy) (hs : 0 < pd.unit.scale)
    (hf : ∀ e, 0 < e → FiniteNonneg (pd.f e)) (es : List ℝ) (hes : ∀ e ∈ es, 0 < e) :
    GoodCounts es.length (shSpectrum lut (.ic TF uF TN uN) pd es) := by
  obtain ⟨fs, ss, h1, h2, h3, h4⟩ := shSeeds_parse TF uF TN uN hTF hTN huF huN
  obtain ⟨out, ho, hl, hn⟩ := C15_spectrum ⟨⟨1, PhysUnit.GeV⟩, ⟨100, PhysUnit.TeV⟩, 100⟩ pd hu hs hf
    ⟨rfl, by norm_num [PhysUnit.GeV], by norm_num⟩ ⟨rfl, by norm_num [PhysUnit.TeV], by norm_num⟩
    (by simp only [Qty.phys, PhysUnit.GeV, PhysUnit.TeV]; norm_num) ss h3 h4 es hes
  refine ⟨out, ?_, hl, hn⟩
  simp only [shSpectrum, icModelSpectrum, h1, h2, bind, Except.bind, ho]

theorem pion_good (lut : ℝ → ℝ → XR) (hlut : ∀ Ep Eg, 0 < Ep → 0 < Eg → FiniteNonneg (lut Ep Eg))
    (nH : ℝ) (hn : 0 ≤ nH) (pd : PDist)
    (hu : pd.unit.dim = Dim.diffEnergy) (hs : 0 < pd.unit.scale)
    (hf : ∀ e, 0 < e → FiniteNonneg (pd.f e)) (es : List ℝ) (hne : es ≠ []) (hes : ∀ e ∈ es, 0 < e) :
    GoodCounts es.length (shSpectrum lut (.pion nH) pd es) := by
  have hM : 0 < pM + pTth + 1e-4 := by
    have h1 : 0 < pM := by
      have := cMp_pos; have := cC_pos; have := GeV_pos
      unfold pM; positivity
    have h2 : 0 < pTth := by unfold pTth; norm_num [pMpi, pM]
    linarith
  have hlo : Qty.PosEnergy ⟨pM + pTth + 1e-4, PhysUnit.GeV⟩ := ⟨rfl, by norm_num [PhysUnit.GeV], hM⟩
  have hhi : Qty.PosEnergy ⟨1e4, PhysUnit.TeV⟩ := ⟨rfl, by norm_num [PhysUnit.TeV], by norm_num⟩
  obtain ⟨ep, hep, hbnd, hsort⟩ := epGrid_facts
    ⟨⟨pM + pTth + 1e-4, PhysUnit.GeV⟩, ⟨1e4, PhysUnit.TeV⟩, 100⟩ hlo hhi (by
      simp only [Qty.phys, PhysUnit.GeV, PhysUnit.TeV, pM, pTth, pMpi, cMp, cC]; norm_num)
  have hj := J_eq _ pd hu ep hep
  have hpos : ∀ e ∈ ep, 0 < e := fun e he =>
    (div_pos hlo.phys_pos GeV_pos).trans_le (hbnd e he)
  have hnh : (⟨nH, perCm3⟩ : Qty ℝ).toReal perCm3 = .ok (nH * (perCm3.scale / perCm3.scale)) := by
    unfold Qty.toReal
    rw [if_pos rfl]
  have hC := cC_pos
  have hG := GeV_pos
  simp only [GoodCounts, shSpectrum, PionModel.spectrumLUT, hep, hj, hnh, bind, Except.bind, pure,
    Except.pure, hne, if_false]
  refine ⟨_, rfl, by simp, ?_⟩
  intro a ha
  simp only [List.mem_map] at ha
  obtain ⟨_, ⟨_, ⟨e, he, rfl⟩, rfl⟩, rfl⟩ := ha
  have hE : 0 < e / PhysUnit.GeV.scale := div_pos (hes e he) GeV_pos
  refine NN.mul (NN.mul ?_ (NN.fin ?_)) (NN.fin (by norm_num))
  · unfold trapz
    have e1 : (ep.map fin).zip (List.zipWith (· * ·)
        (ep.map (fun e' => lut e' (e / PhysUnit.GeV.scale)))
        (ep.map (fun e => pd.f (e * PhysUnit.GeV.scale) * XR.fin (pd.unit.scale / perGeV.scale)))) =
        ep.map (fun e' => (fin e', lut e' (e / PhysUnit.GeV.scale) *
          (pd.f (e' * PhysUnit.GeV.scale) * XR.fin (pd.unit.scale / perGeV.scale)))) := by
      rw [List.zipWith_map, List.zipWith_self, List.zip_map, List.zip_eq_zipWith,
        List.zipWith_self, List.map_map]
      rfl
    rw [e1]
    apply trapzLL_NN ep (fun e' => e') _ hpos (by simpa using hsort)
    intro x hx
    refine NN.mul (hlut x _ (hpos x hx) hE) (NN.mul (hf _ (mul_pos (hpos x hx) GeV_pos)) (NN.fin ?_))
    simp only [perGeV]; positivity
  · simp only [perCm3]
    have : nH * (1 / 1) * cC = nH * cC := by ring
    positivity

/-! ### the theorems -/

theorem forall2_within {c : ShClass} {v : List ℝ} (h : WithinLimits c v) :
    v.length = c.pars.length := h.length_eq.symm

/-! ### Limits and default values -/

/-- The default value and the limits of each parameter, and whether a fit keeps it fixed unless told otherwise
(sherpa_models.py:76-86, 119-125, 193, 233-235, 289); no maximum means the largest number Sherpa knows. -/
noncomputable def documentedPar : String → ℝ × ℝ × Option ℝ × Bool
  | "index" => (2.1, -10, some 10, false)
  | "ampl" => (100, 0, some 1e60, false)
  | "ref" => (60, 0, none, true)
  | "cutoff" => (0, 0, none, true)
  | "beta" => (1, 0, some 10, true)
  | "distance" => (1, 0, some 1e6, true)
  | "verbose" => (0, 0, some 1, true)
  | "TFIR" => (30, 0, none, true)
  | "uFIR" => (0, 0, none, true)
  | "TNIR" => (3000, 0, none, true)
  | "uNIR" => (0, 0, none, true)
  | "B" => (1, 0, some 10, true)
  | "n0" => (1, 0, some 1e20, true)
  | "weight_ee" => (1.088, 0, some 10, true)
  | "weight_ep" => (1.263, 0, some 10, true)
  | "nH" => (1, 0, none, true)
  | _ => (0, 0, none, true)

/-- **C114 (limits).** Each parameter of each model starts at its documented value, is fitted or fixed as
documented, and takes exactly the values within its documented limits, unchanged. -/
theorem C114_limits (c : ShClass) (q : ShParam) (hq : q ∈ c.pars) :
    q.val = (documentedPar q.name).1 ∧ q.frozen = (documentedPar q.name).2.2.2 ∧
    ∀ v : ℝ, (q.set (fin v) = .ok (fin v) ↔
      (documentedPar q.name).2.1 ≤ v ∧ v ≤ ((documentedPar q.name).2.2.1).getD shHuge) ∧
      ((∃ w, q.set (fin v) = .ok w) → q.set (fin v) = .ok (fin v)) := by
  have key : ∀ (q : ShParam) (v : ℝ), (q.set (fin v) = .ok (fin v) ↔ q.min ≤ v ∧ v ≤ q.max) ∧
      ((∃ w, q.set (fin v) = .ok w) → q.set (fin v) = .ok (fin v)) := by
    intro q v
    unfold ShParam.set
    by_cases h : fin v < fin q.min ∨ fin q.max < fin v
    · rw [if_pos h]
      rw [XR.lt_fin, XR.lt_fin] at h
      refine ⟨⟨fun h => (by cases h), fun g => ?_⟩, fun ⟨w, h⟩ => (by cases h)⟩
      rcases h with h | h <;> linarith [g.1, g.2]
    · rw [if_neg h]
      rw [XR.lt_fin, XR.lt_fin] at h
      push Not at h
      exact ⟨⟨fun _ => h, fun _ => rfl⟩, fun _ => rfl⟩
  have hdoc : q.val = (documentedPar q.name).1 ∧ q.frozen = (documentedPar q.name).2.2.2 ∧
      q.min = (documentedPar q.name).2.1 ∧ q.max = ((documentedPar q.name).2.2.1).getD shHuge := by
    cases c <;> simp only [ShClass.pars, List.mem_cons, List.not_mem_nil, or_false] at hq <;>
      (rcases hq with rfl | rfl | rfl | rfl | rfl | rfl | rfl | rfl | rfl | rfl | rfl) <;>
      simp [documentedPar, shIndex, shRef, shAmpl, shCutoff, shBeta, shDistance, shVerbose]
  obtain ⟨h1, h2, h3, h4⟩ := hdoc
  refine ⟨h1, h2, fun v => ?_⟩
  rw [← h3, ← h4]
  exact key q v

/-- **C114 (photon counts, partial).** For the inverse Compton, synchrotron and pion-decay models, all
parameter values within the limits, with `ref`, `distance`, `B`, `TFIR` and `TNIR` not 0, and all
positive photon energies, given as points or as the edges of contiguous increasing bins: the photon
counts are computed, one per point or bin, and are finite and non-negative (for pion decay if the cross
sections in the table are). Missing from "for all values within the limits, for all models": the values 0
(`C114_false_*`) and bremsstrahlung, whose cross section itself is negative or NaN somewhere (C18). -/
theorem C114_counts_partial (lut : ℝ → ℝ → XR)
    (hlut : ∀ Ep Eg, 0 < Ep → 0 < Eg → FiniteNonneg (lut Ep Eg))
    (c : ShClass) (hc : c ≠ .bremsstrahlung) (v : List ℝ) (hv : WithinLimits c v)
    (h0 : ∀ name ∈ ["ref", "distance", "B", "TFIR", "TNIR"], NonZero c v name) :
    (∀ x : List ℝ, x ≠ [] → (∀ e ∈ x, 0 < e) → GoodCounts x.length (c.calc lut v x none)) ∧
    (∀ edges : List ℝ, 2 ≤ edges.length → (∀ e ∈ edges, 0 < e) → edges.Pairwise (· ≤ ·) →
      GoodCounts (edges.length - 1) (c.calc lut v edges.dropLast (some edges.tail))) := by
  have main : ∀ (k : ShKind) (p : ShPars), c.unpack v = .ok (k, p) → 0 < p.ref → 0 ≤ p.cutoff →
      0 ≤ p.ampl → p.distance ≠ 0 →
      (∀ pd : PDist, pd.unit.dim = Dim.diffEnergy → 0 < pd.unit.scale →
        (∀ e, 0 < e → FiniteNonneg (pd.f e)) → ∀ es : List ℝ, es ≠ [] → (∀ e ∈ es, 0 < e) →
        GoodCounts es.length (shSpectrum lut k pd es)) →
      (∀ x : List ℝ, x ≠ [] → (∀ e ∈ x, 0 < e) → GoodCounts x.length (c.calc lut v x none)) ∧
      (∀ edges : List ℝ, 2 ≤ edges.length → (∀ e ∈ edges, 0 < e) → edges.Pairwise (· ≤ ·) →
        GoodCounts (edges.length - 1) (c.calc lut v edges.dropLast (some edges.tail))) := by
    intro k p hk hr hcut ha hd hS
    obtain ⟨pd, h1, h2, h3, h4⟩ := shPdist_good p hr hcut ha
    have := shCalc_good lut k p hd pd h1 (hS pd h2 h3 h4)
    simpa only [ShClass.calc, hk, bind, Except.bind] using this
  have pos : ∀ name x, name ∈ ["ref", "distance", "B", "TFIR", "TNIR"] →
      (name, x) ∈ (c.pars.map ShParam.name).zip v → 0 ≤ x → 0 < x := fun name x hn hz hx =>
    lt_of_le_of_ne hx (Ne.symm (h0 name hn x hz))
  have hlen := forall2_within hv
  cases c with
  | bremsstrahlung => exact absurd rfl hc
  | inverseCompton =>
    match v, hlen with
    | [index, ref, ampl, cutoff, beta, TF, uF, TN, uN, d, vb], _ =>
      simp only [WithinLimits, ShClass.pars, shIndex, shRef, shAmpl, shCutoff, shBeta, shDistance,
        shVerbose, List.forall₂_cons] at hv
      obtain ⟨-, href, ha, hcut, -, hTF, huF, hTN, huN, hd, -, -⟩ := hv
      have pz := pos
      simp only [ShClass.pars, shIndex, shRef, shAmpl, shCutoff, shBeta, shDistance, shVerbose,
        List.map_cons, List.map_nil, List.zip_cons_cons, List.zip_nil_right] at pz
      exact main _ ⟨index, ref, ampl, cutoff, beta, d⟩ rfl (pz "ref" ref (by simp) (by simp) href.1)
        hcut.1 ha.1 (pz "distance" d (by simp) (by simp) hd.1).ne'
        (fun pd h1 h2 h3 es _ hes => ic_good lut TF uF TN uN (pz "TFIR" TF (by simp) (by simp) hTF.1)
          (pz "TNIR" TN (by simp) (by simp) hTN.1) huF.1 huN.1 pd h1 h2 h3 es hes)
  | synchrotron =>
    match v, hlen with
    | [index, ref, ampl, cutoff, beta, B, d, vb], _ =>
      simp only [WithinLimits, ShClass.pars, shIndex, shRef, shAmpl, shCutoff, shBeta, shDistance,
        shVerbose, List.forall₂_cons] at hv
      obtain ⟨-, href, ha, hcut, -, hB, hd, -, -⟩ := hv
      have pz := pos
      simp only [ShClass.pars, shIndex, shRef, shAmpl, shCutoff, shBeta, shDistance, shVerbose,
        List.map_cons, List.map_nil, List.zip_cons_cons, List.zip_nil_right] at pz
      exact main _ ⟨index, ref, ampl, cutoff, beta, d⟩ rfl (pz "ref" ref (by simp) (by simp) href.1)
        hcut.1 ha.1 (pz "distance" d (by simp) (by simp) hd.1).ne'
        (fun pd h1 h2 h3 es _ hes => sync_good lut B (pz "B" B (by simp) (by simp) hB.1)
          pd h1 h2 h3 es hes)
  | pionDecay =>
    match v, hlen with
    | [index, ref, ampl, cutoff, beta, nH, d, vb], _ =>
      simp only [WithinLimits, ShClass.pars, shIndex, shRef, shAmpl, shCutoff, shBeta, shDistance,
        shVerbose, List.forall₂_cons] at hv
      obtain ⟨-, href, ha, hcut, -, hn, hd, -, -⟩ := hv
      have pz := pos
      simp only [ShClass.pars, shIndex, shRef, shAmpl, shCutoff, shBeta, shDistance, shVerbose,
        List.map_cons, List.map_nil, List.zip_cons_cons, List.zip_nil_right] at pz
      exact main _ ⟨index, ref, ampl, cutoff, beta, d⟩ rfl (pz "ref" ref (by simp) (by simp) href.1)
        hcut.1 ha.1 (pz "distance" d (by simp) (by simp) hd.1).ne'
        (fun pd h1 h2 h3 es hne hes => pion_good lut hlut nH hn.1 pd h1 h2 h3 es hne hes)

/-- The default parameters meet the hypotheses of `C114_counts_partial`. -/
example (c : ShClass) : WithinLimits c (c.pars.map ShParam.val) ∧
    ∀ name ∈ ["ref", "distance", "B", "TFIR", "TNIR"], NonZero c (c.pars.map ShParam.val) name := by
  refine ⟨(C114_parameters c).2.1, ?_⟩
  intro name hn x hx
  simp only [List.mem_cons, List.not_mem_nil, or_false] at hn
  cases c <;>
    simp only [ShClass.pars, shIndex, shRef, shAmpl, shCutoff, shBeta, shDistance, shVerbose,
      List.map_cons, List.map_nil, List.zip_cons_cons, List.zip_nil_right, List.mem_cons,
      List.not_mem_nil, or_false, Prod.mk.injEq] at hx <;>
    rcases hn with rfl | rfl | rfl | rfl | rfl <;> simp at hx <;> rw [hx] <;> norm_num

/-- **C114 fails at distance 0**, which the limits allow: whatever the model and the other values, no
photon counts are returned. -/
theorem C114_false_distance (lut : ℝ → ℝ → XR) (c : ShClass) (v : List ℝ) (hv : WithinLimits c v)
    (h0 : ("distance", 0) ∈ (c.pars.map ShParam.name).zip v) (x : List ℝ) (xhi : Option (List ℝ))
    (ph : List XR) : c.calc lut v x xhi ≠ .ok ph := by
  have hlen := forall2_within hv
  have main : ∀ (k : ShKind) (p : ShPars), c.unpack v = .ok (k, p) → p.distance = 0 →
      c.calc lut v x xhi ≠ .ok ph := by
    intro k p hk hd h
    simp only [ShClass.calc, hk, bind, Except.bind] at h
    exact C57_false_distance_zero lut k p x xhi hd ph h
  cases c with
  | inverseCompton =>
    match v, hlen with
    | [index, ref, ampl, cutoff, beta, TF, uF, TN, uN, d, vb], _ =>
      refine main _ ⟨index, ref, ampl, cutoff, beta, d⟩ rfl ?_
      simpa [ShClass.pars, shIndex, shRef, shAmpl, shCutoff, shBeta, shDistance, shVerbose, eq_comm] using h0
  | synchrotron =>
    match v, hlen with
    | [index, ref, ampl, cutoff, beta, B, d, vb], _ =>
      refine main _ ⟨index, ref, ampl, cutoff, beta, d⟩ rfl ?_
      simpa [ShClass.pars, shIndex, shRef, shAmpl, shCutoff, shBeta, shDistance, shVerbose, eq_comm] using h0
  | bremsstrahlung =>
    match v, hlen with
    | [index, ref, ampl, cutoff, beta, n0, wee, wep, d, vb], _ =>
      refine main _ ⟨index, ref, ampl, cutoff, beta, d⟩ rfl ?_
      simpa [ShClass.pars, shIndex, shRef, shAmpl, shCutoff, shBeta, shDistance, shVerbose, eq_comm] using h0
  | pionDecay =>
    match v, hlen with
    | [index, ref, ampl, cutoff, beta, nH, d, vb], _ =>
      refine main _ ⟨index, ref, ampl, cutoff, beta, d⟩ rfl ?_
      simpa [ShClass.pars, shIndex, shRef, shAmpl, shCutoff, shBeta, shDistance, shVerbose, eq_comm] using h0

/-- **C114 fails for the synchrotron model at `B = 0`**, which the limits allow: every photon count is
NaN, at all photon energies. -/
theorem C114_false_field (lut : ℝ → ℝ → XR) (index ref ampl cutoff beta d vb : ℝ)
    (hv : WithinLimits .synchrotron [index, ref, ampl, cutoff, beta, 0, d, vb]) (href : ref ≠ 0)
    (hd : d ≠ 0) (x : List ℝ) (hx : ∀ e ∈ x, 0 < e) :
    ShClass.synchrotron.calc lut [index, ref, ampl, cutoff, beta, 0, d, vb] x none =
      .ok (x.map (fun _ => nan)) := by
  simp only [WithinLimits, ShClass.pars, shIndex, shRef, shAmpl, shCutoff, shBeta, shDistance,
    shVerbose, List.forall₂_cons] at hv
  obtain ⟨-, hr, ha, hcut, -, -, -, -, -⟩ := hv
  obtain ⟨pd, h1, h2, h3, h4⟩ := shPdist_good ⟨index, ref, ampl, cutoff, beta, d⟩
    (lt_of_le_of_ne hr.1 (Ne.symm href)) hcut.1 ha.1
  have hk : 0 < keV.scale := mul_pos (by norm_num) cEV_pos
  have hspec : shSpectrum lut (.sync 0) pd (x.map (· * keV.scale)) =
      .ok ((x.map (· * keV.scale)).map (fun _ => nan)) := by
    refine C14_false_zero_field ⟨⟨⟨1, PhysUnit.GeV⟩, eemaxDefault, 100⟩, ⟨0, gauss⟩⟩ pd h2
      ⟨rfl, by norm_num [PhysUnit.GeV], by norm_num⟩
      ⟨rfl, by norm_num [eemaxDefault, PhysUnit.erg], by
        simp only [eemaxDefault]; exact mul_pos (by norm_num) cMec2_pos⟩
      (by simp only [Qty.phys, eemaxDefault, PhysUnit.GeV, PhysUnit.erg, cMec2, cMe, cC]; norm_num)
      rfl rfl _ ?_
    intro e he
    obtain ⟨y, hy, rfl⟩ := List.mem_map.1 he
    exact mul_pos (hx y hy) hk
  have hF := shFlux_of lut (.sync 0) ⟨index, ref, ampl, cutoff, beta, d⟩ x pd _ h1 hspec hd
  simp only [ShClass.calc, ShClass.unpack, shCalc, bind, Except.bind, pure, Except.pure, hF,
    List.map_map, Except.ok.injEq]
  rw [List.zipWith_map_left, List.zipWith_self]
  apply List.map_congr_left
  intro e _
  simp [Function.comp, nan_mul', show ∀ r : ℝ, (nan / fin r : XR) = nan from fun _ => rfl]

/-- **C114 fails for bremsstrahlung when a weight is 0**, which the limits allow: no photon counts. -/
theorem C114_false_weight (lut : ℝ → ℝ → XR) (index ref ampl cutoff beta n0 wee wep d vb : ℝ)
    (hw : wee = 0 ∨ wep = 0) (x : List ℝ) (xhi : Option (List ℝ)) (ph : List XR) :
    ShClass.bremsstrahlung.calc lut [index, ref, ampl, cutoff, beta, n0, wee, wep, d, vb] x xhi ≠ .ok ph := by
  intro h
  have key : ∀ xs F, shFlux lut (.brems n0 wee wep) ⟨index, ref, ampl, cutoff, beta, d⟩ xs ≠ .ok F := by
    intro xs F hF
    obtain ⟨pd, spec, h1, h2, h3, h4⟩ := shFlux_ok _ _ _ _ _ hF
    obtain ⟨e, he⟩ := (C17_false_weight_zero ⟨⟨⟨100, MeV⟩, eemaxDefault, 300⟩, ⟨n0, perCm3⟩, wee, wep⟩ pd
      (xs.map (· * keV.scale)) rfl).1 hw
    simp only [shSpectrum] at h2
    rw [he] at h2; cases h2
  simp only [ShClass.calc, ShClass.unpack, shCalc, bind, Except.bind] at h
  cases xhi with
  | none =>
    simp only at h
    cases hF : shFlux lut (.brems n0 wee wep) ⟨index, ref, ampl, cutoff, beta, d⟩ x with
    | error e => rw [hF] at h; cases h
    | ok F => exact key _ _ hF
  | some xhi =>
    simp only at h
    cases hm : mergex x xhi with
    | error e => rw [hm] at h; cases h
    | ok xs =>
      rw [hm] at h
      simp only at h
      cases hF : shFlux lut (.brems n0 wee wep) ⟨index, ref, ampl, cutoff, beta, d⟩ xs with
      | error e => rw [hF] at h; cases h
      | ok F => exact key _ _ hF

/-- **C114 (guess).** If the data and the model have positive finite integrals, `guess` stores the
amplitude times the ratio of the integrals - with which the integral of the model equals that of the data -
exactly if that does not exceed the largest amplitude allowed, 1e60; otherwise it raises. -/
theorem C114_guess (lut : ℝ → ℝ → XR) (c : ShClass) (v : List ℝ) (k : ShKind) (p : ShPars)
    (hk : c.unpack v = .ok (k, p)) (ha : 0 ≤ p.ampl) (dep : List XR) (xlo : List ℝ)
    (xhi : Option (List ℝ)) (model : List XR) (obs mod : ℝ) (hobs : 0 < obs) (hmod : 0 < mod)
    (h : c.calc lut v xlo xhi = .ok model) (h1 : trapz dep (xlo.map fin) = fin obs)
    (h2 : trapz model (xlo.map fin) = fin mod) :
    (p.ampl * obs / mod ≤ 1e60 →
      c.guess lut v dep xlo xhi = .ok (fin (p.ampl * obs / mod)) ∧
      ∃ model', shCalc lut k { p with ampl := p.ampl * obs / mod } xlo xhi = .ok model' ∧
        trapz model' (xlo.map fin) = trapz dep (xlo.map fin)) ∧
    (1e60 < p.ampl * obs / mod → ∃ e, c.guess lut v dep xlo xhi = .error e) := by
  simp only [ShClass.calc, hk, bind, Except.bind] at h
  have hg : shGuess lut k p dep xlo xhi = .ok (fin (p.ampl * obs / mod)) := by
    simp only [shGuess, h, bind, Except.bind, pure, Except.pure, h1, h2]
    rw [mul_fin, div_fin _ _ hmod.ne']
  have hnn : 0 ≤ p.ampl * obs / mod := by positivity
  constructor
  · intro hle
    refine ⟨?_, ?_⟩
    · simp only [ShClass.guess, hk, bind, Except.bind, hg, ShParam.set, shAmpl, lt_fin]
      rw [if_neg]
      rintro (h | h) <;> linarith
    · obtain ⟨a, m', e1, e2, e3⟩ := C57_guess lut k p dep xlo xhi model obs mod hobs hmod h h1 h2
      rw [hg, Except.ok.injEq, XR.fin_inj] at e1
      rw [← e1] at e2
      exact ⟨m', e2, e3⟩
  · intro hlt
    refine ⟨.userError 0, ?_⟩
    simp only [ShClass.guess, hk, bind, Except.bind, hg, ShParam.set, shAmpl, lt_fin]
    rw [if_pos (.inr hlt)]

/-- **C114 (guess, zero model).** If the model vanishes over the range of the data although the amplitude
is positive, `guess` raises (and the amplitude stays as it was). -/
theorem C114_guess_zero_model (lut : ℝ → ℝ → XR) (c : ShClass) (v : List ℝ) (k : ShKind) (p : ShPars)
    (hk : c.unpack v = .ok (k, p)) (ha : 0 < p.ampl) (dep : List XR) (xlo : List ℝ)
    (xhi : Option (List ℝ)) (model : List XR) (obs : ℝ) (hobs : 0 < obs)
    (h : c.calc lut v xlo xhi = .ok model) (h1 : trapz dep (xlo.map fin) = fin obs)
    (h2 : trapz model (xlo.map fin) = fin 0) : ∃ e, c.guess lut v dep xlo xhi = .error e := by
  simp only [ShClass.calc, hk, bind, Except.bind] at h
  have hp : 0 < p.ampl * obs := mul_pos ha hobs
  have hi : (fin (p.ampl * obs) / fin 0 : XR) = pinf := by
    simp [XR.div_def, XR.div, infMul, hp]
  have hg : shGuess lut k p dep xlo xhi = .ok pinf := by
    simp only [shGuess, h, bind, Except.bind, pure, Except.pure, h1, h2]
    rw [mul_fin, hi]
  refine ⟨.userError 0, ?_⟩
  simp only [ShClass.guess, hk, bind, Except.bind, hg]
  unfold ShParam.set
  rw [if_pos]
  exact .inr trivial

theorem set_nan : shAmpl.set nan = .ok nan := by
  unfold ShParam.set
  rw [if_neg]
  rintro (h | h) <;> exact h.elim

/-- **C114 fails for `guess` from amplitude 0**, which the limits allow: the model is zero, `guess`
divides 0 by 0 and the amplitude stored is NaN, without an exception - whatever the data, as long as
their integral is finite. -/
theorem C114_false_guess_zero (lut : ℝ → ℝ → XR)
    (hlut : ∀ Ep Eg, 0 < Ep → 0 < Eg → FiniteNonneg (lut Ep Eg))
    (c : ShClass) (hc : c ≠ .bremsstrahlung) (v : List ℝ) (hv : WithinLimits c v)
    (h0 : ∀ name ∈ ["ref", "distance", "B", "TFIR", "TNIR"], NonZero c v name)
    (ha : ("ampl", 0) ∈ (c.pars.map ShParam.name).zip v) (x : List ℝ) (hn : x ≠ [])
    (hx : ∀ e ∈ x, 0 < e) (dep : List XR) (obs : ℝ) (h1 : trapz dep (x.map fin) = fin obs) :
    c.guess lut v dep x none = .ok nan := by
  obtain ⟨ph, hp, hl, hnn⟩ := (C114_counts_partial lut hlut c hc v hv h0).1 x hn hx
  have main : ∀ (k : ShKind) (p : ShPars), c.unpack v = .ok (k, p) → p.ampl = 0 →
      c.guess lut v dep x none = .ok nan := by
    intro k p hk hz
    simp only [ShClass.calc, hk, bind, Except.bind] at hp
    have h2 := C57_amplitude lut k p 2 (by norm_num) x none ph hp
    have hp' : ({ p with ampl := 2 * p.ampl } : ShPars) = p := by
      cases p; simp only at hz; simp [hz]
    rw [hp', hp, Except.ok.injEq] at h2
    have hzero : ∀ a ∈ ph, a = fin 0 := by
      intro a ha
      obtain ⟨i, hi, rfl⟩ := List.getElem_of_mem ha
      have e : ph[i]? = (ph.map (fun a => fin 2 * a))[i]? := congrArg (·[i]?) h2
      rw [List.getElem?_map, List.getElem?_eq_getElem hi, Option.map_some, Option.some.injEq] at e
      obtain ⟨r, hr, er⟩ := hnn _ ha
      rw [er, mul_fin, XR.fin_inj] at e
      rw [er, XR.fin_inj]; linarith
    have ht : trapz ph (x.map fin) = fin 0 := by
      have hph : ph = x.map (fun _ => fin 0) := by
        rw [List.eq_replicate_of_mem hzero, hl, List.map_const']
      rw [hph]
      unfold trapz
      rw [List.zip_map, List.zip_eq_zipWith, List.zipWith_self, List.map_map]
      refine trapzLL_zero _ (fun g hg => ?_)
      obtain ⟨y, _, rfl⟩ := List.mem_map.1 hg
      rfl
    simp only [ShClass.guess, hk, bind, Except.bind, shGuess, hp, pure, Except.pure, h1, ht, hz,
      mul_fin, zero_mul]
    have : (fin 0 / fin 0 : XR) = nan := by simp [XR.div_def, XR.div, infMul]
    rw [this]
    exact set_nan
  have hlen := forall2_within hv
  cases c with
  | bremsstrahlung => exact absurd rfl hc
  | inverseCompton =>
    match v, hlen with
    | [index, ref, ampl, cutoff, beta, TF, uF, TN, uN, d, vb], _ =>
      refine main _ ⟨index, ref, ampl, cutoff, beta, d⟩ rfl ?_
      simpa [ShClass.pars, shIndex, shRef, shAmpl, shCutoff, shBeta, shDistance, shVerbose, eq_comm] using ha
  | synchrotron =>
    match v, hlen with
    | [index, ref, ampl, cutoff, beta, B, d, vb], _ =>
      refine main _ ⟨index, ref, ampl, cutoff, beta, d⟩ rfl ?_
      simpa [ShClass.pars, shIndex, shRef, shAmpl, shCutoff, shBeta, shDistance, shVerbose, eq_comm] using ha
  | pionDecay =>
    match v, hlen with
    | [index, ref, ampl, cutoff, beta, nH, d, vb], _ =>
      refine main _ ⟨index, ref, ampl, cutoff, beta, d⟩ rfl ?_
      simpa [ShClass.pars, shIndex, shRef, shAmpl, shCutoff, shBeta, shDistance, shVerbose, eq_comm] using ha

/-! ### The hypotheses are met -/

theorem defaults_nonzero (c : ShClass) :
    ∀ name ∈ ["ref", "distance", "B", "TFIR", "TNIR"], NonZero c (c.pars.map ShParam.val) name := by
  intro name hn x hx
  simp only [List.mem_cons, List.not_mem_nil, or_false] at hn
  cases c <;>
    simp only [ShClass.pars, shIndex, shRef, shAmpl, shCutoff, shBeta, shDistance, shVerbose,
      List.map_cons, List.map_nil, List.zip_cons_cons, List.zip_nil_right, List.mem_cons,
      List.not_mem_nil, or_false, Prod.mk.injEq] at hx <;>
    rcases hn with rfl | rfl | rfl | rfl | rfl <;> simp at hx <;> rw [hx] <;> norm_num

example (c : ShClass) (hc : c ≠ .bremsstrahlung) :=
  C114_counts_partial (fun _ _ => fin 1) (fun _ _ _ _ => ⟨1, by norm_num, rfl⟩) c hc _
    (C114_parameters c).2.1 (defaults_nonzero c)

/-- Pion decay at distance 0, and synchrotron radiation without a field. -/
example (lut : ℝ → ℝ → XR) (ph : List XR) :
    ShClass.pionDecay.calc lut [2.1, 60, 100, 0, 1, 1, 0, 0] [1, 2] none ≠ .ok ph ∧
    ShClass.synchrotron.calc lut [2.1, 60, 100, 0, 1, 0, 1, 0] [1, 2] none = .ok [nan, nan] := by
  refine ⟨C114_false_distance lut _ _ ?_ ?_ _ _ _, C114_false_field lut 2.1 60 100 0 1 1 0 ?_ (by norm_num)
    (by norm_num) [1, 2] (by norm_num)⟩
  · simp [WithinLimits, ShClass.pars, shIndex, shRef, shAmpl, shCutoff, shBeta, shDistance, shVerbose,
      shHuge]; norm_num
  · simp [ShClass.pars, shIndex, shRef, shAmpl, shCutoff, shBeta, shDistance, shVerbose]
  · simp [WithinLimits, ShClass.pars, shIndex, shRef, shAmpl, shCutoff, shBeta, shDistance, shVerbose,
      shHuge]; norm_num

/-- Two positive numbers have a positive integral over two increasing energies. -/
theorem trapz_two_pos (a b x y : ℝ) (ha : 0 < a) (hab : a < b) (hx : 0 < x) (hy : 0 < y) :
    ∃ r : ℝ, 0 < r ∧ trapz [fin x, fin y] ([a, b].map fin) = fin r :=
  Naima.trapzLL_pos [(a, x), (b, y)] (by simp [ha, ha.trans hab]) (by simp [hx, hy]) (by simp [hab.le])
    ⟨(a, x), by simp, (b, y), by simp, hab⟩

/-- Data and the synchrotron model with its default values, at 1 and 2 keV: `guess` sets an amplitude or
raises. -/
example (lut : ℝ → ℝ → XR) :
    ∃ r : Except PyErr XR, ShClass.synchrotron.guess lut [2.1, 60, 100, 0, 1, 1, 1, 0] [fin 3, fin 5] [1, 2] none = r ∧
      r ≠ .ok nan := by
  obtain ⟨obs, hobs, h1⟩ := trapz_two_pos 1 2 3 5 (by norm_num) (by norm_num) (by norm_num) (by norm_num)
  obtain ⟨pd, hpd, hu, hf⟩ := C57_particles ⟨2.1, 60, 100, 0, 1, 1⟩ (by norm_num) (by norm_num)
  have hT : (0:ℝ) < PhysUnit.TeV.scale := by norm_num [PhysUnit.TeV]
  have hk : 0 < keV.scale := mul_pos (by norm_num) cEV_pos
  obtain ⟨L, hL, hl, hp⟩ := sync_positive ⟨⟨⟨1, PhysUnit.GeV⟩, eemaxDefault, 100⟩, ⟨1, gauss⟩⟩ pd
    (by rw [hu]) (by rw [hu]; norm_num)
    ⟨rfl, by norm_num [PhysUnit.GeV], by norm_num⟩
    ⟨rfl, by norm_num [eemaxDefault, PhysUnit.erg], by
      simp only [eemaxDefault]; exact mul_pos (by norm_num) cMec2_pos⟩
    (by simp only [Qty.phys, eemaxDefault, PhysUnit.GeV, PhysUnit.erg, cMec2, cMe, cC]; norm_num)
    rfl (by norm_num [Qty.phys, gauss])
    (fun E => 100 * 1e30 * (E / PhysUnit.TeV.scale / 60) ^ (-2.1 : ℝ))
    (fun E hE => by rw [hf E hE, if_pos rfl, mul_one])
    (fun E hE => by
      have : 0 < E / PhysUnit.TeV.scale / 60 := by
        have : 0 < E := hE
        positivity
      exact mul_pos (by norm_num) (Real.rpow_pos_of_pos this _))
    (by
      refine continuousOn_const.mul (ContinuousOn.rpow_const (by fun_prop) ?_)
      intro E hE
      left
      have : 0 < E := hE
      positivity)
    ([1, 2].map (· * keV.scale)) (by simp [hk])
  obtain ⟨x, y, rfl⟩ : ∃ x y, L = [x, y] := by
    match L, hl with
    | [x, y], _ => exact ⟨x, y, rfl⟩
  have h0 := shFlux_of lut (.sync 1) ⟨2.1, 60, 100, 0, 1, 1⟩ [1, 2] pd _ hpd hL one_ne_zero
  have hd : (4 * Real.pi * (1 * kpc.scale) ^ 2 : ℝ) ≠ 0 := by
    have := Real.pi_pos
    simp only [kpc]; positivity
  simp only [List.map_cons, List.map_nil, div_fin _ _ hd, mul_fin] at h0
  have hpos : 0 < 4 * Real.pi * (1 * kpc.scale) ^ 2 := lt_of_le_of_ne (by have := Real.pi_pos; positivity) hd.symm
  have hsc : 0 < uFlux.scale / perSCm2KeV.scale := by
    have := cEV_pos
    simp only [uFlux, perSCm2KeV]; positivity
  have hx := hp x (by simp)
  have hy := hp y (by simp)
  have hc : ShClass.synchrotron.calc lut [2.1, 60, 100, 0, 1, 1, 1, 0] [1, 2] none = .ok
      [fin (x / (4 * Real.pi * (1 * kpc.scale) ^ 2) * (uFlux.scale / perSCm2KeV.scale) * 1),
       fin (y / (4 * Real.pi * (1 * kpc.scale) ^ 2) * (uFlux.scale / perSCm2KeV.scale) * 2)] := by
    simp only [ShClass.calc, ShClass.unpack, shCalc, bind, Except.bind, pure, Except.pure, h0,
      List.zipWith_cons_cons, List.zipWith_nil_right, mul_fin]
  obtain ⟨md, hmd, h2⟩ := trapz_two_pos 1 2 _ _ (by norm_num) (by norm_num)
    (show 0 < x / (4 * Real.pi * (1 * kpc.scale) ^ 2) * (uFlux.scale / perSCm2KeV.scale) * 1 by positivity)
    (show 0 < y / (4 * Real.pi * (1 * kpc.scale) ^ 2) * (uFlux.scale / perSCm2KeV.scale) * 2 by positivity)
  have := C114_guess lut .synchrotron [2.1, 60, 100, 0, 1, 1, 1, 0] (.sync 1) ⟨2.1, 60, 100, 0, 1, 1⟩ rfl
    (by norm_num) [fin 3, fin 5] [1, 2] none _ obs md hobs hmd hc h1 h2
  refine ⟨_, rfl, ?_⟩
  rcases le_or_gt (100 * obs / md) 1e60 with h | h
  · rw [(this.1 h).1]; simp
  · obtain ⟨e, he⟩ := this.2 h
    rw [he]; simp

/-- Without target protons there is no emission. -/
theorem pion_zero (lut : ℝ → ℝ → XR) (hlut : ∀ Ep Eg, 0 < Ep → 0 < Eg → FiniteNonneg (lut Ep Eg)) (pd : PDist)
    (hu : pd.unit.dim = Dim.diffEnergy) (hs : 0 < pd.unit.scale)
    (hf : ∀ e, 0 < e → FiniteNonneg (pd.f e)) (es : List ℝ) (hne : es ≠ []) (hes : ∀ e ∈ es, 0 < e) :
    shSpectrum lut (.pion 0) pd es = .ok (es.map (fun _ => fin 0)) := by
  have hg := fun n hn => pion_good lut hlut n hn pd hu hs hf es hne hes
  obtain ⟨o0, a0, b0, c0⟩ := hg 0 le_rfl
  rw [a0, Except.ok.injEq]
  have key : ∀ a ∈ o0, a = fin 0 := by
    intro a ha
    have hm := a0
    simp only [shSpectrum, PionModel.spectrumLUT, bind, Except.bind, pure, Except.pure, hne, if_false] at hm
    split at hm
    · cases hm
    · split at hm
      · cases hm
      · have : (⟨0, perCm3⟩ : Qty ℝ).toReal perCm3 = .ok 0 := by
          unfold Qty.toReal
          rw [if_pos rfl]; simp
        rw [this] at hm
        simp only [Except.ok.injEq, zero_mul] at hm
        obtain ⟨r, hr, er⟩ := c0 a ha
        rw [← hm] at ha
        simp only [List.mem_map] at ha
        obtain ⟨b, ⟨c, -, rfl⟩, rfl⟩ := ha
        generalize trapz _ _ = t at er ⊢
        cases t with
        | fin t => simp [mul_fin]
        | pinf => simp [XR.mul_def, XR.mul, infMul] at er
        | ninf => simp [XR.mul_def, XR.mul, infMul] at er
        | nan => cases er
  rw [List.eq_replicate_of_mem key, b0, List.map_const']

/-- Pion decay without target protons: the model vanishes, `guess` raises. -/
example : ∃ e, ShClass.pionDecay.guess (fun _ _ => fin 1) [2.1, 60, 100, 0, 1, 0, 1, 0] [fin 3, fin 5]
    [1, 2] none = .error e := by
  obtain ⟨obs, hobs, h1⟩ := trapz_two_pos 1 2 3 5 (by norm_num) (by norm_num) (by norm_num) (by norm_num)
  obtain ⟨pd, hpd, hu, hs, hf⟩ := shPdist_good ⟨2.1, 60, 100, 0, 1, 1⟩ (by norm_num) (by norm_num) (by norm_num)
  have hk : 0 < keV.scale := mul_pos (by norm_num) cEV_pos
  have h0 := shFlux_of (fun _ _ => fin 1) (.pion 0) ⟨2.1, 60, 100, 0, 1, 1⟩ [1, 2] pd _ hpd
    (pion_zero (fun _ _ => fin 1) (fun _ _ _ _ => ⟨1, by norm_num, rfl⟩) pd hu hs hf ([1, 2].map (· * keV.scale))
      (by simp) (by simp [hk])) one_ne_zero
  have hd : (4 * Real.pi * (1 * kpc.scale) ^ 2 : ℝ) ≠ 0 := by
    have := Real.pi_pos
    simp only [kpc]; positivity
  simp only [List.map_cons, List.map_nil, div_fin _ _ hd, mul_fin, zero_div, zero_mul] at h0
  refine C114_guess_zero_model _ .pionDecay _ (.pion 0) ⟨2.1, 60, 100, 0, 1, 1⟩ rfl (by norm_num) _ [1, 2] none
    [fin 0, fin 0] obs hobs ?_ h1 ?_
  · simp only [ShClass.calc, ShClass.unpack, shCalc, bind, Except.bind, pure, Except.pure, h0,
      List.zipWith_cons_cons, List.zipWith_nil_right, mul_fin, zero_mul]
  · exact trapzLL_zero _ (by simp)

/-- From amplitude 0. -/
example : ShClass.pionDecay.guess (fun _ _ => fin 1) [2.1, 60, 0, 0, 1, 1, 1, 0] [fin 3, fin 5]
    [1, 2] none = .ok nan := by
  obtain ⟨obs, hobs, h1⟩ := trapz_two_pos 1 2 3 5 (by norm_num) (by norm_num) (by norm_num) (by norm_num)
  refine C114_false_guess_zero _ (fun _ _ _ _ => ⟨1, by norm_num, rfl⟩) .pionDecay (by simp) _ ?_ ?_ ?_ [1, 2]
    (by simp) (by norm_num) [fin 3, fin 5] obs h1
  · simp [WithinLimits, ShClass.pars, shIndex, shRef, shAmpl, shCutoff, shBeta, shDistance, shVerbose,
      shHuge]; norm_num
  · intro name hn x hx
    simp only [List.mem_cons, List.not_mem_nil, or_false] at hn
    simp only [ShClass.pars, shIndex, shRef, shAmpl, shCutoff, shBeta, shDistance, shVerbose,
      List.map_cons, List.map_nil, List.zip_cons_cons, List.zip_nil_right, List.mem_cons,
      List.not_mem_nil, or_false, Prod.mk.injEq] at hx
    rcases hn with rfl | rfl | rfl | rfl | rfl <;> simp at hx <;> rw [hx] <;> norm_num
  · simp [ShClass.pars, shIndex, shRef, shAmpl, shCutoff, shBeta, shDistance, shVerbose]

end

end Naima.Props
