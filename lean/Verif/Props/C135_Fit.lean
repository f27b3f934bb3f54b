import Verif.Props.C134_Recipe
import Verif.Props.C113_NormFit

/-!
# C135: the documented joint fit of X-rays and gamma rays
-/

namespace Naima.Props

open Naima XR Classical Naima.Spec

noncomputable section

/-- The prior of the example: norm and field not negative, index between -1 and 5. -/
def InPrior (p0 alpha B : ℝ) : Prop := 0 ≤ p0 ∧ -1 ≤ alpha ∧ alpha ≤ 5 ∧ 0 ≤ B

theorem uniform_real (v a : ℝ) (b : XR) : uniformPrior (fin v) (fin a) b = if a ≤ v ∧ fin v ≤ b then fin 0 else ninf := by
  simp [uniformPrior]

theorem le_pinf' (v : ℝ) : fin v ≤ pinf := Or.inl trivial

/-- **C135 (prior).** 0 where norm and field are not negative and the index lies between -1 and 5, minus infinity elsewhere,
for all real parameters. -/
theorem C135_prior (p0 alpha p2 B : ℝ) (rest : List ℝ) :
    rxjPrior (p0 :: alpha :: p2 :: B :: rest) = .ok (if InPrior p0 alpha B then fin 0 else ninf) := by
  simp only [rxjPrior, uniform_real, le_pinf', and_true, XR.le_fin]
  congr 1
  unfold InPrior
  by_cases h1 : 0 ≤ p0 <;> by_cases h2 : -1 ≤ alpha ∧ alpha ≤ 5 <;> by_cases h3 : 0 ≤ B <;>
    simp only [h1, h2, h3, true_and, and_true, false_and, and_false, if_true, if_false, ← and_assoc] <;>
    first
      | rfl
      | (simp only [XR.add_fin]; norm_num)

/-! ### The components -/

theorem rxjElectrons_eq (p0 alpha p2 : ℝ) : ∀ E, 0 < E →
    (rxjElectrons p0 alpha p2).f E =
      fin (Spec.ecpl (10 ^ p0) alpha 1 (E / (10 * PhysUnit.TeV.scale)) (E / (10 ^ p2 * PhysUnit.TeV.scale))) := by
  have hT : (0 : ℝ) < PhysUnit.TeV.scale := by norm_num [PhysUnit.TeV]
  intro E hE
  exact ecpl_pdist (10 ^ p0) alpha 1 ⟨10, PhysUnit.TeV⟩ ⟨10 ^ p2, PhysUnit.TeV⟩ ⟨rfl, hT, by norm_num⟩
    ⟨rfl, hT, Real.rpow_pos_of_pos (by norm_num) _⟩ perEV E hE

/-- **C135 (electrons).** `10^norm` electrons per eV at 10 TeV but for the cutoff, slope `-index`, exponential cutoff at
`10^cutoff` TeV. -/
theorem C135_electrons (p0 alpha p2 : ℝ) : (rxjElectrons p0 alpha p2).unit = ⟨1 / cEV, Dim.diffEnergy⟩ ∧
    ∀ E > 0, (rxjElectrons p0 alpha p2).f (E * PhysUnit.TeV.scale) =
      fin (10 ^ p0 * (E / 10) ^ (-alpha) * Real.exp (-(E / 10 ^ p2))) := by
  have hT : (0 : ℝ) < PhysUnit.TeV.scale := by norm_num [PhysUnit.TeV]
  refine ⟨rfl, fun E hE => ?_⟩
  rw [rxjElectrons_eq p0 alpha p2 _ (mul_pos hE hT), mul_div_mul_right _ _ hT.ne', mul_div_mul_right _ _ hT.ne']
  simp [Spec.ecpl]

theorem rxjElectrons_nonneg (p0 alpha p2 E : ℝ) (hE : 0 < E) :
    0 ≤ Spec.ecpl (10 ^ p0) alpha 1 (E / (10 * PhysUnit.TeV.scale)) (E / (10 ^ p2 * PhysUnit.TeV.scale)) := by
  have hT : (0 : ℝ) < PhysUnit.TeV.scale := by norm_num [PhysUnit.TeV]
  unfold Spec.ecpl
  positivity

theorem rxjElectrons_good (p0 alpha p2 : ℝ) : ∀ E, 0 < E → FiniteNonneg ((rxjElectrons p0 alpha p2).f E) := by
  intro E hE
  rw [rxjElectrons_eq p0 alpha p2 E hE]
  exact ⟨_, rxjElectrons_nonneg p0 alpha p2 E hE, rfl⟩

theorem rxj_parse : ∃ (fs : List (String × SeedField)) (ss : List SeedNum),
    processInputSeed rxjSeeds = .ok fs ∧ fs.mapM (fun f => f.2.toNum) = .ok ss ∧ ss ≠ [] ∧ ∀ s ∈ ss, ValidSeed s := by
  have := shSeeds_parse 26.5 0.415 1 0 (by norm_num) one_pos (by norm_num) le_rfl
  have h : shSeeds 26.5 0.415 1 0 = rxjSeeds := by
    have : (0 : ℝ) < 0.415 := by norm_num
    simp only [shSeeds, rxjSeeds, this, if_true, lt_irrefl, if_false, List.append_nil, List.cons_append, List.nil_append]
  rwa [h] at this

theorem rxj_ic (p0 alpha p2 : ℝ) (e : Qty (List ℝ)) (hu : e.unit.dim = Dim.energy) (hs : 0 < e.unit.scale)
    (he : ∀ x ∈ e.value, 0 < x) :
    ∃ F : List ℝ, rxjICFlux (rxjElectrons p0 alpha p2) e = .ok ⟨F.map fin, uFlux⟩ ∧
      F.length = e.value.length ∧ ∀ f ∈ F, 0 ≤ f := by
  refine recipe_flux _ e hu ?_
  obtain ⟨fs, ss, h1, h2, h3, h4⟩ := rxj_parse
  obtain ⟨out, ho, hl, hn⟩ := C15_spectrum rxjIC (rxjElectrons p0 alpha p2) rfl perEV_pos
    (rxjElectrons_good p0 alpha p2) ⟨rfl, by norm_num [rxjIC, PhysUnit.GeV], by norm_num [rxjIC]⟩ eemax_pos
    (by simp only [rxjIC, Qty.phys, eemaxDefault, PhysUnit.GeV, PhysUnit.erg, cMec2, cMe, cC]; norm_num)
    ss h3 h4 (e.value.map (· * e.unit.scale)) (by
      intro x hx
      obtain ⟨y, hy, rfl⟩ := List.mem_map.1 hx
      exact mul_pos (he y hy) hs)
  refine ⟨out, ?_, by simpa using hl, hn⟩
  simp only [icModelSpectrum, h1, h2, bind, Except.bind, ho]

theorem rxj_syn (B : ℝ) (hB : 0 < B) (p0 alpha p2 : ℝ) (e : Qty (List ℝ)) (hu : e.unit.dim = Dim.energy)
    (hs : 0 < e.unit.scale) (he : ∀ x ∈ e.value, 0 < x) :
    ∃ G : List ℝ, recipeSynFlux B (rxjElectrons p0 alpha p2) e = .ok ⟨G.map fin, uFlux⟩ ∧
      G.length = e.value.length ∧ ∀ g ∈ G, 0 ≤ g := by
  refine recipe_flux _ e hu ?_
  obtain ⟨out, ho, hl, hn, -⟩ := C14_nonneg_partial (recipeSyn B) (rxjElectrons p0 alpha p2) rfl perEV_pos
    (rxjElectrons_good p0 alpha p2) ⟨rfl, by norm_num [recipeSyn, PhysUnit.GeV], by norm_num [recipeSyn]⟩ eemax_pos
    (by simp only [recipeSyn, Qty.phys, eemaxDefault, PhysUnit.GeV, PhysUnit.erg, cMec2, cMe, cC]; norm_num)
    rfl (by simp only [recipeSyn, Qty.phys, microgauss, gauss]; positivity) (e.value.map (· * e.unit.scale)) (by
      intro x hx
      obtain ⟨y, hy, rfl⟩ := List.mem_map.1 hx
      exact mul_pos (he y hy) hs)
  exact ⟨out, ho, by simpa using hl, hn⟩

theorem rxj_We (p0 alpha p2 : ℝ) : ∃ W : ℝ, 0 ≤ W ∧
    rxjIC.computeWe (rxjElectrons p0 alpha p2) (some ⟨1, PhysUnit.TeV⟩) none = .ok (fin W) := by
  have hT : (0 : ℝ) < PhysUnit.TeV.scale := by norm_num [PhysUnit.TeV]
  have hlo : (⟨1, PhysUnit.TeV⟩ : Qty ℝ).PosEnergy := ⟨rfl, hT, by norm_num⟩
  have hp : Population (rxjElectrons p0 alpha p2)
      (fun E => Spec.ecpl (10 ^ p0) alpha 1 (E / (10 * PhysUnit.TeV.scale)) (E / (10 ^ p2 * PhysUnit.TeV.scale)) * perEV.scale)
      (⟨1, PhysUnit.TeV⟩ : Qty ℝ).phys eemaxDefault.phys := by
    refine ⟨rfl, perEV_pos, fun E hE => ?_⟩
    have hE' : 0 < E := hlo.phys_pos.trans_le hE.1
    exact ⟨_, rxjElectrons_eq p0 alpha p2 E hE', rxjElectrons_nonneg p0 alpha p2 E hE', rfl⟩
  obtain ⟨W, W', h1, -, h2, -⟩ := C133_compute_We rxjIC ⟨1, PhysUnit.TeV⟩ eemaxDefault hlo eemax_pos
    (by simp only [Qty.phys, eemaxDefault, PhysUnit.TeV, PhysUnit.erg, cMec2, cMe, cC]; norm_num) 0 le_rfl one_pos _ _ _ _
    hp hp (by intro E _; simp)
  exact ⟨W, h2, h1⟩

/-! ### The fit -/

/-- the energies of the data as the model functions read them (erg) -/
def energiesOf (data : VTable) : Qty (List ℝ) := ⟨data.rows.map (·.energy), PhysUnit.erg⟩

theorem rxj_model (p0 alpha p2 B : ℝ) (rest : List ℝ) (hB : 0 < B) (data : VTable) (hd : GoodData data) :
    ∃ (F G : List ℝ) (W : ℝ), rxjICFlux (rxjElectrons p0 alpha p2) (energiesOf data) = .ok ⟨F.map fin, uFlux⟩ ∧
      recipeSynFlux B (rxjElectrons p0 alpha p2) (energiesOf data) = .ok ⟨G.map fin, uFlux⟩ ∧
      F.length = data.rows.length ∧ G.length = data.rows.length ∧ (∀ f ∈ F, 0 ≤ f) ∧ (∀ g ∈ G, 0 ≤ g) ∧ 0 ≤ W ∧
      rxjIC.computeWe (rxjElectrons p0 alpha p2) (some ⟨1, PhysUnit.TeV⟩) none = .ok (fin W) ∧
      rxjModel (p0 :: alpha :: p2 :: B :: rest) data = .ok (.iterable
        [.spec ⟨(List.zipWith (fun f g => (f + g) * uFlux.scale) F G).map fin, uFlux⟩, .other (fin W)]) := by
  have he : ∀ x ∈ (energiesOf data).value, 0 < x := by
    intro x hx
    obtain ⟨r, hr, rfl⟩ := List.mem_map.1 hx
    exact hd.energy r hr
  have h1 : (0 : ℝ) < (energiesOf data).unit.scale := by simp [energiesOf, PhysUnit.erg]
  obtain ⟨F, f1, f2, f3⟩ := rxj_ic p0 alpha p2 (energiesOf data) rfl h1 he
  obtain ⟨G, g1, g2, g3⟩ := rxj_syn B hB p0 alpha p2 (energiesOf data) rfl h1 he
  obtain ⟨W, w1, w2⟩ := rxj_We p0 alpha p2
  have hl : (energiesOf data).value.length = data.rows.length := by simp [energiesOf]
  refine ⟨F, G, W, f1, g1, f2.trans hl, g2.trans hl, f3, g3, w1, w2, ?_⟩
  have key : ∀ F G : List ℝ, (List.zipWith (fun x y : XR => x + y) (F.map fin) (G.map fin)).map (· * fin uFlux.scale) =
      (List.zipWith (fun f g => (f + g) * uFlux.scale) F G).map fin := by
    intro F
    induction F with
    | nil => intro G; simp
    | cons f F ih =>
      intro G
      cases G with
      | nil => simp
      | cons g G => simp only [List.map_cons, List.zipWith_cons_cons, ih, XR.add_fin, XR.mul_fin]
  have hm : electronSynIC (p0 :: alpha :: p2 :: B :: rest) (energiesOf data) =
      .ok (⟨List.zipWith (fun x y => x + y) (F.map fin) (G.map fin), uFlux⟩, fin W) := by
    simp only [electronSynIC, f1, g1, w2, bind, Except.bind, pure, Except.pure]
  unfold rxjModel
  rw [show (⟨data.rows.map (·.energy), PhysUnit.erg⟩ : Qty (List ℝ)) = energiesOf data from rfl, hm]
  simp only [Except.map, key]

/-- A predicted flux (cgs, per energy) in the representation of the data: times the square of the energy for an SED. -/
def inKind (data : VTable) (m : ℝ) (r : Row) : ℝ := if data.fluxU.dim = Dim.flux then r.energy ^ 2 * m else m

/-- **C135 (within the prior).** For every parameter vector within the prior with a field that is not zero, and every
validated table of measured differential fluxes or spectral energies, the log-probability of the fit is exactly minus half
the sum of the squared normalised deviations of the data from the sum of the inverse Compton and synchrotron fluxes; the
blobs are that spectrum and the energy in the electrons above 1 TeV. -/
theorem C135_within (p0 alpha p2 B : ℝ) (rest : List ℝ) (hp : InPrior p0 alpha B) (hB : B ≠ 0) (data : VTable)
    (hd : GoodData data) (hul : ∀ r ∈ data.rows, r.ul = false)
    (hk : data.fluxU.dim = Dim.diffFlux ∨ data.fluxU.dim = Dim.flux) :
    ∃ (F G : List ℝ) (W : ℝ),
      fluxOf (icModelSpectrum ⟨⟨100, PhysUnit.GeV⟩, eemaxDefault, 100⟩
        (.list [.str "CMB", .list3 "FIR" (.qty (fin 26.5) kelvin) (.qty (fin 0.415) eVcm3)]) (rxjElectrons p0 alpha p2))
        (energiesOf data) (.qty ⟨1, kpc⟩) = .ok ⟨F.map fin, uFlux⟩ ∧
      fluxOf (SyncModel.spectrum ⟨⟨⟨1, PhysUnit.GeV⟩, eemaxDefault, 100⟩, ⟨1e-6 * B, gauss⟩⟩ (rxjElectrons p0 alpha p2))
        (energiesOf data) (.qty ⟨1, kpc⟩) = .ok ⟨G.map fin, uFlux⟩ ∧
      ElModel.computeWe ⟨⟨100, PhysUnit.GeV⟩, eemaxDefault, 100⟩ (rxjElectrons p0 alpha p2) (some ⟨1, PhysUnit.TeV⟩) none =
        .ok (fin W) ∧
      F.length = data.rows.length ∧ G.length = data.rows.length ∧ (∀ f ∈ F, 0 ≤ f) ∧ (∀ g ∈ G, 0 ≤ g) ∧ 0 ≤ W ∧
      rxjLnprob (p0 :: alpha :: p2 :: B :: rest) data =
        .ok (fin (gaussLnL (List.zipWith (fun m r => inKind data m r)
            (List.zipWith (fun f g => (f + g) * uFlux.scale) F G) data.rows) data.rows),
          [.spec ⟨(List.zipWith (fun f g => (f + g) * uFlux.scale) F G).map fin, uFlux⟩, .other (fin W)]) := by
  obtain ⟨F, G, W, f1, g1, hF, hG, f3, g3, w1, w2, hm⟩ :=
    rxj_model p0 alpha p2 B rest (lt_of_le_of_ne hp.2.2.2 (Ne.symm hB)) data hd
  refine ⟨F, G, W, f1, by rw [← recipeSyn_gauss]; exact g1, w2, hF, hG, f3, g3, w1, ?_⟩
  have hl : (List.zipWith (fun f g => (f + g) * uFlux.scale) F G).length = data.rows.length := by simp [hF, hG]
  generalize List.zipWith (fun f g => (f + g) * uFlux.scale) F G = M at hl hm ⊢
  have hll : lnprobmodel ⟨M.map fin, uFlux⟩ data =
      .ok (fin (gaussLnL (List.zipWith (fun m r => inKind data m r) M data.rows) data.rows)) := by
    rcases hk with hk | hk
    · have hne : ¬ data.fluxU.dim = Dim.flux := by rw [hk]; decide
      have : List.zipWith (fun m r => inKind data m r) M data.rows = M := by
        simp only [inKind, hne, if_false]
        have k : ∀ (M : List ℝ) (R : List Row), M.length = R.length → List.zipWith (fun m (_ : Row) => m) M R = M := by
          intro M
          induction M with
          | nil => simp
          | cons m M ih =>
            intro R h
            cases R with
            | nil => simp at h
            | cons r R => simp only [List.zipWith_cons_cons, ih R (by simpa using h)]
        exact k M _ hl
      rw [this]
      exact C40_gaussian M uFlux data hd hl (by rw [hk]; rfl) hul
    · have k := C40_model_representation (M.map fin) uFlux uSed data hd (by simpa using hl)
        (Or.inl ⟨rfl, rfl, Or.inl hk⟩)
      rw [← k]
      have e : List.zipWith (fun (x : XR) (r : Row) => fin (r.energy ^ 2) * x) (M.map fin) data.rows =
          (List.zipWith (fun m r => inKind data m r) M data.rows).map fin := by
        simp only [inKind, hk, if_true]
        have k : ∀ (M : List ℝ) (R : List Row), List.zipWith (fun (x : XR) (r : Row) => fin (r.energy ^ 2) * x) (M.map fin) R =
            (List.zipWith (fun m (r : Row) => r.energy ^ 2 * m) M R).map fin := by
          intro M
          induction M with
          | nil => simp
          | cons m M ih =>
            intro R
            cases R with
            | nil => simp
            | cons r R => simp only [List.map_cons, List.zipWith_cons_cons, ih R, XR.mul_fin]
        exact k M _
      rw [e]
      exact C40_gaussian _ uSed data hd (by simp [hl]) (by rw [hk]; rfl) hul
  simp only [rxjLnprob, lnprob, priorValue, C135_prior, if_pos hp, hm, splitOutput, totalLnprob, isInf, hll, bind, Except.bind,
    pure, Except.pure, Except.map, XR.add_fin, add_zero, Bool.false_eq_true, if_false]

/-- **C135 (upper limits).** The same for tables of differential fluxes with upper limits of one common confidence level
`c < 1` and at least one measured point: each limit the summed flux exceeds adds the logarithm of `1 - c`. -/
theorem C135_upper_limits (p0 alpha p2 B : ℝ) (rest : List ℝ) (hp : InPrior p0 alpha B) (hB : B ≠ 0) (data : VTable)
    (hd : GoodData data) (c : ℝ) (hc : c < 1) (hcl : ∀ r ∈ data.rows, r.cl = fin c) (hm1 : ∃ r ∈ data.rows, r.ul = false)
    (hk : data.fluxU.dim = Dim.diffFlux) :
    ∃ (F G : List ℝ) (W : ℝ), rxjICFlux (rxjElectrons p0 alpha p2) (energiesOf data) = .ok ⟨F.map fin, uFlux⟩ ∧
      recipeSynFlux B (rxjElectrons p0 alpha p2) (energiesOf data) = .ok ⟨G.map fin, uFlux⟩ ∧
      rxjLnprob (p0 :: alpha :: p2 :: B :: rest) data =
        .ok (fin (lnL (List.zipWith (fun f g => (f + g) * uFlux.scale) F G) data.rows (fun _ => c)),
          [.spec ⟨(List.zipWith (fun f g => (f + g) * uFlux.scale) F G).map fin, uFlux⟩, .other (fin W)]) := by
  obtain ⟨F, G, W, f1, g1, hF, hG, f3, g3, w1, w2, hm⟩ :=
    rxj_model p0 alpha p2 B rest (lt_of_le_of_ne hp.2.2.2 (Ne.symm hB)) data hd
  refine ⟨F, G, W, f1, g1, ?_⟩
  have hl : (List.zipWith (fun f g => (f + g) * uFlux.scale) F G).length = data.rows.length := by simp [hF, hG]
  generalize List.zipWith (fun f g => (f + g) * uFlux.scale) F G = M at hl hm ⊢
  have hll := C41_common_cl_partial M uFlux data hd hl (by rw [hk]; rfl) c hc hcl (by
    obtain ⟨r, hr, hu⟩ := hm1
    obtain ⟨i, hi, rfl⟩ := List.getElem_of_mem hr
    refine ⟨(M[i]'(by omega), data.rows[i]), ?_, Or.inl hu⟩
    rw [List.mem_iff_getElem]
    exact ⟨i, by simp [hl, hi], by simp⟩)
  simp only [rxjLnprob, lnprob, priorValue, C135_prior, if_pos hp, hm, splitOutput, totalLnprob, isInf, hll, bind, Except.bind,
    pure, Except.pure, Except.map, XR.add_fin, add_zero, Bool.false_eq_true, if_false]

/-- **C135 (outside the prior).** With a positive field the log-probability of any other vector is minus infinity; the model
is computed all the same and its blobs are returned. -/
theorem C135_outside (p0 alpha p2 B : ℝ) (rest : List ℝ) (hp : ¬ InPrior p0 alpha B) (hB : 0 < B) (data : VTable)
    (hd : GoodData data) :
    ∃ (F G : List ℝ) (W : ℝ), rxjICFlux (rxjElectrons p0 alpha p2) (energiesOf data) = .ok ⟨F.map fin, uFlux⟩ ∧
      recipeSynFlux B (rxjElectrons p0 alpha p2) (energiesOf data) = .ok ⟨G.map fin, uFlux⟩ ∧
      rxjLnprob (p0 :: alpha :: p2 :: B :: rest) data = .ok (ninf,
        [.spec ⟨(List.zipWith (fun f g => (f + g) * uFlux.scale) F G).map fin, uFlux⟩, .other (fin W)]) := by
  obtain ⟨F, G, W, f1, g1, -, -, -, -, -, -, hm⟩ := rxj_model p0 alpha p2 B rest hB data hd
  refine ⟨F, G, W, f1, g1, ?_⟩
  simp only [rxjLnprob, lnprob, priorValue, C135_prior, if_neg hp, hm, splitOutput, totalLnprob, isInf, bind, Except.bind,
    pure, Except.pure, if_true]

/-- **C135 (too few parameters).** -/
theorem C135_errors (pars : List ℝ) (data : VTable) (h : pars.length < 4) :
    rxjLnprob pars data = .error .indexError := by
  match pars, h with
  | [], _ => rfl
  | [_], _ => rfl
  | [_, _], _ => rfl
  | [_, _, _], _ => rfl
  | _ :: _ :: _ :: _ :: r, h => simp only [List.length_cons] at h; omega

/-! ### A field of zero -/

theorem lnTerm_nan (r : Row) : lnTerm nan r = nan := by
  unfold lnTerm
  have h : (nan : XR) - fin r.flux = nan := rfl
  rw [h]
  rfl

theorem lnCore_nan (n : ℕ) (rows : List Row) (hn : n = rows.length) (hne : rows ≠ []) (hul : ∀ r ∈ rows, r.ul = false) :
    lnCore (List.replicate n nan) rows = .ok nan := by
  subst hn
  have hz : (List.replicate rows.length nan).zip rows = rows.map (fun r => (nan, r)) := by
    clear hne hul
    induction rows with
    | nil => rfl
    | cons r rows ih => simp only [List.length_cons, List.replicate_succ, List.zip_cons_cons, List.map_cons, ih]
  have hf : (rows.map (fun r => ((nan : XR), r))).filter (fun p => !p.2.ul) = rows.map (fun r => (nan, r)) := by
    rw [List.filter_eq_self]
    intro p hp
    obtain ⟨r, hr, rfl⟩ := List.mem_map.1 hp
    simp [hul r hr]
  have ha : (rows.map (fun r => ((nan : XR), r))).any (fun p => p.2.ul) = false := by
    rw [List.any_eq_false]
    intro p hp
    obtain ⟨r, hr, rfl⟩ := List.mem_map.1 hp
    simp [hul r hr]
  unfold lnCore
  simp only [List.length_replicate, ne_eq, not_true_eq_false, if_false, hz, hf, ha, Bool.false_eq_true]
  congr 1
  cases rows with
  | nil => exact absurd rfl hne
  | cons r rows => simp only [List.map_cons, XR.sum_cons, lnTerm_nan, XR.nan_add]

/-- **C135 (no field).** The prior is meant to keep the field positive but admits the value 0, where the log-probability is
NaN whatever the other parameters and the data. -/
theorem C135_zero_field (p0 alpha p2 : ℝ) (rest : List ℝ) (hp : InPrior p0 alpha 0) (data : VTable)
    (hd : GoodData data) (hne : data.rows ≠ []) (hul : ∀ r ∈ data.rows, r.ul = false)
    (hk : data.fluxU.dim = Dim.diffFlux) :
    ∃ blobs, rxjLnprob (p0 :: alpha :: p2 :: 0 :: rest) data = .ok (nan, blobs) := by
  have he : ∀ x ∈ (energiesOf data).value, 0 < x := by
    intro x hx
    obtain ⟨r, hr, rfl⟩ := List.mem_map.1 hx
    exact hd.energy r hr
  have h1 : (0 : ℝ) < (energiesOf data).unit.scale := by simp [energiesOf, PhysUnit.erg]
  have he' : ∀ x ∈ (energiesOf data).value.map (· * (energiesOf data).unit.scale), 0 < x := by
    intro x hx
    obtain ⟨y, hy, rfl⟩ := List.mem_map.1 hx
    exact mul_pos (he y hy) h1
  obtain ⟨F, f1, f2, f3⟩ := rxj_ic p0 alpha p2 (energiesOf data) rfl h1 he
  obtain ⟨W, w1, w2⟩ := rxj_We p0 alpha p2
  have hz : (DistArg.qty ⟨1, kpc⟩).isZero = false := by simp [DistArg.isZero]
  have hc : (DistArg.qty ⟨1, kpc⟩).cm = .ok (1 * kpc.scale) := by simp [DistArg.cm, kpc]
  have g1 : recipeSynFlux 0 (rxjElectrons p0 alpha p2) (energiesOf data) =
      .ok ⟨List.replicate data.rows.length nan, uFlux⟩ := by
    have hS := C14_false_zero_field (recipeSyn 0) (rxjElectrons p0 alpha p2) rfl
      ⟨rfl, by norm_num [recipeSyn, PhysUnit.GeV], by norm_num [recipeSyn]⟩ eemax_pos
      (by simp only [recipeSyn, Qty.phys, eemaxDefault, PhysUnit.GeV, PhysUnit.erg, cMec2, cMe, cC]; norm_num)
      rfl rfl _ he'
    have hdim : (energiesOf data).unit.dim = Dim.energy := rfl
    simp only [recipeSynFlux, fluxOf, energiesErg, hdim, if_true, hS, hz, hc, bind, Except.bind, pure, Except.pure,
      Bool.false_eq_true, if_false]
    congr 2
    rw [List.map_map, List.eq_replicate_iff]
    refine ⟨by simp [energiesOf], fun b hb => ?_⟩
    obtain ⟨x, -, rfl⟩ := List.mem_map.1 hb
    rfl
  have hl : F.length = data.rows.length := f2.trans (by simp [energiesOf])
  have hadd : List.zipWith (fun x y : XR => x + y) (F.map fin) (List.replicate data.rows.length nan) =
      List.replicate data.rows.length nan := by
    rw [List.eq_replicate_iff]
    refine ⟨by simp [hl], fun b hb => ?_⟩
    obtain ⟨i, hi, rfl⟩ := List.getElem_of_mem hb
    simp only [List.getElem_zipWith, List.getElem_replicate]
    exact XR.add_nan _
  have hm : rxjModel (p0 :: alpha :: p2 :: 0 :: rest) data = .ok (.iterable
        [.spec ⟨List.replicate data.rows.length nan, uFlux⟩, .other (fin W)]) := by
    have : electronSynIC (p0 :: alpha :: p2 :: 0 :: rest) (energiesOf data) =
        .ok (⟨List.replicate data.rows.length nan, uFlux⟩, fin W) := by
      simp only [electronSynIC, f1, g1, w2, bind, Except.bind, pure, Except.pure, hadd]
    unfold rxjModel
    rw [show (⟨data.rows.map (·.energy), PhysUnit.erg⟩ : Qty (List ℝ)) = energiesOf data from rfl, this]
    simp only [Except.map, List.map_replicate]
    rfl
  have hll : lnprobmodel ⟨List.replicate data.rows.length nan, uFlux⟩ data = .ok nan := by
    have ht : toDataKind ⟨List.replicate data.rows.length nan, uFlux⟩ data = .ok (List.replicate data.rows.length nan) := by
      have : uFlux.dim = data.fluxU.dim := by rw [hk]; rfl
      simp only [toDataKind, this, ne_eq, not_true_eq_false, if_false, if_true]
    rw [lnprobmodel_eq, ht]
    exact lnCore_nan _ _ rfl hne hul
  refine ⟨[.spec ⟨List.replicate data.rows.length nan, uFlux⟩, .other (fin W)], ?_⟩
  simp only [rxjLnprob, lnprob, priorValue, C135_prior, if_pos hp, hm, splitOutput, totalLnprob, isInf, hll, bind, Except.bind,
    pure, Except.pure, Except.map, XR.nan_add, Bool.false_eq_true, if_false]

/-! ### The hypotheses are met -/

/-- The starting point of the example with a field of 10 microgauss, and two points of differential flux at 1 keV and 1 TeV. -/
example : ∃ (data : VTable) (l : ℝ) (blobs : List (Blob XR)), data.rows.length = 2 ∧ InPrior 33 2.5 10 ∧
    rxjLnprob [33, 2.5, 1.68, 10] data = .ok (fin l, blobs) ∧
    (∃ b, rxjLnprob [33, 6, 1.68, 10] data = .ok (ninf, b)) ∧ ∃ b, rxjLnprob [33, 2.5, 1.68, 0] data = .ok (nan, b) := by
  have hg : GoodData { ulTable [normRow 2 1 1 1 false, normRow 5 1 2 2 false] with fluxU := ⟨1, Dim.diffFlux⟩ } :=
    ⟨by simp [ulTable, normRow], by simp [ulTable, normRow], by simp [ulTable, normRow]⟩
  have hp : InPrior 33 2.5 10 := ⟨by norm_num, by norm_num, by norm_num, by norm_num⟩
  obtain ⟨F, G, W, -, -, -, -, -, -, -, -, h⟩ := C135_within 33 2.5 1.68 10 [] hp (by norm_num) _ hg
    (by simp [ulTable, normRow]) (Or.inl rfl)
  obtain ⟨F', G', W', -, -, h'⟩ := C135_outside 33 6 1.68 10 [] (by intro h; have := h.2.2.1; norm_num at this)
    (by norm_num) _ hg
  exact ⟨_, _, _, rfl, hp, h, ⟨_, h'⟩, C135_zero_field 33 2.5 1.68 [] ⟨by norm_num, by norm_num, by norm_num, le_rfl⟩ _ hg
    (by simp [ulTable]) (by simp [ulTable, normRow]) rfl⟩

/-- A measured point and an upper limit. -/
example : ∃ (data : VTable) (l : ℝ) (b : List (Blob XR)), (∃ r ∈ data.rows, r.ul = true) ∧
    rxjLnprob [33, 2.5, 1.68, 10] data = .ok (fin l, b) := by
  have hp : InPrior 33 2.5 10 := ⟨by norm_num, by norm_num, by norm_num, by norm_num⟩
  let rows : List Row := [normRow 2 1 1 1 false, normRow 5 1 2 2 true].map (fun r => { r with cl := fin 0.9 })
  obtain ⟨F, G, W, -, -, h⟩ := C135_upper_limits 33 2.5 1.68 10 [] hp (by norm_num)
    { ulTable rows with fluxU := ⟨1, Dim.diffFlux⟩ }
    ⟨by simp [ulTable, normRow, rows], by simp [ulTable, normRow, rows], by simp [ulTable, normRow, rows]⟩ 0.9 (by norm_num)
    (by simp [ulTable, normRow, rows]) (by simp [ulTable, normRow, rows]) rfl
  exact ⟨_, _, _, by simp [ulTable, normRow, rows], h⟩

end

end Naima.Props
