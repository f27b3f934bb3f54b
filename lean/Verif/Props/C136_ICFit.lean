import Verif.Props.C135_Fit

/-!
# C136: the documented inverse Compton fit
-/

namespace Naima.Props

open Naima XR Classical Naima.Spec

noncomputable section

/-- The electrons of the example: `A` per eV at 10 TeV but for the cutoff, slope `-alpha`, cutoff at `10^p2` TeV; `x` in TeV. -/
def icElectrons (A alpha p2 x : ℝ) : ℝ := A * (x / 10) ^ (-alpha) * Real.exp (-(x / 10 ^ p2))

/-- **C136 (prior).** -/
theorem C136_prior (A alpha : ℝ) (rest : List ℝ) :
    rxjICPrior (A :: alpha :: rest) = .ok (if 0 ≤ A ∧ -1 ≤ alpha ∧ alpha ≤ 5 then fin 0 else ninf) := by
  simp only [rxjICPrior, uniform_real, le_pinf', and_true, XR.le_fin]
  congr 1
  by_cases h1 : 0 ≤ A <;> by_cases h2 : -1 ≤ alpha ∧ alpha ≤ 5 <;>
    simp only [h1, h2, true_and, and_true, false_and, and_false, if_true, if_false] <;>
    first
      | rfl
      | (simp only [XR.add_fin]; norm_num)

theorem rxjEcpl_call (A alpha p2 : ℝ) (q : Qty ℝ) (hq : q.PosEnergy) :
    (rxjEcpl A alpha p2).call q.lift = .ok (fin (icElectrons A alpha p2 (q.phys / PhysUnit.TeV.scale))) := by
  have hT : (0 : ℝ) < PhysUnit.TeV.scale := by norm_num [PhysUnit.TeV]
  have h := C22_exponential_cutoff_power_law A alpha 1 q ⟨10, PhysUnit.TeV⟩ ⟨10 ^ p2, PhysUnit.TeV⟩ hq
    ⟨rfl, hT, by norm_num⟩ ⟨rfl, hT, Real.rpow_pos_of_pos (by norm_num) _⟩
  have : (rxjEcpl A alpha p2).call q.lift =
      .ok (fin (Spec.ecpl A alpha 1 (q.phys / (10 * PhysUnit.TeV.scale)) (q.phys / (10 ^ p2 * PhysUnit.TeV.scale)))) := h
  rw [this]
  congr 2
  unfold Spec.ecpl icElectrons
  rw [Real.rpow_one]
  congr 2
  · rw [div_div, mul_comm PhysUnit.TeV.scale]
  · rw [div_div, mul_comm PhysUnit.TeV.scale]

theorem rxjEcpl_pdist (A alpha p2 E : ℝ) (hE : 0 < E) : ((rxjEcpl A alpha p2).toPDist perEV).f E =
    fin (icElectrons A alpha p2 (E / PhysUnit.TeV.scale)) := by
  have e1 := rxjEcpl_call A alpha p2 ⟨E, PhysUnit.erg⟩ (inErg E hE).1
  rw [(inErg E hE).2] at e1
  have e2 : (rxjEcpl A alpha p2).call ⟨fin E, PhysUnit.erg⟩ = _ := e1
  simp only [ECPL.toPDist, e2]

theorem icElectrons_nonneg (A alpha p2 E : ℝ) (hA : 0 ≤ A) (hE : 0 < E) :
    0 ≤ icElectrons A alpha p2 (E / PhysUnit.TeV.scale) := by
  have hT : (0 : ℝ) < PhysUnit.TeV.scale := by norm_num [PhysUnit.TeV]
  unfold icElectrons
  positivity

theorem rxjICFlux_ok (pd : PDist) (hu : pd.unit = perEV) (hpd : ∀ E, 0 < E → FiniteNonneg (pd.f E)) (e : Qty (List ℝ))
    (hd : e.unit.dim = Dim.energy) (hs : 0 < e.unit.scale) (he : ∀ x ∈ e.value, 0 < x) :
    ∃ F : List ℝ, rxjICFlux pd e = .ok ⟨F.map fin, uFlux⟩ ∧ F.length = e.value.length ∧ ∀ f ∈ F, 0 ≤ f := by
  refine recipe_flux _ e hd ?_
  obtain ⟨fs, ss, h1, h2, h3, h4⟩ := rxj_parse
  obtain ⟨out, ho, hl, hn⟩ := C15_spectrum rxjIC pd (by rw [hu]; rfl) (by rw [hu]; exact perEV_pos)
    hpd ⟨rfl, by norm_num [rxjIC, PhysUnit.GeV], by norm_num [rxjIC]⟩ eemax_pos
    (by simp only [rxjIC, Qty.phys, eemaxDefault, PhysUnit.GeV, PhysUnit.erg, cMec2, cMe, cC]; norm_num)
    ss h3 h4 (e.value.map (· * e.unit.scale)) (by
      intro x hx
      obtain ⟨y, hy, rfl⟩ := List.mem_map.1 hx
      exact mul_pos (he y hy) hs)
  refine ⟨out, ?_, by simpa using hl, hn⟩
  simp only [icModelSpectrum, h1, h2, bind, Except.bind, ho]

theorem rxjIC_We (pd : PDist) (hu : pd.unit = perEV) (N : ℝ → ℝ) (hN : ∀ E, 0 < E → pd.f E = fin (N E) ∧ 0 ≤ N E) :
    ∃ W : ℝ, 0 ≤ W ∧ rxjIC.computeWe pd (some ⟨1, PhysUnit.TeV⟩) none = .ok (fin W) := by
  have hT : (0 : ℝ) < PhysUnit.TeV.scale := by norm_num [PhysUnit.TeV]
  have hlo : (⟨1, PhysUnit.TeV⟩ : Qty ℝ).PosEnergy := ⟨rfl, hT, by norm_num⟩
  have hp : Population pd (fun E => N E * perEV.scale) (⟨1, PhysUnit.TeV⟩ : Qty ℝ).phys eemaxDefault.phys := by
    refine ⟨by rw [hu]; rfl, by rw [hu]; exact perEV_pos, fun E hE => ?_⟩
    have hE' : 0 < E := hlo.phys_pos.trans_le hE.1
    exact ⟨N E, (hN E hE').1, (hN E hE').2, by rw [hu]⟩
  obtain ⟨W, W', h1, -, h2, -⟩ := C133_compute_We rxjIC ⟨1, PhysUnit.TeV⟩ eemaxDefault hlo eemax_pos
    (by simp only [Qty.phys, eemaxDefault, PhysUnit.TeV, PhysUnit.erg, cMec2, cMe, cC]; norm_num) 0 le_rfl one_pos _ _ _ _
    hp hp (by intro E _; simp)
  exact ⟨W, h2, h1⟩

/-- the energies at which the electrons are saved: 100 values from 1e11 to 1e15 eV -/
theorem rxjEnergies_pos : ∀ x ∈ rxjEnergies, 0 < x := by
  intro x hx
  obtain ⟨i, -, rfl⟩ := List.mem_map.1 hx
  exact Real.rpow_pos_of_pos (by norm_num) _

theorem rxjEnergies_range : rxjEnergies.length = 100 ∧ rxjEnergies.head? = some 1e11 ∧ rxjEnergies.getLast? = some 1e15 := by
  refine ⟨by simp [rxjEnergies, logspace], ?_, ?_⟩
  · rw [rxjEnergies, logspace, List.head?_eq_getElem?, List.getElem?_map, List.getElem?_range (by norm_num), Option.map_some]
    rw [show (11 : ℝ) + ((0 : ℕ) : ℝ) * ((15 - 11) / (((100 : ℕ) : ℝ) - 1)) = ((11 : ℕ) : ℝ) by norm_num, Real.rpow_natCast]
    norm_num
  · rw [rxjEnergies, logspace, List.getLast?_eq_getElem?, List.length_map, List.length_range, List.getElem?_map,
      List.getElem?_range (by norm_num), Option.map_some]
    rw [show (11 : ℝ) + ((100 - 1 : ℕ) : ℝ) * ((15 - 11) / (((100 : ℕ) : ℝ) - 1)) = ((15 : ℕ) : ℝ) by norm_num, Real.rpow_natCast]
    norm_num

theorem rxjEcpl_list (A alpha p2 : ℝ) (l : List ℝ) (h : ∀ x ∈ l, 0 < x) :
    l.mapM (fun x => (rxjEcpl A alpha p2).call ⟨fin x, PhysUnit.eV⟩) =
      .ok (l.map (fun x => fin (icElectrons A alpha p2 (x * PhysUnit.eV.scale / PhysUnit.TeV.scale)))) := by
  induction l with
  | nil => rfl
  | cons x l ih =>
    have hx : (⟨x, PhysUnit.eV⟩ : Qty ℝ).PosEnergy := ⟨rfl, by norm_num [PhysUnit.eV], h x (by simp)⟩
    have h1 : (rxjEcpl A alpha p2).call ⟨fin x, PhysUnit.eV⟩ = _ := rxjEcpl_call A alpha p2 ⟨x, PhysUnit.eV⟩ hx
    rw [List.mapM_cons, h1, ih (fun y hy => h y (by simp [hy]))]
    rfl

/-! ### The fit -/

theorem toArr_back (L : List ℝ) (u : PhysUnit) (hu : u.dim = Dim.diffFlux) (hs : 0 < u.scale) :
    ∃ q, Qty.toArr ⟨L.map fin, uFlux⟩ u = .ok q ∧ q.unit = u ∧
      q.value.map (· * fin q.unit.scale) = (L.map (fun f => f * uFlux.scale)).map fin := by
  have : uFlux.dim = u.dim := by rw [hu]; rfl
  refine ⟨⟨(L.map fin).map (fun x => x * fin (uFlux.scale / u.scale)), u⟩, by simp only [Qty.toArr, this, if_true], rfl, ?_⟩
  simp only [List.map_map]
  refine List.map_congr_left (fun f _ => ?_)
  simp only [Function.comp_apply, XR.mul_fin]
  congr 1
  field_simp

/-- What the model function returns for norms `≥ 0`. -/
theorem electronIC_ok (A alpha p2 : ℝ) (rest : List ℝ) (hA : 0 ≤ A) (data : VTable) (hd : GoodData data)
    (hk : data.fluxU.dim = Dim.diffFlux) (hs : 0 < data.fluxU.scale) :
    ∃ (F : List ℝ) (W : ℝ), rxjICFlux ((rxjEcpl A alpha p2).toPDist perEV) (energiesOf data) = .ok ⟨F.map fin, uFlux⟩ ∧
      F.length = data.rows.length ∧ (∀ f ∈ F, 0 ≤ f) ∧ 0 ≤ W ∧
      rxjIC.computeWe ((rxjEcpl A alpha p2).toPDist perEV) (some ⟨1, PhysUnit.TeV⟩) none = .ok (fin W) ∧
      electronIC (A :: alpha :: p2 :: rest) data = .ok (.iterable
        [.spec ⟨(F.map (fun f => f * uFlux.scale)).map fin, data.fluxU⟩,
         .other (.electrons rxjEnergies
          (rxjEnergies.map (fun x => fin (icElectrons A alpha p2 (x * PhysUnit.eV.scale / PhysUnit.TeV.scale))))),
         .other (.energy (fin W))]) := by
  have he : ∀ x ∈ (energiesOf data).value, 0 < x := by
    intro x hx
    obtain ⟨r, hr, rfl⟩ := List.mem_map.1 hx
    exact hd.energy r hr
  have h1 : (0 : ℝ) < (energiesOf data).unit.scale := by simp [energiesOf, PhysUnit.erg]
  obtain ⟨F, f1, f2, f3⟩ := rxjICFlux_ok ((rxjEcpl A alpha p2).toPDist perEV) rfl
    (fun E hE => ⟨_, icElectrons_nonneg A alpha p2 E hA hE, rxjEcpl_pdist A alpha p2 E hE⟩) (energiesOf data) rfl h1 he
  obtain ⟨W, w1, w2⟩ := rxjIC_We ((rxjEcpl A alpha p2).toPDist perEV) rfl _
    (fun E hE => ⟨rxjEcpl_pdist A alpha p2 E hE, icElectrons_nonneg A alpha p2 E hA hE⟩)
  obtain ⟨q, q1, q2, q3⟩ := toArr_back F data.fluxU hk hs
  refine ⟨F, W, f1, f2.trans (by simp [energiesOf]), f3, w1, w2, ?_⟩
  have f1' : rxjICFlux ((rxjEcpl A alpha p2).toPDist perEV) ⟨data.rows.map (·.energy), PhysUnit.erg⟩ = _ := f1
  simp only [electronIC, f1', q1, rxjEcpl_list A alpha p2 _ rxjEnergies_pos, w2, bind, Except.bind, pure, Except.pure]
  rw [q3, q2]

/-- **C136 (within the prior).** For every norm `A ≥ 0` — none included —, index between -1 and 5 and cutoff, and every
validated table of measured differential fluxes in any unit, the log-probability is exactly minus half the sum of the squared
normalised deviations of the data from the inverse Compton flux of the electrons, and the blobs are that flux in the unit of
the data, the electrons at 100 energies from 1e11 to 1e15 eV, and the energy in the electrons above 1 TeV. -/
theorem C136_within (A alpha p2 : ℝ) (rest : List ℝ) (hA : 0 ≤ A) (h1 : -1 ≤ alpha) (h2 : alpha ≤ 5) (data : VTable)
    (hd : GoodData data) (hul : ∀ r ∈ data.rows, r.ul = false) (hk : data.fluxU.dim = Dim.diffFlux)
    (hs : 0 < data.fluxU.scale) :
    ∃ (F : List ℝ) (W : ℝ) (es : List ℝ),
      fluxOf (icModelSpectrum ⟨⟨100, PhysUnit.GeV⟩, eemaxDefault, 100⟩
        (.list [.str "CMB", .list3 "FIR" (.qty (fin 26.5) kelvin) (.qty (fin 0.415) eVcm3)])
        ((rxjEcpl A alpha p2).toPDist perEV)) (energiesOf data) (.qty ⟨1, kpc⟩) = .ok ⟨F.map fin, uFlux⟩ ∧
      ElModel.computeWe ⟨⟨100, PhysUnit.GeV⟩, eemaxDefault, 100⟩ ((rxjEcpl A alpha p2).toPDist perEV)
        (some ⟨1, PhysUnit.TeV⟩) none = .ok (fin W) ∧
      (∀ f ∈ F, 0 ≤ f) ∧ 0 ≤ W ∧
      es.length = 100 ∧ es.head? = some 1e11 ∧ es.getLast? = some 1e15 ∧
      rxjICLnprob (A :: alpha :: p2 :: rest) data =
        .ok (fin (gaussLnL (F.map (fun f => f * uFlux.scale)) data.rows),
          [.spec ⟨(F.map (fun f => f * uFlux.scale)).map fin, data.fluxU⟩,
           .other (.electrons es (es.map (fun x => fin (icElectrons A alpha p2 (x * PhysUnit.eV.scale / PhysUnit.TeV.scale))))),
           .other (.energy (fin W))]) := by
  obtain ⟨F, W, f1, f2, f3, w1, w2, hm⟩ := electronIC_ok A alpha p2 rest hA data hd hk hs
  refine ⟨F, W, rxjEnergies, f1, w2, f3, w1, rxjEnergies_range.1, rxjEnergies_range.2.1, rxjEnergies_range.2.2, ?_⟩
  have hll := C40_gaussian (F.map (fun f => f * uFlux.scale)) data.fluxU data hd (by simp [f2]) rfl hul
  simp only [rxjICLnprob, lnprob, priorValue, C136_prior, if_pos (show 0 ≤ A ∧ -1 ≤ alpha ∧ alpha ≤ 5 from ⟨hA, h1, h2⟩), hm,
    splitOutput, totalLnprob, isInf, hll, bind, Except.bind, pure, Except.pure, Except.map, XR.add_fin, add_zero,
    Bool.false_eq_true, if_false]

/-- **C136 (electrons).** The particle distribution of the model is the one whose values are saved. -/
theorem C136_electrons (A alpha p2 : ℝ) : ((rxjEcpl A alpha p2).toPDist perEV).unit = ⟨1 / cEV, Dim.diffEnergy⟩ ∧
    ∀ E > 0, ((rxjEcpl A alpha p2).toPDist perEV).f E =
      fin (A * (E / PhysUnit.TeV.scale / 10) ^ (-alpha) * Real.exp (-(E / PhysUnit.TeV.scale / 10 ^ p2))) :=
  ⟨rfl, fun E hE => rxjEcpl_pdist A alpha p2 E hE⟩

/-- **C136 (index out of range).** The log-probability is minus infinity. -/
theorem C136_outside (A alpha p2 : ℝ) (rest : List ℝ) (hA : 0 ≤ A) (h : ¬ (-1 ≤ alpha ∧ alpha ≤ 5)) (data : VTable)
    (hd : GoodData data) (hk : data.fluxU.dim = Dim.diffFlux) (hs : 0 < data.fluxU.scale) :
    ∃ blobs, rxjICLnprob (A :: alpha :: p2 :: rest) data = .ok (ninf, blobs) := by
  obtain ⟨F, W, -, -, -, -, -, hm⟩ := electronIC_ok A alpha p2 rest hA data hd hk hs
  refine ⟨[.spec ⟨(F.map (fun f => f * uFlux.scale)).map fin, data.fluxU⟩, .other (.electrons rxjEnergies (rxjEnergies.map
    (fun x => fin (icElectrons A alpha p2 (x * PhysUnit.eV.scale / PhysUnit.TeV.scale))))), .other (.energy (fin W))], ?_⟩
  simp only [rxjICLnprob, lnprob, priorValue, C136_prior, if_neg (show ¬ (0 ≤ A ∧ -1 ≤ alpha ∧ alpha ≤ 5) from
    fun k => h k.2), hm, splitOutput, totalLnprob, isInf, bind, Except.bind, pure, Except.pure, if_true]

/-- **C136 (tables of spectral energies).** The example converts its flux to the unit of the data, so a table that is not one
of differential fluxes raises UnitConversionError, whatever the parameters with norm `≥ 0`. -/
theorem C136_sed_table (A alpha p2 : ℝ) (rest : List ℝ) (hA : 0 ≤ A) (data : VTable) (hd : GoodData data)
    (hk : data.fluxU.dim ≠ Dim.diffFlux) :
    rxjICLnprob (A :: alpha :: p2 :: rest) data = .error .unitConversionError := by
  have he : ∀ x ∈ (energiesOf data).value, 0 < x := by
    intro x hx
    obtain ⟨r, hr, rfl⟩ := List.mem_map.1 hx
    exact hd.energy r hr
  have h1 : (0 : ℝ) < (energiesOf data).unit.scale := by simp [energiesOf, PhysUnit.erg]
  obtain ⟨F, f1, -⟩ := rxjICFlux_ok ((rxjEcpl A alpha p2).toPDist perEV) rfl
    (fun E hE => ⟨_, icElectrons_nonneg A alpha p2 E hA hE, rxjEcpl_pdist A alpha p2 E hE⟩) (energiesOf data) rfl h1 he
  have f1' : rxjICFlux ((rxjEcpl A alpha p2).toPDist perEV) ⟨data.rows.map (·.energy), PhysUnit.erg⟩ = _ := f1
  have : ¬ uFlux.dim = data.fluxU.dim := fun h => hk (by rw [← h]; rfl)
  have hm : electronIC (A :: alpha :: p2 :: rest) data = .error .unitConversionError := by
    simp only [electronIC, f1', Qty.toArr, this, if_false, bind, Except.bind]
  simp only [rxjICLnprob, lnprob, priorValue, C136_prior, hm, bind, Except.bind]

/-! ### The hypotheses are met -/

/-- The starting point of the example and a norm of zero. -/
example : ∃ (data : VTable) (l l0 : ℝ) (b b0 : List (Blob RxjBlob)), data.rows.length = 2 ∧
    rxjICLnprob [1e30, 3, 1.48] data = .ok (fin l, b) ∧ rxjICLnprob [0, 3, 1.48] data = .ok (fin l0, b0) ∧
    ∃ b1, rxjICLnprob [1e30, 6, 1.48] data = .ok (ninf, b1) := by
  have hg : GoodData { ulTable [normRow 2 1 1 1 false, normRow 5 1 2 2 false] with fluxU := ⟨1, Dim.diffFlux⟩ } :=
    ⟨by simp [ulTable, normRow], by simp [ulTable, normRow], by simp [ulTable, normRow]⟩
  obtain ⟨F, W, es, -, -, -, -, -, -, -, h⟩ := C136_within 1e30 3 1.48 [] (by norm_num) (by norm_num) (by norm_num) _ hg
    (by simp [ulTable, normRow]) rfl one_pos
  obtain ⟨F0, W0, es0, -, -, -, -, -, -, -, h0⟩ := C136_within 0 3 1.48 [] le_rfl (by norm_num) (by norm_num) _ hg
    (by simp [ulTable, normRow]) rfl one_pos
  exact ⟨_, _, _, _, _, rfl, h, h0, C136_outside 1e30 6 1.48 [] (by norm_num) (by norm_num) _ hg rfl one_pos⟩

end

end Naima.Props
