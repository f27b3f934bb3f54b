import Verif.Props.C19_C20_Pion
import Verif.Props.C21_LUT
import Verif.Props.C57_Sherpa
import Verif.Props.C71_Arguments
import Verif.Props.C72_BremsFormula
import Verif.Props.C73_PionFormula

/-! # C21 and C57 down to the numbers -/

namespace Naima.Props

open Naima XR Classical

/-- **C21 (spectrum with a table).** After every history of changes and evaluations of a `PionDecay` object:
if lookup tables are in use (see `C21_selection`) the spectrum at `E` erg is the target density times
`c` times the log-log integral over the proton energies of (table for the *current* `hiEmodel` and
`nuclear_enhancement`, read at proton energy and photon energy in GeV, in this order) × protons per
GeV, in 1/(s eV). -/
theorem C21_spectrum_table (files : String → Option (ℝ → ℝ → XR)) (useLUT nuc : Bool) (hiE : HiE)
    (evs : List LUTEvent) (m : PionModel) (pd : PDist) (hu : pd.unit.dim = Dim.diffEnergy)
    (hlo : m.Epmin.PosEnergy) (hhi : m.Epmax.PosEnergy) (hle : m.Epmin.phys ≤ m.Epmax.phys)
    (hn : m.nh.unit.dim = Dim.numDensity) (tbl : FTable) (es : List ℝ) (hne : es ≠ []) :
    let installed := fun f => (files f).isSome
    let w := wanted installed useLUT nuc hiE evs
    ∀ lut, w.useLUT = true → w.missed = false → files (lutName w.nuc w.hiE) = some lut →
    ∃ ep, m.toPrModel.Ep = .ok ep ∧
      m.eval files ((LUTState.init useLUT nuc hiE).run installed evs) pd tbl es =
        .ok (tbl, es.map (fun E =>
          trapzLL (ep.map (fun e => (fin e, lut e (E / (1e9 * cEV)) * protons pd e))) *
            fin (m.nh.phys * cC) * fin 1e-9)) := by
  intro installed w lut h1 h2 h3
  obtain ⟨ep, hep, hbnd, -⟩ := epGrid_facts m.toPrModel hlo hhi hle
  refine ⟨ep, hep, ?_⟩
  have hsel := C21_configured_partial installed useLUT nuc hiE evs h2
  have hexp : expected installed w.useLUT w.nuc w.hiE = .table (lutName w.nuc w.hiE) := by
    unfold expected
    rw [if_pos ⟨h1, by simp [installed, h3]⟩]
  simp only at hsel
  rw [hexp] at hsel
  unfold PionModel.eval
  simp only
  split
  · rename_i f heq
    have := heq.symm.trans hsel
    injection this with this
    injection this with this
    subst this
    have hG : PhysUnit.GeV.scale = 1e9 * cEV := by unfold PhysUnit.GeV cEV; norm_num
    have hj := J_eq m.toPrModel pd hu ep hep
    have hnh : m.nh.toReal perCm3 = .ok m.nh.phys := by
      unfold Qty.toReal
      rw [if_pos (by rw [hn]; rfl)]
      unfold Qty.phys perCm3; simp
    have hp : pd.unit.scale / perGeV.scale = pd.unit.scale * (1e9 * cEV) := by
      rw [← hG]; simp only [perGeV, one_div, div_inv_eq_mul]
    unfold PionModel.spectrumLUT
    simp only [hep, hj, bind, Except.bind, pure, Except.pure, hne, if_false, hnh, h3, Option.getD_some,
      Except.map, List.map_map]
    congr 2
    apply List.map_congr_left
    intro E hE
    simp only [Function.comp_apply]
    congr 2
    unfold trapz
    congr 1
    rw [List.zipWith_map, List.zipWith_self, zip_map_map]
    apply List.map_congr_left
    intro e _
    rw [hp, hG]
    rfl
  · rename_i hno
    exact absurd hsel (hno _)

/-- **C21 (spectrum without a table).** In all other cases the full calculation is done, for the
*current* `hiEmodel` and `nuclear_enhancement`: the spectrum is that of C73. -/
theorem C21_spectrum_full (files : String → Option (ℝ → ℝ → XR)) (useLUT nuc : Bool) (hiE : HiE)
    (evs : List LUTEvent) (m : PionModel) (pd : PDist) (hu : pd.unit.dim = Dim.diffEnergy)
    (hlo : m.Epmin.PosEnergy) (hhi : m.Epmax.PosEnergy) (hle : m.Epmin.phys ≤ m.Epmax.phys)
    (hth : Kafexhiu.Tth < m.Epmin.phys / (1e9 * cEV) - mProton)
    (hn : m.nh.unit.dim = Dim.numDensity) (tbl : FTable) (hr : Reachable tbl) (es : List ℝ)
    (hne : es ≠ []) (hes : ∀ e ∈ es, 0 < e) :
    let installed := fun f => (files f).isSome
    let w := wanted installed useLUT nuc hiE evs
    (w.useLUT = false ∨ w.missed = true ∨ files (lutName w.nuc w.hiE) = none) →
    ∃ ep, m.toPrModel.Ep = .ok ep ∧ (∀ e ∈ ep, m.Epmin.phys / (1e9 * cEV) ≤ e) ∧
      (m.eval files ((LUTState.init useLUT nuc hiE).run installed evs) pd tbl es).map Prod.snd =
        .ok (es.map (fun E =>
        trapzLL (ep.map (fun e => (fin e,
          fin (Kafexhiu.dσ (modelOf w.hiE) w.nuc mProton (e - mProton) (E / (1e9 * cEV))) *
            protons pd e))) * fin (m.nh.phys * cC) * fin 1e-9)) := by
  intro installed w h
  have hsel := C21_selection installed useLUT nuc hiE evs
  have hexp : expected installed (w.useLUT && !w.missed) w.nuc w.hiE = .full := by
    unfold expected
    rw [if_neg]
    rintro ⟨a, b⟩
    simp at a
    rcases h with h | h | h
    · rw [h] at a; simp at a
    · rw [h] at a; simp at a
    · simp [installed, h] at b
  simp only at hsel
  rw [hexp] at hsel
  obtain ⟨hnuc, hhiE⟩ : ((LUTState.init useLUT nuc hiE).run installed evs).nuc = w.nuc ∧
      ((LUTState.init useLUT nuc hiE).run installed evs).hiE = w.hiE := settings_run _ _ _ _ _
  have := C73_spectrum { m with nuc := w.nuc, hiE := w.hiE } pd hu hlo hhi hle hth hn tbl hr es hne hes
  unfold PionModel.eval
  rw [hnuc, hhiE]
  simp only
  split
  · rename_i f heq
    cases heq.symm.trans hsel
  · exact this

/-! ### Sherpa -/

/-- **C57 (inverse Compton fields).** The Sherpa inverse Compton model has the CMB and in addition the
infrared field `TFIR`, `uFIR` exactly if `uFIR > 0` and the near-infrared field `TNIR`, `uNIR` exactly if
`uNIR > 0` (temperatures in K, densities in eV/cm³), all isotropic blackbodies; its electrons reach from
1 GeV to 100 TeV. -/
theorem C57_inverse_compton (lut : ℝ → ℝ → XR) (TFIR uFIR TNIR uNIR : ℝ) (h1 : 0 < TFIR) (h2 : 0 < TNIR)
    (pd : PDist) (hu : pd.unit.dim = Dim.diffEnergy) (es : List ℝ) (hes : ∀ e ∈ es, 0 < e) :
    ∃ gam, (⟨⟨1, PhysUnit.GeV⟩, ⟨100, PhysUnit.TeV⟩, 100⟩ : ElModel).gam = .ok gam ∧
      shSpectrum lut (.ic TFIR uFIR TNIR uNIR) pd es = .ok (es.map (fun E =>
        (([.blackbody 2.72548 (planckDensity 2.72548) none] ++
          (if 0 < uFIR then [.blackbody TFIR (uFIR * cEV) none] else []) ++
          (if 0 < uNIR then [.blackbody TNIR (uNIR * cEV) none] else []) : List Field).map
            (Field.spectrum pd gam E)).foldl (· + ·) (fin 0))) := by
  have hT : 0 < PhysUnit.TeV.scale := by unfold PhysUnit.TeV; norm_num
  have hm : ∀ name T u, 0 < T → 0 < u →
      Means (.list3 name (q T kelvin) (q u eVcm3)) (.blackbody T (u * cEV) none) := by
    intro name T u hT hu
    have := Means.grey name T u kelvin eVcm3 hT hu (by simp [kelvin]) rfl cEV_pos rfl
    simpa [kelvin, eVcm3] using this
  obtain ⟨gam, g1, -, g3⟩ := C71_arguments_partial ⟨⟨1, PhysUnit.GeV⟩, ⟨100, PhysUnit.TeV⟩, 100⟩ pd hu
    ⟨rfl, GeV_pos, by norm_num⟩ ⟨rfl, hT, by norm_num⟩
    (by simp only [Qty.phys, PhysUnit.GeV, PhysUnit.TeV]; norm_num)
    ([.str "CMB"] ++
      (if 0 < uFIR then [.list3 "FIR" (q TFIR kelvin) (q uFIR eVcm3)] else []) ++
      (if 0 < uNIR then [.list3 "NIR" (q TNIR kelvin) (q uNIR eVcm3)] else []))
    ([.blackbody 2.72548 (planckDensity 2.72548) none] ++
          (if 0 < uFIR then [.blackbody TFIR (uFIR * cEV) none] else []) ++
          (if 0 < uNIR then [.blackbody TNIR (uNIR * cEV) none] else [])) (by simp)
    (by
      by_cases a : 0 < uFIR <;> by_cases b : 0 < uNIR <;> simp only [a, b, if_true, if_false]
      · exact .cons .cmb (.cons (hm _ _ _ h1 a) (.cons (hm _ _ _ h2 b) .nil))
      · exact .cons .cmb (.cons (hm _ _ _ h1 a) .nil)
      · exact .cons .cmb (.cons (hm _ _ _ h2 b) .nil)
      · exact .cons .cmb .nil)
    (by by_cases a : 0 < uFIR <;> by_cases b : 0 < uNIR <;> simp [a, b, SeedSpec.name])
    (by
      intro F hF
      by_cases a : 0 < uFIR <;> by_cases b : 0 < uNIR <;> simp [a, b] at hF <;>
        rcases hF with h | h | h <;> subst_vars <;> trivial) es hes
  exact ⟨gam, g1, g3⟩

/-- **C57 (parameters by name).** Whatever values `v` the named parameters of a model have, the values
Sherpa passes are used for the quantities of these names. -/
theorem C57_parameters (v : String → ℝ) (lut : ℝ → ℝ → XR) (x : List ℝ) (xhi : Option (List ℝ)) :
    let common : ShPars :=
      { index := v "index"
        ref := v "ref"
        ampl := v "ampl"
        cutoff := v "cutoff"
        beta := v "beta"
        distance := v "distance" }
    let run := fun c : ShClass => c.calc lut (c.parNames.map v) x xhi
    run .inverseCompton = shCalc lut (.ic (TFIR := v "TFIR") (uFIR := v "uFIR") (TNIR := v "TNIR")
      (uNIR := v "uNIR")) common x xhi ∧
    run .synchrotron = shCalc lut (.sync (B := v "B")) common x xhi ∧
    run .bremsstrahlung = shCalc lut (.brems (n0 := v "n0") (wee := v "weight_ee")
      (wep := v "weight_ep")) common x xhi ∧
    run .pionDecay = shCalc lut (.pion (nH := v "nH")) common x xhi :=
  ⟨rfl, rfl, rfl, rfl⟩

/-- **C57 (synchrotron).** The luminosity of the Sherpa synchrotron model is the documented one (C70) for
a field of `B` gauss and electrons from 1 GeV to 1e9 rest masses. -/
theorem C57_synchrotron (lut : ℝ → ℝ → XR) (B : ℝ) (hB : 0 < B) (pd : PDist)
    (hu : pd.unit.dim = Dim.diffEnergy) (es : List ℝ) (hes : ∀ e ∈ es, 0 < e) :
    ∃ gam, (⟨⟨1, PhysUnit.GeV⟩, ⟨1e9 * (cMe * cC ^ 2), PhysUnit.erg⟩, 100⟩ : ElModel).gam = .ok gam ∧
      shSpectrum lut (.sync B) pd es = .ok (es.map (fun e =>
        trapzLL (gam.map (fun g => (fin g, electrons pd g *
          fin (syncEmission cE cMe cC cHbar B g e)))) * fin cEV)) := by
  have hmax : (⟨1e9 * (cMe * cC ^ 2), PhysUnit.erg⟩ : Qty ℝ).PosEnergy :=
    ⟨rfl, by norm_num [PhysUnit.erg], by have := cMe_pos; have := cC_pos; positivity⟩
  obtain ⟨gam, h1, -, h2⟩ := C70_documented
    ⟨⟨⟨1, PhysUnit.GeV⟩, ⟨1e9 * (cMe * cC ^ 2), PhysUnit.erg⟩, 100⟩, ⟨B, gauss⟩⟩ pd hu
    ⟨rfl, GeV_pos, by norm_num⟩ hmax
    (by simp only [Qty.phys, PhysUnit.GeV, PhysUnit.erg, cMe, cC]; norm_num) rfl
    (by simp only [Qty.phys, gauss]; positivity) es hes
  refine ⟨gam, h1, ?_⟩
  have : (⟨B, gauss⟩ : Qty ℝ).phys / 0.1 = B := by simp only [Qty.phys, gauss]; field_simp
  rw [this] at h2
  exact h2

/-- **C57 (bremsstrahlung, partial).** The luminosity of the Sherpa bremsstrahlung model is the
documented one (C72) for a density of `n0` per cm³ and electrons from 100 MeV to 1e9 rest masses. Missing:
what is missing in C72. -/
theorem C57_bremsstrahlung_partial (lut : ℝ → ℝ → XR) (n0 wee wep : ℝ) (w1 : wee ≠ 0) (w2 : wep ≠ 0)
    (pd : PDist) (hu : pd.unit.dim = Dim.diffEnergy) :
    ∃ gam, (⟨⟨100, ⟨1e6 * cEV, Dim.energy⟩⟩, ⟨1e9 * (cMe * cC ^ 2), PhysUnit.erg⟩, 300⟩ : ElModel).gam = .ok gam ∧
      ∀ es : List ℝ, (∀ E ∈ es, 0 < E ∧ E / (cMe * cC ^ 2) ≠ 1 / 2 ∧
        ∀ g ∈ gam, E / (cMe * cC ^ 2) ≠ g) →
      shSpectrum lut (.brems n0 wee wep) pd es = .ok (es.map (fun E => fin (n0 * cEV) *
        (fin wee * (fin cC * trapzLL (gam.map (fun g => (fin g, electrons pd g *
            fin (baringEe g (E / (cMe * cC ^ 2)) / (cMe * cC ^ 2)))))) +
         fin wep * (fin cC * trapzLL (gam.map (fun g => (fin g, electrons pd g *
            fin (baringEp g (E / (cMe * cC ^ 2)) / (cMe * cC ^ 2))))))))) := by
  have hmax : (⟨1e9 * (cMe * cC ^ 2), PhysUnit.erg⟩ : Qty ℝ).PosEnergy :=
    ⟨rfl, by norm_num [PhysUnit.erg], by have := cMe_pos; have := cC_pos; positivity⟩
  obtain ⟨gam, h1, -, h2⟩ := C72_spectrum_partial
    ⟨⟨⟨100, MeV⟩, ⟨1e9 * (cMe * cC ^ 2), PhysUnit.erg⟩, 300⟩, ⟨n0, perCm3⟩, wee, wep⟩ pd hu
    ⟨rfl, by simp only [MeV]; have := cEV_pos; positivity, by norm_num⟩ hmax
    (by simp only [Qty.phys, MeV, PhysUnit.erg, cMe, cC, cEV]; norm_num) rfl
    (by simp [perCm3]) w1 w2
  refine ⟨gam, h1, fun es hes => ?_⟩
  have := h2 es hes
  have hn : (⟨n0, perCm3⟩ : Qty ℝ).phys = n0 := by simp [Qty.phys, perCm3]
  simp only [hn] at this
  exact this

/-- **C57 (pion decay).** The luminosity of the Sherpa pion decay model is that of a target of `nH` protons
per cm³ and of the lookup table the package provides, for protons from the threshold to 10 PeV. -/
theorem C57_pion (lut : ℝ → ℝ → XR) (nH : ℝ) (pd : PDist) (hu : pd.unit.dim = Dim.diffEnergy)
    (es : List ℝ) (hne : es ≠ []) :
    ∃ ep, (⟨⟨mProton + Kafexhiu.Tth + 1e-4, PhysUnit.GeV⟩, ⟨1e4, PhysUnit.TeV⟩, 100⟩ : PrModel).Ep =
        .ok ep ∧
      shSpectrum lut (.pion nH) pd es = .ok (es.map (fun E =>
          trapzLL (ep.map (fun e => (fin e, lut e (E / (1e9 * cEV)) * protons pd e))) *
            fin (nH * cC) * fin 1e-9)) := by
  have hMlt := pM_lt
  have hM0 := pM_pos
  have hlo : (⟨pM + pTth + 1e-4, PhysUnit.GeV⟩ : Qty ℝ).PosEnergy := by
    refine ⟨rfl, GeV_pos, ?_⟩
    show (0:ℝ) < pM + pTth + 1e-4
    unfold pTth; positivity
  obtain ⟨ep, h1, h2⟩ := C21_spectrum_table (fun _ => some lut) true true .pythia8 []
    ⟨⟨⟨pM + pTth + 1e-4, PhysUnit.GeV⟩, ⟨1e4, PhysUnit.TeV⟩, 100⟩, ⟨nH, perCm3⟩, true, .pythia8⟩ pd hu
    hlo ⟨rfl, by simp only [PhysUnit.TeV]; norm_num, by norm_num⟩
    (by simp only [Qty.phys, PhysUnit.GeV, PhysUnit.TeV, pTth]; nlinarith) rfl fmpInit es hne lut rfl rfl rfl
  refine ⟨ep, by rw [← pM_eq]; exact h1, ?_⟩
  have hn : (⟨nH, perCm3⟩ : Qty ℝ).phys = nH := by simp [Qty.phys, perCm3]
  simp only [hn] at h2
  have h3 : (PionModel.spectrumLUT ⟨⟨⟨pM + pTth + 1e-4, PhysUnit.GeV⟩, ⟨1e4, PhysUnit.TeV⟩, 100⟩,
      ⟨nH, perCm3⟩, true, .pythia8⟩ pd lut es).map (fun r => (fmpInit, r)) = _ := h2
  cases h4 : PionModel.spectrumLUT ⟨⟨⟨pM + pTth + 1e-4, PhysUnit.GeV⟩, ⟨1e4, PhysUnit.TeV⟩, 100⟩,
      ⟨nH, perCm3⟩, true, .pythia8⟩ pd lut es with
  | error e => rw [h4] at h3; cases h3
  | ok r =>
    rw [h4] at h3
    simp only [Except.map, Except.ok.injEq, Prod.mk.injEq, true_and] at h3
    exact h4.trans (congrArg Except.ok h3)

/-- **C57 (energies and distance).** The differential flux at `x` keV is the differential luminosity
at `x` keV over `4π d²`, `d` in kpc, in 1/(s cm² keV); a luminosity in 1/(s eV) is 1000 times larger
in 1/(s keV). -/
theorem C57_flux (lut : ℝ → ℝ → XR) (k : ShKind) (p : ShPars) (xs : List ℝ) (F : List XR)
    (h : shFlux lut k p xs = .ok F) :
    ∃ pd lum, shPdist p = .ok pd ∧ p.distance ≠ 0 ∧
      shSpectrum lut k pd (xs.map (fun x => x * 1000 * 1.602176634e-12)) = .ok lum ∧
      F = lum.map (fun L => L / fin (4 * Real.pi * (p.distance * 3.0856775814913674e21) ^ 2) * fin 1000) := by
  obtain ⟨pd, spec, h1, h2, h3, rfl⟩ := shFlux_ok lut k p xs F h
  refine ⟨pd, spec, h1, h3, ?_, ?_⟩
  · rw [← h2]
    congr 1
    apply List.map_congr_left
    intro x _
    simp only [keV, cEV]; ring
  · have : uFlux.scale / perSCm2KeV.scale = 1000 := by
      simp only [uFlux, perSCm2KeV, cEV]; norm_num
    rw [this]
    rfl

/-! ### Hypotheses are met -/

example := C21_spectrum_table (fun _ => some (fun _ _ => fin 1e-27)) true true .pythia8
  [.eval, .setUseLUT false] (exPion 1) exPd rfl exPr_lo exPr_hi exPr_lt.le rfl fmpInit exEs exEs_ne

example := C21_spectrum_full (fun _ => none) true true .pythia8 [.eval, .setUseLUT false]
  (exPion 1) exPd rfl exPr_lo exPr_hi exPr_lt.le
  (by
    have : PhysUnit.GeV.scale = 1e9 * cEV := by simp only [PhysUnit.GeV, cEV]; norm_num
    have hG := GeV_pos
    rw [← this]
    simp only [exPion, exPr, Qty.phys, mul_div_assoc, div_self hG.ne', mul_one]
    have := pM_lt
    have e : mProton = pM := by unfold mProton pM; rw [‹PhysUnit.GeV.scale = 1e9 * cEV›]
    rw [e]
    unfold Kafexhiu.Tth; linarith) rfl fmpInit .fresh exEs exEs_ne exEs_pos

example (lut : ℝ → ℝ → XR) := C57_inverse_compton lut 30 0.5 3000 1 (by norm_num) (by norm_num) exPd rfl exEs exEs_pos

example (lut : ℝ → ℝ → XR) := C57_synchrotron lut 1e-4 (by norm_num) exPd rfl exEs exEs_pos

example (lut : ℝ → ℝ → XR) := C57_bremsstrahlung_partial lut 1 1.088 1.263 (by norm_num) (by norm_num) exPd rfl

example (lut : ℝ → ℝ → XR) := C57_pion lut 1 exPd rfl exEs exEs_ne

end Naima.Props
