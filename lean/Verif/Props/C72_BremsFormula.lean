import Verif.Props.C17_C18_Brems
import Verif.Props.C71_ICFormula

/-! # C72: the bremsstrahlung spectrum is that of Baring et al. (1999), with its normalisation

Energies in electron rest masses; cross sections in cm² per electron rest mass. -/

namespace Naima.Props

open Naima XR Classical

/-! ### Specification: Baring et al. 1999, appendix, eqs. A1-A7 -/

/-- Classical electron radius squared times the fine structure constant. -/
noncomputable def r02alpha : ℝ := (cE ^ 2 / (cMe * cC ^ 2)) ^ 2 * cAlpha

/-- A2 -/
noncomputable def baring1 (γ ε : ℝ) : ℝ :=
  4 * r02alpha / ε * (1 + (1 / 3 - ε / γ) * (1 - ε / γ)) * (Real.log (2 * γ * (γ - ε) / ε) - 1 / 2)

/-- A3, with `- 4 ε` in the lower branch as in the code (with `+ 4 ε` the branches meet at `ε = 1/2`, see
`C72_false_jump`). -/
noncomputable def baring2 (γ ε : ℝ) : ℝ :=
  r02alpha / (3 * ε) *
    (if ε ≤ 1 / 2 then
      16 * (1 - ε + ε ^ 2) * Real.log (γ / ε) - 1 / ε ^ 2 + 3 / ε - 4 - 4 * ε - 8 * ε ^ 2 -
        2 * (1 - 2 * ε) * Real.log (1 - 2 * ε) *
          (1 / (4 * ε ^ 3) - 1 / (2 * ε ^ 2) + 3 / ε - 2 + 4 * ε)
     else 2 / ε * ((4 - 1 / ε + 1 / (4 * ε ^ 2)) * Real.log (2 * γ) - 2 + 2 / ε - 5 / (8 * ε ^ 2)))

/-- A4 -/
noncomputable def baringA (γ ε : ℝ) : ℝ :=
  1 - 8 / 3 * (γ - 1) ^ ((1 : ℝ) / 5) / (γ + 1) * (ε / γ) ^ ((1 : ℝ) / 3)

/-- A6, A7 -/
noncomputable def baringF (x γ : ℝ) : ℝ :=
  let β := Real.sqrt (1 - 1 / γ ^ 2)
  let B := 1 + (γ ^ 2 - 1) / 2
  let C := 10 * x * γ * β * (2 + γ * β) / (1 + x ^ 2 * (γ ^ 2 - 1))
  B * (17 - 3 * x ^ 2 / (2 - x) ^ 2 - C) * Real.sqrt (1 - x) +
    (12 * (2 - x) - 7 * x ^ 2 / (2 - x) - 3 * x ^ 4 / (2 - x) ^ 3) *
      Real.log ((1 + Real.sqrt (1 - x)) / Real.sqrt x)

/-- Lorentz factor of an electron of 2 MeV, where the two regimes meet. -/
noncomputable def γTwoMeV : ℝ := 2e6 * cEV / (cMe * cC ^ 2)

/-- Electron-proton: A2 below the electron energy. -/
noncomputable def baringEp (γ ε : ℝ) : ℝ := if ε < γ then baring1 γ ε else 0

/-- Electron-electron: A1 above 2 MeV, A5 below, with their kinematic limits. -/
noncomputable def baringEe (γ ε : ℝ) : ℝ :=
  if γ ≤ γTwoMeV then
    if ε < (γ ^ 2 - 1) / 4 then 4 * r02alpha / (15 * ε) * baringF (4 * ε / (γ ^ 2 - 1)) γ else 0
  else if ε < γ then (baring1 γ ε + baring2 γ ε) * baringA γ ε else 0

/-! ### Proof -/

theorem gamTrans_eq : gamTrans = γTwoMeV := by
  unfold gamTrans γTwoMeV cMec2 cEV PhysUnit.GeV; norm_num

theorem gamTrans_gt : (1:ℝ) < gamTrans := by
  rw [gamTrans_eq]; unfold γTwoMeV cEV cMe cC; norm_num

theorem ep_code (g e : ℝ) (hg : 0 < g) (he : 0 < e) (hne : e ≠ g) :
    bremsEp g e = fin (baringEp g e) := by
  unfold bremsEp baringEp
  rcases lt_or_gt_of_ne hne with h | h
  · rw [if_pos h, bremsSigma1_eq g e he h, fin_inj]
    unfold baring1 r02alpha cR0 cMec2
    ring
  · rw [if_neg (by linarith), bremsSigma1_above g e hg he h]

theorem sigma2_code (g e : ℝ) (hg : 0 < g) (he : 0 < e) (hne : e ≠ g) (h2 : e ≠ 1 / 2) :
    bremsSigma2 g e = fin (if e < g then baring2 g e else 0) := by
  have hlo : e < 1 / 2 → bremsSigma2lo g e = fin
      (16 * (1 - e + e ^ 2) * Real.log (g / e) - 1 / e ^ 2 + 3 / e - 4 - 4 * e - 8 * e ^ 2 -
        2 * (1 - 2 * e) * Real.log (1 - 2 * e) *
          (1 / (4 * e ^ 3) - 1 / (2 * e ^ 2) + 3 / e - 2 + 4 * e)) := by
    intro h
    have h3 : 0 < 1 - 2 * e := by linarith
    unfold bremsSigma2lo
    simp only [div_fin _ _ he.ne', log_fin _ (div_pos hg he), log_fin _ h3,
      div_fin _ _ (by positivity : e ^ 2 ≠ 0), div_fin _ _ (by positivity : 4 * e ^ 3 ≠ 0),
      div_fin _ _ (by positivity : 2 * e ^ 2 ≠ 0), mul_fin, add_fin, sub_fin, fin_inj]
    ring
  have hhi : bremsSigma2hi g e = fin
      (2 / e * ((4 - 1 / e + 1 / (4 * e ^ 2)) * Real.log (2 * g) - 2 + 2 / e - 5 / (8 * e ^ 2))) := by
    unfold bremsSigma2hi
    simp only [div_fin _ _ he.ne', log_fin _ (by positivity : 0 < 2 * g),
      div_fin _ _ (by positivity : 4 * e ^ 2 ≠ 0), div_fin _ _ (by positivity : 8 * e ^ 2 ≠ 0),
      mul_fin, add_fin, sub_fin, fin_inj]
    ring
  have key : (if e ≤ 0.5 then bremsSigma2lo g e else bremsSigma2hi g e) = fin
      (if e ≤ 1 / 2 then
      16 * (1 - e + e ^ 2) * Real.log (g / e) - 1 / e ^ 2 + 3 / e - 4 - 4 * e - 8 * e ^ 2 -
        2 * (1 - 2 * e) * Real.log (1 - 2 * e) *
          (1 / (4 * e ^ 3) - 1 / (2 * e ^ 2) + 3 / e - 2 + 4 * e)
     else 2 / e * ((4 - 1 / e + 1 / (4 * e ^ 2)) * Real.log (2 * g) - 2 + 2 / e - 5 / (8 * e ^ 2))) := by
    by_cases h : e ≤ 1 / 2
    · rw [if_pos h, if_pos (by norm_num at h ⊢; exact h), hlo (lt_of_le_of_ne h h2)]
    · rw [if_neg h, if_neg (by norm_num at h ⊢; exact h), hhi]
  unfold bremsSigma2
  rw [key, div_fin _ _ (by positivity), heaviside_step, mul_fin, mul_fin, fin_inj]
  unfold step baring2 r02alpha cR0 cMec2
  rcases lt_or_gt_of_ne hne with h | h
  · rw [if_neg (by linarith : ¬ g - e < 0), if_pos (by linarith : 0 < g - e), if_pos h, mul_one]
  · rw [if_pos (by linarith : g - e < 0), if_neg (by linarith : ¬ e < g), mul_zero]

theorem rel_code (g e : ℝ) (hg : 1 < g) (he : 0 < e) (hne : e ≠ g) (h2 : e ≠ 1 / 2) :
    bremsRel g e = fin (if e < g then (baring1 g e + baring2 g e) * baringA g e else 0) := by
  have hg0 : 0 < g := by linarith
  unfold bremsRel
  have h1 : bremsSigma1 g e = _ := ep_code g e hg0 he hne
  rw [h1, sigma2_code g e hg0 he hne h2]
  simp only [div_fin _ _ hg0.ne', pow_fin _ _ (by linarith : 0 < g - 1), pow_fin _ _ (div_pos he hg0),
    mul_fin, div_fin _ _ (by positivity : g + 1 ≠ 0), sub_fin, add_fin, fin_inj]
  unfold baringEp baringA
  have e5 : ((0.2 : ℝ)) = 1 / 5 := by norm_num
  rw [e5]
  split <;> ring

theorem nonrel_code (g e : ℝ) (hg : 0 < g) (he : 0 < e) :
    bremsNonrel g e = fin (if e < (g ^ 2 - 1) / 4 then
      4 * r02alpha / (15 * e) * baringF (4 * e / (g ^ 2 - 1)) g else 0) := by
  unfold bremsNonrel
  by_cases h : e < (g ^ 2 - 1) / 4
  · have hg2 : 0 < g ^ 2 - 1 := by linarith
    have hg1 : 1 < g := by nlinarith
    rw [if_neg (by rintro (h' | h') <;> norm_num at h' <;> linarith), if_pos h]
    set x := 4 * e / (g ^ 2 - 1) with hx
    have hx0 : 0 < x := by positivity
    have hx1 : x < 1 := by rw [hx, div_lt_one hg2]; linarith
    rw [div_fin _ _ hg2.ne', ← hx]
    have hF : bremsF (fin x) g = fin (baringF x g) := by
      have hb : 0 ≤ 1 - 1 / g ^ 2 := by
        rw [sub_nonneg, div_le_one (by positivity)]; linarith
      have hp : pow (fin g) (fin (-2)) = fin (1 / g ^ 2) := by
        rw [pow_fin _ _ hg, fin_inj, Real.rpow_neg hg.le, one_div]
        norm_cast
      have h2x : 0 < 2 - x := by linarith
      have hs1 : 0 ≤ 1 - x := by linarith
      have hsx : 0 < Real.sqrt x := Real.sqrt_pos.2 hx0
      have hl : 0 < (1 + Real.sqrt (1 - x)) / Real.sqrt x := by
        have := Real.sqrt_nonneg (1 - x); positivity
      have hc : 0 < 1 + x * x * (g ^ 2 - 1) := by positivity
      unfold bremsF
      simp only [hp, sub_fin, add_fin, mul_fin, sqrt_fin _ hb, sqrt_fin _ hs1, sqrt_fin _ hx0.le,
        div_fin _ _ hc.ne', div_fin _ _ h2x.ne', div_fin _ _ hsx.ne', log_fin _ hl,
        div_fin _ _ (by positivity : (2 - x) * (2 - x) ≠ 0),
        div_fin _ _ (by positivity : (2 - x) * (2 - x) * (2 - x) ≠ 0), fin_inj]
      unfold baringF
      have q1 : x * x = x ^ 2 := by ring
      have q2 : x ^ 2 * x * x = x ^ 4 := by ring
      have q3 : (2 - x) * (2 - x) = (2 - x) ^ 2 := by ring
      have q4 : (2 - x) ^ 2 * (2 - x) = (2 - x) ^ 3 := by ring
      have q5 : (0.5:ℝ) * (g ^ 2 - 1) = (g ^ 2 - 1) / 2 := by ring
      simp only [q1, q2, q3, q4, q5]
      ring
    rw [hF, div_fin _ _ (by positivity), mul_fin, fin_inj]
    unfold r02alpha cR0 cMec2
    ring
  · rw [if_neg h, if_pos (by left; norm_num; linarith)]

/-- **C72 (cross sections, partial).** For every electron (Lorentz factor `> 0`) and photon energy `> 0`
the two cross sections are the finite numbers of the paper, zero outside the kinematic range. Missing:
the photon energies `ε = γ` and, for electron-electron, `ε = 1/2`, where the code is `-inf` or NaN
(`C18_false_endpoint`, `C18_false_half_mass`). -/
theorem C72_cross_sections_partial (γ ε : ℝ) (hγ : 0 < γ) (hε : 0 < ε) (h1 : ε ≠ γ) :
    bremsEp γ ε = fin (baringEp γ ε) ∧ (ε ≠ 1 / 2 → bremsEe γ ε = fin (baringEe γ ε)) := by
  refine ⟨ep_code γ ε hγ hε h1, fun h2 => ?_⟩
  unfold bremsEe baringEe
  rw [← gamTrans_eq]
  by_cases h : γ ≤ gamTrans
  · rw [if_pos h, if_pos h, nonrel_code γ ε hγ hε]
  · rw [if_neg h, if_neg h, rel_code γ ε (by have := gamTrans_gt; linarith) hε h1 h2]

/-- **C72 (spectrum, partial).** For all electrons, ranges, densities, non-zero weights and photon
energies that are neither half the electron rest mass nor exactly a grid energy: the spectrum is
`n₀ c ∫ N(γ) (w_ee σ_ee) dγ + n₀ c ∫ N(γ) (w_ep σ_ep) dγ` with the cross sections of the paper, in
1/(s eV). Missing: the excluded photon energies and weights (see `C17_false_weight_zero`). -/
theorem C72_spectrum_partial (m : BremsModel) (pd : PDist) (hu : pd.unit.dim = Dim.diffEnergy)
    (hlo : m.Eemin.PosEnergy) (hhi : m.Eemax.PosEnergy) (hle : m.Eemin.phys ≤ m.Eemax.phys)
    (hn : m.n0.unit.dim = Dim.numDensity) (hs : 0 < m.n0.unit.scale) (w1 : m.wee ≠ 0)
    (w2 : m.wep ≠ 0) :
    ∃ gam, m.toElModel.gam = .ok gam ∧ (∀ g ∈ gam, 0 < g) ∧
      ∀ es : List ℝ, (∀ E ∈ es, 0 < E ∧ E / (cMe * cC ^ 2) ≠ 1 / 2 ∧
        ∀ g ∈ gam, E / (cMe * cC ^ 2) ≠ g) →
      m.spectrum pd es = .ok (es.map (fun E => fin (m.n0.phys * cEV) *
        (fin m.wee * (fin cC * trapzLL (gam.map (fun g => (fin g, electrons pd g *
            fin (baringEe g (E / (cMe * cC ^ 2)) / (cMe * cC ^ 2)))))) +
         fin m.wep * (fin cC * trapzLL (gam.map (fun g => (fin g, electrons pd g *
            fin (baringEp g (E / (cMe * cC ^ 2)) / (cMe * cC ^ 2))))))))) := by
  obtain ⟨gam, hg, hgp, -⟩ := gamGrid_facts m.nEed m.Eemin m.Eemax hlo hhi hle
  have hg : m.toElModel.gam = .ok gam := hg
  refine ⟨gam, hg, hgp, ?_⟩
  intro es hes
  rw [brems_spectrum_eq m pd es w1 w2, hg, nelec_eq m.toElModel pd hu gam hg]
  simp only [bind, Except.bind, pure, Except.pure, hn, if_true]
  congr 1
  apply List.map_congr_left
  intro E hE
  obtain ⟨hE0, hEh, hEg⟩ := hes E hE
  rw [bremsTotal_phys _ _ _ _ hs]
  have hm := cMec2_pos
  have hε : 0 < E / cMec2 := div_pos hE0 hm
  have key : ∀ (σ : ℝ → ℝ → XR) (S : ℝ → ℝ → ℝ), (∀ g ∈ gam, σ g (E / cMec2) = fin (S g (E / cMec2))) →
      bremsAt σ gam ((gam.map (· * cMec2)).map
        (fun e => pd.f e * XR.fin (pd.unit.scale / perMec2.scale))) E =
      fin cC * trapzLL (gam.map (fun g => (fin g, electrons pd g *
            fin (S g (E / (cMe * cC ^ 2)) / (cMe * cC ^ 2))))) := by
    intro σ S hσ
    unfold bremsAt
    congr 2
    rw [List.map_map, List.zip_map_right, zip_self_map]
    simp only [List.map_map]
    apply List.map_congr_left
    intro g hgm
    have hsc : pd.unit.scale / perMec2.scale = pd.unit.scale * (cMe * cC ^ 2) := by
      simp only [perMec2, cMec2, one_div, div_inv_eq_mul]
    simp only [Function.comp_apply, Prod.map, id_eq, hσ g hgm, mul_fin, electrons, hsc]
    have : S g (E / cMec2) * (1 / cMec2) = S g (E / (cMe * cC ^ 2)) / (cMe * cC ^ 2) := by
      unfold cMec2; ring
    rw [this]; rfl
  rw [key bremsEe baringEe (fun g h => (C72_cross_sections_partial g _ (hgp g h) hε
      (hEg g h)).2 hEh),
    key bremsEp baringEp (fun g h => (C72_cross_sections_partial g _ (hgp g h) hε (hEg g h)).1)]

/-- The hypotheses on `γ`, `ε` are met e.g. by `γ = 100`, `ε = 1`: both channels are then non-zero in
their formula branch (`ε < γ`). -/
example : (0:ℝ) < 100 ∧ (0:ℝ) < 1 ∧ (1:ℝ) ≠ 100 ∧ (1:ℝ) ≠ 1 / 2 := by norm_num

/-- The hypotheses on the model are met by the default one (1 GeV - 1 PeV, 1 cm⁻³, weights 1, 1.2). -/
example : ∃ m : BremsModel, m.Eemin.PosEnergy ∧ m.Eemax.PosEnergy ∧ m.Eemin.phys ≤ m.Eemax.phys ∧
    m.n0.unit.dim = Dim.numDensity ∧ 0 < m.n0.unit.scale ∧ m.wee ≠ 0 ∧ m.wep ≠ 0 := by
  refine ⟨⟨⟨⟨1, PhysUnit.GeV⟩, ⟨1000, PhysUnit.TeV⟩, 300⟩, ⟨1, ⟨1, Dim.numDensity⟩⟩, 1.088, 1.263⟩,
    ⟨rfl, GeV_pos, by norm_num⟩, ⟨rfl, by simp only [PhysUnit.TeV]; norm_num, by norm_num⟩, ?_, rfl,
    by norm_num, by norm_num, by norm_num⟩
  simp only [Qty.phys, PhysUnit.GeV, PhysUnit.TeV]; norm_num

end Naima.Props
