import Verif.Props.C74_KelnerFormula

/-! # C76: the pion bump is symmetric about half the pion mass -/

namespace Naima.Props

open Naima XR Classical

/-- The photon emitted the other way: the two energies are equidistant, on a logarithmic scale, from half
the mass of the neutral pion (67.5 MeV). Energies in erg. -/
noncomputable def mirror (E : ℝ) : ℝ := (Kafexhiu.mπ * (1e9 * cEV) / 2) ^ 2 / E

theorem cEV_pos : 0 < cEV := by unfold cEV; norm_num
theorem mπ_pos : 0 < Kafexhiu.mπ := by unfold Kafexhiu.mπ; norm_num

theorem F_mirror (M : Kafexhiu.Model) (m T E : ℝ) (hE : 0 < E) :
    Kafexhiu.F M m T ((Kafexhiu.mπ / 2) ^ 2 / E) = Kafexhiu.F M m T E := by
  unfold Kafexhiu.F
  have hp := mπ_pos
  have e : (Kafexhiu.mπ / 2) ^ 2 / E + Kafexhiu.mπ ^ 2 / (4 * ((Kafexhiu.mπ / 2) ^ 2 / E)) =
      E + Kafexhiu.mπ ^ 2 / (4 * E) := by
    field_simp
    ring
  rw [e]

theorem mirror_GeV (E : ℝ) : mirror E / (1e9 * cEV) = (Kafexhiu.mπ / 2) ^ 2 / (E / (1e9 * cEV)) := by
  unfold mirror
  have := cEV_pos
  by_cases h : E = 0
  · simp [h]
  · field_simp

/-- **C76 (PionDecay).** For every proton distribution whose lower limit is above threshold, every
target density and model, after any history: the spectrum (without lookup table) at any photon energies
is the same as at their mirror energies. -/
theorem C76_pion (m : PionModel) (pd : PDist) (hu : pd.unit.dim = Dim.diffEnergy)
    (hlo : m.Epmin.PosEnergy) (hhi : m.Epmax.PosEnergy) (hle : m.Epmin.phys ≤ m.Epmax.phys)
    (hth : Kafexhiu.Tth < m.Epmin.phys / (1e9 * cEV) - mProton)
    (hn : m.nh.unit.dim = Dim.numDensity) (tbl : FTable) (hr : Reachable tbl)
    (es : List ℝ) (hes : ∀ e ∈ es, 0 < e) :
    (m.spectrum pd tbl (es.map mirror)).map Prod.snd = (m.spectrum pd tbl es).map Prod.snd := by
  by_cases hne : es = []
  · subst hne; rfl
  have hmp : ∀ e, 0 < e → 0 < mirror e := by
    intro e he
    unfold mirror
    have := cEV_pos
    have := mπ_pos
    positivity
  obtain ⟨ep, h1, hb, h2⟩ := C73_spectrum m pd hu hlo hhi hle hth hn tbl hr es hne hes
  obtain ⟨ep', h1', -, h2'⟩ := C73_spectrum m pd hu hlo hhi hle hth hn tbl hr (es.map mirror)
    (by simpa using hne) (by
      intro e he
      obtain ⟨a, ha, rfl⟩ := List.mem_map.1 he
      exact hmp a (hes a ha))
  rw [h1] at h1'
  cases h1'
  rw [h2, h2', List.map_map]
  congr 1
  apply List.map_congr_left
  intro E hE
  simp only [Function.comp_apply]
  congr 4
  funext e
  have hE0 : 0 < E / (1e9 * cEV) := div_pos (hes E hE) (by have := cEV_pos; positivity)
  unfold Kafexhiu.dσ
  rw [mirror_GeV, F_mirror _ _ _ _ hE0]

/-- **C76 (PionDecayKelner06).** In the delta approximation, for every distribution, density and
transition energy and any photon energies that are, with their mirror energies, below `Etrans`. -/
theorem C76_kelner (Q : Quad) (hQ : Interior Q) (m : KelnerModel) (pd : PDist)
    (hu : pd.unit.dim = Dim.diffEnergy) (es : List ℝ) (hes : ∀ e ∈ es, 0 < e)
    (h1 : ∀ e ∈ es, e < m.Etrans.phys) (h2 : ∀ e ∈ es, mirror e < m.Etrans.phys) :
    m.spectrum Q pd (.array (es.map mirror)) = m.spectrum Q pd (.array es) := by
  have hc := cEV_pos
  have hp := mπ_pos
  have hm : ∀ e ∈ es.map mirror, 0 < e := by
    intro e he
    obtain ⟨a, ha, rfl⟩ := List.mem_map.1 he
    have := hes a ha
    unfold mirror; positivity
  rw [(C74_spectrum Q hQ m pd hu es hes).2 h1, (C74_spectrum Q hQ m pd hu _ hm).2 (by
    intro e he
    obtain ⟨a, ha, rfl⟩ := List.mem_map.1 he
    exact h2 a ha), List.map_map]
  congr 1
  apply List.map_congr_left
  intro e he
  have he0 := hes e he
  simp only [Function.comp_apply]
  unfold deltaSpectrum
  have e1 : mirror e / (1e12 * cEV) + KAB06.mπ ^ 2 / (4 * (mirror e / (1e12 * cEV))) =
      e / (1e12 * cEV) + KAB06.mπ ^ 2 / (4 * (e / (1e12 * cEV))) := by
    have e2 : Kafexhiu.mπ * 1e9 = KAB06.mπ * 1e12 := by unfold Kafexhiu.mπ KAB06.mπ; norm_num
    have e3 : mirror e = (KAB06.mπ * (1e12 * cEV) / 2) ^ 2 / e := by
      unfold mirror
      rw [← mul_assoc, e2, mul_assoc]
    rw [e3]
    have : 0 < KAB06.mπ := by unfold KAB06.mπ; norm_num
    generalize KAB06.mπ = μ at *
    field_simp
    ring
  rw [e1]

/-- Non-vacuity: `C73`'s example meets the hypotheses of the first; for the second, 10 MeV and its mirror
energy are below the default `Etrans` of 0.1 TeV. -/
example : mirror (1e7 * cEV) < 0.1 * (1e12 * cEV) ∧ (1e7 : ℝ) * cEV < 0.1 * (1e12 * cEV) ∧
    0 < 1e7 * cEV ∧ mirror (1e7 * cEV) ≠ 1e7 * cEV := by
  unfold mirror Kafexhiu.mπ cEV
  norm_num

end Naima.Props
