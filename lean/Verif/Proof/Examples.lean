import Verif.Proof.Electron

/-! # Objects used in the examples that show that the hypotheses of the theorems are met -/

namespace Naima.Props

open Naima XR

/-- An `E^-2` distribution per erg. -/
noncomputable def exPd : PDist := ⟨⟨1, Dim.diffEnergy⟩, fun e => fin (e ^ (-2 : ℝ))⟩

/-- An `E^-2` distribution per erg, three times as large. -/
noncomputable def exPd3 : PDist := ⟨⟨1, Dim.diffEnergy⟩, fun e => fin (3 * e ^ (-2 : ℝ))⟩

theorem exPd_f (e : ℝ) (he : 0 < e) : ∃ r : ℝ, 0 < r ∧ exPd.f e = fin r :=
  ⟨e ^ (-2 : ℝ), Real.rpow_pos_of_pos he _, rfl⟩

theorem exPd3_f (e : ℝ) (he : 0 < e) : ∃ r : ℝ, 0 < r ∧ exPd3.f e = fin r :=
  ⟨3 * e ^ (-2 : ℝ), mul_pos (by norm_num) (Real.rpow_pos_of_pos he _), rfl⟩

/-- Electrons from 1 GeV to 510 TeV on the default grid. -/
noncomputable def exEl : ElModel := ⟨⟨1, PhysUnit.GeV⟩, ⟨510, PhysUnit.TeV⟩, 100⟩

theorem exEl_lo : exEl.Eemin.PosEnergy := ⟨rfl, GeV_pos, by norm_num [exEl]⟩
theorem exEl_hi : exEl.Eemax.PosEnergy :=
  ⟨rfl, by simp only [exEl, PhysUnit.TeV]; norm_num, by norm_num [exEl]⟩
theorem exEl_lt : exEl.Eemin.phys < exEl.Eemax.phys := by
  simp only [exEl, Qty.phys, PhysUnit.GeV, PhysUnit.TeV]; norm_num

/-- Protons from 2 GeV to 10 PeV on the default grid. -/
noncomputable def exPr : PrModel := ⟨⟨2, PhysUnit.GeV⟩, ⟨1e4, PhysUnit.TeV⟩, 100⟩

theorem exPr_lo : exPr.Epmin.PosEnergy := ⟨rfl, GeV_pos, by norm_num [exPr]⟩
theorem exPr_hi : exPr.Epmax.PosEnergy :=
  ⟨rfl, by simp only [exPr, PhysUnit.TeV]; norm_num, by norm_num [exPr]⟩
theorem exPr_lt : exPr.Epmin.phys < exPr.Epmax.phys := by
  simp only [exPr, Qty.phys, PhysUnit.GeV, PhysUnit.TeV]; norm_num

/-- Photon energies in erg, as in the requests of the examples: about 1 keV, 1 GeV and 1 TeV. -/
noncomputable def exEs : List ℝ := [1.6e-9, 1.6e-3, 1.6]

theorem exEs_pos : ∀ e ∈ exEs, 0 < e := by simp only [exEs]; norm_num

theorem exEs_ne : exEs ≠ [] := by simp [exEs]

end Naima.Props
