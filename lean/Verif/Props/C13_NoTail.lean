import Verif.Props.C82_EnergyConservation
import Verif.Props.C74_KelnerFormula

/-! # C13: protons that end below the transition energy -/

namespace Naima.Props

open Naima XR Classical

theorem exactQuad_nan (f : ℝ → XR) (a : ℝ) (b : Option ℝ) (hf : ∀ x, f x = nan) (hb : ∀ c, b = some c → a < c) :
    exactQuad f a b = nan := by
  unfold exactQuad
  cases b with
  | none =>
    refine if_neg fun h => ?_
    have := h (a + 1) (by show a < a + 1; linarith)
    rw [hf] at this; exact this
  | some c =>
    have hc := hb c rfl
    refine if_neg fun h => ?_
    have := h ((a + c) / 2) ⟨by linarith, by linarith⟩
    rw [hf] at this; exact this

theorem kHi_noTail (pd : PDist) (et e : ℝ) (h0 : 0 < e) (he : et ≤ e)
    (hz : ∀ E, et * PhysUnit.TeV.scale ≤ E → pd.f E = fin 0) : kHi exactQuad pd e = fin 0 := by
  have hT := TeV_pos
  unfold kHi
  rw [(exactQuad_interior _ (fun _ => fin 0) 0).1 1 (fun x hx hx1 => ?_), exactQuad_zero, mul_fin, mul_zero]
  unfold kPhoton
  rw [kDist_eq, kFgamma_eq x _ hx hx1]
  have hTe : PhysUnit.TeV.scale = 1e12 * cEV := by unfold PhysUnit.TeV cEV; norm_num
  unfold protonsTeV
  rw [hz _ (by
    rw [← hTe]
    refine mul_le_mul_of_nonneg_right ?_ hT.le
    rw [le_div_iff₀ hx]
    nlinarith)]
  simp only [mul_fin]
  rw [div_fin _ _ hx.ne']
  simp

theorem kLo_noTail (pd : PDist) (et e : ℝ) (h0 : 0 < e) (he : et ≤ e)
    (hz : ∀ E, et * PhysUnit.TeV.scale ≤ E → pd.f E = fin 0) : kLo exactQuad pd (fin 1) e = fin 0 := by
  have hT := TeV_pos
  rw [kLo_eq exactQuad exactQuad_interior pd 1 e h0]
  unfold deltaSpectrum
  have hm : 0 < KAB06.mπ := by unfold KAB06.mπ; norm_num
  have hmp : 0 < mProton := by rw [← pM_eq]; exact pM_pos
  have hmin : KAB06.mπ ≤ e + KAB06.mπ ^ 2 / (4 * e) := by
    have e1 : e + KAB06.mπ ^ 2 / (4 * e) - KAB06.mπ = (e - KAB06.mπ / 2) ^ 2 / e := by field_simp; ring
    have : 0 ≤ (e - KAB06.mπ / 2) ^ 2 / e := by positivity
    linarith
  have hTe : PhysUnit.TeV.scale = 1e12 * cEV := by unfold PhysUnit.TeV cEV; norm_num
  rw [(exactQuad_interior _ (fun _ => fin 0) _).2 (fun x hx => ?_), exactQuad_zero, mul_fin, mul_zero]
  have hxe : e < x := lt_of_le_of_lt (by have : 0 ≤ KAB06.mπ ^ 2 / (4 * e) := by positivity
                                         linarith) hx
  have hrt : 0 < x ^ 2 - KAB06.mπ ^ 2 := by
    have := lt_of_le_of_lt hmin hx
    nlinarith
  unfold protonsTeV
  rw [hz _ (by
    rw [← hTe]
    refine mul_le_mul_of_nonneg_right ?_ hT.le
    have : x ≤ x / KAB06.Kπ := by unfold KAB06.Kπ; rw [le_div_iff₀ (by norm_num)]; linarith
    linarith [div_pos hmp (show (0:ℝ) < 1000 by norm_num)])]
  simp only [mul_fin]
  rw [div_fin _ _ (Real.sqrt_pos.2 hrt).ne']
  simp

/-- **C13 is false of the code for protons that end below the transition energy** (a table of values, or a
power law with a limit): in a request that has energies on both sides of it, the factor that should match the two calculations is
0/0, and the spectrum is NaN at every energy below it; at the same energies asked for on their own it is the delta
approximation, which does not depend on the protons above the transition energy being there. -/
theorem C13_false_no_tail (m : KelnerModel) (pd : PDist) (hu : pd.unit.dim = Dim.diffEnergy) (hEt : 0 < m.Etrans.phys)
    (hz : ∀ E, m.Etrans.phys ≤ E → pd.f E = fin 0) (es : List ℝ) (hes : ∀ e ∈ es, 0 < e)
    (hlo : ∃ e ∈ es, e < m.Etrans.phys) (hhi : ∃ e ∈ es, m.Etrans.phys ≤ e) :
    m.spectrum exactQuad pd (.array es) = .ok (es.map (fun e => if m.Etrans.phys ≤ e then fin 0 else nan)) ∧
    m.spectrum exactQuad pd (.array (es.filter (fun e => decide (e < m.Etrans.phys)))) =
      .ok ((es.filter (fun e => decide (e < m.Etrans.phys))).map (fun e =>
        fin m.nh.phys * (deltaSpectrum exactQuad pd 1 (e / (1e12 * cEV)) * fin 1e-12))) := by
  have hT := TeV_pos
  have hz' : ∀ E, m.Etrans.phys / PhysUnit.TeV.scale * PhysUnit.TeV.scale ≤ E → pd.f E = fin 0 := by
    intro E; rw [div_mul_cancel₀ _ hT.ne']; exact hz E
  have hn : m.nhat exactQuad pd es = nan := by
    unfold KelnerModel.nhat
    rw [if_pos ⟨hlo, hhi⟩]
    simp only []
    rw [kHi_noTail pd _ _ (div_pos hEt hT) le_rfl hz', kLo_noTail pd _ _ (div_pos hEt hT) le_rfl hz']
    have : (fin 0 / fin 0 : XR) = nan := by simp [XR.div_def, XR.div, infMul]
    rw [this]; rfl
  constructor
  · unfold KelnerModel.spectrum
    simp only [hu, ne_eq, not_true_eq_false, and_false, if_false]
    congr 1
    refine List.map_congr_left fun e he => ?_
    rw [hn]
    unfold KelnerModel.at
    by_cases c : m.Etrans.phys ≤ e
    · rw [if_pos c, if_pos c, kHi_noTail pd _ _ (div_pos (hes e he) hT) (div_le_div_of_nonneg_right c hT.le) hz', mul_fin,
        mul_fin, zero_mul, mul_zero]
    · rw [if_neg c, if_neg c]
      unfold kLo
      rw [exactQuad_nan _ _ _ (fun x => ?_) (by simp)]
      · rfl
      · unfold kDelta
        simp only []
        rfl
  · exact (C74_spectrum exactQuad exactQuad_interior m pd hu _ (fun e he => hes e (List.mem_filter.1 he).1)).2
      (fun e he => by simpa using (List.mem_filter.1 he).2)

/-- Protons with `E^-2` up to 100 GeV, photons of 1 GeV and 1 TeV, the default transition energy. -/
example : ∃ (m : KelnerModel) (pd : PDist) (es : List ℝ), pd.unit.dim = Dim.diffEnergy ∧ 0 < m.Etrans.phys ∧
    (∀ E, m.Etrans.phys ≤ E → pd.f E = fin 0) ∧ (∀ E, 0 < E → E < m.Etrans.phys → Positive (pd.f E)) ∧
    (∀ e ∈ es, 0 < e) ∧ (∃ e ∈ es, e < m.Etrans.phys) ∧ ∃ e ∈ es, m.Etrans.phys ≤ e := by
  have hT := TeV_pos
  have hE : (⟨0.1, PhysUnit.TeV⟩ : Qty ℝ).phys = 0.1 * PhysUnit.TeV.scale := rfl
  have hG : PhysUnit.GeV.scale = PhysUnit.TeV.scale / 1000 := by simp only [PhysUnit.TeV, PhysUnit.GeV]; norm_num
  refine ⟨⟨⟨1, ⟨1, Dim.numDensity⟩⟩, ⟨0.1, PhysUnit.TeV⟩⟩,
    ⟨⟨1, Dim.diffEnergy⟩, fun E => if 0.1 * PhysUnit.TeV.scale ≤ E then fin 0 else fin (1 / E ^ 2)⟩,
    [PhysUnit.GeV.scale, PhysUnit.TeV.scale], rfl, by rw [hE]; positivity, ?_, ?_, ?_, ?_, ?_⟩
  · intro E h; exact if_pos (hE ▸ h)
  · intro E h0 h
    exact ⟨1 / E ^ 2, by positivity, if_neg (not_le.2 (hE ▸ h))⟩
  · intro e he
    simp only [List.mem_cons, List.not_mem_nil, or_false] at he
    rcases he with rfl | rfl
    · rw [hG]; positivity
    · exact hT
  · exact ⟨_, List.mem_cons_self, by rw [hE, hG]; linarith⟩
  · exact ⟨PhysUnit.TeV.scale, by simp, by rw [hE]; linarith⟩

end Naima.Props
