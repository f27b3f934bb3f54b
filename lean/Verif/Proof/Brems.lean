import Verif.Model.Brems
import Verif.Proof.IC

namespace Naima

open XR Classical

/-- the emissivity at one photon energy -/
noncomputable def bremsAt (sigma : ℝ → ℝ → XR) (gam : List ℝ) (n : List XR) (e : ℝ) : XR :=
  fin cC * trapzLL ((gam.zip n).map (fun p => (fin p.1, p.2 * (sigma p.1 (e / cMec2) * fin (1 / cMec2)))))

theorem bremsEmiss_eq (sigma : ℝ → ℝ → XR) (gam : List ℝ) (n : List XR) (es : List ℝ) :
    bremsEmiss sigma gam n es = es.map (bremsAt sigma gam n) := by
  unfold bremsEmiss
  simp only []
  rw [trapzAxis0_cols (fun p : ℝ × XR => fin p.1)
    (fun (p : ℝ × XR) (e : ℝ) => p.2 * (sigma p.1 (e / cMec2) * fin (1 / cMec2))), List.map_map]
  rfl

theorem bremsAt_scale (c : ℝ) (hc : 0 < c) (sigma : ℝ → ℝ → XR) (gam : List ℝ) (n : List XR) (e : ℝ) :
    bremsAt sigma gam (n.map (fun a => fin c * a)) e = fin c * bremsAt sigma gam n e := by
  unfold bremsAt
  rw [← mul_left_swap c hc, ← trapzLL_scale_y c hc]
  congr 2
  rw [List.zip_map_right, List.map_map, List.map_map]
  apply List.map_congr_left
  intro p _
  simp [scale_mul c hc]

/-- the spectrum at one photon energy, in 1/(s eV) -/
noncomputable def bremsTotal (m : BremsModel) (gam : List ℝ) (n : List XR) (e : ℝ) : XR :=
  fin m.n0.value * (fin m.wee * bremsAt bremsEe gam n e +
    fin m.wep * bremsAt bremsEp gam n e * fin (1 / 1)) * fin (m.n0.unit.scale * cEV)

theorem uEmiss_dim (d : Dim) : d.mul uEmiss.dim = uLum.dim ↔ d = Dim.numDensity := by
  constructor
  · intro h
    obtain ⟨a1, a2, a3, a4, a5, a6⟩ := d
    simp only [uEmiss, uLum, Dim.mul, Dim.inv, Dim.numDensity, Dim.diffPower, Dim.mk.injEq] at h ⊢
    omega
  · rintro rfl; rfl

theorem brems_spectrum_eq (m : BremsModel) (pd : PDist) (es : List ℝ) (h1 : m.wee ≠ 0)
    (h2 : m.wep ≠ 0) :
    m.spectrum pd es = (do
      let gam ← m.toElModel.gam
      let n ← m.toElModel.nelec pd
      if m.n0.unit.dim = Dim.numDensity then return es.map (bremsTotal m gam n)
      else throw .unitConversionError) := by
  unfold BremsModel.spectrum BremsModel.spectrumQ BremsModel.emiss
  rw [if_neg h1, if_neg h2]
  cases m.toElModel.gam with
  | error e => rfl
  | ok gam =>
    cases m.toElModel.nelec pd with
    | error e => rfl
    | ok n =>
      simp only [bind, Except.bind, pure, Except.pure, addQ, bremsEmiss_eq, if_true]
      unfold Qty.toArr
      have hd : (m.n0.unit.mul uEmiss).dim = m.n0.unit.dim.mul uEmiss.dim := rfl
      simp only [hd, uEmiss_dim]
      by_cases h : m.n0.unit.dim = Dim.numDensity
      · simp only [h, if_true, List.map_map, List.zipWith_map, List.zipWith_self]
        congr 1
        apply List.map_congr_left
        intro e _
        have hs : (m.n0.unit.mul uEmiss).scale / uLum.scale = m.n0.unit.scale * cEV := by
          simp [PhysUnit.mul, uEmiss, uLum]
        simp only [Function.comp_apply, bremsTotal, hs]
        rfl
      · simp only [h, if_false]; rfl

theorem bremsTotal_scale (m : BremsModel) (c : ℝ) (hc : 0 < c) (gam : List ℝ) (n : List XR) (e : ℝ) :
    bremsTotal m gam (n.map (fun a => fin c * a)) e = fin c * bremsTotal m gam n e := by
  unfold bremsTotal
  rw [bremsAt_scale c hc, bremsAt_scale c hc, mul_left_swap c hc, mul_left_swap c hc, scale_mul c hc,
    ← scale_add c hc, mul_left_swap c hc, scale_mul c hc]

/-- the polynomial factor of `_sigma_1` is positive -/
theorem sigma1_s2_pos (y : ℝ) : 0 < 1 + (1 / 3 - y) * (1 - y) := by
  nlinarith [sq_nonneg (y - 2 / 3)]

/-- `_sigma_1` below the electron energy -/
theorem bremsSigma1_eq (g eps : ℝ) (he : 0 < eps) (hlt : eps < g) :
    bremsSigma1 g eps = fin (4 * cR0 ^ 2 * cAlpha / eps *
      (1 + (1 / 3 - eps / g) * (1 - eps / g)) * (Real.log (2 * g * (g - eps) / eps) - 1 / 2)) := by
  have hg : 0 < g := by linarith
  have h1 : 0 < g - eps := by linarith
  unfold bremsSigma1
  rw [if_neg (by linarith)]
  simp only [div_fin _ _ he.ne', div_fin _ _ hg.ne', log_fin _ (by positivity : 0 < 2 * g * (g - eps) / eps),
    sub_fin, mul_fin, add_fin]

theorem bremsSigma1_above (g eps : ℝ) (hg : 0 < g) (he : 0 < eps) (hlt : g < eps) :
    bremsSigma1 g eps = fin 0 := by
  unfold bremsSigma1
  rw [if_pos hlt]
  simp only [div_fin _ _ he.ne', div_fin _ _ hg.ne', sub_fin, mul_fin, add_fin, mul_zero]

theorem bremsSigma1_at (g : ℝ) (hg : 0 < g) : bremsSigma1 g g = ninf := by
  unfold bremsSigma1
  rw [if_neg (by linarith)]
  have hr := cR0_pos
  have ha := cAlpha_pos
  simp only [sub_self, mul_zero, div_fin _ _ hg.ne', sub_fin, mul_fin, add_fin, zero_div]
  have h1 : XR.log (fin 0) = ninf := by simp [XR.log]
  have h2 : (ninf - fin (1 / 2) : XR) = ninf := rfl
  rw [h1, h2]
  apply scale_ninf
  have := sigma1_s2_pos (g / g)
  rw [div_self hg.ne'] at this ⊢
  positivity

theorem bremsTotal_phys (m : BremsModel) (gam : List ℝ) (n : List XR) (e : ℝ)
    (hs : 0 < m.n0.unit.scale) :
    bremsTotal m gam n e = fin (m.n0.phys * cEV) * (fin m.wee * bremsAt bremsEe gam n e +
      fin m.wep * bremsAt bremsEp gam n e) := by
  have hev := cEV_pos
  unfold bremsTotal
  have h1 : ∀ a : XR, a * fin (1 / 1) = a := by
    intro a
    cases a <;> simp [mul_def, XR.mul, infMul]
  rw [h1, mul_comm', ← scale_mul _ (by positivity), mul_fin]
  congr 2
  unfold Qty.phys; ring

end Naima
