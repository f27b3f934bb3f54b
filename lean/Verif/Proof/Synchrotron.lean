import Verif.Model.Synchrotron
import Verif.Proof.Electron

namespace Naima

open XR Classical

/-- Integrating a matrix along axis 0 is integrating each column. -/
theorem trapzAxis0_cols {α β : Type} (x : α → XR) (f : α → β → XR) (gs : List α) (es : List β) :
    trapzAxis0 es.length (gs.map (fun g => (x g, es.map (f g)))) =
      es.map (fun e => trapzLL (gs.map (fun g => (x g, f g e)))) := by
  induction gs with
  | nil =>
    simp only [List.map_nil, trapzAxis0, trapzLL, trapzIntervals, sum_nil]
    rw [List.map_const']
  | cons g rest ih =>
    cases rest with
    | nil =>
      simp only [List.map_cons, List.map_nil, trapzAxis0, trapzLL, trapzIntervals, sum_nil]
      rw [List.map_const']
    | cons g2 rest =>
      simp only [List.map_cons, trapzAxis0] at ih ⊢
      rw [ih]
      simp only [trapzLL, trapzIntervals, sum_cons]
      simp only [List.zipWith_map, List.zipWith_self]

/-- The synchrotron spectrum at one photon energy, given grid and densities. -/
noncomputable def syncAt (b : ℝ) (pts : List (ℝ × XR)) (e : ℝ) : XR :=
  trapzLL (pts.map (fun p => (fin p.1, p.2 * syncKernel b p.1 e))) * fin cEV

theorem SyncModel.spectrum_eq (m : SyncModel) (pd : PDist) (es : List ℝ) :
    m.spectrum pd es = (do
      let b ← m.B.toReal gauss
      let gam ← m.toElModel.gam
      let nelec ← m.toElModel.nelec pd
      return es.map (syncAt b (gam.zip nelec))) := by
  unfold SyncModel.spectrum
  simp only [trapzAxis0_cols (fun p : ℝ × XR => fin p.1)
    (fun (p : ℝ × XR) (e : ℝ) => p.2 * syncKernel _ p.1 e), List.map_map]
  rfl

theorem nelec_scale (m : ElModel) (pd : PDist) (c : ℝ) (hc : 0 < c) :
    m.nelec (pd.scale c) = (m.nelec pd).map (List.map (fun a => fin c * a)) := by
  unfold ElModel.nelec nelecOf
  cases m.gam with
  | error e => rfl
  | ok g => exact valuesIn_scale pd c hc _ _

theorem syncAt_scale (b : ℝ) (c : ℝ) (hc : 0 < c) (gam : List ℝ) (n : List XR) (e : ℝ) :
    syncAt b (gam.zip (n.map (fun a => fin c * a))) e = fin c * syncAt b (gam.zip n) e := by
  unfold syncAt
  rw [← scale_mul c hc, ← trapzLL_scale_y c hc]
  congr 2
  rw [List.zip_map_right, List.map_map, List.map_map]
  apply List.map_congr_left
  intro p _
  simp [scale_mul c hc]

theorem sync_spectrum_scale (m : SyncModel) (pd : PDist) (c : ℝ) (hc : 0 < c) (es : List ℝ) :
    m.spectrum (pd.scale c) es = (m.spectrum pd es).map (List.map (fun a => fin c * a)) := by
  rw [m.spectrum_eq, m.spectrum_eq, nelec_scale _ _ _ hc]
  cases m.B.toReal gauss with
  | error e => rfl
  | ok b =>
    cases m.toElModel.gam with
    | error e => rfl
    | ok gam =>
      cases m.toElModel.nelec pd with
      | error e => rfl
      | ok n =>
        simp only [Except.map, bind, Except.bind, pure, Except.pure, List.map_map]
        congr 1
        apply List.map_congr_left
        intro e _
        exact syncAt_scale b c hc gam n e

/-! ### positivity -/

/-- a finite non-negative number -/
def NN (a : XR) : Prop := ∃ r : ℝ, 0 ≤ r ∧ a = fin r

theorem NN.mul {a b : XR} (ha : NN a) (hb : NN b) : NN (a * b) := by
  obtain ⟨r, hr, rfl⟩ := ha
  obtain ⟨s, hs, rfl⟩ := hb
  exact ⟨r * s, mul_nonneg hr hs, rfl⟩

theorem NN.add {a b : XR} (ha : NN a) (hb : NN b) : NN (a + b) := by
  obtain ⟨r, hr, rfl⟩ := ha
  obtain ⟨s, hs, rfl⟩ := hb
  exact ⟨r + s, add_nonneg hr hs, rfl⟩

theorem NN.div {a : XR} (ha : NN a) {s : ℝ} (hs : 0 < s) : NN (a / fin s) := by
  obtain ⟨r, hr, rfl⟩ := ha
  exact ⟨r / s, div_nonneg hr hs.le, div_fin _ _ hs.ne'⟩

theorem NN.fin {r : ℝ} (h : 0 ≤ r) : NN (XR.fin r) := ⟨r, h, rfl⟩

/-- the integral of non-negative finite values over an increasing grid of positive abscissae -/
theorem trapzLL_NN {α : Type} (gs : List α) (x : α → ℝ) (y : α → XR) (hx : ∀ g ∈ gs, 0 < x g)
    (hs : (gs.map x).Pairwise (· ≤ ·)) (hy : ∀ g ∈ gs, NN (y g)) :
    NN (trapzLL (gs.map (fun g => (XR.fin (x g), y g)))) := by
  obtain ⟨r, hr, e⟩ := trapzLL_nonneg (gs.map (fun g => (x g, (y g).toReal)))
    (by intro p hp; simp only [List.mem_map] at hp; obtain ⟨g, hg, rfl⟩ := hp; exact hx g hg)
    (by
      intro p hp; simp only [List.mem_map] at hp; obtain ⟨g, hg, rfl⟩ := hp
      obtain ⟨r, hr, e⟩ := hy g hg
      simp [e, hr])
    (by rw [List.map_map]; exact hs)
  refine ⟨r, hr, ?_⟩
  rw [← e, List.map_map]
  congr 1
  apply List.map_congr_left
  intro g hg
  obtain ⟨r, hr, e⟩ := hy g hg
  simp [e]

theorem Gtilde_NN (x : ℝ) (hx : 0 ≤ x) : NN (Gtilde (XR.fin x)) := by
  set c : ℝ := x ^ ((1 : ℝ) / 3) with hc
  have hc0 : 0 ≤ c := Real.rpow_nonneg hx _
  have hsq : sq (XR.fin c) = XR.fin (c ^ 2) := by
    unfold sq
    rcases eq_or_lt_of_le hc0 with h | h
    · rw [← h]; simp [XR.pow, powFin]
    · rw [pow_fin _ _ h]; norm_cast
  have hp4 : XR.pow (XR.fin c) (XR.fin 4) = XR.fin (c ^ 4) := by
    rcases eq_or_lt_of_le hc0 with h | h
    · rw [← h]; simp [XR.pow, powFin]
    · rw [pow_fin _ _ h]; norm_cast
  have hcb : cbrt (XR.fin x) = XR.fin c := by simp [cbrt, hx, hc]
  unfold Gtilde
  simp only [hcb, hsq, hp4, mul_fin, add_fin, neg_fin, exp_fin]
  have h1 : (0 : ℝ) < 1 + 3.4 * c ^ 2 := by positivity
  rw [sqrt_fin _ h1.le, div_fin _ _ (Real.sqrt_pos.2 h1).ne', div_fin _ _ (by positivity)]
  simp only [mul_fin]
  exact NN.fin (by positivity)

theorem syncEc_pos (b g : ℝ) (hb : 0 < b) (hg : 0 < g) : 0 < syncEc b g := by
  unfold syncEc
  have := cE_pos; have := cHbar_pos; have := cMe_pos; have := cC_pos
  positivity

theorem syncKernel_NN (b g e : ℝ) (hb : 0 < b) (hg : 0 < g) (he : 0 < e) :
    NN (syncKernel b g e) := by
  unfold syncKernel syncCS1
  have := cE_pos; have := cHbar_pos; have := cMe_pos; have := cC_pos
  have hp := syncEc_pos b g hb hg
  rw [div_fin e _ hp.ne']
  apply NN.mul
  · apply NN.div
    · exact NN.fin (by positivity)
    · positivity
  · exact Gtilde_NN _ (by positivity)

theorem nelec_eq (m : ElModel) (pd : PDist) (hu : pd.unit.dim = Dim.diffEnergy) (gam : List ℝ)
    (hg : m.gam = .ok gam) : m.nelec pd = .ok ((gam.map (· * cMec2)).map
      (fun e => pd.f e * XR.fin (pd.unit.scale / perMec2.scale))) := by
  unfold ElModel.nelec nelecOf
  rw [hg]
  simp only [bind, Except.bind]
  unfold PDist.valuesIn
  rw [if_pos (by rw [hu]; rfl)]

theorem gamGrid_facts (n : ℝ) (lo hi : Qty ℝ) (hlo : lo.PosEnergy) (hhi : hi.PosEnergy)
    (hle : lo.phys ≤ hi.phys) :
    ∃ gam, gamGrid n lo hi = .ok gam ∧ (∀ g ∈ gam, 0 < g) ∧ gam.Pairwise (· ≤ ·) := by
  refine ⟨_, gamGrid_eq n lo hi hlo hhi, logspace_pos _ _ _, ?_⟩
  apply logspace_pairwise
  exact (Real.logb_le_logb (by norm_num) (div_pos hlo.phys_pos cMec2_pos)
    (div_pos hhi.phys_pos cMec2_pos)).2 (div_le_div_of_nonneg_right hle cMec2_pos.le)

theorem gam_zip_facts (m : ElModel) (pd : PDist) (hu : pd.unit.dim = Dim.diffEnergy)
    (hus : 0 < pd.unit.scale) (hpd : ∀ e, 0 < e → NN (pd.f e))
    (hlo : m.Eemin.PosEnergy) (hhi : m.Eemax.PosEnergy) (hle : m.Eemin.phys ≤ m.Eemax.phys) :
    ∃ gam n, m.gam = .ok gam ∧ m.nelec pd = .ok n ∧ n.length = gam.length ∧
      (∀ g ∈ gam, 0 < g) ∧ gam.Pairwise (· ≤ ·) ∧ ∀ a ∈ n, NN a := by
  obtain ⟨gam, hg, hpos, hs⟩ := gamGrid_facts m.nEed m.Eemin m.Eemax hlo hhi hle
  have hg : m.gam = .ok gam := hg
  refine ⟨gam, _, hg, nelec_eq m pd hu gam hg, by simp, hpos, hs, ?_⟩
  intro a ha
  simp only [List.map_map, List.mem_map, Function.comp_apply] at ha
  obtain ⟨g, hg, rfl⟩ := ha
  apply NN.mul (hpd _ (mul_pos (hpos g hg) cMec2_pos))
  have := cMec2_pos
  apply NN.fin
  simp only [perMec2]; positivity

end Naima
