import Verif.Proof.GridLimit
import Verif.Props.C71_ICFormula
import Verif.Props.C82_EnergyConservation
import Verif.Props.C83_PionKernel
import Mathlib.Analysis.Real.Pi.Bounds

/-! # C83: refining the particle grid converges to the documented integrals

`nEed` and `nEpd` are points per decade. The code integrates with a log-log trapezoid rule whose result at
any finite number of points is neither an upper nor a lower bound. Here: its limit. -/

namespace Naima.Props

open Naima XR Classical Topology
open Filter (Tendsto atTop)

/-! ### Specification -/

/-- Particles per unit energy on `[a, b]`: non-negative, bounded and continuous, except possibly at finitely
many energies (the end of a table, a cutoff). -/
structure Spectrum (p : ℝ → ℝ) (a b : ℝ) : Prop where
  nonneg : ∀ t ∈ Set.Icc a b, 0 ≤ p t
  bounded : ∃ M, ∀ t ∈ Set.Icc a b, p t ≤ M
  continuous : ∃ S : Finset ℝ, ContinuousOn p (Set.Icc a b \ S)

/-! ### Proofs -/

theorem Spectrum.mul {p q : ℝ → ℝ} {a b : ℝ} (hp : Spectrum p a b) (hq : Spectrum q a b) :
    Spectrum (fun t => p t * q t) a b := by
  obtain ⟨M, hM⟩ := hp.bounded
  obtain ⟨N, hN⟩ := hq.bounded
  obtain ⟨S, hS⟩ := hp.continuous
  obtain ⟨T, hT⟩ := hq.continuous
  refine ⟨fun t ht => mul_nonneg (hp.nonneg t ht) (hq.nonneg t ht), ⟨M * N, fun t ht => ?_⟩, ⟨S ∪ T, ?_⟩⟩
  · exact mul_le_mul (hM t ht) (hN t ht) (hq.nonneg t ht) ((hp.nonneg t ht).trans (hM t ht))
  · apply ContinuousOn.mul
    · apply hS.mono; intro t ht; exact ⟨ht.1, fun h => ht.2 (by simp [show t ∈ S from h])⟩
    · apply hT.mono; intro t ht; exact ⟨ht.1, fun h => ht.2 (by simp [show t ∈ T from h])⟩

theorem Spectrum.of_continuous {p : ℝ → ℝ} {a b : ℝ} (h0 : ∀ t ∈ Set.Icc a b, 0 ≤ p t)
    (hc : ContinuousOn p (Set.Icc a b)) : Spectrum p a b := by
  obtain ⟨M, hM⟩ := isCompact_Icc.bddAbove_image hc
  exact ⟨h0, ⟨M, fun t ht => hM ⟨t, ht, rfl⟩⟩, ⟨∅, by simpa using hc⟩⟩

theorem Spectrum.integrable {f : ℝ → ℝ} {a b : ℝ} (hab : a ≤ b) (h : Spectrum f a b) :
    IntervalIntegrable f MeasureTheory.volume a b := by
  obtain ⟨M, hM⟩ := h.bounded
  obtain ⟨S, hS⟩ := h.continuous
  exact pc_integrable f a b M S hS h.nonneg hM a b le_rfl hab le_rfl

/-- limit of the sums over logarithmic grids from `a` to `b`, the grid being in units of `c` -/
theorem grid_limit (c a b : ℝ) (hm : 0 < c) (ha : 0 < a) (hlt : a < b) (F : ℝ → ℝ) (hF : Spectrum F a b) :
    ∃ W : ℝ → ℝ, (∀ n, trapzLL ((logspace (Real.logb 10 (a / c)) (Real.logb 10 (b / c))
        (gridK (Real.logb 10 (b / c) - Real.logb 10 (a / c)) n)).map
          (fun g => (fin (g * c), fin (F (g * c))))) = fin (W n)) ∧
      Tendsto W atTop (𝓝 (∫ E in a..b, F E)) := by
  obtain ⟨M, hM⟩ := hF.bounded
  obtain ⟨S, hS⟩ := hF.continuous
  have hb0 : 0 < b := ha.trans hlt
  set la := Real.logb 10 (a / c) with hla
  set lb := Real.logb 10 (b / c) with hlb
  have ea : (10 : ℝ) ^ la * c = a := by
    rw [hla, ten_rpow_logb _ (div_pos ha hm)]; field_simp
  have eb : (10 : ℝ) ^ lb * c = b := by
    rw [hlb, ten_rpow_logb _ (div_pos hb0 hm)]; field_simp
  have hab : la < lb := Real.logb_lt_logb (by norm_num) (div_pos ha hm) (div_lt_div_of_pos_right hlt hm)
  have key := grid_tendsto F c la lb hm hab S M (by rwa [ea, eb]) (by rwa [ea, eb])
    (by rw [ea, eb]; exact hF.nonneg) (gridK (lb - la)) (gridK_tendsto _ (by linarith)) (gridK_ten _)
  rw [ea, eb] at key
  refine ⟨_, ?_, key⟩
  intro n
  have hmem : ∀ x ∈ logspace la lb (gridK (lb - la) n), x * c ∈ Set.Icc a b := by
    intro x hx
    obtain ⟨a1, a2⟩ := logspace_mem la lb _ hab.le x hx
    rw [← ea, ← eb]
    exact ⟨mul_le_mul_of_nonneg_right a1 hm.le, mul_le_mul_of_nonneg_right a2 hm.le⟩
  rw [← trapzLL_rbin]
  · simp only [List.map_map]; rfl
  · intro p hp
    simp only [List.map_map, List.mem_map, Function.comp_apply] at hp
    obtain ⟨x, hx, rfl⟩ := hp
    exact lt_of_lt_of_le ha (hmem x hx).1
  · intro p hp
    simp only [List.map_map, List.mem_map, Function.comp_apply] at hp
    obtain ⟨x, hx, rfl⟩ := hp
    exact hF.nonneg _ (hmem x hx)
  · simp only [List.map_map]
    rw [List.pairwise_map]
    exact (logspace_pairwise la lb _ hab.le).imp (fun h => mul_le_mul_of_nonneg_right h hm.le)

/-- limit of the sums over the electron grid -/
theorem electron_limit (lo hi : Qty ℝ) (hlo : lo.PosEnergy) (hhi : hi.PosEnergy) (hlt : lo.phys < hi.phys)
    (F : ℝ → ℝ) (hF : Spectrum F lo.phys hi.phys) :
    ∃ W : ℝ → ℝ, (∀ n gam, gamGrid n lo hi = .ok gam →
        trapzLL (gam.map (fun g => (fin (g * cMec2), fin (F (g * cMec2))))) = fin (W n)) ∧
      Tendsto W atTop (𝓝 (∫ E in lo.phys..hi.phys, F E)) := by
  obtain ⟨W, h1, h2⟩ := grid_limit cMec2 lo.phys hi.phys cMec2_pos hlo.phys_pos hlt F hF
  refine ⟨W, fun n gam hg => ?_, h2⟩
  rw [gamGrid_eq n lo hi hlo hhi] at hg
  injection hg with hg
  rw [← h1 n, ← hg]
  rfl

/-- the proton grid -/
theorem epGrid_gridK (n : ℝ) (lo hi : Qty ℝ) (hlo : lo.PosEnergy) (hhi : hi.PosEnergy) :
    epGrid n lo hi = .ok (logspace (Real.logb 10 (lo.phys / PhysUnit.GeV.scale))
      (Real.logb 10 (hi.phys / PhysUnit.GeV.scale)) (gridK (Real.logb 10 (hi.phys / PhysUnit.GeV.scale) -
        Real.logb 10 (lo.phys / PhysUnit.GeV.scale)) n)) := by
  have q1 := div_pos hlo.phys_pos GeV_pos
  have q2 := div_pos hhi.phys_pos GeV_pos
  unfold epGrid
  rw [inGeV_ok _ hlo, inGeV_ok _ hhi]
  simp only [bind, Except.bind]
  unfold logGrid
  rw [log10_fin _ q1, log10_fin _ q2, sub_fin, gridSize_fin]
  rfl

/-- limit of the sums over the proton grid -/
theorem proton_limit (lo hi : Qty ℝ) (hlo : lo.PosEnergy) (hhi : hi.PosEnergy) (hlt : lo.phys < hi.phys)
    (F : ℝ → ℝ) (hF : Spectrum F lo.phys hi.phys) :
    ∃ W : ℝ → ℝ, (∀ n ep, epGrid n lo hi = .ok ep →
        trapzLL (ep.map (fun g => (fin (g * PhysUnit.GeV.scale), fin (F (g * PhysUnit.GeV.scale))))) = fin (W n)) ∧
      Tendsto W atTop (𝓝 (∫ E in lo.phys..hi.phys, F E)) := by
  obtain ⟨W, h1, h2⟩ := grid_limit PhysUnit.GeV.scale lo.phys hi.phys GeV_pos hlo.phys_pos hlt F hF
  refine ⟨W, fun n ep hg => ?_, h2⟩
  rw [epGrid_gridK n lo hi hlo hhi] at hg
  injection hg with hg
  rw [← h1 n, ← hg]

theorem ep_mem (n : ℝ) (lo hi : Qty ℝ) (hlo : lo.PosEnergy) (hhi : hi.PosEnergy) (hle : lo.phys ≤ hi.phys)
    (ep : List ℝ) (hg : epGrid n lo hi = .ok ep) :
    ∀ g ∈ ep, g * PhysUnit.GeV.scale ∈ Set.Icc lo.phys hi.phys := by
  have hm := GeV_pos
  intro g hgm
  obtain ⟨k, -, e⟩ := epGrid_eq n lo hi hlo hhi
  rw [hg] at e
  injection e with e
  rw [e] at hgm
  obtain ⟨a1, a2⟩ := logspace_mem _ _ _ ((Real.logb_le_logb (by norm_num) (div_pos hlo.phys_pos hm)
    (div_pos hhi.phys_pos hm)).2 (div_le_div_of_nonneg_right hle hm.le)) g hgm
  rw [ten_rpow_logb _ (div_pos hlo.phys_pos hm), div_le_iff₀ hm] at a1
  rw [ten_rpow_logb _ (div_pos hhi.phys_pos hm), le_div_iff₀ hm] at a2
  exact ⟨a1, a2⟩

theorem gam_mem (n : ℝ) (lo hi : Qty ℝ) (hlo : lo.PosEnergy) (hhi : hi.PosEnergy) (hle : lo.phys ≤ hi.phys)
    (gam : List ℝ) (hg : gamGrid n lo hi = .ok gam) : ∀ g ∈ gam, g * cMec2 ∈ Set.Icc lo.phys hi.phys := by
  have hm := cMec2_pos
  intro g hgm
  have e := gamGrid_eq n lo hi hlo hhi
  rw [hg] at e
  injection e with e
  rw [e] at hgm
  obtain ⟨a1, a2⟩ := logspace_mem _ _ _ ((Real.logb_le_logb (by norm_num) (div_pos hlo.phys_pos hm)
    (div_pos hhi.phys_pos hm)).2 (div_le_div_of_nonneg_right hle hm.le)) g hgm
  rw [ten_rpow_logb _ (div_pos hlo.phys_pos hm), div_le_iff₀ hm] at a1
  rw [ten_rpow_logb _ (div_pos hhi.phys_pos hm), le_div_iff₀ hm] at a2
  exact ⟨a1, a2⟩

/-- a sum over Lorentz factors is a sum over energies -/
theorem trapz_gamma (c : ℝ) (hc : 0 < c) (F : ℝ → ℝ) (gam : List ℝ) :
    trapzLL (gam.map (fun g => (fin g, fin (c * F (g * c))))) =
      trapzLL (gam.map (fun g => (fin (g * c), fin (F (g * c))))) := by
  have e1 := trapzLL_scale_y c hc (gam.map (fun g => (fin g, fin (F (g * c)))))
  have e2 := trapzLL_scale_x c hc (gam.map (fun g => (fin g, fin (F (g * c)))))
  simp only [List.map_map, Function.comp_def, mul_fin] at e1 e2
  rw [e1, ← e2]
  simp only [mul_comm c]

/-- `compute_We` is the log-log trapezoid sum of `E · dN/dE` over the grid -/
theorem computeWe_trapz (m : ElModel) (pd : PDist) (hu : pd.unit.dim = Dim.diffEnergy) (lo hi : Qty ℝ)
    (hlo : lo.PosEnergy) (hhi : hi.PosEnergy) (hlt : lo.phys < hi.phys) (p : ℝ → ℝ)
    (hp : ∀ E ∈ Set.Icc lo.phys hi.phys, pd.f E = fin (p E)) (n : ℝ) (gam : List ℝ)
    (hg : gamGrid n lo hi = .ok gam) :
    ({ m with nEed := n } : ElModel).computeWe pd (some lo) (some hi) =
      .ok (trapzLL (gam.map (fun g => (fin (g * cMec2), fin (g * cMec2 * (p (g * cMec2) * pd.unit.scale)))))) := by
  have hmem := gam_mem n lo hi hlo hhi hlt.le gam hg
  show (do
    let gam ← gamGrid n lo hi
    let nelec ← nelecOf pd gam
    return weOf gam nelec) = _
  rw [hg]
  unfold nelecOf PDist.valuesIn
  simp only [bind, Except.bind, hu, show perMec2.dim = Dim.diffEnergy from rfl, if_true, pure, Except.pure]
  congr 1
  unfold weOf trapz
  simp only [List.map_map]
  rw [List.zipWith_map_right, List.zipWith_self, zip_map_map]
  congr 1
  apply List.map_congr_left
  intro g hgm
  simp only [Function.comp_apply, id_eq, hp _ (hmem g hgm), mul_fin]
  have : pd.unit.scale / perMec2.scale = pd.unit.scale * cMec2 := by
    simp only [perMec2, one_div, div_inv_eq_mul]
  rw [this]
  congr 2
  ring

/-- **C83 (energy in electrons).** For every electron distribution and every range: as the number of grid
points per decade grows, `compute_We(Eemin, Eemax)` tends to `∫ E · dN/dE dE` between the limits, in erg. -/
theorem C83_compute_We (m : ElModel) (pd : PDist) (hu : pd.unit.dim = Dim.diffEnergy)
    (hus : 0 < pd.unit.scale) (lo hi : Qty ℝ)
    (hlo : lo.PosEnergy) (hhi : hi.PosEnergy) (hlt : lo.phys < hi.phys) (p : ℝ → ℝ)
    (hp : ∀ E ∈ Set.Icc lo.phys hi.phys, pd.f E = fin (p E)) (hs : Spectrum p lo.phys hi.phys) :
    ∃ W : ℝ → ℝ, (∀ n, ({ m with nEed := n } : ElModel).computeWe pd (some lo) (some hi) = .ok (fin (W n))) ∧
      Tendsto W atTop (𝓝 (∫ E in lo.phys..hi.phys, E * (p E * pd.unit.scale))) := by
  have hid : Spectrum (fun E => E) lo.phys hi.phys :=
    Spectrum.of_continuous (fun t ht => hlo.phys_pos.le.trans ht.1) continuousOn_id
  have hsc : Spectrum (fun _ => pd.unit.scale) lo.phys hi.phys :=
    Spectrum.of_continuous (fun _ _ => hus.le) continuousOn_const
  obtain ⟨W, h1, h2⟩ := electron_limit lo hi hlo hhi hlt (fun E => E * (p E * pd.unit.scale))
    (hid.mul (hs.mul hsc))
  refine ⟨W, fun n => ?_, h2⟩
  obtain ⟨gam, hg, hlg⟩ := gamGrid_logGrid n lo hi hlo hhi hlt
  rw [computeWe_trapz m pd hu lo hi hlo hhi hlt p hp n gam hg]
  exact congrArg Except.ok (h1 n gam hg)

theorem gAKP_continuousOn : ContinuousOn gAKP (Set.Ioi 0) := by
  have h : ∀ r : ℝ, ContinuousOn (fun x : ℝ => x ^ r) (Set.Ioi 0) := fun r =>
    continuousOn_id.rpow_const (fun x hx => Or.inl (ne_of_gt hx))
  unfold gAKP
  apply ContinuousOn.mul
  · apply ContinuousOn.mul
    · apply ContinuousOn.div (continuousOn_const.mul (h _))
      · exact (continuousOn_const.add (continuousOn_const.mul (h _))).sqrt
      · intro x hx
        have : 0 < x ^ ((2:ℝ) / 3) := Real.rpow_pos_of_pos hx _
        exact (Real.sqrt_pos.2 (by positivity)).ne'
    · apply ContinuousOn.div
      · exact (continuousOn_const.add (continuousOn_const.mul (h _))).add (continuousOn_const.mul (h _))
      · exact (continuousOn_const.add (continuousOn_const.mul (h _))).add (continuousOn_const.mul (h _))
      · intro x hx
        have : 0 < x ^ ((2:ℝ) / 3) := Real.rpow_pos_of_pos hx _
        have : 0 < x ^ ((4:ℝ) / 3) := Real.rpow_pos_of_pos hx _
        positivity
  · exact (continuousOn_id.neg).rexp

theorem gAKP_nonneg (x : ℝ) (hx : 0 < x) : 0 ≤ gAKP x := by
  unfold gAKP
  have : 0 < x ^ ((1:ℝ) / 3) := Real.rpow_pos_of_pos hx _
  have : 0 < x ^ ((2:ℝ) / 3) := Real.rpow_pos_of_pos hx _
  have : 0 < x ^ ((4:ℝ) / 3) := Real.rpow_pos_of_pos hx _
  positivity

theorem sync_kernel_spectrum (a b B e : ℝ) (ha : 0 < a) (hB : 0 < B) (he : 0 < e) :
    Spectrum (fun E => syncEmission cE cMe cC cHbar B (E / (cMe * cC ^ 2)) e) a b := by
  have := cE_pos; have := cHbar_pos; have := cMe_pos; have := cC_pos
  have hpos : ∀ t ∈ Set.Icc a b, 0 < e / critEnergy cE cMe cC cHbar B (t / (cMe * cC ^ 2)) := by
    intro t ht
    have : 0 < t := ha.trans_le ht.1
    unfold critEnergy
    positivity
  apply Spectrum.of_continuous
  · intro t ht
    have := gAKP_nonneg _ (hpos t ht)
    unfold syncEmission
    positivity
  · unfold syncEmission
    apply ContinuousOn.mul continuousOn_const
    apply gAKP_continuousOn.comp _ hpos
    apply ContinuousOn.div continuousOn_const
    · unfold critEnergy
      exact continuousOn_const.mul ((continuousOn_id.div_const _).pow 2)
    · intro t ht
      have : 0 < t := ha.trans_le ht.1
      unfold critEnergy
      positivity

/-- **C83 (synchrotron).** For every electron distribution, field and range: as the number of grid points
per decade grows, the spectrum at every photon energy tends to the integral over electron energy of
(electrons per unit energy) × (emission of one electron, AKP10), in 1/(s eV). -/
theorem C83_synchrotron (m : SyncModel) (pd : PDist) (hu : pd.unit.dim = Dim.diffEnergy)
    (hus : 0 < pd.unit.scale) (hlo : m.Eemin.PosEnergy) (hhi : m.Eemax.PosEnergy)
    (hlt : m.Eemin.phys < m.Eemax.phys) (hB : m.B.unit.dim = Dim.magFluxDensity) (hBp : 0 < m.B.phys)
    (p : ℝ → ℝ) (hp : ∀ E ∈ Set.Icc m.Eemin.phys m.Eemax.phys, pd.f E = fin (p E))
    (hs : Spectrum p m.Eemin.phys m.Eemax.phys) (es : List ℝ) (hes : ∀ e ∈ es, 0 < e) :
    ∃ L : ℝ → ℝ → ℝ, (∀ n, ({ m with nEed := n } : SyncModel).spectrum pd es =
        .ok (es.map (fun e => fin (L n e)))) ∧
      ∀ e ∈ es, Tendsto (fun n => L n e) atTop (𝓝 ((∫ E in m.Eemin.phys..m.Eemax.phys,
        p E * pd.unit.scale * syncEmission cE cMe cC cHbar (m.B.phys / 0.1) (E / (cMe * cC ^ 2)) e) * cEV)) := by
  have hm := cMec2_pos
  have hsc : Spectrum (fun _ => pd.unit.scale) m.Eemin.phys m.Eemax.phys :=
    Spectrum.of_continuous (fun _ _ => hus.le) continuousOn_const
  have key : ∀ e : ℝ, ∃ W : ℝ → ℝ, 0 < e → (∀ n gam, gamGrid n m.Eemin m.Eemax = .ok gam →
        trapzLL (gam.map (fun g => (fin (g * cMec2), fin (p (g * cMec2) * pd.unit.scale *
          syncEmission cE cMe cC cHbar (m.B.phys / 0.1) (g * cMec2 / (cMe * cC ^ 2)) e)))) = fin (W n)) ∧
      Tendsto W atTop (𝓝 (∫ E in m.Eemin.phys..m.Eemax.phys, p E * pd.unit.scale *
        syncEmission cE cMe cC cHbar (m.B.phys / 0.1) (E / (cMe * cC ^ 2)) e)) := by
    intro e
    by_cases he : 0 < e
    · obtain ⟨W, h⟩ := electron_limit m.Eemin m.Eemax hlo hhi hlt _
        ((hs.mul hsc).mul (sync_kernel_spectrum m.Eemin.phys m.Eemax.phys (m.B.phys / 0.1) e
          hlo.phys_pos (by positivity) he))
      exact ⟨W, fun _ => h⟩
    · exact ⟨fun _ => 0, fun h => absurd h he⟩
  choose W hW using key
  refine ⟨fun n e => W e n * cEV, fun n => ?_, fun e he => ((hW e (hes e he)).2.mul_const cEV)⟩
  obtain ⟨gam, hg, -, h⟩ := C70_documented { m with nEed := n } pd hu hlo hhi hlt.le hB hBp es hes
  rw [h]
  congr 1
  apply List.map_congr_left
  intro e he
  have hmem := gam_mem n m.Eemin m.Eemax hlo hhi hlt.le gam hg
  show _ = fin (W e n * cEV)
  rw [← mul_fin (W e n), ← (hW e (hes e he)).1 n gam hg, ← trapz_gamma cMec2 hm (fun E => p E * pd.unit.scale *
    syncEmission cE cMe cC cHbar (m.B.phys / 0.1) (E / (cMe * cC ^ 2)) e)]
  congr 2
  apply List.map_congr_left
  intro g hgm
  have e2 : g * cMec2 / (cMe * cC ^ 2) = g := by
    show g * cMec2 / cMec2 = g; field_simp
  rw [e2]
  show (fin g, pd.f (g * cMec2) * fin (pd.unit.scale * cMec2) * _) = _
  rw [hp _ (hmem g hgm), mul_fin, mul_fin]
  congr 2
  ring

/-! ### Inverse Compton -/

theorem gFactor_le (α a β b x : ℝ) (hx : 0 < x) (ha : 0 ≤ a) (hb : 0 ≤ b) : Spec.gFactor α a β b x ≤ 1 := by
  unfold Spec.gFactor
  rw [div_le_one (by positivity)]
  have : 0 ≤ a * x ^ α / (1 + b * x ^ β) := by positivity
  linarith

theorem six_le_pi_sq : (6 : ℝ) ≤ Real.pi ^ 2 := by nlinarith [Real.pi_gt_three]

theorem F34_bounds (α a β b c x : ℝ) (hx : 0 < x) (ha : 0 ≤ a) (hb : 0 ≤ b) (hc : 0 ≤ c) :
    0 ≤ Spec.F34 α a β b c x ∧ Spec.F34 α a β b c x ≤ (Real.pi ^ 2 / 6 + x) * Real.exp (-x) := by
  have g1 := gFactor_le α a β b x hx ha hb
  have g0 := (gFactor_pos α a β b x hx ha hb).le
  have h6 := six_le_pi_sq
  unfold Spec.F34
  have hd : 0 < 1 + Real.pi ^ 2 * c / 6 * x := by positivity
  have hr : (1 + c * x) / (1 + Real.pi ^ 2 * c / 6 * x) ≤ 1 := by
    rw [div_le_one hd]
    nlinarith [mul_nonneg hc hx.le]
  have hr0 : 0 ≤ (1 + c * x) / (1 + Real.pi ^ 2 * c / 6 * x) := by positivity
  refine ⟨by positivity, ?_⟩
  calc Real.pi ^ 2 / 6 * ((1 + c * x) / (1 + Real.pi ^ 2 * c / 6 * x)) * Real.exp (-x) * Spec.gFactor α a β b x
      ≤ Real.pi ^ 2 / 6 * 1 * Real.exp (-x) * 1 := by gcongr
    _ ≤ (Real.pi ^ 2 / 6 + x) * Real.exp (-x) := by
        rw [mul_one, mul_one]
        exact mul_le_mul_of_nonneg_right (by linarith) (Real.exp_pos _).le

theorem F12_bounds (α a β b x : ℝ) (hx : 0 < x) (ha : 0 ≤ a) (hb : 0 ≤ b) :
    0 ≤ Spec.F12 α a β b x ∧ Spec.F12 α a β b x ≤ (Real.pi ^ 2 / 6 + x) * Real.exp (-x) := by
  have g1 := gFactor_le α a β b x hx ha hb
  have g0 := (gFactor_pos α a β b x hx ha hb).le
  unfold Spec.F12
  refine ⟨by positivity, ?_⟩
  calc _ ≤ (Real.pi ^ 2 / 6 + x) * Real.exp (-x) * 1 := by gcongr
    _ = _ := mul_one _

theorem exp_poly (x : ℝ) (hx : 0 < x) :
    (Real.pi ^ 2 / 6 + x) * Real.exp (-x) ≤ 3 ∧ x * ((Real.pi ^ 2 / 6 + x) * Real.exp (-x)) ≤ 4 := by
  have hp : Real.pi ^ 2 / 6 ≤ 2 := by nlinarith [Real.pi_lt_d2, Real.pi_pos]
  have h1 : x + 1 ≤ Real.exp x := Real.add_one_le_exp x
  have h2 : 1 + x + x ^ 2 / 2 ≤ Real.exp x := Real.quadratic_le_exp_of_nonneg hx.le
  have e : Real.exp (-x) * Real.exp x = 1 := by rw [← Real.exp_add]; simp
  have hE : 0 < Real.exp (-x) := Real.exp_pos _
  have k1 : Real.exp (-x) * (1 + x + x ^ 2 / 2) ≤ 1 :=
    (mul_le_mul_of_nonneg_left h2 hE.le).trans e.le
  have hx2 : 0 ≤ Real.exp (-x) * x := by positivity
  have hx3 : 0 ≤ Real.exp (-x) * x ^ 2 := by positivity
  constructor
  · nlinarith
  · nlinarith

/-- both thermal rates, in terms of `k = z/((1-z) x)` -/
theorem thermal_bound (z x k f h N : ℝ) (hz : 0 < z) (hz1 : z < 1) (hk : 0 < k) (hx : x = k / (1 - z))
    (hf : 0 ≤ f ∧ f ≤ (Real.pi ^ 2 / 6 + x) * Real.exp (-x))
    (hh : 0 ≤ h ∧ h ≤ (Real.pi ^ 2 / 6 + x) * Real.exp (-x)) (hN : 0 ≤ N) :
    0 ≤ N * (z ^ 2 / (2 * (1 - z)) * f + h) ∧ N * (z ^ 2 / (2 * (1 - z)) * f + h) ≤ N * (2 / k + 3) := by
  have h1 : 0 < 1 - z := by linarith
  have hx0 : 0 < x := by rw [hx]; positivity
  obtain ⟨e1, e2⟩ := exp_poly x hx0
  refine ⟨mul_nonneg hN (add_nonneg (mul_nonneg (by positivity) hf.1) hh.1), ?_⟩
  apply mul_le_mul_of_nonneg_left _ hN
  have hxf : x * f ≤ 4 := (mul_le_mul_of_nonneg_left hf.2 hx0.le).trans e2
  have e3 : z ^ 2 / (2 * (1 - z)) * f = z ^ 2 * (x * f) / (2 * k) := by
    rw [hx]; field_simp
  have e4 : z ^ 2 * (x * f) / (2 * k) ≤ 2 / k := by
    rw [div_le_div_iff₀ (by positivity) hk]
    have : z ^ 2 ≤ 1 := by nlinarith
    have : z ^ 2 * (x * f) ≤ 1 * 4 := mul_le_mul this hxf (mul_nonneg hx0.le hf.1) zero_le_one
    nlinarith
  rw [e3]
  linarith [hh.2]

theorem gFactor_continuousOn (α a β b : ℝ) (ha : 0 ≤ a) (hb : 0 ≤ b) :
    ContinuousOn (Spec.gFactor α a β b) (Set.Ioi 0) := by
  have h : ∀ r : ℝ, ContinuousOn (fun x : ℝ => x ^ r) (Set.Ioi 0) := fun r =>
    continuousOn_id.rpow_const (fun x hx => Or.inl (ne_of_gt hx))
  unfold Spec.gFactor
  apply ContinuousOn.div continuousOn_const
  · apply continuousOn_const.add
    apply ContinuousOn.div (continuousOn_const.mul (h _)) (continuousOn_const.add (continuousOn_const.mul (h _)))
    intro x hx
    have : 0 < x ^ β := Real.rpow_pos_of_pos hx _
    have : 0 < 1 + b * x ^ β := by positivity
    exact this.ne'
  · intro x hx
    have h1 : 0 < x ^ β := Real.rpow_pos_of_pos hx _
    have h2 : 0 < x ^ α := Real.rpow_pos_of_pos hx _
    have : 0 ≤ a * x ^ α / (1 + b * x ^ β) := by positivity
    have : 0 < 1 + a * x ^ α / (1 + b * x ^ β) := by linarith
    exact this.ne'

theorem F34_continuousOn (α a β b c : ℝ) (ha : 0 ≤ a) (hb : 0 ≤ b) (hc : 0 ≤ c) :
    ContinuousOn (Spec.F34 α a β b c) (Set.Ioi 0) := by
  unfold Spec.F34
  apply ContinuousOn.mul _ (gFactor_continuousOn α a β b ha hb)
  apply ContinuousOn.mul _ (continuousOn_id.neg).rexp
  apply ContinuousOn.mul continuousOn_const
  apply ContinuousOn.div
  · exact continuousOn_const.add (continuousOn_const.mul continuousOn_id)
  · exact continuousOn_const.add (continuousOn_const.mul continuousOn_id)
  · intro x hx
    have : (0:ℝ) < x := hx
    show 1 + Real.pi ^ 2 * c / 6 * x ≠ 0
    positivity

theorem F12_continuousOn (α a β b : ℝ) (ha : 0 ≤ a) (hb : 0 ≤ b) :
    ContinuousOn (Spec.F12 α a β b) (Set.Ioi 0) := by
  unfold Spec.F12
  apply ContinuousOn.mul _ (gFactor_continuousOn α a β b ha hb)
  exact (continuousOn_const.add continuousOn_id).mul (continuousOn_id.neg).rexp

/-- the common shape of both thermal rates -/
theorem thermal_shape_continuousOn (A B : ℝ → ℝ) (hA : ContinuousOn A (Set.Ioi 0))
    (hB : ContinuousOn B (Set.Ioi 0)) (ε t w : ℝ) (hε : 0 < ε) (hw : 0 < w) :
    ContinuousOn (fun γ => Spec.thermalNorm * t ^ 2 / γ ^ 2 *
      ((ε / γ) ^ 2 / (2 * (1 - ε / γ)) * A (ε / γ / ((1 - ε / γ) * (w * γ))) +
        B (ε / γ / ((1 - ε / γ) * (w * γ))))) (Set.Ioi ε) := by
  have hz : ContinuousOn (fun γ : ℝ => ε / γ) (Set.Ioi ε) :=
    continuousOn_const.div continuousOn_id (fun γ hγ => (hε.trans hγ).ne')
  have hz1 : ∀ γ ∈ Set.Ioi ε, 0 < 1 - ε / γ := by
    intro γ hγ
    have hγ' : ε < γ := hγ
    have : ε / γ < 1 := by rwa [div_lt_one (hε.trans hγ')]
    linarith
  have hx : ContinuousOn (fun γ : ℝ => ε / γ / ((1 - ε / γ) * (w * γ))) (Set.Ioi ε) := by
    apply ContinuousOn.div hz ((continuousOn_const.sub hz).mul (continuousOn_const.mul continuousOn_id))
    intro γ hγ
    have := hz1 γ hγ
    have : 0 < γ := hε.trans hγ
    show (1 - ε / γ) * (w * γ) ≠ 0
    positivity
  have hxp : ∀ γ ∈ Set.Ioi ε, ε / γ / ((1 - ε / γ) * (w * γ)) ∈ Set.Ioi (0:ℝ) := by
    intro γ hγ
    have := hz1 γ hγ
    have : 0 < γ := hε.trans hγ
    simp only [Set.mem_Ioi]
    positivity
  apply ContinuousOn.mul
  · exact continuousOn_const.div (continuousOn_id.pow 2) (fun γ hγ => by
      have : 0 < γ := hε.trans hγ
      show γ ^ 2 ≠ 0
      positivity)
  · apply ContinuousOn.add
    · apply ContinuousOn.mul
      · apply ContinuousOn.div (hz.pow 2) (continuousOn_const.mul (continuousOn_const.sub hz))
        intro γ hγ
        have := hz1 γ hγ
        show 2 * (1 - ε / γ) ≠ 0
        positivity
      · exact hA.comp hx hxp
    · exact hB.comp hx hxp

theorem thermal_shape_bound (A B : ℝ → ℝ) (ε t w : ℝ) (hε : 0 < ε) (hw : 0 < w)
    (hA : ∀ x, 0 < x → 0 ≤ A x ∧ A x ≤ (Real.pi ^ 2 / 6 + x) * Real.exp (-x))
    (hB : ∀ x, 0 < x → 0 ≤ B x ∧ B x ≤ (Real.pi ^ 2 / 6 + x) * Real.exp (-x)) (γ b : ℝ) (hγ : ε < γ)
    (h1 : 1 < γ) (hb : γ ≤ b) :
    0 ≤ Spec.thermalNorm * t ^ 2 / γ ^ 2 *
      ((ε / γ) ^ 2 / (2 * (1 - ε / γ)) * A (ε / γ / ((1 - ε / γ) * (w * γ))) +
        B (ε / γ / ((1 - ε / γ) * (w * γ)))) ∧
    Spec.thermalNorm * t ^ 2 / γ ^ 2 *
      ((ε / γ) ^ 2 / (2 * (1 - ε / γ)) * A (ε / γ / ((1 - ε / γ) * (w * γ))) +
        B (ε / γ / ((1 - ε / γ) * (w * γ)))) ≤
      Spec.thermalNorm * t ^ 2 * (2 / (ε / (w * b ^ 2)) + 3) := by
  have hγ0 : 0 < γ := hε.trans hγ
  have hz : 0 < ε / γ := by positivity
  have hz1 : ε / γ < 1 := by rwa [div_lt_one hγ0]
  have h0 : 0 < 1 - ε / γ := by linarith
  have hx : 0 < ε / γ / ((1 - ε / γ) * (w * γ)) := by positivity
  have hN : 0 ≤ Spec.thermalNorm * t ^ 2 / γ ^ 2 := by unfold Spec.thermalNorm; positivity
  have hN2 : Spec.thermalNorm * t ^ 2 / γ ^ 2 ≤ Spec.thermalNorm * t ^ 2 :=
    div_le_self (by unfold Spec.thermalNorm; positivity) (by nlinarith)
  obtain ⟨q1, q2⟩ := thermal_bound (ε / γ) (ε / γ / ((1 - ε / γ) * (w * γ))) (ε / (w * γ ^ 2)) _ _ _ hz hz1
    (by positivity) (by field_simp) (hA _ hx) (hB _ hx) hN
  refine ⟨q1, q2.trans ?_⟩
  have hk : 2 / (ε / (w * γ ^ 2)) ≤ 2 / (ε / (w * b ^ 2)) := by
    rw [div_div_eq_mul_div, div_div_eq_mul_div]
    gcongr
  have : 0 < 2 / (ε / (w * γ ^ 2)) := by positivity
  exact mul_le_mul hN2 (by linarith) (by linarith) (hN.trans hN2)

theorem piecewise_spectrum (f : ℝ → ℝ) (a b ε M : ℝ) (hε : 0 < ε)
    (hc : ContinuousOn f (Set.Ioi ε)) (hb : ∀ γ, ε < γ → 1 < γ → γ ≤ b → 0 ≤ f γ ∧ f γ ≤ M) (hM : 0 ≤ M) :
    Spectrum (fun γ => if ε < γ ∧ 1 < γ then f γ else 0) a b := by
  refine ⟨?_, ⟨M, ?_⟩, ⟨{ε, 1}, ?_⟩⟩
  · intro t ht
    split
    · rename_i h; exact (hb t h.1 h.2 ht.2).1
    · exact le_rfl
  · intro t ht
    split
    · rename_i h; exact (hb t h.1 h.2 ht.2).2
    · exact hM
  · intro t ht
    have hne : t ≠ ε ∧ t ≠ 1 := by
      constructor <;> (intro h; apply ht.2; simp [h])
    apply ContinuousAt.continuousWithinAt
    by_cases h : ε < t ∧ 1 < t
    · have hc' : ContinuousAt f t := hc.continuousAt (Ioi_mem_nhds h.1)
      apply hc'.congr
      filter_upwards [Ioi_mem_nhds h.1, Ioi_mem_nhds h.2] with s h1 h2
      rw [if_pos ⟨h1, h2⟩]
    · have : ContinuousAt (fun _ : ℝ => (0:ℝ)) t := continuousAt_const
      apply this.congr
      have h' : t < ε ∨ t < 1 := by
        rcases lt_or_gt_of_ne hne.1 with h1 | h1
        · exact Or.inl h1
        · rcases lt_or_gt_of_ne hne.2 with h2 | h2
          · exact Or.inr h2
          · exact absurd ⟨h1, h2⟩ h
      rcases h' with h' | h'
      · filter_upwards [Iio_mem_nhds h'] with s h1
        rw [if_neg]; intro h2; exact absurd h2.1 (not_lt.2 (le_of_lt h1))
      · filter_upwards [Iio_mem_nhds h'] with s h1
        rw [if_neg]; intro h2; exact absurd h2.2 (not_lt.2 (le_of_lt h1))

theorem thermalRate_spectrum (T : ℝ) (θ : Option ℝ) (hT : 0 < T) (hθ : ∀ x, θ = some x → Real.cos x ≠ 1)
    (ε a b : ℝ) (hε : 0 < ε) : Spectrum (fun γ => thermalRate T θ γ ε) a b := by
  unfold thermalRate
  have hn : 0 ≤ Spec.thermalNorm := by unfold Spec.thermalNorm; norm_num
  cases θ with
  | none =>
    simp only
    set t := 1.6863699549e-10 * T with ht
    have ht0 : 0 < t := by positivity
    have e : ∀ γ, Spec.isoThermal γ t ε = Spec.thermalNorm * t ^ 2 / γ ^ 2 *
      ((ε / γ) ^ 2 / (2 * (1 - ε / γ)) * Spec.F34 0.606 0.443 1.481 0.540 0.319 (ε / γ / ((1 - ε / γ) * ((4 * t) * γ))) +
        Spec.F34 0.461 0.726 1.457 0.382 6.620 (ε / γ / ((1 - ε / γ) * ((4 * t) * γ)))) := by
      intro γ
      unfold Spec.isoThermal
      simp only [show (4 * γ * t : ℝ) = 4 * t * γ by ring]
    simp only [e]
    apply piecewise_spectrum _ a b ε (Spec.thermalNorm * t ^ 2 * (2 / (ε / ((4 * t) * b ^ 2)) + 3)) hε
    · exact thermal_shape_continuousOn _ _ (F34_continuousOn _ _ _ _ _ (by norm_num) (by norm_num) (by norm_num))
        (F34_continuousOn _ _ _ _ _ (by norm_num) (by norm_num) (by norm_num)) ε t (4 * t) hε (by positivity)
    · intro γ h1 h2 h3
      exact thermal_shape_bound _ _ ε t (4 * t) hε (by positivity)
        (fun x hx => F34_bounds _ _ _ _ _ x hx (by norm_num) (by norm_num) (by norm_num))
        (fun x hx => F34_bounds _ _ _ _ _ x hx (by norm_num) (by norm_num) (by norm_num)) γ b h1 h2 h3
    · positivity
  | some θ =>
    simp only
    set t := 1.6863699549e-10 * T with ht
    have ht0 : 0 < t := by positivity
    have hc : 0 < 1 - Real.cos θ := by
      rcases lt_or_eq_of_le (Real.cos_le_one θ) with h | h
      · linarith
      · exact absurd h (hθ θ rfl)
    have e : ∀ γ, Spec.aniThermal γ t ε θ = Spec.thermalNorm * t ^ 2 / γ ^ 2 *
      ((ε / γ) ^ 2 / (2 * (1 - ε / γ)) *
        Spec.F12 0.857 0.153 1.840 0.254 (ε / γ / ((1 - ε / γ) * ((2 * t * (1 - Real.cos θ)) * γ))) +
        Spec.F12 0.691 1.330 1.668 0.534 (ε / γ / ((1 - ε / γ) * ((2 * t * (1 - Real.cos θ)) * γ)))) := by
      intro γ
      unfold Spec.aniThermal
      simp only [show (2 * γ * t * (1 - Real.cos θ) : ℝ) = 2 * t * (1 - Real.cos θ) * γ by ring]
    simp only [e]
    apply piecewise_spectrum _ a b ε
      (Spec.thermalNorm * t ^ 2 * (2 / (ε / ((2 * t * (1 - Real.cos θ)) * b ^ 2)) + 3)) hε
    · exact thermal_shape_continuousOn _ _ (F12_continuousOn _ _ _ _ (by norm_num) (by norm_num))
        (F12_continuousOn _ _ _ _ (by norm_num) (by norm_num)) ε t _ hε (by positivity)
    · intro γ h1 h2 h3
      exact thermal_shape_bound _ _ ε t _ hε (by positivity)
        (fun x hx => F12_bounds _ _ _ _ x hx (by norm_num) (by norm_num))
        (fun x hx => F12_bounds _ _ _ _ x hx (by norm_num) (by norm_num)) γ b h1 h2 h3
    · positivity

theorem Spectrum.comp_div {q : ℝ → ℝ} {a b c : ℝ} (hc : 0 < c) (h : Spectrum q (a / c) (b / c)) :
    Spectrum (fun E => q (E / c)) a b := by
  have hm : ∀ t ∈ Set.Icc a b, t / c ∈ Set.Icc (a / c) (b / c) := fun t ht =>
    ⟨div_le_div_of_nonneg_right ht.1 hc.le, div_le_div_of_nonneg_right ht.2 hc.le⟩
  obtain ⟨M, hM⟩ := h.bounded
  obtain ⟨S, hS⟩ := h.continuous
  refine ⟨fun t ht => h.nonneg _ (hm t ht), ⟨M, fun t ht => hM _ (hm t ht)⟩, ⟨S.image (· * c), ?_⟩⟩
  apply hS.comp (continuousOn_id.div_const c)
  intro t ht
  refine ⟨hm t ht.1, fun hs => ht.2 ?_⟩
  simp only [Finset.coe_image, Set.mem_image]
  exact ⟨t / c, hs, by field_simp⟩

/-- **C83 (inverse Compton).** For every electron distribution, range and thermal photon field of
temperature `T > 0` (isotropic, or seen under an angle other than 0): as the number of grid points per
decade grows, the spectrum at every photon energy tends to the integral over electron energy of (electrons
per unit energy) × (published rate), with the normalisation of C71, in 1/(s eV). -/
theorem C83_inverse_compton (m : ElModel) (pd : PDist) (hu : pd.unit.dim = Dim.diffEnergy)
    (hus : 0 < pd.unit.scale) (hlo : m.Eemin.PosEnergy) (hhi : m.Eemax.PosEnergy)
    (hlt : m.Eemin.phys < m.Eemax.phys) (T dens : ℝ) (θ : Option ℝ) (hT : 0 < T)
    (hθ : ∀ x, θ = some x → Real.cos x ≠ 1)
    (p : ℝ → ℝ) (hp : ∀ E ∈ Set.Icc m.Eemin.phys m.Eemax.phys, pd.f E = fin (p E))
    (hs : Spectrum p m.Eemin.phys m.Eemax.phys) (es : List ℝ) (hes : ∀ e ∈ es, 0 < e) :
    ∃ L : ℝ → ℝ → ℝ, (∀ n, icSpectrum { m with nEed := n } [.thermal T dens θ] pd es =
        .ok (es.map (fun e => fin (L n e)))) ∧
      ∀ e ∈ es, Tendsto (fun n => L n e) atTop (𝓝 (dens / (4 * cSigma / cC * T ^ 4) * cEV / (cMe * cC ^ 2) *
        ∫ E in m.Eemin.phys..m.Eemax.phys,
          p E * pd.unit.scale * thermalRate T θ (E / (cMe * cC ^ 2)) (e / (cMe * cC ^ 2)))) := by
  have hm := cMec2_pos
  have hsc : Spectrum (fun _ => pd.unit.scale) m.Eemin.phys m.Eemax.phys :=
    Spectrum.of_continuous (fun _ _ => hus.le) continuousOn_const
  have key : ∀ e : ℝ, ∃ W : ℝ → ℝ, 0 < e → (∀ n gam, gamGrid n m.Eemin m.Eemax = .ok gam →
        trapzLL (gam.map (fun g => (fin (g * cMec2), fin (p (g * cMec2) * pd.unit.scale *
          thermalRate T θ (g * cMec2 / (cMe * cC ^ 2)) (e / (cMe * cC ^ 2)))))) = fin (W n)) ∧
      Tendsto W atTop (𝓝 (∫ E in m.Eemin.phys..m.Eemax.phys, p E * pd.unit.scale *
        thermalRate T θ (E / (cMe * cC ^ 2)) (e / (cMe * cC ^ 2)))) := by
    intro e
    by_cases he : 0 < e
    · obtain ⟨W, h⟩ := electron_limit m.Eemin m.Eemax hlo hhi hlt _
        ((hs.mul hsc).mul (Spectrum.comp_div (c := cMe * cC ^ 2) hm
          (thermalRate_spectrum T θ hT hθ (e / (cMe * cC ^ 2)) _ _ (div_pos he hm))))
      exact ⟨W, fun _ => h⟩
    · exact ⟨fun _ => 0, fun h => absurd h he⟩
  choose W hW using key
  refine ⟨fun n e => dens / (4 * cSigma / cC * T ^ 4) * cEV / (cMe * cC ^ 2) * W e n, fun n => ?_,
    fun e he => ((hW e (hes e he)).2.const_mul _)⟩
  obtain ⟨gam, hg, -, h⟩ := C71_thermal { m with nEed := n } pd hu hlo hhi hlt.le T dens θ hT hθ es hes
  rw [h]
  congr 1
  apply List.map_congr_left
  intro e he
  have hmem := gam_mem n m.Eemin m.Eemax hlo hhi hlt.le gam hg
  show _ = fin (_ * W e n)
  rw [← mul_fin _ (W e n), ← (hW e (hes e he)).1 n gam hg, ← trapz_gamma cMec2 hm (fun E => p E * pd.unit.scale *
    thermalRate T θ (E / (cMe * cC ^ 2)) (e / (cMe * cC ^ 2)))]
  congr 2
  apply List.map_congr_left
  intro g hgm
  have e2 : g * cMec2 / (cMe * cC ^ 2) = g := by
    show g * cMec2 / cMec2 = g; field_simp
  rw [e2]
  show (fin g, pd.f (g * cMec2) * fin (pd.unit.scale * cMec2) * _) = _
  rw [hp _ (hmem g hgm), mul_fin, mul_fin]
  congr 2
  ring

/-! ### Protons -/

/-- `compute_Wp` is the log-log trapezoid sum of `E · dN/dE` over the grid -/
theorem computeWp_trapz (m : PrModel) (pd : PDist) (hu : pd.unit.dim = Dim.diffEnergy)
    (hus : 0 < pd.unit.scale) (lo hi : Qty ℝ)
    (hlo : lo.PosEnergy) (hhi : hi.PosEnergy) (hlt : lo.phys < hi.phys) (p : ℝ → ℝ)
    (hp : ∀ E ∈ Set.Icc lo.phys hi.phys, pd.f E = fin (p E)) (n : ℝ) (ep : List ℝ)
    (hg : epGrid n lo hi = .ok ep) :
    ({ m with nEpd := n } : PrModel).computeWp pd (some lo) (some hi) =
      .ok (trapzLL (ep.map (fun g => (fin (g * PhysUnit.GeV.scale),
        fin (g * PhysUnit.GeV.scale * (p (g * PhysUnit.GeV.scale) * pd.unit.scale)))))) := by
  have hm := GeV_pos
  have hmem := ep_mem n lo hi hlo hhi hlt.le ep hg
  show (do
    let ep ← epGrid n lo hi
    wpQty ep pd) = _
  rw [hg]
  unfold wpQty
  simp only [bind, Except.bind, hu, if_true]
  congr 1
  rw [← trapz_gamma _ hm (fun E => E * (p E * pd.unit.scale))]
  unfold trapz
  rw [zip_map_map, mul_comm', ← trapzLL_scale_y _ (by positivity)]
  congr 1
  rw [List.map_map]
  apply List.map_congr_left
  intro g hgm
  simp only [Function.comp_apply, hp _ (hmem g hgm), mul_fin]
  congr 2
  ring

/-- **C83 (energy in protons).** The same for `compute_Wp(Epmin, Epmax)`. -/
theorem C83_compute_Wp (m : PrModel) (pd : PDist) (hu : pd.unit.dim = Dim.diffEnergy)
    (hus : 0 < pd.unit.scale) (lo hi : Qty ℝ)
    (hlo : lo.PosEnergy) (hhi : hi.PosEnergy) (hlt : lo.phys < hi.phys) (p : ℝ → ℝ)
    (hp : ∀ E ∈ Set.Icc lo.phys hi.phys, pd.f E = fin (p E)) (hs : Spectrum p lo.phys hi.phys) :
    ∃ W : ℝ → ℝ, (∀ n, ({ m with nEpd := n } : PrModel).computeWp pd (some lo) (some hi) = .ok (fin (W n))) ∧
      Tendsto W atTop (𝓝 (∫ E in lo.phys..hi.phys, E * (p E * pd.unit.scale))) := by
  have hid : Spectrum (fun E => E) lo.phys hi.phys :=
    Spectrum.of_continuous (fun t ht => hlo.phys_pos.le.trans ht.1) continuousOn_id
  have hsc : Spectrum (fun _ => pd.unit.scale) lo.phys hi.phys :=
    Spectrum.of_continuous (fun _ _ => hus.le) continuousOn_const
  obtain ⟨W, h1, h2⟩ := proton_limit lo hi hlo hhi hlt (fun E => E * (p E * pd.unit.scale))
    (hid.mul (hs.mul hsc))
  refine ⟨W, fun n => ?_, h2⟩
  obtain ⟨k, -, hg⟩ := epGrid_eq n lo hi hlo hhi
  generalize logspace (Real.logb 10 (lo.phys / PhysUnit.GeV.scale))
      (Real.logb 10 (hi.phys / PhysUnit.GeV.scale)) k = ep at hg
  rw [computeWp_trapz m pd hu hus lo hi hlo hhi hlt p hp n ep hg]
  exact congrArg Except.ok (h1 n ep hg)

theorem Spectrum.of_bpc {f : ℝ → ℝ} {a b : ℝ} (h : BPC f a b) (h0 : ∀ t ∈ Set.Icc a b, 0 ≤ f t) :
    Spectrum f a b := by
  obtain ⟨M, hM⟩ := h.bounded
  exact ⟨h0, ⟨M, fun t ht => (le_abs_self _).trans (hM t ht)⟩, h.continuous⟩

theorem Spectrum.comp_sub {q : ℝ → ℝ} {a b c : ℝ} (h : Spectrum q (a - c) (b - c)) :
    Spectrum (fun E => q (E - c)) a b := by
  have hm : ∀ t ∈ Set.Icc a b, t - c ∈ Set.Icc (a - c) (b - c) := fun t ht =>
    ⟨by linarith [ht.1], by linarith [ht.2]⟩
  obtain ⟨M, hM⟩ := h.bounded
  obtain ⟨S, hS⟩ := h.continuous
  refine ⟨fun t ht => h.nonneg _ (hm t ht), ⟨M, fun t ht => hM _ (hm t ht)⟩, ⟨S.image (· + c), ?_⟩⟩
  apply hS.comp (by fun_prop : ContinuousOn (fun E : ℝ => E - c) _)
  intro t ht
  refine ⟨hm t ht.1, fun hs => ht.2 ?_⟩
  simp only [Finset.coe_image, Set.mem_image]
  exact ⟨t - c, hs, by ring⟩

/-- **C83 (pion decay).** For every proton distribution and range above threshold, every high-energy model,
with or without nuclear enhancement, without lookup table, after any history: as the number of grid points
per decade grows, the spectrum at every photon energy tends to `n_h c ∫ dN/dE_p · dσ/dE dE_p` with the
cross section of Kafexhiu et al., in 1/(s eV). -/
theorem C83_pion (m : PionModel) (pd : PDist) (hu : pd.unit.dim = Dim.diffEnergy) (hus : 0 < pd.unit.scale)
    (hlo : m.Epmin.PosEnergy) (hhi : m.Epmax.PosEnergy) (hlt : m.Epmin.phys < m.Epmax.phys)
    (hth : Kafexhiu.Tth < m.Epmin.phys / (1e9 * cEV) - mProton)
    (hn : m.nh.unit.dim = Dim.numDensity) (tbl : FTable) (hr : Reachable tbl)
    (p : ℝ → ℝ) (hp : ∀ E ∈ Set.Icc m.Epmin.phys m.Epmax.phys, pd.f E = fin (p E))
    (hs : Spectrum p m.Epmin.phys m.Epmax.phys)
    (es : List ℝ) (hne : es ≠ []) (hes : ∀ e ∈ es, 0 < e) :
    ∃ L : ℝ → ℝ → ℝ, (∀ n, (({ m with nEpd := n } : PionModel).spectrum pd tbl es).map Prod.snd =
        .ok (es.map (fun e => fin (L n e)))) ∧
      ∀ e ∈ es, Tendsto (fun n => L n e) atTop (𝓝 ((∫ E in m.Epmin.phys..m.Epmax.phys,
        p E * pd.unit.scale * Kafexhiu.dσ (modelOf m.hiE) m.nuc mProton (E / (1e9 * cEV) - mProton)
          (e / (1e9 * cEV))) * (m.nh.phys * cC) * 1e-9)) := by
  have hG : PhysUnit.GeV.scale = 1e9 * cEV := by unfold PhysUnit.GeV cEV; norm_num
  have hm : 0 < 1e9 * cEV := hG ▸ GeV_pos
  have hsc : Spectrum (fun _ => pd.unit.scale) m.Epmin.phys m.Epmax.phys :=
    Spectrum.of_continuous (fun _ _ => hus.le) continuousOn_const
  have key : ∀ e : ℝ, ∃ W : ℝ → ℝ, 0 < e → (∀ n ep, epGrid n m.Epmin m.Epmax = .ok ep →
        trapzLL (ep.map (fun g => (fin (g * (1e9 * cEV)), fin (p (g * (1e9 * cEV)) * pd.unit.scale *
          Kafexhiu.dσ (modelOf m.hiE) m.nuc mProton (g * (1e9 * cEV) / (1e9 * cEV) - mProton)
            (e / (1e9 * cEV)))))) = fin (W n)) ∧
      Tendsto W atTop (𝓝 (∫ E in m.Epmin.phys..m.Epmax.phys, p E * pd.unit.scale *
        Kafexhiu.dσ (modelOf m.hiE) m.nuc mProton (E / (1e9 * cEV) - mProton) (e / (1e9 * cEV)))) := by
    intro e
    by_cases he : 0 < e
    · have he' : 0 < e / (1e9 * cEV) := div_pos he hm
      have hk : Spectrum (fun E => Kafexhiu.dσ (modelOf m.hiE) m.nuc mProton (E / (1e9 * cEV) - mProton)
          (e / (1e9 * cEV))) m.Epmin.phys m.Epmax.phys := by
        apply Spectrum.comp_div (q := fun E => Kafexhiu.dσ (modelOf m.hiE) m.nuc mProton (E - mProton)
          (e / (1e9 * cEV))) hm
        apply Spectrum.comp_sub (q := fun T => Kafexhiu.dσ (modelOf m.hiE) m.nuc mProton T (e / (1e9 * cEV)))
        apply Spectrum.of_bpc (dσ_bpc _ _ _ he' hth)
        intro t ht
        exact dσ_nonneg _ _ _ _ he' (lt_of_lt_of_le hth ht.1)
      obtain ⟨W, h⟩ := proton_limit m.Epmin m.Epmax hlo hhi hlt _ ((hs.mul hsc).mul hk)
      rw [hG] at h
      exact ⟨W, fun _ => h⟩
    · exact ⟨fun _ => 0, fun h => absurd h he⟩
  choose W hW using key
  refine ⟨fun n e => W e n * (m.nh.phys * cC) * 1e-9, fun n => ?_,
    fun e he => (((hW e (hes e he)).2.mul_const _).mul_const _)⟩
  obtain ⟨ep, hep, -, h⟩ := C73_spectrum { m with nEpd := n } pd hu hlo hhi hlt.le hth hn tbl hr es hne hes
  have hep' : epGrid n m.Epmin m.Epmax = .ok ep := by
    have := epGrid_eq_Ep ({ m with nEpd := n } : PionModel).toPrModel hlo hhi
    exact this.trans hep
  rw [h]
  congr 1
  apply List.map_congr_left
  intro e he
  have hmem := ep_mem n m.Epmin m.Epmax hlo hhi hlt.le ep hep'
  show _ = fin (W e n * (m.nh.phys * cC) * 1e-9)
  rw [← mul_fin (W e n * (m.nh.phys * cC)), ← mul_fin (W e n), ← (hW e (hes e he)).1 n ep hep',
    ← trapz_gamma _ hm (fun E => p E * pd.unit.scale *
    Kafexhiu.dσ (modelOf m.hiE) m.nuc mProton (E / (1e9 * cEV) - mProton) (e / (1e9 * cEV)))]
  congr 3
  apply List.map_congr_left
  intro g hgm
  have e2 : g * (1e9 * cEV) / (1e9 * cEV) = g := mul_div_cancel_right₀ _ hm.ne'
  have hmg := hmem g hgm
  rw [hG] at hmg
  unfold protons
  rw [e2, hp _ hmg, mul_fin, mul_fin]
  congr 2
  ring

/-! ### The hypotheses are met -/

/-- A power law from 1 GeV to 510 TeV. -/
example : Spectrum (fun E => E ^ (-2 : ℝ)) (1e9 * cEV) (510e12 * cEV) := by
  have := cEV_pos
  apply Spectrum.of_continuous
  · intro t ht
    have : 0 < t := lt_of_lt_of_le (by positivity) ht.1
    positivity
  · exact continuousOn_id.rpow_const (fun t ht => Or.inl (ne_of_gt (lt_of_lt_of_le (by positivity) ht.1)))

/-- A table of constant value 3 that ends inside the range: discontinuous there. -/
example : Spectrum (fun E => if E < 1 then 3 else 0) 0.5 2 := by
  refine ⟨fun t _ => by split <;> norm_num, ⟨3, fun t _ => by split <;> norm_num⟩,
    ⟨{1}, ?_⟩⟩
  intro t ht
  have hne : t ≠ 1 := fun h => ht.2 (by simp [h])
  apply ContinuousAt.continuousWithinAt
  rcases lt_or_gt_of_ne hne with h | h
  · apply (continuousAt_const (y := (3:ℝ))).congr
    filter_upwards [Iio_mem_nhds h] with s q
    rw [if_pos (show s < 1 from q)]
  · apply (continuousAt_const (y := (0:ℝ))).congr
    filter_upwards [Ioi_mem_nhds h] with s q
    rw [if_neg (not_lt.2 (le_of_lt q))]

end Naima.Props
