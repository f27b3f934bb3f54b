import Verif.Proof.SyncAccuracy

/-! # C108: accuracy of synchrotron spectra at a finite number of grid points

The synchrotron spectrum is a sum over a logarithmic grid of electron energies. Against the exact integral of
(electrons per unit energy) × (emission of one electron), the sum is bounded at any number of points, and with the
default grid it is within 1 %. -/

namespace Naima.Props

open Naima XR Classical

/-! ### Specification -/

/-- Synchrotron photons per unit time and unit photon energy (erg) at photon energy `e` (erg) from electrons with
`p E · scale` electrons per unit energy between `a` and `b`, in a field of `B` gauss: the exact integral of the
emission of one electron (AKP10). -/
noncomputable def syncPhotons (p : ℝ → ℝ) (scale a b B e : ℝ) : ℝ :=
  ∫ E in a..b, p E * scale * syncEmission cE cMe cC cHbar B (E / (cMe * cC ^ 2)) e

/-- Critical photon energy of an electron of energy `E` in a field of `B` gauss. -/
noncomputable def critOf (B E : ℝ) : ℝ := critEnergy cE cMe cC cHbar B (E / (cMe * cC ^ 2))

/-! ### Proofs -/

theorem critOf_pos (B E : ℝ) (hB : 0 < B) (hE : 0 < E) : 0 < critOf B E := by
  have := cE_pos; have := cHbar_pos; have := cMe_pos; have := cC_pos
  unfold critOf critEnergy
  positivity

theorem critOf_sq (B E : ℝ) : critOf B E = critOf B 1 * E ^ 2 := by
  unfold critOf critEnergy
  rw [div_pow, div_pow]
  ring

theorem sync_fn (p : ℝ → ℝ) (scale B e E : ℝ) (hB : 0 < B) (he : 0 < e) (hE : 0 < E) :
    p E * scale * syncEmission cE cMe cC cHbar B (E / (cMe * cC ^ 2)) e =
      p E * scale * (Real.sqrt 3 / (2 * Real.pi) * (cE ^ 3 * B) / (cMe * cC ^ 2 * cHbar * e) *
        gAKP (e / critOf B 1 / E ^ 2)) := by
  rw [sync_kernel_eq B e E hB he hE]; rfl

theorem sync_pos (p : ℝ → ℝ) (scale B e E : ℝ) (hB : 0 < B) (he : 0 < e) (hE : 0 < E) (hp : 0 < p E)
    (hs : 0 < scale) : 0 < p E * scale * syncEmission cE cMe cC cHbar B (E / (cMe * cC ^ 2)) e := by
  have := cE_pos; have := cHbar_pos; have := cMe_pos; have := cC_pos
  rw [sync_fn p scale B e E hB he hE]
  have := gAKP_pos (e / critOf B 1 / E ^ 2) (by have := critOf_pos B 1 hB one_pos; positivity)
  positivity

theorem sync_cont (p : ℝ → ℝ) (a b scale B e : ℝ) (ha : 0 < a) (hB : 0 < B) (he : 0 < e)
    (hp : ContinuousOn p (Set.Icc a b)) :
    ContinuousOn (fun E => p E * scale * syncEmission cE cMe cC cHbar B (E / (cMe * cC ^ 2)) e) (Set.Icc a b) := by
  have := cE_pos; have := cHbar_pos; have := cMe_pos; have := cC_pos
  refine ContinuousOn.mul (hp.mul continuousOn_const) ?_
  unfold syncEmission
  apply ContinuousOn.mul continuousOn_const
  refine gAKP_continuousOn.comp (t := Set.Ioi 0) ?_ ?_
  · apply ContinuousOn.div continuousOn_const
    · unfold critEnergy
      exact continuousOn_const.mul ((continuousOn_id.div_const _).pow 2)
    · intro t ht
      have : 0 < t := ha.trans_le ht.1
      unfold critEnergy
      positivity
  · intro t ht
    have : 0 < t := ha.trans_le ht.1
    simp only [Set.mem_Ioi]
    unfold critEnergy
    positivity

theorem logLog_congr {f g : ℝ → ℝ} {a b : ℝ} (ha : 0 < a) (hb : 0 < b) (h : ∀ E ∈ Set.Icc a b, f E = g E) :
    Set.EqOn (logLog f) (logLog g) (Set.Icc (Real.log a) (Real.log b)) := by
  intro s hs
  unfold logLog
  rw [h _ (exp_mem_Icc ha hb hs)]

/-- the computed spectrum as a sum over the electron grid -/
theorem sync_sum (m : SyncModel) (pd : PDist) (hu : pd.unit.dim = Dim.diffEnergy)
    (hus : 0 < pd.unit.scale) (hlo : m.Eemin.PosEnergy) (hhi : m.Eemax.PosEnergy)
    (hlt : m.Eemin.phys < m.Eemax.phys) (hB : m.B.unit.dim = Dim.magFluxDensity) (hBp : 0 < m.B.phys)
    (p : ℝ → ℝ) (hp : ∀ E ∈ Set.Icc m.Eemin.phys m.Eemax.phys, pd.f E = fin (p E))
    (hpos : ∀ E ∈ Set.Icc m.Eemin.phys m.Eemax.phys, 0 < p E) (es : List ℝ) (hes : ∀ e ∈ es, 0 < e) (n : ℝ) :
    ∃ L : ℝ → ℝ, ({ m with nEed := n } : SyncModel).spectrum pd es = .ok (es.map (fun e => fin (L e * cEV))) ∧
      ∀ e ∈ es, trapzLL ((logspace (Real.logb 10 (m.Eemin.phys / cMec2)) (Real.logb 10 (m.Eemax.phys / cMec2))
        (gridK (Real.logb 10 (m.Eemax.phys / cMec2) - Real.logb 10 (m.Eemin.phys / cMec2)) n)).map
          (fun g => (fin (g * cMec2), fin (p (g * cMec2) * pd.unit.scale *
            syncEmission cE cMe cC cHbar (m.B.phys / 0.1) (g * cMec2 / (cMe * cC ^ 2)) e)))) = fin (L e) := by
  have hm := cMec2_pos
  have ha := hlo.phys_pos
  have hB0 : 0 < m.B.phys / 0.1 := by positivity
  have key : ∀ e : ℝ, ∃ W : ℝ, 0 < e → trapzLL ((logspace (Real.logb 10 (m.Eemin.phys / cMec2))
        (Real.logb 10 (m.Eemax.phys / cMec2))
        (gridK (Real.logb 10 (m.Eemax.phys / cMec2) - Real.logb 10 (m.Eemin.phys / cMec2)) n)).map
          (fun g => (fin (g * cMec2), fin (p (g * cMec2) * pd.unit.scale *
            syncEmission cE cMe cC cHbar (m.B.phys / 0.1) (g * cMec2 / (cMe * cC ^ 2)) e)))) = fin W := by
    intro e
    by_cases he : 0 < e
    · obtain ⟨l, h, -⟩ := grid_bins cMec2 m.Eemin.phys m.Eemax.phys hm ha hlt
        (fun E => p E * pd.unit.scale * syncEmission cE cMe cC cHbar (m.B.phys / 0.1) (E / (cMe * cC ^ 2)) e)
        (fun t ht => sync_pos p _ _ e t hB0 he (ha.trans_le ht.1) (hpos t ht) hus)
        (gridK (Real.logb 10 (m.Eemax.phys / cMec2) - Real.logb 10 (m.Eemin.phys / cMec2)) n) (gridK_ten _ _)
      exact ⟨_, fun _ => h⟩
    · exact ⟨0, fun h => absurd h he⟩
  choose W hW using key
  refine ⟨W, ?_, fun e he => hW e (hes e he)⟩
  obtain ⟨gam, hg, -, h⟩ := C70_documented { m with nEed := n } pd hu hlo hhi hlt.le hB hBp es hes
  rw [h]
  have hgg : gam = logspace (Real.logb 10 (m.Eemin.phys / cMec2)) (Real.logb 10 (m.Eemax.phys / cMec2))
        (gridK (Real.logb 10 (m.Eemax.phys / cMec2) - Real.logb 10 (m.Eemin.phys / cMec2)) n) := by
    have e := gamGrid_eq n m.Eemin m.Eemax hlo hhi
    have e' : gamGrid n m.Eemin m.Eemax = .ok gam := hg
    rw [e] at e'
    injection e' with e'
    rw [← e']; rfl
  congr 1
  apply List.map_congr_left
  intro e he
  have hmem := gam_mem n m.Eemin m.Eemax hlo hhi hlt.le gam hg
  show _ = fin (W e * cEV)
  rw [← mul_fin (W e), ← hW e (hes e he), ← hgg, ← trapz_gamma cMec2 hm (fun E => p E * pd.unit.scale *
    syncEmission cE cMe cC cHbar (m.B.phys / 0.1) (E / (cMe * cC ^ 2)) e)]
  congr 2
  apply List.map_congr_left
  intro g hgm
  have e2 : g * cMec2 / (cMe * cC ^ 2) = g := by
    show g * cMec2 / cMec2 = g; field_simp
  rw [e2]
  show (fin g, pd.f (g * cMec2) * fin (pd.unit.scale * cMec2) * _) = _
  rw [hp _ (hmem g hgm), mul_fin, mul_fin]
  congr 2
  ring

/-- **C108 (any grid).** For every electron spectrum that is positive and continuous on the range, every field,
every number `n` of grid points per decade and every bound `K ≥ 0` on its curvature, with `h` the step of the grid in
`ln E`: if the slope rises by at most `K` per e-folding, the spectrum at every photon energy is at most
`exp((K + 16/9) h²/8 + 1e-10 h)` times the exact one; if it falls by at most `K`, the exact one is at most
`exp((K + 4X + 2) h²/8 + 1e-10 h)` times the computed one at every photon energy up to `X` critical energies of the
least energetic electrons. -/
theorem C108_any_grid (m : SyncModel) (pd : PDist) (hu : pd.unit.dim = Dim.diffEnergy)
    (hus : 0 < pd.unit.scale) (hlo : m.Eemin.PosEnergy) (hhi : m.Eemax.PosEnergy)
    (hlt : m.Eemin.phys < m.Eemax.phys) (hB : m.B.unit.dim = Dim.magFluxDensity) (hBp : 0 < m.B.phys)
    (p : ℝ → ℝ) (hp : ∀ E ∈ Set.Icc m.Eemin.phys m.Eemax.phys, pd.f E = fin (p E))
    (hpos : ∀ E ∈ Set.Icc m.Eemin.phys m.Eemax.phys, 0 < p E)
    (hcont : ContinuousOn p (Set.Icc m.Eemin.phys m.Eemax.phys)) (es : List ℝ) (hes : ∀ e ∈ es, 0 < e)
    (n K X : ℝ) (hn : 0 ≤ n) (hK : 0 ≤ K) (hX : 0 ≤ X) :
    ∃ L : ℝ → ℝ, ({ m with nEed := n } : SyncModel).spectrum pd es = .ok (es.map (fun e => fin (L e))) ∧
      ∀ e ∈ es,
      (SlopeRisesAtMost K p m.Eemin.phys m.Eemax.phys →
        L e ≤ Real.exp ((K + 16 / 9) * lnStep n m.Eemin.phys m.Eemax.phys ^ 2 / 8 +
            1e-10 * lnStep n m.Eemin.phys m.Eemax.phys) *
          (syncPhotons p pd.unit.scale m.Eemin.phys m.Eemax.phys (m.B.phys / 0.1) e * cEV)) ∧
      (SlopeFallsAtMost K p m.Eemin.phys m.Eemax.phys → e ≤ X * critOf (m.B.phys / 0.1) m.Eemin.phys →
        syncPhotons p pd.unit.scale m.Eemin.phys m.Eemax.phys (m.B.phys / 0.1) e * cEV ≤
          Real.exp ((K + (4 * X + 2)) * lnStep n m.Eemin.phys m.Eemax.phys ^ 2 / 8 +
            1e-10 * lnStep n m.Eemin.phys m.Eemax.phys) * L e) := by
  have ha := hlo.phys_pos
  have hb := hhi.phys_pos
  have hcev := cEV_pos
  have hB0 : 0 < m.B.phys / 0.1 := by positivity
  obtain ⟨L, hL, hsum⟩ := sync_sum m pd hu hus hlo hhi hlt hB hBp p hp hpos es hes n
  refine ⟨fun e => L e * cEV, hL, fun e he => ?_⟩
  have he0 := hes e he
  have hc1 := critOf_pos (m.B.phys / 0.1) 1 hB0 one_pos
  have hA : 0 < Real.sqrt 3 / (2 * Real.pi) * (cE ^ 3 * (m.B.phys / 0.1)) / (cMe * cC ^ 2 * cHbar * e) := by
    have := cE_pos; have := cHbar_pos; have := cMe_pos; have := cC_pos
    positivity
  have hFpos : ∀ t ∈ Set.Icc m.Eemin.phys m.Eemax.phys, 0 < p t * pd.unit.scale *
      syncEmission cE cMe cC cHbar (m.B.phys / 0.1) (t / (cMe * cC ^ 2)) e := fun t ht =>
    sync_pos p _ _ e t hB0 he0 (ha.trans_le ht.1) (hpos t ht) hus
  have hFc := sync_cont p m.Eemin.phys m.Eemax.phys pd.unit.scale (m.B.phys / 0.1) e ha hB0 he0 hcont
  have hfn : ∀ E ∈ Set.Icc m.Eemin.phys m.Eemax.phys, p E * pd.unit.scale *
      syncEmission cE cMe cC cHbar (m.B.phys / 0.1) (E / (cMe * cC ^ 2)) e = _ := fun E hE =>
    sync_fn p pd.unit.scale (m.B.phys / 0.1) e E hB0 he0 (ha.trans_le hE.1)
  have hlog := logLog_congr ha hb hfn
  constructor
  · intro h
    obtain ⟨W, w1, w2, -⟩ := grid_accuracy cMec2 m.Eemin.phys m.Eemax.phys cMec2_pos ha hlt _ hFpos hFc
      (K + 16 / 9) (by positivity)
      (gridK (Real.logb 10 (m.Eemax.phys / cMec2) - Real.logb 10 (m.Eemin.phys / cMec2)) n) (gridK_ten _ _)
    rw [lnStep_gridK n _ _ cMec2 hn ha hlt cMec2_pos] at w2
    rw [hsum e he] at w1
    injection w1 with w1
    have h2 := w2 ((sync_rises K p _ _ pd.unit.scale _ (e / critOf (m.B.phys / 0.1) 1) ha hlt hus hA (by positivity)
      hpos h).congr fun s hs => by simp only [hlog hs])
    rw [← w1] at h2
    have := mul_le_mul_of_nonneg_right h2 hcev.le
    rw [mul_assoc] at this
    exact this
  · intro h hx
    obtain ⟨W, w1, -, w2⟩ := grid_accuracy cMec2 m.Eemin.phys m.Eemax.phys cMec2_pos ha hlt _ hFpos hFc
      (K + (4 * X + 2)) (by positivity)
      (gridK (Real.logb 10 (m.Eemax.phys / cMec2) - Real.logb 10 (m.Eemin.phys / cMec2)) n) (gridK_ten _ _)
    rw [lnStep_gridK n _ _ cMec2 hn ha hlt cMec2_pos] at w2
    rw [hsum e he] at w1
    injection w1 with w1
    have hX2 : e / critOf (m.B.phys / 0.1) 1 / m.Eemin.phys ^ 2 ≤ X := by
      rw [div_div, div_le_iff₀ (by positivity), ← critOf_sq]; exact hx
    have h2 := w2 ((sync_falls K X p _ _ pd.unit.scale _ (e / critOf (m.B.phys / 0.1) 1) ha hlt hus hA (by positivity)
      hX2 hpos h).congr fun s hs => by simp only [hlog hs])
    rw [← w1] at h2
    have := mul_le_mul_of_nonneg_right h2 hcev.le
    rw [mul_assoc _ (L e)] at this
    exact this


/-! ### With the default grid -/

theorem sync_default_factor (K h : ℝ) (hK : K ≤ 146) (h0 : 0 ≤ h) (h1 : h ≤ 0.0236) :
    Real.exp (K * h ^ 2 / 8 + 1e-10 * h) ≤ 1.0104 := by
  refine (exp_small _ 1.017e-2 ?_ (by norm_num)).trans (by norm_num)
  have : h ^ 2 ≤ 0.0236 ^ 2 := pow_le_pow_left₀ h0 h1 2
  have h3 : K * h ^ 2 ≤ 146 * 0.0236 ^ 2 := mul_le_mul hK this (by positivity) (by norm_num)
  norm_num at h3 ⊢
  linarith

theorem sync_default_factor_up (h : ℝ) (h0 : 0 ≤ h) (h1 : h ≤ 0.0236) :
    Real.exp ((10 + 16 / 9) * h ^ 2 / 8 + 1e-10 * h) ≤ 1.001 := by
  refine (exp_small _ 9e-4 ?_ (by norm_num)).trans (by norm_num)
  have : h ^ 2 ≤ 0.0236 ^ 2 := pow_le_pow_left₀ h0 h1 2
  norm_num at this ⊢
  linarith

/-- the integral is at most 1.011 times the sum -/
theorem sync_default_low (p : ℝ → ℝ) (scale a b B e : ℝ) (hs : 0 < scale) (ha : 0 < a) (hab : 10 * a ≤ b)
    (hB : 0 < B) (he : 0 < e) (hpos : ∀ E ∈ Set.Icc a b, 0 < p E) (hcont : ContinuousOn p (Set.Icc a b))
    (hf : SlopeFallsAtMost 60 p a b) (hd : ∀ E, a ≤ E → 2 * E ≤ b → 20 * critOf B E ≤ e → p E ≤ 1024 * p (2 * E))
    (hx : e ≤ 5 * critOf B b) (W : ℝ)
    (hW : trapzLL ((logspace (Real.logb 10 (a / cMec2)) (Real.logb 10 (b / cMec2))
        (gridK (Real.logb 10 (b / cMec2) - Real.logb 10 (a / cMec2)) 100)).map
          (fun g => (fin (g * cMec2), fin (p (g * cMec2) * scale *
            syncEmission cE cMe cC cHbar B (g * cMec2 / (cMe * cC ^ 2)) e)))) = fin W) :
    syncPhotons p scale a b B e ≤ 1.011 * W := by
  have hlt : a < b := by linarith
  have hb := ha.trans hlt
  obtain ⟨s0, s1⟩ := lnStep_default a b ha hab
  have hc1 := critOf_pos B 1 hB one_pos
  have hA : 0 < Real.sqrt 3 / (2 * Real.pi) * (cE ^ 3 * B) / (cMe * cC ^ 2 * cHbar * e) := by
    have := cE_pos; have := cHbar_pos; have := cMe_pos; have := cC_pos
    positivity
  have hFpos : ∀ t ∈ Set.Icc a b, 0 < p t * scale *
      syncEmission cE cMe cC cHbar B (t / (cMe * cC ^ 2)) e := fun t ht =>
    sync_pos p _ _ e t hB he (ha.trans_le ht.1) (hpos t ht) hs
  have hFc := sync_cont p a b scale B e ha hB he hcont
  have hfn : ∀ E ∈ Set.Icc a b, p E * scale *
      syncEmission cE cMe cC cHbar B (E / (cMe * cC ^ 2)) e = _ := fun E hE =>
    sync_fn p scale B e E hB he (ha.trans_le hE.1)
  have hI : 0 ≤ syncPhotons p scale a b B e :=
    intervalIntegral.integral_nonneg hlt.le fun t ht => (hFpos t ht).le
  set k := e / critOf B 1 with hk
  have hk0 : 0 < k := by positivity
  have hkb : k ≤ 5 * b ^ 2 := by
    rw [hk, div_le_iff₀ hc1]
    rw [critOf_sq] at hx
    linarith
  set κ := gridK (Real.logb 10 (b / cMec2) - Real.logb 10 (a / cMec2)) 100 with hκ
  have hstep : Real.log (b / a) / ((κ : ℝ) - 1) = lnStep 100 a b :=
    lnStep_gridK 100 a b cMec2 (by norm_num) ha hlt cMec2_pos
  have fac := sync_default_factor (60 + (4 * 21 + 2)) (lnStep 100 a b) (by norm_num) s0 s1
  set c0 := Real.sqrt (k / 21) with hc0
  have hc0p : 0 < c0 := Real.sqrt_pos.2 (by positivity)
  have hc0sq : c0 ^ 2 = k / 21 := Real.sq_sqrt (by positivity)
  by_cases hca : c0 ≤ a
  · obtain ⟨W', w1, -, w2⟩ := grid_accuracy cMec2 a b cMec2_pos ha hlt _ hFpos hFc
      (60 + (4 * 21 + 2)) (by norm_num) κ (gridK_ten _ _)
    rw [hstep] at w2
    rw [hW] at w1
    injection w1 with w1
    have hX2 : k / a ^ 2 ≤ 21 := by
      rw [div_le_iff₀ (by positivity)]
      have := pow_le_pow_left₀ hc0p.le hca 2
      linarith
    have h2 := w2 ((sync_falls 60 21 p _ _ scale _ k ha hlt hs hA hk0 hX2 hpos hf).congr
      fun s hs => by simp only [logLog_congr ha hb hfn hs])
    rw [← w1] at h2
    have hW0 : 0 ≤ W := by
      by_contra hn
      push Not at hn
      have := mul_neg_of_pos_of_neg (Real.exp_pos ((60 + (4 * 21 + 2)) * lnStep 100 a b ^ 2 / 8 +
        1e-10 * lnStep 100 a b)) hn
      have h3 : syncPhotons p scale a b B e ≤ _ := h2
      linarith
    refine le_trans h2 ?_
    have := mul_le_mul_of_nonneg_right fac hW0
    linarith
  · push Not at hca
    have hexp : Real.exp (lnStep 100 a b) ^ 2 ≤ 1.05 := by
      rw [← Real.exp_nat_mul]
      refine (exp_small _ 0.0472 ?_ (by norm_num)).trans (by norm_num)
      push_cast; linarith
    have hexp1 : 1 ≤ Real.exp (lnStep 100 a b) := Real.one_le_exp s0
    have hc1sq : (c0 * Real.exp (lnStep 100 a b)) ^ 2 ≤ k / 20 := by
      rw [mul_pow, hc0sq]
      have := mul_le_mul_of_nonneg_left hexp (show 0 ≤ k / 21 by positivity)
      linarith
    have h2c : 2 * (c0 * Real.exp (lnStep 100 a b)) ≤ b := by
      refine le_of_sq_le_sq ?_ hb.le
      nlinarith
    set c1 := c0 * Real.exp (lnStep 100 a b) with hc1d
    have hc1p : 0 < c1 := by positivity
    have hac1 : a ≤ c1 := by
      rw [hc1d]
      exact hca.le.trans (le_mul_of_one_le_right hc0p.le hexp1)
    have hc0b : c0 < b := by
      have : c0 ≤ c1 := by rw [hc1d]; exact le_mul_of_one_le_right hc0p.le hexp1
      linarith
    have hsub : Set.Icc c0 b ⊆ Set.Icc a b := Set.Icc_subset_Icc hca.le le_rfl
    have hX2 : k / c0 ^ 2 ≤ 21 := by
      rw [hc0sq]; apply le_of_eq; field_simp
    have hf' : SlopeFallsAtMost 60 p c0 b :=
      ConvexOn.subset hf (Set.Icc_subset_Icc (Real.log_le_log ha hca.le) le_rfl) (convex_Icc _ _)
    have cv := sync_falls 60 21 p c0 b scale _ k hc0p hc0b hs hA hk0 hX2 (fun E hE => hpos E (hsub hE)) hf'
    obtain ⟨W', w1, w2⟩ := grid_accuracy_split cMec2 a b cMec2_pos ha hlt _ hFpos hFc
      (60 + (4 * 21 + 2)) (by norm_num) κ (gridK_ten _ _) c0 hca.le
      (by rw [hstep]; linarith)
      (cv.congr fun s hs => by simp only [logLog_congr hc0p hb (fun E hE => hfn E (hsub hE)) hs])
    rw [hstep, ← hc1d] at w2
    rw [hW] at w1
    injection w1 with w1
    rw [← w1] at w2
    have tail := tail_small _ a b c1 (1024 * 8.2e-7) ha hac1 h2c (by norm_num) hFpos hFc (by
      intro t ht
      have ht0 : 0 < t := ha.trans_le ht.1
      have m1 : t ∈ Set.Icc a b := ⟨ht.1, by linarith [ht.2]⟩
      have m2 : 2 * t ∈ Set.Icc a b := ⟨by linarith [ht.1], by linarith [ht.2]⟩
      rw [hfn t m1, hfn (2 * t) m2]
      have hxt : 20 ≤ k / t ^ 2 := by
        rw [le_div_iff₀ (by positivity)]
        have := pow_le_pow_left₀ ht0.le ht.2 2
        linarith
      have g := gAKP_steep (k / t ^ 2) hxt
      have e4 : k / t ^ 2 / 4 = k / (2 * t) ^ 2 := by field_simp; ring
      rw [e4] at g
      have g0 := (gAKP_pos (k / t ^ 2) (by positivity)).le
      have hpd := hd t ht.1 m2.2 (by
        rw [critOf_sq]
        have := pow_le_pow_left₀ ht0.le ht.2 2
        have h5 : 20 * t ^ 2 ≤ k := by linarith
        rw [hk, le_div_iff₀ hc1] at h5
        linarith)
      have h2 := mul_le_mul hpd g g0 (by linarith [hpos _ m2])
      have h3 := mul_le_mul_of_nonneg_left h2 (mul_pos hs hA).le
      generalize Real.sqrt 3 / (2 * Real.pi) * (cE ^ 3 * B) / (cMe * cC ^ 2 * cHbar * e) = A at *
      generalize gAKP (k / t ^ 2) = g1 at *
      generalize gAKP (k / (2 * t) ^ 2) = g2 at *
      linarith)
    have tail' : _ ≤ 1024 * 8.2e-7 / 2 * syncPhotons p scale a b B e := tail
    have w2' : syncPhotons p scale a b B e ≤ _ := w2
    have hW0 : 0 ≤ W := by
      by_contra hn
      push Not at hn
      have := mul_neg_of_pos_of_neg (Real.exp_pos ((60 + (4 * 21 + 2)) * lnStep 100 a b ^ 2 / 8 +
        1e-10 * lnStep 100 a b)) hn
      linarith
    have := mul_le_mul_of_nonneg_right fac hW0
    linarith

/-- **C108 (default grid).** With the default 100 points per decade, over a range of at least a decade, for every
electron spectrum that is positive and continuous and whose slope rises by at most 10 and falls by at most 60 per
e-folding: at every photon energy up to five times the critical energy of the most energetic electrons the computed
spectrum is at most 0.1 % above the exact one and at most 1.1 % below it. (Electrons whose critical energy is twenty
times below the photon energy must not outnumber those of twice the energy by more than 1024.) -/
theorem C108_default (m : SyncModel) (hm : m.nEed = 100) (pd : PDist) (hu : pd.unit.dim = Dim.diffEnergy)
    (hus : 0 < pd.unit.scale) (hlo : m.Eemin.PosEnergy) (hhi : m.Eemax.PosEnergy)
    (hlt : 10 * m.Eemin.phys ≤ m.Eemax.phys) (hB : m.B.unit.dim = Dim.magFluxDensity) (hBp : 0 < m.B.phys)
    (p : ℝ → ℝ) (hp : ∀ E ∈ Set.Icc m.Eemin.phys m.Eemax.phys, pd.f E = fin (p E))
    (hpos : ∀ E ∈ Set.Icc m.Eemin.phys m.Eemax.phys, 0 < p E)
    (hcont : ContinuousOn p (Set.Icc m.Eemin.phys m.Eemax.phys))
    (hr : SlopeRisesAtMost 10 p m.Eemin.phys m.Eemax.phys) (hf : SlopeFallsAtMost 60 p m.Eemin.phys m.Eemax.phys)
    (es : List ℝ) (hes : ∀ e ∈ es, 0 < e ∧ e ≤ 5 * critOf (m.B.phys / 0.1) m.Eemax.phys)
    (hd : ∀ e ∈ es, ∀ E, m.Eemin.phys ≤ E → 2 * E ≤ m.Eemax.phys → 20 * critOf (m.B.phys / 0.1) E ≤ e →
      p E ≤ 1024 * p (2 * E)) :
    ∃ L : ℝ → ℝ, m.spectrum pd es = .ok (es.map (fun e => fin (L e))) ∧ ∀ e ∈ es,
      L e ≤ 1.001 * (syncPhotons p pd.unit.scale m.Eemin.phys m.Eemax.phys (m.B.phys / 0.1) e * cEV) ∧
      syncPhotons p pd.unit.scale m.Eemin.phys m.Eemax.phys (m.B.phys / 0.1) e * cEV ≤ 1.011 * L e := by
  have ha := hlo.phys_pos
  have hb := hhi.phys_pos
  have hl : m.Eemin.phys < m.Eemax.phys := by linarith
  have hcev := cEV_pos
  have hB0 : 0 < m.B.phys / 0.1 := by positivity
  have hme : m = { m with nEed := 100 } := by
    obtain ⟨⟨⟩, _⟩ := m; simp only at hm; subst hm; rfl
  obtain ⟨s0, s1⟩ := lnStep_default m.Eemin.phys m.Eemax.phys ha hlt
  obtain ⟨L, hL, hsum⟩ := sync_sum m pd hu hus hlo hhi hl hB hBp p hp hpos es (fun e he => (hes e he).1) 100
  rw [← hme] at hL
  refine ⟨fun e => L e * cEV, hL, fun e he => ?_⟩
  have he0 := (hes e he).1
  have hc1 := critOf_pos (m.B.phys / 0.1) 1 hB0 one_pos
  have hA : 0 < Real.sqrt 3 / (2 * Real.pi) * (cE ^ 3 * (m.B.phys / 0.1)) / (cMe * cC ^ 2 * cHbar * e) := by
    have := cE_pos; have := cHbar_pos; have := cMe_pos; have := cC_pos
    positivity
  have hFpos : ∀ t ∈ Set.Icc m.Eemin.phys m.Eemax.phys, 0 < p t * pd.unit.scale *
      syncEmission cE cMe cC cHbar (m.B.phys / 0.1) (t / (cMe * cC ^ 2)) e := fun t ht =>
    sync_pos p _ _ e t hB0 he0 (ha.trans_le ht.1) (hpos t ht) hus
  have hFc := sync_cont p m.Eemin.phys m.Eemax.phys pd.unit.scale (m.B.phys / 0.1) e ha hB0 he0 hcont
  have hI : 0 ≤ syncPhotons p pd.unit.scale m.Eemin.phys m.Eemax.phys (m.B.phys / 0.1) e :=
    intervalIntegral.integral_nonneg hl.le fun t ht => (hFpos t ht).le
  constructor
  · obtain ⟨W, w1, w2, -⟩ := grid_accuracy cMec2 m.Eemin.phys m.Eemax.phys cMec2_pos ha hl _ hFpos hFc
      (10 + 16 / 9) (by norm_num)
      (gridK (Real.logb 10 (m.Eemax.phys / cMec2) - Real.logb 10 (m.Eemin.phys / cMec2)) 100) (gridK_ten _ _)
    rw [lnStep_gridK 100 _ _ cMec2 (by norm_num) ha hl cMec2_pos] at w2
    rw [hsum e he] at w1
    injection w1 with w1
    have h2 := w2 ((sync_rises 10 p _ _ pd.unit.scale _ (e / critOf (m.B.phys / 0.1) 1) ha hl hus hA (by positivity)
      hpos hr).congr fun s hs => by
        simp only [logLog_congr ha hb (fun E hE => sync_fn p pd.unit.scale (m.B.phys / 0.1) e E hB0 he0
          (ha.trans_le hE.1)) hs])
    rw [← w1] at h2
    have h3 := h2.trans (mul_le_mul_of_nonneg_right (sync_default_factor_up _ s0 s1) hI)
    have := mul_le_mul_of_nonneg_right h3 hcev.le
    rw [mul_assoc] at this
    exact this
  · have h2 := sync_default_low p pd.unit.scale m.Eemin.phys m.Eemax.phys (m.B.phys / 0.1) e hus ha hlt hB0 he0 hpos
      hcont hf (hd e he) (hes e he).2 (L e) (hsum e he)
    have := mul_le_mul_of_nonneg_right h2 hcev.le
    rw [mul_assoc _ (L e)] at this
    exact this


/-! ### For the documented electron spectra -/

theorem SlopeRisesAtMost.mono {K K' : ℝ} {f : ℝ → ℝ} {a b : ℝ} (h : SlopeRisesAtMost K f a b) (hK : K ≤ K') :
    SlopeRisesAtMost K' f a b := by
  have hx : ConcaveOn ℝ (Set.Icc (Real.log a) (Real.log b)) (fun s : ℝ => -((K' - K) / 2 * s ^ 2)) := by
    have := (even_two.convexOn_pow (𝕜 := ℝ)).subset (Set.subset_univ _) (convex_Icc (Real.log a) (Real.log b))
    exact (this.smul (c := (K' - K) / 2) (by linarith)).neg
  refine (ConcaveOn.add h hx).congr ?_
  intro s _
  simp only [Pi.add_apply]
  ring

theorem SlopeFallsAtMost.mono {K K' : ℝ} {f : ℝ → ℝ} {a b : ℝ} (h : SlopeFallsAtMost K f a b) (hK : K ≤ K') :
    SlopeFallsAtMost K' f a b := by
  have hx : ConvexOn ℝ (Set.Icc (Real.log a) (Real.log b)) (fun s : ℝ => (K' - K) / 2 * s ^ 2) := by
    have := (even_two.convexOn_pow (𝕜 := ℝ)).subset (Set.subset_univ _) (convex_Icc (Real.log a) (Real.log b))
    exact this.smul (c := (K' - K) / 2) (by linarith)
  refine (ConvexOn.add h hx).congr ?_
  intro s _
  simp only [Pi.add_apply]
  ring

/-- **C108 (power law).** For a power law of index up to 10. -/
theorem C108_power_law (m : SyncModel) (hm : m.nEed = 100) (A α : ℝ) (hA : 0 < A) (hα : α ≤ 10) (e0 : Qty ℝ)
    (h0 : e0.PosEnergy) (u : PhysUnit) (hu : u.dim = Dim.diffEnergy) (hus : 0 < u.scale)
    (hlo : m.Eemin.PosEnergy) (hhi : m.Eemax.PosEnergy) (hlt : 10 * m.Eemin.phys ≤ m.Eemax.phys)
    (hB : m.B.unit.dim = Dim.magFluxDensity) (hBp : 0 < m.B.phys)
    (es : List ℝ) (hes : ∀ e ∈ es, 0 < e ∧ e ≤ 5 * critOf (m.B.phys / 0.1) m.Eemax.phys) :
    ∃ L : ℝ → ℝ, m.spectrum (PowerLaw.toPDist ⟨fin A, e0.lift, fin α⟩ u) es = .ok (es.map (fun e => fin (L e))) ∧
      ∀ e ∈ es,
      L e ≤ 1.001 * (syncPhotons (fun E => A * (E / e0.phys) ^ (-α)) u.scale m.Eemin.phys m.Eemax.phys
        (m.B.phys / 0.1) e * cEV) ∧
      syncPhotons (fun E => A * (E / e0.phys) ^ (-α)) u.scale m.Eemin.phys m.Eemax.phys (m.B.phys / 0.1) e * cEV ≤
        1.011 * L e := by
  have ha := hlo.phys_pos
  have q0 := h0.phys_pos
  have hl : m.Eemin.phys < m.Eemax.phys := by linarith
  obtain ⟨f1, r1⟩ := C92_power_law A α e0.phys m.Eemin.phys m.Eemax.phys hA q0 ha hl
  refine C108_default m hm (PowerLaw.toPDist ⟨fin A, e0.lift, fin α⟩ u) hu hus hlo hhi hlt hB hBp
    (fun E => A * (E / e0.phys) ^ (-α)) ?_ ?_ ?_ (r1.mono (by norm_num)) (f1.mono (by norm_num)) es hes ?_
  · intro E hE
    have hE0 : 0 < E := ha.trans_le hE.1
    have e1 := C22_power_law A α ⟨E, PhysUnit.erg⟩ e0 ⟨rfl, by simp [PhysUnit.erg], hE0⟩ h0
    rw [erg_phys] at e1
    show (match PowerLaw.call ⟨fin A, e0.lift, fin α⟩ (⟨E, PhysUnit.erg⟩ : Qty ℝ).lift with
      | .ok v => v
      | .error _ => nan) = _
    rw [e1]; rfl
  · intro E hE
    have hE0 : 0 < E := ha.trans_le hE.1
    positivity
  · apply ContinuousOn.mul continuousOn_const
    apply ContinuousOn.rpow_const (by fun_prop)
    intro E hE
    have hE0 : 0 < E := ha.trans_le hE.1
    exact Or.inl (by positivity)
  · intro e _ E hE _ _
    have hE0 : 0 < E := ha.trans_le hE
    have h2 : (2 * E / e0.phys) ^ (-α) = 2 ^ (-α) * (E / e0.phys) ^ (-α) := by
      rw [mul_div_assoc, Real.mul_rpow (by norm_num) (by positivity)]
    have h3 : 1 ≤ 1024 * (2 : ℝ) ^ (-α) := by
      have : (2 : ℝ) ^ (-10 : ℝ) ≤ 2 ^ (-α) := Real.rpow_le_rpow_of_exponent_le (by norm_num) (by linarith)
      have e : (2 : ℝ) ^ (-10 : ℝ) = 1 / 1024 := by
        rw [Real.rpow_neg (by norm_num), show (10 : ℝ) = ((10 : ℕ) : ℝ) by norm_num, Real.rpow_natCast]; norm_num
      rw [e] at this
      generalize (2 : ℝ) ^ (-α) = z at this ⊢
      linarith
    show A * (E / e0.phys) ^ (-α) ≤ 1024 * (A * (2 * E / e0.phys) ^ (-α))
    rw [h2]
    have h4 : 0 ≤ A * (E / e0.phys) ^ (-α) := by positivity
    have := mul_le_mul_of_nonneg_right h3 h4
    linarith

theorem exp_3_2 : Real.exp 3.2 ≤ 32 := by
  have h := Real.exp_one_lt_d9
  have h1 : Real.exp 1 ^ 16 ≤ (2.7183 : ℝ) ^ 16 := pow_le_pow_left₀ (Real.exp_pos _).le (by linarith) 16
  rw [← Real.exp_nat_mul] at h1
  by_contra hn
  push Not at hn
  have h2 : (32 : ℝ) ^ 5 < Real.exp 3.2 ^ 5 := pow_lt_pow_left₀ hn (by norm_num) (by norm_num)
  rw [← Real.exp_nat_mul] at h2
  have e1 : ((5 : ℕ) : ℝ) * 3.2 = ((16 : ℕ) : ℝ) * 1 := by norm_num
  rw [e1] at h2
  have := h2.trans_le h1
  norm_num at this

/-- **C108 (exponential cutoff).** For a power law of index up to 5 with an exponential cutoff, over a range that ends
at up to 60 times the cutoff, at photon energies up to 200 times the critical energy of electrons at the cutoff. -/
theorem C108_exponential_cutoff (m : SyncModel) (hm : m.nEed = 100) (A α : ℝ) (hA : 0 < A) (hα : α ≤ 5)
    (e0 ec : Qty ℝ) (h0 : e0.PosEnergy) (hc : ec.PosEnergy) (u : PhysUnit) (hu : u.dim = Dim.diffEnergy)
    (hus : 0 < u.scale) (hlo : m.Eemin.PosEnergy) (hhi : m.Eemax.PosEnergy)
    (hlt : 10 * m.Eemin.phys ≤ m.Eemax.phys) (hcut : m.Eemax.phys ≤ 60 * ec.phys)
    (hB : m.B.unit.dim = Dim.magFluxDensity) (hBp : 0 < m.B.phys)
    (es : List ℝ) (hes : ∀ e ∈ es, 0 < e ∧ e ≤ 5 * critOf (m.B.phys / 0.1) m.Eemax.phys)
    (hec : ∀ e ∈ es, e ≤ 200 * critOf (m.B.phys / 0.1) ec.phys) :
    ∃ L : ℝ → ℝ, m.spectrum (ECPL.toPDist ⟨fin A, e0.lift, fin α, ec.lift, fin 1⟩ u) es =
        .ok (es.map (fun e => fin (L e))) ∧ ∀ e ∈ es,
      L e ≤ 1.001 * (syncPhotons (fun E => A * (E / e0.phys) ^ (-α) * Real.exp (-(E / ec.phys))) u.scale
        m.Eemin.phys m.Eemax.phys (m.B.phys / 0.1) e * cEV) ∧
      syncPhotons (fun E => A * (E / e0.phys) ^ (-α) * Real.exp (-(E / ec.phys))) u.scale m.Eemin.phys m.Eemax.phys
        (m.B.phys / 0.1) e * cEV ≤ 1.011 * L e := by
  have ha := hlo.phys_pos
  have q0 := h0.phys_pos
  have qc := hc.phys_pos
  have hB0 : 0 < m.B.phys / 0.1 := by positivity
  have hl : m.Eemin.phys < m.Eemax.phys := by linarith
  obtain ⟨f1, r1⟩ := C92_exponential_cutoff A α 1 e0.phys ec.phys m.Eemin.phys m.Eemax.phys hA q0 qc zero_le_one ha hl
  have fe : (fun E => Spec.ecpl A α 1 (E / e0.phys) (E / ec.phys)) =
      fun E => A * (E / e0.phys) ^ (-α) * Real.exp (-(E / ec.phys)) := by
    funext E; unfold Spec.ecpl; rw [Real.rpow_one]
  rw [fe] at f1 r1
  have h60 : (1 : ℝ) ^ 2 * (m.Eemax.phys / ec.phys) ^ (1 : ℝ) ≤ 60 := by
    rw [Real.rpow_one, one_pow, one_mul, div_le_iff₀ qc]; exact hcut
  refine C108_default m hm (ECPL.toPDist ⟨fin A, e0.lift, fin α, ec.lift, fin 1⟩ u) hu hus hlo hhi hlt hB hBp
    (fun E => A * (E / e0.phys) ^ (-α) * Real.exp (-(E / ec.phys))) ?_ ?_ ?_ (r1.mono (by norm_num))
    (f1.mono h60) es hes ?_
  · intro E hE
    have hE0 : 0 < E := ha.trans_le hE.1
    have e1 := C22_exponential_cutoff_power_law A α 1 ⟨E, PhysUnit.erg⟩ e0 ec ⟨rfl, by simp [PhysUnit.erg], hE0⟩ h0 hc
    rw [erg_phys, show Spec.ecpl A α 1 (E / e0.phys) (E / ec.phys) = _ from congrFun fe E] at e1
    show (match ECPL.call ⟨fin A, e0.lift, fin α, ec.lift, fin 1⟩ (⟨E, PhysUnit.erg⟩ : Qty ℝ).lift with
      | .ok v => v
      | .error _ => nan) = _
    rw [e1]
  · intro E hE
    have hE0 : 0 < E := ha.trans_le hE.1
    positivity
  · apply ContinuousOn.mul
    · apply ContinuousOn.mul continuousOn_const
      apply ContinuousOn.rpow_const (by fun_prop)
      intro E hE
      have hE0 : 0 < E := ha.trans_le hE.1
      exact Or.inl (by positivity)
    · fun_prop
  · intro e he E hE _ hcr
    have hE0 : 0 < E := ha.trans_le hE
    have hr : E / ec.phys ≤ 3.2 := by
      rw [div_le_iff₀ qc]
      have h1 := hcr.trans (hec e he)
      rw [critOf_sq _ E, critOf_sq _ ec.phys] at h1
      have hc1 := critOf_pos (m.B.phys / 0.1) 1 hB0 one_pos
      have h2 : E ^ 2 ≤ 10 * ec.phys ^ 2 := by
        have : critOf (m.B.phys / 0.1) 1 * (20 * E ^ 2) ≤ critOf (m.B.phys / 0.1) 1 * (200 * ec.phys ^ 2) := by
          linarith
        have := le_of_mul_le_mul_left this hc1
        linarith
      refine le_of_sq_le_sq ?_ (by positivity)
      nlinarith [_root_.sq_nonneg ec.phys]
    have h2 : (2 * E / e0.phys) ^ (-α) = 2 ^ (-α) * (E / e0.phys) ^ (-α) := by
      rw [mul_div_assoc, Real.mul_rpow (by norm_num) (by positivity)]
    have h3 : 1 ≤ 32 * (2 : ℝ) ^ (-α) := by
      have : (2 : ℝ) ^ (-5 : ℝ) ≤ 2 ^ (-α) := Real.rpow_le_rpow_of_exponent_le (by norm_num) (by linarith)
      have e : (2 : ℝ) ^ (-5 : ℝ) = 1 / 32 := by
        rw [Real.rpow_neg (by norm_num), show (5 : ℝ) = ((5 : ℕ) : ℝ) by norm_num, Real.rpow_natCast]; norm_num
      rw [e] at this
      generalize (2 : ℝ) ^ (-α) = z at this ⊢
      linarith
    have h4 : Real.exp (-(E / ec.phys)) ≤ 32 * Real.exp (-(2 * E / ec.phys)) := by
      have e : -(E / ec.phys) = E / ec.phys + -(2 * E / ec.phys) := by ring
      rw [e, Real.exp_add]
      exact mul_le_mul_of_nonneg_right ((Real.exp_le_exp.2 hr).trans exp_3_2) (Real.exp_pos _).le
    show A * (E / e0.phys) ^ (-α) * Real.exp (-(E / ec.phys)) ≤
      1024 * (A * (2 * E / e0.phys) ^ (-α) * Real.exp (-(2 * E / ec.phys)))
    rw [h2]
    have h5 : 0 ≤ A * (E / e0.phys) ^ (-α) := by positivity
    have h6 : A * (E / e0.phys) ^ (-α) ≤ 32 * (A * (2 ^ (-α) * (E / e0.phys) ^ (-α))) := by
      have := mul_le_mul_of_nonneg_right h3 h5
      linarith
    have := mul_le_mul h6 h4 (Real.exp_pos _).le (by positivity)
    linarith

/-! ### The hypotheses are met -/

/-- The default radiation object (electrons from 1 GeV to 510 TeV, 3.24 μG) with a 10 TeV cutoff, at any photon
energy up to 200 critical energies of electrons at the cutoff. -/
example (e : ℝ) (he : 0 < e) (he2 : e ≤ 200 * critOf (3.24e-6 * gauss.scale / 0.1) (10 * PhysUnit.TeV.scale)) :
    ∃ L : ℝ, (⟨⟨⟨1, PhysUnit.GeV⟩, ⟨510, PhysUnit.TeV⟩, 100⟩, ⟨3.24e-6, gauss⟩⟩ : SyncModel).spectrum
      (ECPL.toPDist ⟨fin 1e33, (⟨1, PhysUnit.TeV⟩ : Qty ℝ).lift, fin 2.3, (⟨10, PhysUnit.TeV⟩ : Qty ℝ).lift, fin 1⟩
        ⟨1 / cEV, Dim.diffEnergy⟩) [e] = .ok [fin L] := by
  have hev := cEV_pos
  have hB : (0 : ℝ) < 3.24e-6 * gauss.scale / 0.1 := by simp only [gauss]; norm_num
  have hT : 0 < PhysUnit.TeV.scale := by simp only [PhysUnit.TeV]; positivity
  obtain ⟨L, h, -⟩ := C108_exponential_cutoff ⟨⟨⟨1, PhysUnit.GeV⟩, ⟨510, PhysUnit.TeV⟩, 100⟩, ⟨3.24e-6, gauss⟩⟩ rfl
    1e33 2.3 (by norm_num) (by norm_num) ⟨1, PhysUnit.TeV⟩ ⟨10, PhysUnit.TeV⟩
    ⟨rfl, hT, by norm_num⟩ ⟨rfl, hT, by norm_num⟩ ⟨1 / cEV, Dim.diffEnergy⟩ rfl (by positivity)
    ⟨rfl, GeV_pos, by norm_num⟩ ⟨rfl, hT, by norm_num⟩
    (by simp [Qty.phys, PhysUnit.GeV, PhysUnit.TeV]; linarith) (by simp [Qty.phys, PhysUnit.TeV]; linarith) rfl
    (by simp only [Qty.phys, gauss]; norm_num) [e] (by
      intro x hx
      rw [List.mem_singleton] at hx
      subst hx
      refine ⟨he, he2.trans ?_⟩
      show _ ≤ 5 * critOf (3.24e-6 * gauss.scale / 0.1) (510 * PhysUnit.TeV.scale)
      rw [critOf_sq _ (10 * _), critOf_sq _ (510 * _), mul_pow, mul_pow]
      have := mul_pos (critOf_pos _ 1 hB one_pos) (pow_pos hT 2)
      nlinarith) (by
      intro x hx
      rw [List.mem_singleton] at hx
      subst hx
      exact he2)
  exact ⟨L e, h⟩

end Naima.Props
