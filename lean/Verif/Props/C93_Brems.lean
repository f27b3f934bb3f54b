import Verif.Props.C83_Convergence
import Verif.Props.C92_Accuracy
import Verif.Props.C72_BremsFormula

/-! # C93: bremsstrahlung of relativistic electrons in the limit of a fine grid

And the sign of the electron-electron cross section (C18). -/

namespace Naima.Props

open Naima XR Classical Topology
open Filter (Tendsto atTop)

/-! ### The cross sections are not negative away from the endpoint -/

theorem baring1_nonneg (γ ε : ℝ) (hε : 0 < ε) (h : ε < γ) (hs : Real.exp (1 / 2) * ε ≤ 2 * γ * (γ - ε)) :
    0 ≤ baring1 γ ε := by
  have hγ : 0 < γ := hε.trans h
  have h1 : 0 < γ - ε := by linarith
  unfold baring1
  have hr : 0 < r02alpha := by unfold r02alpha cE cMe cC; have := cAlpha_pos; positivity
  apply mul_nonneg
  · have := sigma1_s2_pos (ε / γ); positivity
  · rw [sub_nonneg, Real.le_log_iff_exp_le (by positivity), le_div_iff₀ hε]; exact hs

theorem log_poly (x : ℝ) (h0 : 0 < x) (h1 : x < 1) : x + x ^ 2 / 2 + x ^ 3 / 3 ≤ -Real.log (1 - x) := by
  have := Real.hasSum_pow_div_log_of_abs_lt_one (by rwa [abs_of_pos h0] : |x| < 1)
  have h2 := sum_le_hasSum (Finset.range 3) (fun i _ => by positivity) this
  simp only [Finset.sum_range_succ, Finset.sum_range_zero] at h2
  norm_num at h2
  linarith

theorem baring2_nonneg (γ ε : ℝ) (hγ : 3.9 ≤ γ) (hε : 0 < ε) (h : ε < γ) (h2 : ε ≠ 1 / 2) : 0 ≤ baring2 γ ε := by
  unfold baring2
  have hr : 0 < r02alpha := by unfold r02alpha cE cMe cC; have := cAlpha_pos; positivity
  apply mul_nonneg (by positivity)
  split
  · rename_i hle
    have hlt : ε < 1 / 2 := lt_of_le_of_ne hle h2
    have hl := log_poly (2 * ε) (by linarith) (by linarith)
    have hlog : 1 ≤ Real.log (γ / ε) := by
      rw [Real.le_log_iff_exp_le (by positivity), le_div_iff₀ hε]
      have := Real.exp_one_lt_d9
      nlinarith
    set Y := -Real.log (1 - 2 * ε) with hY
    have hq : 0 < 1 / (4 * ε ^ 3) - 1 / (2 * ε ^ 2) + 3 / ε - 2 + 4 * ε := by
      have : 1 / (4 * ε ^ 3) - 1 / (2 * ε ^ 2) + 3 / ε - 2 + 4 * ε =
        (1 - 2 * ε + 12 * ε ^ 2 - 8 * ε ^ 3 + 16 * ε ^ 4) / (4 * ε ^ 3) := by field_simp; ring
      rw [this]
      apply div_pos _ (by positivity)
      nlinarith [sq_nonneg (ε ^ 2), sq_nonneg ε]
    have key : -(2 * (1 - 2 * ε) * Real.log (1 - 2 * ε) *
          (1 / (4 * ε ^ 3) - 1 / (2 * ε ^ 2) + 3 / ε - 2 + 4 * ε)) ≥
        2 * (1 - 2 * ε) * (2 * ε + (2 * ε) ^ 2 / 2 + (2 * ε) ^ 3 / 3) *
          (1 / (4 * ε ^ 3) - 1 / (2 * ε ^ 2) + 3 / ε - 2 + 4 * ε) := by
      have : 2 * (1 - 2 * ε) * (2 * ε + (2 * ε) ^ 2 / 2 + (2 * ε) ^ 3 / 3) ≤ 2 * (1 - 2 * ε) * Y :=
        mul_le_mul_of_nonneg_left hl (by linarith)
      have := mul_le_mul_of_nonneg_right this hq.le
      rw [hY] at this
      linarith
    have e1 : 2 * (1 - 2 * ε) * (2 * ε + (2 * ε) ^ 2 / 2 + (2 * ε) ^ 3 / 3) *
          (1 / (4 * ε ^ 3) - 1 / (2 * ε ^ 2) + 3 / ε - 2 + 4 * ε) - 1 / ε ^ 2 + 3 / ε =
        2 * (1 - 2 * ε) * (2 * ε + 2 * ε ^ 2 + 8 / 3 * ε ^ 3) *
          (1 / (4 * ε ^ 3) - 1 / (2 * ε ^ 2) + 3 / ε - 2 + 4 * ε) - 1 / ε ^ 2 + 3 / ε := by ring
    have e2 : 2 * (1 - 2 * ε) * (2 * ε + 2 * ε ^ 2 + 8 / 3 * ε ^ 3) *
          (1 / (4 * ε ^ 3) - 1 / (2 * ε ^ 2) + 3 / ε - 2 + 4 * ε) - 1 / ε ^ 2 + 3 / ε =
        40 / 3 - 64 / 3 * ε + 64 / 3 * ε ^ 2 - 128 / 3 * ε ^ 3 + 32 / 3 * ε ^ 4 - 128 / 3 * ε ^ 5 := by
      field_simp
      ring
    have e3 : 16 * (1 - ε + ε ^ 2) ≤ 16 * (1 - ε + ε ^ 2) * Real.log (γ / ε) := by
      have : 0 ≤ 16 * (1 - ε + ε ^ 2) := by nlinarith
      nlinarith
    have e4 : 0 ≤ 16 * (1 - ε + ε ^ 2) + (40 / 3 - 64 / 3 * ε + 64 / 3 * ε ^ 2 - 128 / 3 * ε ^ 3 + 32 / 3 * ε ^ 4 -
        128 / 3 * ε ^ 5) - 4 - 4 * ε - 8 * ε ^ 2 := by
      have p2 : ε ^ 2 ≤ 1 / 4 := by nlinarith
      have p3 : ε ^ 3 ≤ 1 / 8 := by nlinarith
      have p5 : ε ^ 5 ≤ 1 / 32 := by nlinarith [pow_pos hε 3]
      nlinarith [pow_pos hε 4]
    linarith
  · rename_i hlt
    push Not at hlt
    apply mul_nonneg (by positivity)
    set u := 1 / ε with hu
    have u0 : 0 < u := by positivity
    have u2 : u < 2 := by rw [hu, div_lt_iff₀ hε]; linarith
    have e1 : 1 / (4 * ε ^ 2) = u ^ 2 / 4 := by rw [hu]; field_simp
    have e2 : 2 / ε = 2 * u := by rw [hu]; ring
    have e3 : 5 / (8 * ε ^ 2) = 5 * u ^ 2 / 8 := by rw [hu]; field_simp
    rw [e1, e2, e3]
    have hl : 1 ≤ Real.log (2 * γ) := by
      rw [Real.le_log_iff_exp_le (by linarith)]
      have := Real.exp_one_lt_d9
      linarith
    have h3 : 3 ≤ 4 - u + u ^ 2 / 4 := by nlinarith [sq_nonneg (u - 2)]
    nlinarith

theorem baringA_nonneg (γ ε : ℝ) (hγ : 2 ≤ γ) (hε : 0 < ε) (h : ε < γ) : 0 ≤ baringA γ ε := by
  unfold baringA
  have hγ0 : 0 < γ := by linarith
  have h1 : (γ - 1) ^ ((1 : ℝ) / 5) ≤ (γ + 3) / 5 := by
    have := rpow_one_add_le_one_add_mul_self (s := γ - 2) (p := 1 / 5) (by linarith) (by norm_num) (by norm_num)
    rw [show 1 + (γ - 2) = γ - 1 by ring] at this
    linarith
  have h2 : (ε / γ) ^ ((1 : ℝ) / 3) ≤ 1 :=
    Real.rpow_le_one (by positivity) (by rw [div_le_one hγ0]; exact h.le) (by norm_num)
  have h3 : 0 ≤ (ε / γ) ^ ((1 : ℝ) / 3) := by positivity
  have h4 : 8 / 3 * (γ - 1) ^ ((1 : ℝ) / 5) / (γ + 1) ≤ 1 := by
    rw [div_le_one (by linarith)]; linarith
  have h5 : 0 ≤ 8 / 3 * (γ - 1) ^ ((1 : ℝ) / 5) / (γ + 1) := by
    have : 0 ≤ γ - 1 := by linarith
    positivity
  nlinarith

theorem γTwoMeV_gt : (3.9 : ℝ) < γTwoMeV := by
  unfold γTwoMeV cEV cMe cC; norm_num

/-- **C18 (partial, electron-electron).** Above 2 MeV the electron-electron cross section is not negative at
photon energies `ε ≠ 1/2` with `√e ε ≤ 2γ(γ - ε)`, that is below the thin sliver at the electron energy where
the electron-proton cross section is negative (see `C18_sign_partial`). Missing: the sliver, where it is
negative, photon energy 1/2, where the code returns NaN, and electrons below 2 MeV. -/
theorem C18_ee_sign_partial (γ ε : ℝ) (hγ : γTwoMeV < γ) (hε : 0 < ε) (h : ε < γ) (h2 : ε ≠ 1 / 2)
    (hs : Real.exp (1 / 2) * ε ≤ 2 * γ * (γ - ε)) : ∃ σ, bremsEe γ ε = fin σ ∧ 0 ≤ σ := by
  have h39 := γTwoMeV_gt
  refine ⟨_, (C72_cross_sections_partial γ ε (by linarith) hε h.ne).2 h2, ?_⟩
  unfold baringEe
  rw [if_neg (not_le.2 hγ), if_pos h]
  exact mul_nonneg (add_nonneg (baring1_nonneg γ ε hε h hs) (baring2_nonneg γ ε (by linarith) hε h h2))
    (baringA_nonneg γ ε (by linarith) hε h)

/-! ### Limits -/

theorem sliver_mono (g γ ε : ℝ) (hε : 0 < ε) (h : ε < g) (hg : g ≤ γ)
    (hs : Real.exp (1 / 2) * ε ≤ 2 * g * (g - ε)) : Real.exp (1 / 2) * ε ≤ 2 * γ * (γ - ε) := by
  have : g * (g - ε) ≤ γ * (γ - ε) := mul_le_mul hg (by linarith) (by linarith) (by linarith)
  linarith

theorem baring1_continuousOn (ε : ℝ) (hε : 0 < ε) : ContinuousOn (fun γ => baring1 γ ε) (Set.Ioi ε) := by
  unfold baring1
  have hd : ContinuousOn (fun γ : ℝ => ε / γ) (Set.Ioi ε) :=
    continuousOn_const.div continuousOn_id (fun γ (h : ε < γ) => (hε.trans h).ne')
  apply ContinuousOn.mul
  · fun_prop
  · apply ContinuousOn.sub _ continuousOn_const
    apply ContinuousOn.log (by fun_prop)
    intro γ (h : ε < γ)
    have : 0 < γ := hε.trans h
    have : 0 < γ - ε := by linarith
    positivity

theorem baring2_continuousOn (ε : ℝ) (hε : 0 < ε) : ContinuousOn (fun γ => baring2 γ ε) (Set.Ioi ε) := by
  unfold baring2
  have l1 : ContinuousOn (fun γ : ℝ => Real.log (γ / ε)) (Set.Ioi ε) :=
    ContinuousOn.log (by fun_prop) (fun γ (h : ε < γ) => by have : 0 < γ := hε.trans h; positivity)
  have l2 : ContinuousOn (fun γ : ℝ => Real.log (2 * γ)) (Set.Ioi ε) :=
    ContinuousOn.log (by fun_prop) (fun γ (h : ε < γ) => by have : 0 < γ := hε.trans h; positivity)
  split <;> fun_prop

theorem baringA_continuousOn (ε : ℝ) (hε : 0 < ε) : ContinuousOn (fun γ => baringA γ ε) (Set.Ioi ε) := by
  unfold baringA
  have hd : ContinuousOn (fun γ : ℝ => ε / γ) (Set.Ioi ε) :=
    continuousOn_const.div continuousOn_id (fun γ (h : ε < γ) => (hε.trans h).ne')
  apply ContinuousOn.sub continuousOn_const
  apply ContinuousOn.mul
  · apply ContinuousOn.div
    · apply ContinuousOn.mul continuousOn_const
      exact ContinuousOn.rpow_const (by fun_prop) (fun _ _ => Or.inr (by norm_num))
    · fun_prop
    · intro γ (h : ε < γ); have : 0 < γ := hε.trans h; positivity
  · exact ContinuousOn.rpow_const hd (fun _ _ => Or.inr (by norm_num))

theorem baringEp_spectrum (ε a b : ℝ) (hε : 0 < ε) (h : ε < a) (hs : Real.exp (1 / 2) * ε ≤ 2 * a * (a - ε)) :
    Spectrum (fun γ => baringEp γ ε) a b := by
  have e : ∀ γ ∈ Set.Icc a b, baringEp γ ε = baring1 γ ε := fun γ hγ => by
    unfold baringEp; rw [if_pos (h.trans_le hγ.1)]
  apply Spectrum.of_continuous
  · intro γ hγ
    rw [e γ hγ]
    exact baring1_nonneg γ ε hε (h.trans_le hγ.1) (sliver_mono a γ ε hε h hγ.1 hs)
  · exact ((baring1_continuousOn ε hε).mono (fun γ hγ => h.trans_le hγ.1)).congr e

theorem baringEe_spectrum (ε a b : ℝ) (hε : 0 < ε) (h2 : ε ≠ 1 / 2) (ha : γTwoMeV < a) (h : ε < a)
    (hs : Real.exp (1 / 2) * ε ≤ 2 * a * (a - ε)) : Spectrum (fun γ => baringEe γ ε) a b := by
  have h39 := γTwoMeV_gt
  have e : ∀ γ ∈ Set.Icc a b, baringEe γ ε = (baring1 γ ε + baring2 γ ε) * baringA γ ε := fun γ hγ => by
    unfold baringEe; rw [if_neg (not_le.2 (ha.trans_le hγ.1)), if_pos (h.trans_le hγ.1)]
  apply Spectrum.of_continuous
  · intro γ hγ
    have hg := hγ.1
    rw [e γ hγ]
    exact mul_nonneg (add_nonneg (baring1_nonneg γ ε hε (h.trans_le hγ.1) (sliver_mono a γ ε hε h hγ.1 hs))
      (baring2_nonneg γ ε (by linarith) hε (h.trans_le hγ.1) h2))
      (baringA_nonneg γ ε (by linarith) hε (h.trans_le hγ.1))
  · refine ContinuousOn.congr ?_ e
    exact (((baring1_continuousOn ε hε).add (baring2_continuousOn ε hε)).mul (baringA_continuousOn ε hε)).mono
      (fun γ hγ => h.trans_le hγ.1)

/-- **C93 (partial).** For every electron distribution above 2 MeV, every density and
non-zero weights, and every photon energy `ε ≠ 1/2` (in mc²) below the electron energies, out of the sliver
where the published cross section is negative: as the number of grid points per decade grows, the spectrum
tends to `n₀ c ∫ dN/dE (w_ee σ_ee + w_ep σ_ep) dE` with the cross sections of Baring et al., in 1/(s eV).
Missing: photon energies inside the electron range (see `C93_false_endpoint`). -/
theorem C93_bremsstrahlung_partial (m : BremsModel) (pd : PDist) (hu : pd.unit.dim = Dim.diffEnergy)
    (hus : 0 < pd.unit.scale) (hlo : m.Eemin.PosEnergy) (hhi : m.Eemax.PosEnergy)
    (hlt : m.Eemin.phys < m.Eemax.phys) (h2m : 2e6 * cEV < m.Eemin.phys)
    (hn : m.n0.unit.dim = Dim.numDensity) (hs0 : 0 < m.n0.unit.scale) (w1 : m.wee ≠ 0) (w2 : m.wep ≠ 0)
    (p : ℝ → ℝ) (hp : ∀ E ∈ Set.Icc m.Eemin.phys m.Eemax.phys, pd.f E = fin (p E))
    (hs : Spectrum p m.Eemin.phys m.Eemax.phys) (es : List ℝ)
    (hes : ∀ e ∈ es, 0 < e ∧ e / (cMe * cC ^ 2) ≠ 1 / 2 ∧ e < m.Eemin.phys ∧
      Real.exp (1 / 2) * (e / (cMe * cC ^ 2)) ≤ 2 * (m.Eemin.phys / (cMe * cC ^ 2)) *
        (m.Eemin.phys / (cMe * cC ^ 2) - e / (cMe * cC ^ 2))) :
    ∃ L : ℝ → ℝ → ℝ, (∀ n, ({ m with nEed := n } : BremsModel).spectrum pd es =
        .ok (es.map (fun e => fin (L n e)))) ∧
      ∀ e ∈ es, Tendsto (fun n => L n e) atTop (𝓝 (m.n0.phys * cEV * (cC *
        ∫ E in m.Eemin.phys..m.Eemax.phys, p E * pd.unit.scale *
          ((m.wee * baringEe (E / (cMe * cC ^ 2)) (e / (cMe * cC ^ 2)) +
            m.wep * baringEp (E / (cMe * cC ^ 2)) (e / (cMe * cC ^ 2))) / (cMe * cC ^ 2))))) := by
  have hm : 0 < cMe * cC ^ 2 := cMec2_pos
  have hsc : Spectrum (fun _ => pd.unit.scale) m.Eemin.phys m.Eemax.phys :=
    Spectrum.of_continuous (fun _ _ => hus.le) continuousOn_const
  have hmc : Spectrum (fun _ => 1 / (cMe * cC ^ 2)) m.Eemin.phys m.Eemax.phys :=
    Spectrum.of_continuous (fun _ _ => by positivity) continuousOn_const
  -- one channel
  have chan : ∀ (σ : ℝ → ℝ → ℝ), (∀ e ∈ es, Spectrum (fun γ => σ γ (e / (cMe * cC ^ 2)))
        (m.Eemin.phys / (cMe * cC ^ 2)) (m.Eemax.phys / (cMe * cC ^ 2))) → ∀ e : ℝ, ∃ W : ℝ → ℝ, e ∈ es →
      (∀ n gam, gamGrid n m.Eemin m.Eemax = .ok gam → trapzLL (gam.map (fun g => (fin g,
          electrons pd g * fin (σ g (e / (cMe * cC ^ 2)) / (cMe * cC ^ 2))))) = fin (W n)) ∧
      Tendsto W atTop (𝓝 (∫ E in m.Eemin.phys..m.Eemax.phys, p E * pd.unit.scale *
        (σ (E / (cMe * cC ^ 2)) (e / (cMe * cC ^ 2)) * (1 / (cMe * cC ^ 2))))) ∧
      IntervalIntegrable (fun E => p E * pd.unit.scale * (σ (E / (cMe * cC ^ 2)) (e / (cMe * cC ^ 2)) *
        (1 / (cMe * cC ^ 2)))) MeasureTheory.volume m.Eemin.phys m.Eemax.phys := by
    intro σ hσ e
    by_cases he : e ∈ es
    · have hS := (hs.mul hsc).mul ((Spectrum.comp_div (c := cMe * cC ^ 2) hm (hσ e he)).mul hmc)
      obtain ⟨W, h1, h2⟩ := electron_limit m.Eemin m.Eemax hlo hhi hlt _ hS
      refine ⟨W, fun _ => ⟨fun n gam hg => ?_, h2, hS.integrable hlt.le⟩⟩
      have hmem := gam_mem n m.Eemin m.Eemax hlo hhi hlt.le gam hg
      rw [← h1 n gam hg, ← trapz_gamma cMec2 hm (fun E => p E * pd.unit.scale *
        (σ (E / (cMe * cC ^ 2)) (e / (cMe * cC ^ 2)) * (1 / (cMe * cC ^ 2))))]
      congr 1
      apply List.map_congr_left
      intro g hgm
      have e2 : g * cMec2 / (cMe * cC ^ 2) = g := by
        exact mul_div_cancel_right₀ g cMec2_pos.ne'
      rw [e2]
      show (fin g, pd.f (g * cMec2) * fin (pd.unit.scale * cMec2) * _) = _
      rw [hp _ (hmem g hgm), mul_fin, mul_fin]
      congr 2
      ring
    · exact ⟨fun _ => 0, fun h => absurd h he⟩
  have hγ2 : γTwoMeV < m.Eemin.phys / (cMe * cC ^ 2) := by
    unfold γTwoMeV; exact div_lt_div_of_pos_right h2m hm
  have hbel : ∀ e ∈ es, e / (cMe * cC ^ 2) < m.Eemin.phys / (cMe * cC ^ 2) := fun e he =>
    div_lt_div_of_pos_right (hes e he).2.2.1 hm
  choose Wee hee using chan baringEe (fun e he => baringEe_spectrum _ _ _ (div_pos (hes e he).1 hm) (hes e he).2.1
    hγ2 (hbel e he) (hes e he).2.2.2)
  choose Wep hep using chan baringEp (fun e he => baringEp_spectrum _ _ _ (div_pos (hes e he).1 hm)
    (hbel e he) (hes e he).2.2.2)
  refine ⟨fun n e => m.n0.phys * cEV * (m.wee * (cC * Wee e n) + m.wep * (cC * Wep e n)), fun n => ?_,
    fun e he => ?_⟩
  · obtain ⟨gam, hg, hgp, h⟩ := C72_spectrum_partial { m with nEed := n } pd hu hlo hhi hlt.le hn hs0 w1 w2
    have hmem := gam_mem n m.Eemin m.Eemax hlo hhi hlt.le gam hg
    rw [h es]
    · congr 1
      apply List.map_congr_left
      intro e he
      rw [(hee e he).1 n gam hg, (hep e he).1 n gam hg]
      simp only [mul_fin, add_fin]
    · intro e he
      refine ⟨(hes e he).1, (hes e he).2.1, fun g hgm heq => ?_⟩
      have h1 := (hmem g hgm).1
      have h2 := hbel e he
      rw [heq, lt_div_iff₀ hm] at h2
      have : g * (cMe * cC ^ 2) = g * cMec2 := rfl
      linarith
  · have t1 := ((hee e he).2.1.const_mul cC).const_mul m.wee
    have t2 := ((hep e he).2.1.const_mul cC).const_mul m.wep
    have t := (t1.add t2).const_mul (m.n0.phys * cEV)
    have i1 := (hee e he).2.2.const_mul (m.wee * cC)
    have i2 := (hep e he).2.2.const_mul (m.wep * cC)
    have key : cC * ∫ E in m.Eemin.phys..m.Eemax.phys, p E * pd.unit.scale *
          ((m.wee * baringEe (E / (cMe * cC ^ 2)) (e / (cMe * cC ^ 2)) +
            m.wep * baringEp (E / (cMe * cC ^ 2)) (e / (cMe * cC ^ 2))) / (cMe * cC ^ 2)) =
        m.wee * (cC * ∫ E in m.Eemin.phys..m.Eemax.phys, p E * pd.unit.scale *
          (baringEe (E / (cMe * cC ^ 2)) (e / (cMe * cC ^ 2)) * (1 / (cMe * cC ^ 2)))) +
        m.wep * (cC * ∫ E in m.Eemin.phys..m.Eemax.phys, p E * pd.unit.scale *
          (baringEp (E / (cMe * cC ^ 2)) (e / (cMe * cC ^ 2)) * (1 / (cMe * cC ^ 2)))) := by
      rw [← mul_assoc, ← mul_assoc, ← intervalIntegral.integral_const_mul, ← intervalIntegral.integral_const_mul,
        ← intervalIntegral.integral_const_mul, ← intervalIntegral.integral_add i1 i2]
      congr 1
      funext E
      ring
    rw [key]
    exact t

/-! ### Where it fails -/

theorem bin_ninf (x1 x2 y2 : ℝ) (h1 : 0 < x1) (h12 : x1 < x2) (hy : y2 ≠ 0) :
    trapzBin (fin x1) (fin x2) ninf (fin y2) = nan := by
  have h2 := h1.trans h12
  have hr : 1 < x2 / x1 := by rwa [one_lt_div h1]
  have hl : 0 < Real.logb 10 (x2 / x1) := Real.logb_pos (by norm_num) hr
  have e0 : (fin y2 / ninf : XR) = fin 0 := rfl
  have e1 : log10 (fin 0) = ninf := by simp [log10]
  have e2 : (fin x2 / fin x1 : XR) = fin (x2 / x1) := div_fin _ _ h1.ne'
  have e3 : log10 (fin (x2 / x1)) = fin (Real.logb 10 (x2 / x1)) := by
    simp only [log10]; rw [if_neg (by linarith), if_neg (by positivity)]
  have e4 : (ninf / fin (Real.logb 10 (x2 / x1)) : XR) = ninf := by
    show XR.div _ _ = _; simp [XR.div, hl.le]
  have e5 : trapzIndex (fin x1) (fin x2) ninf (fin y2) = ninf := by
    unfold trapzIndex; rw [e0, e1, e2, e3, e4]
  have e6 : pow (fin (x2 / x1)) ninf = fin 0 := by
    simp only [pow]
    rw [abs_of_pos (by positivity), if_neg hr.ne', if_neg (by linarith)]
  unfold trapzBin
  rw [if_neg]
  · unfold trapzRaw
    simp only [e5]
    have e7 : (ninf + fin 1 : XR) = ninf := rfl
    rw [e7, if_pos (by trivial), e2, e6, mul_fin, mul_zero, sub_fin]
    have e8 : (ninf * fin (0 - x1) : XR) = pinf := by
      show XR.mul _ _ = _
      simp [XR.mul, infMul, XR.neg, h1]
    rw [e8]; rfl
  · simp only [eqv]
    push Not
    exact ⟨trivial, hy, h12.ne⟩

/-- the first two points of the electron grid -/
theorem gamGrid_two (n : ℝ) (lo hi : Qty ℝ) (hn : 0 ≤ n) (hlo : lo.PosEnergy) (hhi : hi.PosEnergy)
    (hlt : lo.phys < hi.phys) : ∃ rest, gamGrid n lo hi =
      .ok (lo.phys / cMec2 :: lo.phys / cMec2 * Real.exp (lnStep n lo.phys hi.phys) :: rest) := by
  have hm := cMec2_pos
  have ha := hlo.phys_pos
  have hb := hhi.phys_pos
  set la := Real.logb 10 (lo.phys / cMec2) with hla
  set lb := Real.logb 10 (hi.phys / cMec2) with hlb
  have hab : la < lb := Real.logb_lt_logb (by norm_num) (div_pos ha hm) (div_lt_div_of_pos_right hlt hm)
  have hk := gridK_ten (lb - la) n
  have e : gamGrid n lo hi = .ok (logspace la lb (gridK (lb - la) n)) := gamGrid_eq n lo hi hlo hhi
  have hlen := logspace_length la lb (gridK (lb - la) n)
  have h0 : (logspace la lb (gridK (lb - la) n))[0]? = some (lo.phys / cMec2) := by
    have := (logspace_logGrid la lb _ hab hk).first
    rw [List.head?_eq_getElem?] at this
    rw [this, hla, ten_rpow_logb _ (div_pos ha hm)]
  have hstep := lnStep_gridK n lo.phys hi.phys cMec2 hn ha hlt hm
  rw [← hla, ← hlb] at hstep
  rw [e]
  generalize hL : logspace la lb (gridK (lb - la) n) = L at *
  match L, hlen, h0 with
  | [], hl, _ => simp at hl; omega
  | [_], hl, _ => simp at hl; omega
  | x :: y :: rest, _, h0 =>
    simp only [List.getElem?_cons_zero, Option.some.injEq] at h0
    obtain ⟨-, -, s3⟩ := logspace_step la lb (gridK (lb - la) n) hab.le hk 0 x y (by rw [hL]; rfl) (by rw [hL]; rfl)
    refine ⟨rest, ?_⟩
    rw [s3, h0]
    congr 4
    rw [Real.rpow_def_of_pos (by norm_num), ← hstep]
    congr 1
    have : (lb - la) * Real.log 10 = Real.log (hi.phys / lo.phys) := by
      rw [hla, hlb, ← Real.logb_div (div_pos hb hm).ne' (div_pos ha hm).ne', div_div_div_cancel_right₀ hm.ne',
        Real.logb]
      have : Real.log 10 ≠ 0 := Real.log_ne_zero_of_pos_of_ne_one (by norm_num) (by norm_num)
      field_simp
    rw [← this]; ring

theorem lnStep_pos (n a b : ℝ) (ha : 0 < a) (hab : a < b) : 0 < lnStep n a b := by
  unfold lnStep
  apply div_pos (Real.log_pos (by rwa [one_lt_div ha]))
  have : (10 : ℝ) ≤ ((max 10 ⌊n * Real.logb 10 (b / a)⌋ : ℤ) : ℝ) := by exact_mod_cast le_max_left _ _
  linarith

/-- **C93 fails at the lowest electron energy.** For every electron spectrum positive on its range, every
density and non-zero weights: the spectrum at a photon energy equal to the lowest electron energy `γ₁` is NaN
whenever the second grid energy `γ₁ r` is out of the sliver where the published cross section is negative. -/
theorem C93_false_endpoint (m : BremsModel) (pd : PDist) (hu : pd.unit.dim = Dim.diffEnergy)
    (hus : 0 < pd.unit.scale) (hlo : m.Eemin.PosEnergy) (hhi : m.Eemax.PosEnergy)
    (hlt : m.Eemin.phys < m.Eemax.phys) (hne : 0 ≤ m.nEed)
    (hn : m.n0.unit.dim = Dim.numDensity) (hs0 : 0 < m.n0.unit.scale) (w1 : m.wee ≠ 0) (w2 : m.wep ≠ 0)
    (p : ℝ → ℝ) (hp : ∀ E ∈ Set.Icc m.Eemin.phys m.Eemax.phys, pd.f E = fin (p E))
    (hpos : ∀ E ∈ Set.Icc m.Eemin.phys m.Eemax.phys, 0 < p E) (γ₁ r : ℝ)
    (h1 : γ₁ = m.Eemin.phys / (cMe * cC ^ 2)) (h2 : r = Real.exp (lnStep m.nEed m.Eemin.phys m.Eemax.phys))
    (hout : Real.exp (1 / 2) < 2 * γ₁ * r * (r - 1)) :
    m.spectrum pd [m.Eemin.phys] = .ok [nan] := by
  have hm := cMec2_pos
  obtain ⟨gam, N, hg, hN, h⟩ := C17_weighted_sum_partial m.toElModel pd [m.Eemin.phys] hu hlo hhi hlt.le
  have hsp := h m.n0 m.wee m.wep w1 w2 hn hs0
  have hme : (⟨m.toElModel, m.n0, m.wee, m.wep⟩ : BremsModel) = m := rfl
  rw [hme] at hsp
  rw [hsp]
  obtain ⟨rest, hgr⟩ := gamGrid_two m.nEed m.Eemin m.Eemax hne hlo hhi hlt
  have hgr : m.toElModel.gam = _ := hgr
  rw [hg] at hgr
  injection hgr with hgr
  have hNe := nelec_eq m.toElModel pd hu gam hg
  rw [hN] at hNe
  injection hNe with hNe
  have hmem := gam_mem m.nEed m.Eemin m.Eemax hlo hhi hlt.le gam hg
  have hγ : 0 < γ₁ := by rw [h1]; exact div_pos hlo.phys_pos hm
  have hr1 : 1 < r := by rw [h2]; exact Real.one_lt_exp_iff.2 (lnStep_pos _ _ _ hlo.phys_pos hlt)
  have g1 : m.Eemin.phys / cMec2 = γ₁ := h1.symm
  rw [g1, ← h2] at hgr
  have hfin : ∀ g ∈ gam, ∃ c, 0 < c ∧ pd.f (g * cMec2) * XR.fin (pd.unit.scale / perMec2.scale) = fin c := by
    intro g hgm
    have : 0 < pd.unit.scale / perMec2.scale := by
      apply div_pos hus; show 0 < 1 / cMec2; positivity
    exact ⟨_, mul_pos (hpos _ (hmem g hgm)) this, by rw [hp _ (hmem g hgm), mul_fin]⟩
  obtain ⟨c1, hc1, f1⟩ := hfin γ₁ (by rw [hgr]; simp)
  obtain ⟨c2, hc2, f2⟩ := hfin (γ₁ * r) (by rw [hgr]; simp)
  have hlt2 : γ₁ < γ₁ * r := by nlinarith
  have s1 : bremsEp γ₁ γ₁ = ninf := bremsSigma1_at γ₁ hγ
  have s2 : bremsEp (γ₁ * r) γ₁ = fin (baring1 (γ₁ * r) γ₁) := by
    rw [ep_code (γ₁ * r) γ₁ (by positivity) hγ hlt2.ne]
    unfold baringEp; rw [if_pos hlt2]
  have s2p : 0 < baring1 (γ₁ * r) γ₁ := by
    unfold baring1
    have hrr : 0 < r02alpha := by unfold r02alpha cE cMe cC; have := cAlpha_pos; positivity
    have hd : 0 < γ₁ * r - γ₁ := by linarith
    apply mul_pos
    · have := sigma1_s2_pos (γ₁ / (γ₁ * r)); positivity
    · rw [sub_pos, Real.lt_log_iff_exp_lt (by positivity), lt_div_iff₀ hγ]
      nlinarith
  have hch : channel bremsEp gam N m.Eemin.phys = nan := by
    unfold channel
    rw [hNe, hgr, g1]
    simp only [List.map_cons, List.zip_cons_cons, f1, f2, s1, s2]
    have k1 : (fin c1 * (ninf * fin (1 / cMec2)) : XR) = ninf := by
      rw [mul_comm' ninf, scale_ninf _ (by positivity), scale_ninf _ hc1]
    rw [k1, mul_fin, mul_fin]
    unfold trapzLL
    simp only [trapzIntervals, sum_cons]
    rw [bin_ninf _ _ _ hγ hlt2 (by positivity), nan_add, mul_nan'']
  simp only [List.map_cons, List.map_nil, hch, mul_nan'', add_nan]

/-! ### The hypotheses are met -/

/-- Electrons above 100 MeV and a photon of 1 MeV. -/
example : ∃ e : ℝ, 0 < e ∧ e / (cMe * cC ^ 2) ≠ 1 / 2 ∧ e < 1e8 * cEV ∧
    Real.exp (1 / 2) * (e / (cMe * cC ^ 2)) ≤ 2 * (1e8 * cEV / (cMe * cC ^ 2)) *
      (1e8 * cEV / (cMe * cC ^ 2) - e / (cMe * cC ^ 2)) := by
  have h1 : Real.exp (1 / 2) < 3 := by
    have h := Real.exp_one_lt_d9
    have : Real.exp (1 / 2) ≤ Real.exp 1 := Real.exp_le_exp.2 (by norm_num)
    linarith
  refine ⟨1e6 * cEV, ?_, ?_, ?_, ?_⟩
  · unfold cEV; norm_num
  · unfold cEV cMe cC; norm_num
  · unfold cEV; norm_num
  · refine (mul_le_mul_of_nonneg_right h1.le ?_).trans ?_
    · unfold cEV cMe cC; norm_num
    · unfold cEV cMe cC; norm_num

/-- `C93_false_endpoint` applies to the default grid (300 points per decade) from the default lower limit of
100 MeV (`γ₁ ≈ 195.7`), over any range of a decade or more. -/
theorem default_grid_out (a b : ℝ) (ha : 0 < a) (hab : 10 * a ≤ b) :
    Real.exp (1 / 2) < 2 * (1e8 * cEV / (cMe * cC ^ 2)) * Real.exp (lnStep 300 a b) *
      (Real.exp (lnStep 300 a b) - 1) := by
  have hr : 10 ≤ b / a := by rwa [le_div_iff₀ ha]
  set d := Real.logb 10 (b / a) with hd
  have hd1 : 1 ≤ d := by
    rw [hd, Real.le_logb_iff_rpow_le (by norm_num) (by linarith)]; simpa using hr
  have hl : Real.log (b / a) = d * Real.log 10 := by
    rw [hd, Real.logb]
    have : Real.log 10 ≠ 0 := Real.log_ne_zero_of_pos_of_ne_one (by norm_num) (by norm_num)
    field_simp
  have hk : ((max 10 ⌊300 * d⌋ : ℤ) : ℝ) ≤ 300 * d := by
    rw [Int.cast_max]
    exact max_le (by push_cast; linarith) (Int.floor_le _)
  have hk10 : (10 : ℝ) ≤ ((max 10 ⌊300 * d⌋ : ℤ) : ℝ) := by exact_mod_cast le_max_left _ _
  have hlog : 2 ≤ Real.log 10 := by
    rw [Real.le_log_iff_exp_le (by norm_num)]
    have h := Real.exp_one_lt_d9
    have : Real.exp 2 = Real.exp 1 * Real.exp 1 := by rw [← Real.exp_add]; norm_num
    rw [this]
    nlinarith [Real.exp_pos 1]
  have hstep : 2 / 300 ≤ lnStep 300 a b := by
    unfold lnStep
    rw [← hd, hl, div_le_div_iff₀ (by norm_num) (by linarith)]
    nlinarith
  have hexp := Real.add_one_le_exp (lnStep 300 a b)
  have hg : (195 : ℝ) ≤ 1e8 * cEV / (cMe * cC ^ 2) := by unfold cEV cMe cC; norm_num
  have h2 : Real.exp (1 / 2) < 2 := by
    have h := Real.exp_one_lt_d9
    have e : Real.exp (1 / 2) * Real.exp (1 / 2) = Real.exp 1 := by rw [← Real.exp_add]; norm_num
    nlinarith [Real.exp_pos (1 / 2)]
  have h3 : 2 * 195 * 1 ≤ 2 * (1e8 * cEV / (cMe * cC ^ 2)) * Real.exp (lnStep 300 a b) :=
    mul_le_mul (by linarith) (by linarith) (by norm_num) (by linarith)
  nlinarith

end Naima.Props
