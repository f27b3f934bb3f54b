import Verif.Props.C93_Brems

/-! # C72, the electron-electron cross section: a jump at half the electron rest energy

The code subtracts `4ε` (radiative.py:862) where the two branches of the formula meet only if it is added. -/

namespace Naima.Props

open Naima XR Classical Topology
open Filter (Tendsto)

/-- The lower branch of A3 as coded. -/
noncomputable def baring2lo (γ ε : ℝ) : ℝ :=
  r02alpha / (3 * ε) * (16 * (1 - ε + ε ^ 2) * Real.log (γ / ε) - 1 / ε ^ 2 + 3 / ε - 4 - 4 * ε - 8 * ε ^ 2 -
        2 * ((1 - 2 * ε) * Real.log (1 - 2 * ε)) *
          (1 / (4 * ε ^ 3) - 1 / (2 * ε ^ 2) + 3 / ε - 2 + 4 * ε))

/-- The upper branch of A3. -/
noncomputable def baring2hi (γ ε : ℝ) : ℝ :=
  r02alpha / (3 * ε) * (2 / ε * ((4 - 1 / ε + 1 / (4 * ε ^ 2)) * Real.log (2 * γ) - 2 + 2 / ε - 5 / (8 * ε ^ 2)))

private theorem lo_cont (γ : ℝ) (hγ : 0 < γ) : ContinuousAt (baring2lo γ) (1 / 2) := by
  have h : ContinuousAt (fun ε : ℝ => (1 - 2 * ε) * Real.log (1 - 2 * ε)) (1 / 2) :=
    (Real.continuous_mul_log.comp (by fun_prop : Continuous fun ε : ℝ => 1 - 2 * ε)).continuousAt
  have hl : ContinuousAt (fun ε : ℝ => Real.log (γ / ε)) (1 / 2) :=
    ContinuousAt.log (by fun_prop (disch := norm_num)) (by positivity)
  unfold baring2lo
  fun_prop (disch := norm_num)

private theorem hi_cont (γ : ℝ) : ContinuousAt (baring2hi γ) (1 / 2) := by
  unfold baring2hi
  fun_prop (disch := norm_num)

private theorem A_cont (γ : ℝ) (hγ : 0 < γ) : ContinuousAt (baringA γ) (1 / 2) := by
  unfold baringA
  have : ContinuousAt (fun ε : ℝ => (ε / γ) ^ ((1 : ℝ) / 3)) (1 / 2) :=
    ContinuousAt.rpow_const (by fun_prop (disch := exact hγ.ne')) (Or.inr (by norm_num))
  fun_prop

private theorem b1_cont (γ : ℝ) (hγ : 1 < γ) : ContinuousAt (baring1 γ) (1 / 2) := by
  unfold baring1
  have : ContinuousAt (fun ε : ℝ => Real.log (2 * γ * (γ - ε) / ε)) (1 / 2) :=
    ContinuousAt.log (by fun_prop (disch := norm_num)) (by
      have : 0 < γ - 1 / 2 := by linarith
      positivity)
  fun_prop (disch := norm_num)

theorem r02alpha_pos : 0 < r02alpha := by unfold r02alpha cE cMe cC; have := cAlpha_pos; positivity

theorem baringA_pos_half (γ ε : ℝ) (hγ : 2 ≤ γ) (hε : 0 < ε) (h : ε < γ) : 0 < baringA γ ε := by
  have hγ0 : 0 < γ := by linarith
  have h0 := baringA_nonneg γ (γ * ((1 + ε / γ) / 2)) hγ (by positivity) (by
    have : ε / γ < 1 := by rw [div_lt_one hγ0]; exact h
    nlinarith)
  refine lt_of_le_of_lt h0 ?_
  unfold baringA
  have h1 : (ε / γ) ^ ((1 : ℝ) / 3) < (γ * ((1 + ε / γ) / 2) / γ) ^ ((1 : ℝ) / 3) := by
    have h2 : ε / γ < 1 := by rw [div_lt_one hγ0]; exact h
    apply Real.rpow_lt_rpow (by positivity) _ (by norm_num)
    rw [mul_div_cancel_left₀ _ hγ0.ne']
    linarith
  have h5 : 0 < 8 / 3 * (γ - 1) ^ ((1 : ℝ) / 5) / (γ + 1) := by
    have : 0 < γ - 1 := by linarith
    positivity
  nlinarith

/-- **C72, false at half the rest energy.**  For every electron above 2 MeV the computed electron-electron cross
section (finite at all photon energies between 0 and the electron's, except `1/2`) tends to different values from
below and from above `1/2`: it jumps up by `8/3 r₀²α A`. Were `8/3 r₀²α A` added below `1/2`, that is the term
`4ε` of A3 added instead of subtracted, the two branches would meet. -/
theorem C72_false_jump (γ : ℝ) (hγ : γTwoMeV < γ) :
    ∃ σ : ℝ → ℝ, (∀ ε, 0 < ε → ε < γ → ε ≠ 1 / 2 → bremsEe γ ε = fin (σ ε)) ∧
      ∃ l r, Tendsto σ (𝓝[<] (1 / 2)) (𝓝 l) ∧ Tendsto σ (𝓝[>] (1 / 2)) (𝓝 r) ∧ l < r ∧
        r - l = 8 / 3 * r02alpha * baringA γ (1 / 2) ∧
        Tendsto (fun ε => σ ε + 8 / 3 * r02alpha * baringA γ ε) (𝓝[<] (1 / 2)) (𝓝 r) := by
  have h39 := γTwoMeV_gt
  have hγ0 : 0 < γ := by linarith
  have hr := r02alpha_pos
  refine ⟨baringEe γ, fun ε h1 h2 h3 => (C72_cross_sections_partial γ ε hγ0 h1 h2.ne).2 h3,
    (baring1 γ (1 / 2) + baring2lo γ (1 / 2)) * baringA γ (1 / 2),
    (baring1 γ (1 / 2) + baring2hi γ (1 / 2)) * baringA γ (1 / 2), ?_⟩
  have hl : Tendsto (baringEe γ) (𝓝[<] (1 / 2)) (𝓝 ((baring1 γ (1 / 2) + baring2lo γ (1 / 2)) * baringA γ (1 / 2))) := by
    have := (((b1_cont γ (by linarith)).add (lo_cont γ hγ0)).mul (A_cont γ hγ0)).tendsto.mono_left
      (nhdsWithin_le_nhds (s := Set.Iio (1 / 2)))
    refine this.congr' ?_
    filter_upwards [self_mem_nhdsWithin] with ε hε
    have hε : ε < 1 / 2 := hε
    unfold baringEe
    rw [if_neg (not_le.2 hγ), if_pos (by linarith)]
    simp only [Pi.mul_apply, Pi.add_apply, baring2lo, baring2, if_pos hε.le]
    ring
  have hrt : Tendsto (baringEe γ) (𝓝[>] (1 / 2)) (𝓝 ((baring1 γ (1 / 2) + baring2hi γ (1 / 2)) * baringA γ (1 / 2))) := by
    have := (((b1_cont γ (by linarith)).add (hi_cont γ)).mul (A_cont γ hγ0)).tendsto.mono_left
      (nhdsWithin_le_nhds (s := Set.Ioi (1 / 2)))
    refine this.congr' ?_
    filter_upwards [self_mem_nhdsWithin, nhdsWithin_le_nhds (Iio_mem_nhds (show (1 / 2 : ℝ) < γ by linarith))]
      with ε hε hε2
    have hε : 1 / 2 < ε := hε
    have hε2 : ε < γ := hε2
    unfold baringEe
    rw [if_neg (not_le.2 hγ), if_pos hε2]
    simp only [Pi.mul_apply, Pi.add_apply, baring2hi, baring2, if_neg (not_le.2 hε)]
  have hd : (baring1 γ (1 / 2) + baring2hi γ (1 / 2)) * baringA γ (1 / 2) -
      (baring1 γ (1 / 2) + baring2lo γ (1 / 2)) * baringA γ (1 / 2) = 8 / 3 * r02alpha * baringA γ (1 / 2) := by
    have e : γ / (1 / 2) = 2 * γ := by ring
    simp only [baring2hi, baring2lo, e]
    norm_num
    ring
  have hA := baringA_pos_half γ (1 / 2) (by linarith) (by norm_num) (by linarith)
  refine ⟨hl, hrt, ?_, hd, ?_⟩
  · have : 0 < 8 / 3 * r02alpha * baringA γ (1 / 2) := by positivity
    linarith
  · have h2 := hl.add ((((continuousAt_const (y := 8 / 3 * r02alpha)).mul (A_cont γ hγ0)).tendsto.mono_left
      (nhdsWithin_le_nhds (s := Set.Iio (1 / 2)))))
    rw [show (baring1 γ (1 / 2) + baring2hi γ (1 / 2)) * baringA γ (1 / 2) =
      (baring1 γ (1 / 2) + baring2lo γ (1 / 2)) * baringA γ (1 / 2) + 8 / 3 * r02alpha * baringA γ (1 / 2) by linarith]
    exact h2

/-- Met by an electron of `γ = 100`, about 51 MeV. -/
example : γTwoMeV < 100 ∧ ∃ σ : ℝ → ℝ, (∀ ε, 0 < ε → ε < 100 → ε ≠ 1 / 2 → bremsEe 100 ε = fin (σ ε)) ∧
    ¬ ∃ v, Tendsto σ (𝓝[≠] (1 / 2)) (𝓝 v) := by
  have h : γTwoMeV < 100 := by unfold γTwoMeV cEV cMe cC; norm_num
  obtain ⟨σ, h1, l, r, hl, hr, hlt, -⟩ := C72_false_jump 100 h
  refine ⟨h, σ, h1, ?_⟩
  rintro ⟨v, hv⟩
  have e1 := tendsto_nhds_unique hl (hv.mono_left (nhdsWithin_mono _ fun x hx => ne_of_lt hx))
  have e2 := tendsto_nhds_unique hr (hv.mono_left (nhdsWithin_mono _ fun x hx => ne_of_gt hx))
  linarith

end Naima.Props
