import Verif.Props.C104_SyncPower

/-! # Integrals of computed spectra over photon energy, in the limit of a fine grid -/

namespace Naima.Props

open Naima XR Classical Topology MeasureTheory
open Filter (Tendsto atTop)

/-- grids of the range `[a, b]` on which the sums tend to the integrals -/
structure FineGrids (G : ℝ → List ℝ) (a b : ℝ) : Prop where
  mem : ∀ n, ∀ x ∈ G n, x ∈ Set.Icc a b
  sorted : ∀ n, (G n).Pairwise (· ≤ ·)
  tends : ∀ F, Spectrum F a b → Tendsto (fun n => binSum rbin ((G n).map (fun x => (x, F x)))) atTop (𝓝 (∫ E in a..b, F E))

theorem electron_fine (lo hi : Qty ℝ) (hlo : lo.PosEnergy) (hhi : hi.PosEnergy) (hlt : lo.phys < hi.phys)
    (G : ℝ → List ℝ) (hG : ∀ n, gamGrid n lo hi = .ok (G n)) :
    FineGrids (fun n => (G n).map (· * cMec2)) lo.phys hi.phys := by
  have hm := cMec2_pos
  have hfacts : ∀ n, (∀ g ∈ G n, 0 < g) ∧ (G n).Pairwise (· ≤ ·) := by
    intro n
    obtain ⟨gam, hg, h1, h2⟩ := gamGrid_facts n lo hi hlo hhi hlt.le
    rw [hG n] at hg; injection hg with hg
    rw [hg]; exact ⟨h1, h2⟩
  have hmem := fun n => gam_mem n lo hi hlo hhi hlt.le (G n) (hG n)
  refine ⟨fun n => (grid_scaled _ _ _ hm (G n) (hfacts n).2 (hmem n)).1,
    fun n => (grid_scaled _ _ _ hm (G n) (hfacts n).2 (hmem n)).2, fun F hF => ?_⟩
  obtain ⟨W, w1, w2⟩ := electron_limit lo hi hlo hhi hlt F hF
  convert w2 using 2 with n
  have h1 := w1 n _ (hG n)
  rw [← trapz_gamma cMec2 hm, trapz_binSum cMec2 hm (G n) (hfacts n).1 (hfacts n).2 F
    (fun g hg => hF.nonneg _ (hmem n g hg)), fin_inj] at h1
  exact h1

theorem weighted_limit {G : ℝ → List ℝ} {a b : ℝ} (hG : FineGrids G a b) (ha : 0 < a) (hlt : a < b)
    (N : ℝ → ℝ) (hN : Spectrum N a b) (K : ℝ → ℝ → ℝ) (hKm : Measurable (fun z : ℝ × ℝ => K z.1 z.2))
    (hK : ∀ e > 0, Spectrum (fun E => K E e) a b) (w H : ℝ → ℝ) (hw : Measurable w) (hw0 : ∀ e > 0, 0 ≤ w e)
    (hH : IntegrableOn H (Set.Ioi 0)) (hb : ∀ E ∈ Set.Icc a b, ∀ e > 0, w e * K E e ≤ H e) :
    (∀ n, IntegrableOn (fun e => w e * binSum rbin ((G n).map (fun x => (x, N x * K x e)))) (Set.Ioi 0)) ∧
    IntervalIntegrable (fun E => N E * ∫ e in Set.Ioi 0, w e * K E e) volume a b ∧
    Tendsto (fun n => ∫ e in Set.Ioi 0, w e * binSum rbin ((G n).map (fun x => (x, N x * K x e)))) atTop
      (𝓝 (∫ E in a..b, N E * ∫ e in Set.Ioi 0, w e * K E e)) := by
  have hm1 : ∀ x, Measurable (fun e => K x e) := fun x => hKm.comp (by fun_prop : Measurable fun e : ℝ => (x, e))
  set S : ℝ → ℝ → ℝ := fun n e => binSum rbin ((G n).map (fun x => (x, N x * K x e))) with hS
  set r := (b / a) ^ (2e-10 : ℝ) with hr
  have hr0 : 0 < r := Real.rpow_pos_of_pos (div_pos (ha.trans hlt) ha) _
  set H' : ℝ → ℝ := fun e => H e + Real.exp (-e) with hH'
  have hexp : IntegrableOn (fun e : ℝ => Real.exp (-e)) (Set.Ioi 0) := by
    simpa using integrableOn_exp_mul_Ioi (show (-1:ℝ) < 0 by norm_num) 0
  have hHi : IntegrableOn H' (Set.Ioi 0) := hH.add hexp
  have haI : a ∈ Set.Icc a b := ⟨le_rfl, hlt.le⟩
  have hpos : ∀ e > 0, 0 < H' e := by
    intro e he
    have h1 := mul_nonneg (hw0 e he) ((hK e he).nonneg a haI)
    have h2 := hb a haI e he
    have := Real.exp_pos (-e)
    simp only [hH']; linarith
  set W : ℝ → ℝ := fun n => binSum rbin ((G n).map (fun x => (x, N x))) with hW
  have hWt : Tendsto W atTop (𝓝 (∫ E in a..b, N E)) := hG.tends N hN
  have hx : ∀ n, ∀ x ∈ G n, 0 < x := fun n x h => ha.trans_le (hG.mem n x h).1
  have hW0 : ∀ n, 0 ≤ W n := fun n =>
    binSum_nonneg a b ha _ (hG.mem n) (hG.sorted n) N (fun x h => hN.nonneg x (hG.mem n x h))
  have hS0 : ∀ n, ∀ e > 0, 0 ≤ S n e := fun n e he =>
    binSum_nonneg a b ha _ (hG.mem n) (hG.sorted n) _ (fun x h =>
      mul_nonneg (hN.nonneg x (hG.mem n x h)) ((hK e he).nonneg x (hG.mem n x h)))
  have hle : ∀ n, ∀ e > 0, w e * S n e ≤ r * W n * H' e := by
    intro n e he
    have hp := hpos e he
    rcases (hw0 e he).eq_or_lt with h0 | h0
    · rw [← h0, zero_mul]
      exact mul_nonneg (mul_nonneg hr0.le (hW0 n)) hp.le
    · have h1 := binSum_rbin_scale (w e) h0 (G n) (fun x => N x * K x e) (hx n) (hG.sorted n) (fun x h =>
        mul_nonneg (hN.nonneg x (hG.mem n x h)) ((hK e he).nonneg x (hG.mem n x h)))
      have h2 := binSum_rbin_scale (H' e) hp (G n) N (hx n) (hG.sorted n) (fun x h => hN.nonneg x (hG.mem n x h))
      have h3 := binSum_mono a b ha (G n) (hG.mem n) (hG.sorted n) (fun x => w e * (N x * K x e)) (fun x => H' e * N x)
        (fun x h => mul_nonneg h0.le (mul_nonneg (hN.nonneg x (hG.mem n x h)) ((hK e he).nonneg x (hG.mem n x h))))
        (fun x h => by
          have h4 := hb x (hG.mem n x h) e he
          have h5 := hN.nonneg x (hG.mem n x h)
          have h6 : w e * K x e ≤ H' e := h4.trans (by simp only [hH']; linarith [Real.exp_pos (-e)])
          calc w e * (N x * K x e) = w e * K x e * N x := by ring
            _ ≤ _ := mul_le_mul_of_nonneg_right h6 h5)
      rw [h1, h2] at h3
      calc w e * S n e ≤ r * (H' e * W n) := h3
        _ = _ := by ring
  have hSm : ∀ n, Measurable (S n) := fun n =>
    binSum_measurable (G n) (fun x e => N x * K x e) (fun x => (hm1 x).const_mul _)
  have hmeas : ∀ n, AEStronglyMeasurable (fun e => w e * S n e) (volume.restrict (Set.Ioi 0)) := fun n =>
    (hw.mul (hSm n)).aestronglyMeasurable
  have hnorm : ∀ n, ∀ e ∈ Set.Ioi (0:ℝ), ‖w e * S n e‖ ≤ r * W n * H' e := by
    intro n e he
    rw [Real.norm_of_nonneg (mul_nonneg (hw0 e he) (hS0 n e he))]
    exact hle n e he
  have hint : ∀ n, IntegrableOn (fun e => w e * S n e) (Set.Ioi 0) := by
    intro n
    apply Integrable.mono' (hHi.const_mul (r * W n)) (hmeas n)
    filter_upwards [ae_restrict_mem measurableSet_Ioi] with e he using hnorm n e he
  set F : ℝ → ℝ := fun e => ∫ E in a..b, N E * K E e with hF
  have hdom : Tendsto (fun n => ∫ e in Set.Ioi 0, w e * S n e) atTop (𝓝 (∫ e in Set.Ioi 0, w e * F e)) := by
    set M := ∫ E in a..b, N E with hM
    apply tendsto_integral_filter_of_dominated_convergence (fun e => r * (M + 1) * H' e)
    · exact Filter.Eventually.of_forall hmeas
    · filter_upwards [hWt.eventually_lt_const (lt_add_one M)] with n hn
      filter_upwards [ae_restrict_mem measurableSet_Ioi] with e he
      refine (hnorm n e he).trans ?_
      apply mul_le_mul_of_nonneg_right _ (hpos e he).le
      gcongr
    · exact hHi.const_mul _
    · filter_upwards [ae_restrict_mem measurableSet_Ioi] with e he
      exact (hG.tends _ (hN.mul (hK e he))).const_mul (w e)
  -- exchange of the integrals
  have hprod : Integrable (fun z : ℝ × ℝ => w z.1 * (N z.2 * K z.2 z.1))
      ((volume.restrict (Set.Ioi 0)).prod (volume.restrict (Set.Ioc a b))) := by
    have hdomi : Integrable (fun z : ℝ × ℝ => H' z.1 * N z.2)
        ((volume.restrict (Set.Ioi 0)).prod (volume.restrict (Set.Ioc a b))) :=
      Integrable.mul_prod hHi (hN.aesm hlt.le)
    have hms : AEStronglyMeasurable (fun z : ℝ × ℝ => w z.1 * (N z.2 * K z.2 z.1))
        ((volume.restrict (Set.Ioi 0)).prod (volume.restrict (Set.Ioc a b))) := by
      have h1 : AEStronglyMeasurable (fun z : ℝ × ℝ => N z.2)
          ((volume.restrict (Set.Ioi 0)).prod (volume.restrict (Set.Ioc a b))) :=
        (hN.aesm hlt.le).aestronglyMeasurable.comp_snd
      exact (hw.comp measurable_fst).aestronglyMeasurable.mul
        (h1.mul (hKm.comp (by fun_prop : Measurable fun z : ℝ × ℝ => (z.2, z.1))).aestronglyMeasurable)
    apply Integrable.mono' hdomi hms
    rw [Measure.prod_restrict]
    filter_upwards [ae_restrict_mem (measurableSet_Ioi.prod measurableSet_Ioc)] with z hz
    have hz1 : (0:ℝ) < z.1 := hz.1
    have hz2 : z.2 ∈ Set.Icc a b := ⟨hz.2.1.le, hz.2.2⟩
    have h5 := hN.nonneg z.2 hz2
    rw [Real.norm_of_nonneg (mul_nonneg (hw0 _ hz1) (mul_nonneg h5 ((hK _ hz1).nonneg _ hz2)))]
    have h6 : w z.1 * K z.2 z.1 ≤ H' z.1 := (hb z.2 hz2 z.1 hz1).trans (by simp only [hH']; linarith [Real.exp_pos (-z.1)])
    calc w z.1 * (N z.2 * K z.2 z.1) = w z.1 * K z.2 z.1 * N z.2 := by ring
      _ ≤ _ := mul_le_mul_of_nonneg_right h6 h5
  have hinner : ∀ E, ∫ e in Set.Ioi 0, w e * (N E * K E e) = N E * ∫ e in Set.Ioi 0, w e * K E e := by
    intro E
    rw [← integral_const_mul]
    congr 1
    funext e
    ring
  have hT : ∫ e in Set.Ioi 0, w e * F e = ∫ E in a..b, N E * ∫ e in Set.Ioi 0, w e * K E e := by
    rw [intervalIntegral.integral_of_le hlt.le]
    have h1 : ∫ e in Set.Ioi 0, w e * F e = ∫ e in Set.Ioi 0, ∫ E in Set.Ioc a b, w e * (N E * K E e) := by
      apply setIntegral_congr_fun measurableSet_Ioi
      intro e he
      simp only [hF]
      rw [intervalIntegral.integral_of_le hlt.le, integral_const_mul]
    rw [h1, integral_integral_swap hprod]
    apply setIntegral_congr_fun measurableSet_Ioc
    intro E hE
    exact hinner E
  refine ⟨hint, ?_, hT ▸ hdom⟩
  rw [intervalIntegrable_iff_integrableOn_Ioc_of_le hlt.le]
  have := hprod.integral_prod_right
  refine this.congr (Filter.Eventually.of_forall fun E => ?_)
  exact hinner E

end Naima.Props
