import Verif.Proof.PowerLimit
import Verif.Props.C75_Thomson
import Verif.Props.C83_Fields

/-! # C75, continued: photons and energy of the whole spectrum -/

namespace Naima.Props

open Naima XR Classical Topology MeasureTheory
open Filter (Tendsto atTop)

theorem step_measurable : Measurable step := by
  unfold step
  exact Measurable.ite measurableSet_Iio measurable_const
    (Measurable.ite measurableSet_Ioi measurable_const measurable_const)

theorem monoRate_measurable2 (ε₀ c : ℝ) :
    Measurable (fun z : ℝ × ℝ => monoRate (z.1 / c) ε₀ (z.2 / c)) := by
  have hst := step_measurable
  unfold monoRate Spec.isoMono Spec.kinQ
  refine Measurable.ite ?_ ?_ measurable_const
  · exact measurableSet_lt (by fun_prop) (by fun_prop)
  · refine Measurable.mul (by fun_prop) (Measurable.mul (Measurable.mul (by fun_prop) (hst.comp (by fun_prop))) (hst.comp (by fun_prop)))

theorem monoRate_nonneg (ε₀ γ ε : ℝ) (h0 : 0 < ε₀) (hγ : 0 < γ) (hε : 0 < ε) : 0 ≤ monoRate γ ε₀ ε :=
  (monoRate_spectrum ε₀ ε γ γ h0 hε hγ).nonneg γ ⟨le_rfl, le_rfl⟩

theorem monoRate_bound (ε₀ a b γ ε : ℝ) (h0 : 0 < ε₀) (ha : 0 < a) (haγ : a ≤ γ) (hγ : γ ≤ b) (hε : 0 < ε) :
    monoRate γ ε₀ ε ≤ if ε < b then 3 / 4 * sigmaT * cC / a ^ 2 / ε₀ * (3 + (4 * ε₀ * b) ^ 2) else 0 := by
  have hσ : (0:ℝ) ≤ 3 / 4 * sigmaT * cC := by unfold sigmaT cC; norm_num
  have hb0 : 0 < b := ha.trans_le (haγ.trans hγ)
  unfold monoRate
  by_cases h : ε < γ
  · rw [if_pos h, if_pos (h.trans_le hγ)]
    refine mul_le_mul ?_ (isoMono_step_le γ ε₀ ε b h0 hε h hγ) (isoMono_step_nonneg γ ε₀ ε h0 hε h) (by positivity)
    gcongr
  · rw [if_neg h]
    split
    · positivity
    · exact le_rfl

/-- the spectrum as a multiple of the sum over the grid -/
theorem mono_value (m : ElModel) (pd : PDist) (hu : pd.unit.dim = Dim.diffEnergy)
    (hus : 0 < pd.unit.scale) (hlo : m.Eemin.PosEnergy) (hhi : m.Eemax.PosEnergy)
    (hlt : m.Eemin.phys < m.Eemax.phys) (ε₀ d : ℝ) (h0 : 0 < ε₀) (hd : 0 < d) (θ : Option ℝ)
    (p : ℝ → ℝ) (hp : ∀ E ∈ Set.Icc m.Eemin.phys m.Eemax.phys, pd.f E = fin (p E))
    (hp0 : ∀ E ∈ Set.Icc m.Eemin.phys m.Eemax.phys, 0 ≤ p E) (gam : List ℝ)
    (hg : gamGrid m.nEed m.Eemin m.Eemax = .ok gam) (e : ℝ) (he : 0 < e) :
    icSpectrum m [.array [ε₀] [fin d] θ] pd [e] = .ok [fin (cEV / (cMe * cC ^ 2) *
      binSum rbin ((gam.map (· * cMec2)).map (fun x => (x, p x * pd.unit.scale *
        (d / ε₀ * monoRate (x / (cMe * cC ^ 2)) ε₀ (e / (cMe * cC ^ 2)))))))] := by
  have hm := cMec2_pos
  have hmem := gam_mem m.nEed m.Eemin m.Eemax hlo hhi hlt.le gam hg
  obtain ⟨gam', hg', hgp', hgs'⟩ := gamGrid_facts m.nEed m.Eemin m.Eemax hlo hhi hlt.le
  have e1 : gam' = gam := by rw [hg] at hg'; injection hg' with h; exact h.symm
  subst e1
  obtain ⟨gam2, hg2, -, h⟩ := C71_monochromatic m pd hu hlo hhi hlt.le ε₀ d h0 θ [e] (by simpa using he)
  have e2 : gam2 = gam' := by
    have h1 : m.gam = .ok gam' := hg
    rw [h1] at hg2; injection hg2 with h'; exact h'.symm
  subst e2
  rw [h]
  simp only [List.map_cons, List.map_nil]
  rw [← mul_fin, ← trapz_binSum cMec2 hm gam2 hgp' hgs' (fun x => p x * pd.unit.scale *
    (d / ε₀ * monoRate (x / (cMe * cC ^ 2)) ε₀ (e / (cMe * cC ^ 2))))]
  · congr 4
    apply List.map_congr_left
    intro g hgm
    have e3 : g * cMec2 / (cMe * cC ^ 2) = g := by
      show g * cMec2 / cMec2 = g; field_simp
    rw [e3]
    show (fin g, pd.f (g * cMec2) * fin (pd.unit.scale * cMec2) * _) = _
    rw [hp _ (hmem g hgm), mul_fin, mul_fin]
    congr 2
    ring
  · intro g hgm
    have hgE := hlo.phys_pos.trans_le (hmem g hgm).1
    have := monoRate_nonneg ε₀ _ _ h0 (div_pos hgE hm) (div_pos he hm)
    exact mul_nonneg (mul_nonneg (hp0 _ (hmem g hgm)) hus.le) (by positivity)

/-- a moment of the rate of one electron, in erg -/
theorem mono_moment (w : ℝ → ℝ) (γ ε₀ c : ℝ) (hc : 0 < c) (hγ : 0 < γ) (h0 : 0 < ε₀) :
    ∫ e in Set.Ioi 0, w e * monoRate γ ε₀ (e / c) = c * ∫ ε in Set.Ioo 0 γ, w (c * ε) * (rateOf γ ε₀ ε).toReal := by
  have h1 := integral_comp_mul_left_Ioi (fun ε => w (c * ε) * monoRate γ ε₀ ε) 0 (inv_pos.2 hc)
  rw [mul_zero, inv_inv, smul_eq_mul] at h1
  have h2 : ∫ e in Set.Ioi 0, w e * monoRate γ ε₀ (e / c) =
      ∫ e in Set.Ioi 0, w (c * (c⁻¹ * e)) * monoRate γ ε₀ (c⁻¹ * e) := by
    congr 1
    funext e
    rw [show c * (c⁻¹ * e) = e by field_simp, show e / c = c⁻¹ * e by ring]
  rw [h2, h1]
  congr 1
  rw [setIntegral_eq_of_subset_of_forall_diff_eq_zero measurableSet_Ioi
    (show Set.Ioo 0 γ ⊆ Set.Ioi 0 from fun x hx => hx.1)]
  · apply setIntegral_congr_fun measurableSet_Ioo
    intro ε hε
    simp only
    rw [rateOf_eq γ ε₀ ε hγ h0 hε.1, toReal_fin]
  · rintro ε ⟨h3, h4⟩
    have : ¬ ε < γ := fun h => h4 ⟨h3, h⟩
    unfold monoRate
    rw [if_neg this, mul_zero]

/-- any moment of the spectrum -/
theorem mono_limit (m : ElModel) (pd : PDist) (hu : pd.unit.dim = Dim.diffEnergy)
    (hus : 0 < pd.unit.scale) (hlo : m.Eemin.PosEnergy) (hhi : m.Eemax.PosEnergy)
    (hlt : m.Eemin.phys < m.Eemax.phys) (ε₀ d : ℝ) (h0 : 0 < ε₀) (hd : 0 < d) (θ : Option ℝ)
    (p : ℝ → ℝ) (hp : ∀ E ∈ Set.Icc m.Eemin.phys m.Eemax.phys, pd.f E = fin (p E))
    (hs : Spectrum p m.Eemin.phys m.Eemax.phys) (w : ℝ → ℝ) (hw : Measurable w) (hw0 : ∀ e > 0, 0 ≤ w e)
    (hwm : ∀ e, 0 < e → e < m.Eemax.phys → w e ≤ w m.Eemax.phys) (L : ℝ → ℝ → ℝ)
    (hL : ∀ n, ∀ e > 0, icSpectrum { m with nEed := n } [.array [ε₀] [fin d] θ] pd [e] = .ok [fin (L n e)]) :
      (∀ n, IntegrableOn (fun e => w e * (L n e / cEV)) (Set.Ioi 0)) ∧
      IntervalIntegrable (fun E => p E * pd.unit.scale * (d / ε₀ * ∫ ε in Set.Ioo 0 (E / (cMe * cC ^ 2)),
        w (cMe * cC ^ 2 * ε) * (rateOf (E / (cMe * cC ^ 2)) ε₀ ε).toReal)) volume m.Eemin.phys m.Eemax.phys ∧
      Tendsto (fun n => ∫ e in Set.Ioi 0, w e * (L n e / cEV)) atTop
        (𝓝 (∫ E in m.Eemin.phys..m.Eemax.phys, p E * pd.unit.scale * (d / ε₀ * ∫ ε in Set.Ioo 0 (E / (cMe * cC ^ 2)),
          w (cMe * cC ^ 2 * ε) * (rateOf (E / (cMe * cC ^ 2)) ε₀ ε).toReal))) := by
  have hm : 0 < cMe * cC ^ 2 := cMec2_pos
  have hev := cEV_pos
  set a := m.Eemin.phys with ha
  set b := m.Eemax.phys with hb
  have ha0 : 0 < a := hlo.phys_pos
  have hb0 : 0 < b := ha0.trans hlt
  have hsc : Spectrum (fun _ => pd.unit.scale) a b := Spectrum.of_continuous (fun _ _ => hus.le) continuousOn_const
  have hN : Spectrum (fun E => p E * pd.unit.scale) a b := hs.mul hsc
  have hgrid : ∀ n : ℝ, ∃ gam, gamGrid n m.Eemin m.Eemax = .ok gam := by
    intro n
    obtain ⟨gam, hg, -⟩ := gamGrid_facts n m.Eemin m.Eemax hlo hhi hlt.le
    exact ⟨gam, hg⟩
  choose G hG using hgrid
  have hfine := electron_fine m.Eemin m.Eemax hlo hhi hlt G hG
  set K : ℝ → ℝ → ℝ := fun E e => d / ε₀ * monoRate (E / (cMe * cC ^ 2)) ε₀ (e / (cMe * cC ^ 2)) with hK
  have hdc : Spectrum (fun _ : ℝ => d / ε₀) a b := Spectrum.of_continuous (fun _ _ => by positivity) continuousOn_const
  set A : ℝ := 3 / 4 * sigmaT * cC / (a / (cMe * cC ^ 2)) ^ 2 / ε₀ * (3 + (4 * ε₀ * (b / (cMe * cC ^ 2))) ^ 2) with hA
  have hA0 : 0 ≤ A := by
    have hσ : (0:ℝ) ≤ 3 / 4 * sigmaT * cC := by unfold sigmaT cC; norm_num
    rw [hA]; positivity
  obtain ⟨w1, w2, w3⟩ := weighted_limit hfine ha0 hlt (fun E => p E * pd.unit.scale) hN K
    ((monoRate_measurable2 ε₀ (cMe * cC ^ 2)).const_mul _)
    (fun e he => hdc.mul (Spectrum.comp_div (c := cMe * cC ^ 2) hm
      (monoRate_spectrum ε₀ _ _ _ h0 (div_pos he hm) (div_pos ha0 hm))))
    w (Set.indicator (Set.Iio b) (fun _ => w b * (d / ε₀ * A))) hw hw0
    (by
      rw [integrableOn_indicator_iff measurableSet_Iio]
      rw [show Set.Iio b ∩ Set.Ioi 0 = Set.Ioo 0 b by ext x; simp [and_comm]]
      exact integrableOn_const (by simp))
    (by
      intro E hE e he
      have h1 := monoRate_bound ε₀ (a / (cMe * cC ^ 2)) (b / (cMe * cC ^ 2)) (E / (cMe * cC ^ 2)) (e / (cMe * cC ^ 2)) h0
        (div_pos ha0 hm) (div_le_div_of_nonneg_right hE.1 hm.le) (div_le_div_of_nonneg_right hE.2 hm.le) (div_pos he hm)
      by_cases hlt' : e < b
      · rw [if_pos (div_lt_div_of_pos_right hlt' hm)] at h1
        rw [Set.indicator_of_mem (show e ∈ Set.Iio b from hlt')]
        have h2 := monoRate_nonneg ε₀ (E / (cMe * cC ^ 2)) (e / (cMe * cC ^ 2)) h0 (div_pos (ha0.trans_le hE.1) hm) (div_pos he hm)
        exact mul_le_mul (hwm e he hlt') (mul_le_mul_of_nonneg_left h1 (by positivity)) (by positivity)
          (hw0 b hb0)
      · have : ¬ (e / (cMe * cC ^ 2) < b / (cMe * cC ^ 2)) := by
          rw [div_lt_div_iff_of_pos_right hm]; exact hlt'
        rw [if_neg this] at h1
        have h2 := monoRate_nonneg ε₀ (E / (cMe * cC ^ 2)) (e / (cMe * cC ^ 2)) h0 (div_pos (ha0.trans_le hE.1) hm) (div_pos he hm)
        rw [Set.indicator_of_notMem (show e ∉ Set.Iio b from hlt')]
        simp only [hK]
        rw [le_antisymm h1 h2]; simp)
  have hLe : ∀ n, Set.EqOn (fun e => w e * (L n e / cEV)) (fun e => (cMe * cC ^ 2)⁻¹ *
      (w e * binSum rbin (((G n).map (· * cMec2)).map (fun x => (x, p x * pd.unit.scale * K x e))))) (Set.Ioi 0) := by
    intro n e he
    have h1 := mono_value { m with nEed := n } pd hu hus hlo hhi hlt ε₀ d h0 hd θ p hp hs.nonneg (G n) (hG n) e he
    rw [hL n e he] at h1
    injection h1 with h1
    simp only [List.cons.injEq, fin_inj, and_true] at h1
    simp only [h1]
    have q1 := cC_pos
    have q2 := cMe_pos
    generalize binSum rbin _ = B
    field_simp
  have hin : ∀ E ∈ Set.Icc a b, (cMe * cC ^ 2)⁻¹ * (p E * pd.unit.scale * ∫ e in Set.Ioi 0, w e * K E e) =
      p E * pd.unit.scale * (d / ε₀ * ∫ ε in Set.Ioo 0 (E / (cMe * cC ^ 2)),
          w (cMe * cC ^ 2 * ε) * (rateOf (E / (cMe * cC ^ 2)) ε₀ ε).toReal) := by
    intro E hE
    have h1 : ∫ e in Set.Ioi 0, w e * K E e =
        d / ε₀ * ∫ e in Set.Ioi 0, w e * monoRate (E / (cMe * cC ^ 2)) ε₀ (e / (cMe * cC ^ 2)) := by
      rw [← integral_const_mul]
      congr 1
      funext e
      simp only [hK]; ring
    rw [h1, mono_moment w _ ε₀ _ hm (div_pos (ha0.trans_le hE.1) hm) h0]
    generalize (∫ ε in Set.Ioo 0 (E / (cMe * cC ^ 2)),
          w (cMe * cC ^ 2 * ε) * (rateOf (E / (cMe * cC ^ 2)) ε₀ ε).toReal) = B
    have q1 := cC_pos
    have q2 := cMe_pos
    field_simp
  refine ⟨fun n => (integrableOn_congr_fun (hLe n) measurableSet_Ioi).2 ((w1 n).const_mul _), ?_, ?_⟩
  · refine (w2.const_mul (cMe * cC ^ 2)⁻¹).congr ?_
    intro E hE
    rw [Set.uIoc_of_le hlt.le] at hE
    exact hin E ⟨hE.1.le, hE.2⟩
  · have e1 : (fun n => ∫ e in Set.Ioi 0, w e * (L n e / cEV)) = fun n => (cMe * cC ^ 2)⁻¹ * ∫ e in Set.Ioi 0,
        w e * binSum rbin (((G n).map (· * cMec2)).map (fun x => (x, p x * pd.unit.scale * K x e))) := by
      funext n
      rw [setIntegral_congr_fun measurableSet_Ioi (hLe n), integral_const_mul]
    have e2 := w3.const_mul (cMe * cC ^ 2)⁻¹
    rw [← intervalIntegral.integral_const_mul] at e2
    rw [e1]
    convert e2 using 2
    apply intervalIntegral.integral_congr
    intro E hE
    rw [Set.uIcc_of_le hlt.le] at hE
    exact (hin E hE).symm

/-- the spectrum has a finite value at every photon energy -/
theorem mono_exists (m : ElModel) (pd : PDist) (hu : pd.unit.dim = Dim.diffEnergy)
    (hus : 0 < pd.unit.scale) (hlo : m.Eemin.PosEnergy) (hhi : m.Eemax.PosEnergy)
    (hlt : m.Eemin.phys < m.Eemax.phys) (ε₀ d : ℝ) (h0 : 0 < ε₀) (hd : 0 < d) (θ : Option ℝ)
    (p : ℝ → ℝ) (hp : ∀ E ∈ Set.Icc m.Eemin.phys m.Eemax.phys, pd.f E = fin (p E))
    (hs : Spectrum p m.Eemin.phys m.Eemax.phys) :
    ∃ L : ℝ → ℝ → ℝ, ∀ n, ∀ e > 0,
      icSpectrum { m with nEed := n } [.array [ε₀] [fin d] θ] pd [e] = .ok [fin (L n e)] := by
  have hgrid : ∀ n : ℝ, ∃ gam, gamGrid n m.Eemin m.Eemax = .ok gam := by
    intro n
    obtain ⟨gam, hg, -⟩ := gamGrid_facts n m.Eemin m.Eemax hlo hhi hlt.le
    exact ⟨gam, hg⟩
  choose G hG using hgrid
  exact ⟨fun n e => _, fun n e he => mono_value { m with nEed := n } pd hu hus hlo hhi hlt ε₀ d h0 hd θ p hp hs.nonneg
    (G n) (hG n) e he⟩

/-- **C75 (photons of the whole spectrum).** Monochromatic seed photons of energy `ε₀` (in mc²) and number density `d/ε₀` per
cm³, and any electron spectrum on a range starting at the electron rest energy or above: the computed spectrum is integrable
over all photon energies, and as the electron grid is refined the number of photons radiated per second tends to a value
at most `σ_T c` times the number of electrons times the number density of seed photons, and at least
`(1 - 3/4γ²)/(1 + 4γε₀)²` of it for each electron. The spectrum, in 1/(s eV), is divided by the number of erg in an eV. -/
theorem C75_total_scatterings (m : ElModel) (pd : PDist) (hu : pd.unit.dim = Dim.diffEnergy)
    (hus : 0 < pd.unit.scale) (hlo : m.Eemin.PosEnergy) (hhi : m.Eemax.PosEnergy)
    (hlt : m.Eemin.phys < m.Eemax.phys) (ε₀ d : ℝ) (h0 : 0 < ε₀) (hd : 0 < d) (θ : Option ℝ)
    (p : ℝ → ℝ) (hp : ∀ E ∈ Set.Icc m.Eemin.phys m.Eemax.phys, pd.f E = fin (p E))
    (hs : Spectrum p m.Eemin.phys m.Eemax.phys) (h1 : cMe * cC ^ 2 ≤ m.Eemin.phys) :
    ∃ L : ℝ → ℝ → ℝ, (∀ n, ∀ e > 0, icSpectrum { m with nEed := n } [.array [ε₀] [fin d] θ] pd [e] = .ok [fin (L n e)]) ∧
      (∀ n, IntegrableOn (fun e => L n e / cEV) (Set.Ioi 0)) ∧
      ∃ S, Tendsto (fun n => ∫ e in Set.Ioi 0, L n e / cEV) atTop (𝓝 S) ∧
        ∫ E in m.Eemin.phys..m.Eemax.phys, p E * pd.unit.scale * (d / ε₀ * (sigmaT * cC *
            (1 - 3 / (4 * (E / (cMe * cC ^ 2)) ^ 2)) / (1 + 4 * (E / (cMe * cC ^ 2)) * ε₀) ^ 2)) ≤ S ∧
        S ≤ sigmaT * cC * (d / ε₀) * ∫ E in m.Eemin.phys..m.Eemax.phys, p E * pd.unit.scale := by
  have hm : 0 < cMe * cC ^ 2 := cMec2_pos
  have ha0 := hlo.phys_pos
  obtain ⟨L, hL⟩ := mono_exists m pd hu hus hlo hhi hlt ε₀ d h0 hd θ p hp hs
  obtain ⟨i1, i2, i3⟩ := mono_limit m pd hu hus hlo hhi hlt ε₀ d h0 hd θ p hp hs (fun _ => 1) measurable_const
    (fun _ _ => zero_le_one) (fun _ _ _ => le_rfl) L hL
  have hN : Spectrum (fun E => p E * pd.unit.scale) m.Eemin.phys m.Eemax.phys :=
    hs.mul (Spectrum.of_continuous (fun _ _ => hus.le) continuousOn_const)
  have hγ : ∀ E ∈ Set.Icc m.Eemin.phys m.Eemax.phys, 1 ≤ E / (cMe * cC ^ 2) := fun E hE => by
    rw [le_div_iff₀ hm, one_mul]; exact h1.trans hE.1
  simp only [one_mul] at i1 i2 i3
  refine ⟨L, hL, i1, _, i3, ?_, ?_⟩
  · apply intervalIntegral.integral_mono_on hlt.le _ i2
    · intro E hE
      apply mul_le_mul_of_nonneg_left _ (hN.nonneg E hE)
      exact mul_le_mul_of_nonneg_left (C75_scatterings _ ε₀ (hγ E hE) h0).1 (by positivity)
    · apply (hN.integrable hlt.le).mul_continuousOn
      rw [Set.uIcc_of_le hlt.le]
      refine ContinuousOn.mul continuousOn_const (ContinuousOn.div ?_ (by fun_prop) ?_)
      · refine ContinuousOn.mul continuousOn_const (ContinuousOn.sub continuousOn_const
          (ContinuousOn.div continuousOn_const (by fun_prop) ?_))
        intro E hE
        have := hγ E hE
        positivity
      · intro E hE
        have := hγ E hE
        positivity
  · rw [← intervalIntegral.integral_const_mul]
    apply intervalIntegral.integral_mono_on hlt.le i2 ((hN.integrable hlt.le).const_mul _)
    intro E hE
    have h2 := mul_le_mul_of_nonneg_left (C75_scatterings _ ε₀ (hγ E hE) h0).2 (show 0 ≤ d / ε₀ by positivity)
    have h3 := mul_le_mul_of_nonneg_left h2 (hN.nonneg E hE)
    refine h3.trans (le_of_eq ?_)
    ring

/-- **C75 (power of the whole spectrum).** The same for the energy: with `U = d mc²` the energy density of the seed photons in
erg/cm³, the power radiated tends to at most `4/3 σ_T c U γ²` for each electron, and at least `(1 - 9/16γ⁴)/(1 + 4γε₀)³` of it. -/
theorem C75_total_power (m : ElModel) (pd : PDist) (hu : pd.unit.dim = Dim.diffEnergy)
    (hus : 0 < pd.unit.scale) (hlo : m.Eemin.PosEnergy) (hhi : m.Eemax.PosEnergy)
    (hlt : m.Eemin.phys < m.Eemax.phys) (ε₀ d : ℝ) (h0 : 0 < ε₀) (hd : 0 < d) (θ : Option ℝ)
    (p : ℝ → ℝ) (hp : ∀ E ∈ Set.Icc m.Eemin.phys m.Eemax.phys, pd.f E = fin (p E))
    (hs : Spectrum p m.Eemin.phys m.Eemax.phys) (h1 : cMe * cC ^ 2 ≤ m.Eemin.phys) :
    ∃ L : ℝ → ℝ → ℝ, (∀ n, ∀ e > 0, icSpectrum { m with nEed := n } [.array [ε₀] [fin d] θ] pd [e] = .ok [fin (L n e)]) ∧
      (∀ n, IntegrableOn (fun e => e * (L n e / cEV)) (Set.Ioi 0)) ∧
      ∃ P, Tendsto (fun n => ∫ e in Set.Ioi 0, e * (L n e / cEV)) atTop (𝓝 P) ∧
        ∫ E in m.Eemin.phys..m.Eemax.phys, p E * pd.unit.scale * (4 / 3 * (sigmaT * cC) * (d * (cMe * cC ^ 2)) *
            (E / (cMe * cC ^ 2)) ^ 2 * ((1 - 9 / (16 * (E / (cMe * cC ^ 2)) ^ 4)) / (1 + 4 * (E / (cMe * cC ^ 2)) * ε₀) ^ 3)) ≤ P ∧
        P ≤ ∫ E in m.Eemin.phys..m.Eemax.phys, p E * pd.unit.scale *
            (4 / 3 * (sigmaT * cC) * (d * (cMe * cC ^ 2)) * (E / (cMe * cC ^ 2)) ^ 2) := by
  have hm : 0 < cMe * cC ^ 2 := cMec2_pos
  have ha0 := hlo.phys_pos
  obtain ⟨L, hL⟩ := mono_exists m pd hu hus hlo hhi hlt ε₀ d h0 hd θ p hp hs
  obtain ⟨i1, i2, i3⟩ := mono_limit m pd hu hus hlo hhi hlt ε₀ d h0 hd θ p hp hs (fun e => e) measurable_id
    (fun _ h => le_of_lt h) (fun _ _ h => h.le) L hL
  have hN : Spectrum (fun E => p E * pd.unit.scale) m.Eemin.phys m.Eemax.phys :=
    hs.mul (Spectrum.of_continuous (fun _ _ => hus.le) continuousOn_const)
  have hγ : ∀ E ∈ Set.Icc m.Eemin.phys m.Eemax.phys, 1 ≤ E / (cMe * cC ^ 2) := fun E hE => by
    rw [le_div_iff₀ hm, one_mul]; exact h1.trans hE.1
  have hone : ∀ γ, ∫ ε in Set.Ioo 0 γ, cMe * cC ^ 2 * ε * (rateOf γ ε₀ ε).toReal = cMe * cC ^ 2 * power γ ε₀ := by
    intro γ
    unfold power
    rw [← integral_const_mul]
    congr 1
    funext ε
    ring
  simp only [hone] at i2 i3
  refine ⟨L, hL, i1, _, i3, ?_, ?_⟩
  · apply intervalIntegral.integral_mono_on hlt.le _ i2
    · intro E hE
      apply mul_le_mul_of_nonneg_left _ (hN.nonneg E hE)
      have h2 := mul_le_mul_of_nonneg_left (C75_power _ ε₀ (hγ E hE) h0).1 (show 0 ≤ d / ε₀ * (cMe * cC ^ 2) by positivity)
      rw [← mul_assoc (d / ε₀)]
      refine le_trans (le_of_eq ?_) h2
      generalize E / (cMe * cC ^ 2) = γ
      generalize cMe * cC ^ 2 = c
      field_simp
    · apply (hN.integrable hlt.le).mul_continuousOn
      rw [Set.uIcc_of_le hlt.le]
      refine ContinuousOn.mul (by fun_prop) (ContinuousOn.div ?_ (by fun_prop) ?_)
      · refine ContinuousOn.sub continuousOn_const (ContinuousOn.div continuousOn_const (by fun_prop) ?_)
        intro E hE
        have := hγ E hE
        positivity
      · intro E hE
        have := hγ E hE
        positivity
  · apply intervalIntegral.integral_mono_on hlt.le i2
    · apply (hN.integrable hlt.le).mul_continuousOn
      fun_prop
    · intro E hE
      have h2 := mul_le_mul_of_nonneg_left (C75_power _ ε₀ (hγ E hE) h0).2 (show 0 ≤ d / ε₀ * (cMe * cC ^ 2) by positivity)
      have h3 := mul_le_mul_of_nonneg_left h2 (hN.nonneg E hE)
      rw [← mul_assoc (d / ε₀)]
      refine h3.trans (le_of_eq ?_)
      generalize E / (cMe * cC ^ 2) = γ
      generalize cMe * cC ^ 2 = c
      field_simp

/-! ### The hypotheses are met -/

/-- A power law from 1 GeV to 1 TeV on photons of about 6e-4 eV at 1 eV/cm³: all hypotheses hold, and the bounds are positive. -/
example : ∃ L : ℝ → ℝ → ℝ,
    (∀ n, ∀ e > 0, icSpectrum ⟨⟨1, PhysUnit.GeV⟩, ⟨1, PhysUnit.TeV⟩, n⟩ [.array [1.2e-9] [fin 2e-6] none]
      (PowerLaw.toPDist ⟨fin 1e33, (⟨1, PhysUnit.TeV⟩ : Qty ℝ).lift, fin 3⟩ ⟨1 / cEV, Dim.diffEnergy⟩) [e] = .ok [fin (L n e)]) ∧
    ∃ P, Tendsto (fun n => ∫ e in Set.Ioi 0, e * (L n e / cEV)) atTop (𝓝 P) ∧ 0 < P := by
  have hev := cEV_pos
  have hm : 0 < cMe * cC ^ 2 := cMec2_pos
  have h0 : (⟨1, PhysUnit.TeV⟩ : Qty ℝ).PosEnergy := ⟨rfl, by simp [PhysUnit.TeV]; positivity, by norm_num⟩
  let m : ElModel := ⟨⟨1, PhysUnit.GeV⟩, ⟨1, PhysUnit.TeV⟩, 100⟩
  have hlo : m.Eemin.PosEnergy := ⟨rfl, GeV_pos, by norm_num [m]⟩
  have hlt : m.Eemin.phys < m.Eemax.phys := by simp only [m, Qty.phys, PhysUnit.GeV, PhysUnit.TeV]; norm_num
  have h1 : cMe * cC ^ 2 ≤ m.Eemin.phys := by
    simp only [m, Qty.phys, PhysUnit.GeV, cMe, cC]; norm_num
  have hpos : ∀ E ∈ Set.Icc m.Eemin.phys m.Eemax.phys, 0 < E / (⟨1, PhysUnit.TeV⟩ : Qty ℝ).phys :=
    fun E hE => div_pos (hlo.phys_pos.trans_le hE.1) h0.phys_pos
  have hcont : ContinuousOn (fun E => 1e33 * (E / (⟨1, PhysUnit.TeV⟩ : Qty ℝ).phys) ^ (-(3:ℝ)))
      (Set.Icc m.Eemin.phys m.Eemax.phys) :=
    ContinuousOn.mul continuousOn_const (ContinuousOn.rpow_const (by fun_prop) (fun E hE => Or.inl (hpos E hE).ne'))
  have hsp : Spectrum (fun E => 1e33 * (E / (⟨1, PhysUnit.TeV⟩ : Qty ℝ).phys) ^ (-(3:ℝ))) m.Eemin.phys m.Eemax.phys :=
    Spectrum.of_continuous (fun E hE => by have := hpos E hE; positivity) hcont
  set pd := PowerLaw.toPDist ⟨fin 1e33, (⟨1, PhysUnit.TeV⟩ : Qty ℝ).lift, fin 3⟩ ⟨1 / cEV, Dim.diffEnergy⟩ with hpd
  have hus : 0 < pd.unit.scale := by simp only [hpd, PowerLaw.toPDist]; positivity
  obtain ⟨L, e1, -, P, e3, e4, -⟩ := C75_total_power m pd rfl hus hlo
    ⟨rfl, by simp only [m, PhysUnit.TeV]; norm_num, by norm_num [m]⟩ hlt 1.2e-9 2e-6 (by norm_num) (by norm_num) none _
    (fun E hE => powerLaw_pdist 1e33 3 _ h0 _ E (hlo.phys_pos.trans_le hE.1)) hsp h1
  refine ⟨L, e1, P, e3, lt_of_lt_of_le ?_ e4⟩
  have hγ : ∀ E ∈ Set.Icc m.Eemin.phys m.Eemax.phys, 1 ≤ E / (cMe * cC ^ 2) := fun E hE => by
    rw [le_div_iff₀ hm, one_mul]; exact h1.trans hE.1
  apply intervalIntegral.intervalIntegral_pos_of_pos_on _ _ hlt
  · apply ContinuousOn.intervalIntegrable
    rw [Set.uIcc_of_le hlt.le]
    refine ContinuousOn.mul (hcont.mul continuousOn_const) (ContinuousOn.mul (by fun_prop) (ContinuousOn.div ?_ (by fun_prop) ?_))
    · refine ContinuousOn.sub continuousOn_const (ContinuousOn.div continuousOn_const (by fun_prop) ?_)
      intro E hE
      have := hγ E hE
      positivity
    · intro E hE
      have := hγ E hE
      positivity
  · intro E hE
    have hE' : E ∈ Set.Icc m.Eemin.phys m.Eemax.phys := ⟨hE.1.le, hE.2.le⟩
    have a1 := hpos E hE'
    have a2 := hγ E hE'
    have a3 : (0:ℝ) < sigmaT * cC := by have := cC_pos; unfold sigmaT; positivity
    have a4 : 0 < 1 - 9 / (16 * (E / (cMe * cC ^ 2)) ^ 4) := by
      have : (1:ℝ) ≤ (E / (cMe * cC ^ 2)) ^ 4 := one_le_pow₀ a2
      rw [sub_pos, div_lt_one (by positivity)]
      linarith
    have a5 : 0 < E / (cMe * cC ^ 2) := by linarith
    positivity

end Naima.Props
