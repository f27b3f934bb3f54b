import Verif.Props.C118_KelnerFraction
import Mathlib.MeasureTheory.Measure.Lebesgue.Basic
import Mathlib.MeasureTheory.Integral.IntegralEqImproper

/-! # C118: the power of the photons above the transition energy -/

namespace Naima.Props

open Naima XR Classical MeasureTheory
open scoped ENNReal

/-- eq. 58 written out -/
noncomputable def fExpl (x E : ℝ) : ℝ :=
  let L := Real.log E
  let b := 1 / kBetaInv L
  let k := 1 / kKInv L
  let y := x ^ b
  kB L * (Real.log x / x) * ((1 - y) / (1 + k * y * (1 - y))) ^ (4 : ℝ) *
    (1 / Real.log x - 4 * b * y / (1 - y) - 4 * k * b * y * (1 - 2 * y) / (1 + k * y * (1 - y)))

theorem F_expl (x E : ℝ) (hx : 0 < x) (hx1 : x < 1) : KAB06.F x E = fExpl x E := by
  have h := kFgamma_eq x E hx hx1
  rw [← fin_inj, ← h]
  have hb := kBetaInv_pos (Real.log E)
  have hk := kKInv_pos (Real.log E)
  have hlog : Real.log x < 0 := Real.log_neg hx hx1
  unfold kFgamma fExpl
  simp only []
  rw [div_fin _ _ hb.ne', div_fin _ _ hk.ne', pow_fin _ _ hx, log_fin _ hx]
  have hb0 : 0 < 1 / kBetaInv (Real.log E) := by positivity
  have hk0 : 0 < 1 / kKInv (Real.log E) := by positivity
  have hy0 : 0 < x ^ (1 / kBetaInv (Real.log E)) := by positivity
  have hy1 : x ^ (1 / kBetaInv (Real.log E)) < 1 := Real.rpow_lt_one hx.le hx1 hb0
  generalize x ^ (1 / kBetaInv (Real.log E)) = y at *
  generalize 1 / kBetaInv (Real.log E) = b at *
  generalize 1 / kKInv (Real.log E) = k at *
  have h1y : 0 < 1 - y := by linarith
  have hd : 0 < 1 + k * y * (1 - y) := by positivity
  simp only [mul_fin, sub_fin, add_fin]
  rw [div_fin _ _ hd.ne', pow_fin _ _ (by positivity), div_fin _ _ hx.ne', div_fin _ _ hlog.ne,
    div_fin _ _ h1y.ne', div_fin _ _ hd.ne']
  simp only [mul_fin, sub_fin]

theorem fExpl_measurable : Measurable (fun z : ℝ × ℝ => fExpl z.1 z.2) := by
  have := Real.measurable_log
  unfold fExpl kB kBetaInv kKInv
  simp only []
  fun_prop

theorem σinel_measurable : Measurable KAB06.σinel := by
  have := Real.measurable_log
  unfold KAB06.σinel
  refine Measurable.ite (measurableSet_le measurable_id measurable_const) measurable_const ?_
  simp only []
  refine Measurable.mul (Measurable.mul (by fun_prop) ?_) measurable_const
  exact Measurable.ite (measurableSet_le measurable_id measurable_const) (by fun_prop) measurable_const

theorem σinel_nonneg (E : ℝ) (h : 0 < E) : 0 ≤ KAB06.σinel E := by
  rw [← kSigma_eq E h]
  rcases le_or_gt E 1.22e-3 with h' | h'
  · exact ((kSigma_facts E h).2 h').ge
  · exact ((kSigma_facts E h).1 h').le

/-- substitution in an integral over all energies above `E₀` -/
theorem lintegral_scale (g : ℝ → ℝ≥0∞) (x E0 : ℝ) (hx : 0 < x) (hx1 : x < 1) (hE : 0 < E0) :
    ∫⁻ E in Set.Ioi E0, ENNReal.ofReal (1 / x) * g (E / x) ≤ ∫⁻ E in Set.Ioi E0, g E := by
  have hm : MeasurableEmbedding (fun E : ℝ => x * E) := (Homeomorph.mulLeft₀ x hx.ne').measurableEmbedding
  have hmap := Real.map_volume_mul_left hx.ne'
  have e1 : ∫⁻ E in Set.Ioi E0, ENNReal.ofReal (1 / x) * g (E / x) = ∫⁻ E in Set.Ioi (E0 / x), g E := by
    rw [lintegral_const_mul' _ _ ENNReal.ofReal_ne_top]
    have h2 : ∫⁻ E in Set.Ioi E0, g (E / x) ∂(Measure.map (fun E : ℝ => x * E) volume) =
        ∫⁻ E in (fun E : ℝ => x * E) ⁻¹' Set.Ioi E0, g (x * E / x) := by
      rw [hm.restrict_map, hm.lintegral_map]
    have h3 : (fun E : ℝ => x * E) ⁻¹' Set.Ioi E0 = Set.Ioi (E0 / x) := by
      ext E; simp only [Set.mem_preimage, Set.mem_Ioi, div_lt_iff₀ hx, mul_comm x E]
    rw [hmap, h3, Measure.restrict_smul, lintegral_smul_measure, smul_eq_mul, abs_of_pos (inv_pos.2 hx), ← one_div] at h2
    rw [h2]
    refine lintegral_congr fun E => ?_
    rw [mul_div_cancel_left₀ _ hx.ne']
  rw [e1]
  refine lintegral_mono_set fun E hE' => ?_
  have : E0 ≤ E0 / x := by rw [le_div_iff₀ hx]; nlinarith
  exact lt_of_le_of_lt this hE'

/-- In TeV: the energy of the photons above `E₀` of eq. 72. -/
theorem power_TeV (J : ℝ → ℝ) (hJ : Measurable J) (hJ0 : ∀ E, 0 < E → 0 ≤ J E) (E0 : ℝ) (hE0 : 0.1 ≤ E0) :
    ∫⁻ E in Set.Ioi E0, ENNReal.ofReal (E * ∫ x in Set.Ioo (0:ℝ) 1,
        KAB06.σinel (E / x) * J (E / x) * KAB06.F x (E / x) / x) ≤
      ENNReal.ofReal (1 / 5) * ∫⁻ E in Set.Ioi E0, ENNReal.ofReal (E * (KAB06.σinel E * J E)) := by
  have hE00 : 0 < E0 := by linarith
  set h : ℝ → ℝ := fun E => KAB06.σinel E * J E with hh
  have hhm : Measurable h := σinel_measurable.mul hJ
  have hh0 : ∀ E, 0 < E → 0 ≤ h E := fun E hE => mul_nonneg (σinel_nonneg E hE) (hJ0 E hE)
  have hF0 : ∀ x E, 0 < x → x < 1 → 0 ≤ fExpl x E := by
    intro x E h0 h1
    obtain ⟨r, hr, e⟩ := kFgamma_pos x E h0 h1
    rw [kFgamma_eq x E h0 h1, fin_inj, F_expl x E h0 h1] at e
    rw [e]; exact hr.le
  -- under the integral sign
  have s1 : ∀ E ∈ Set.Ioi E0, ENNReal.ofReal (E * ∫ x in Set.Ioo (0:ℝ) 1,
        KAB06.σinel (E / x) * J (E / x) * KAB06.F x (E / x) / x) ≤
      ∫⁻ x in Set.Ioo (0:ℝ) 1, ENNReal.ofReal (1 / x) * ENNReal.ofReal (x * (E / x) * h (E / x) * fExpl x (E / x)) := by
    intro E hE
    have hE' : 0 < E := hE00.trans hE
    rw [← integral_const_mul]
    refine (Real.ofReal_le_enorm _).trans ((enorm_integral_le_lintegral_enorm _).trans ?_)
    refine setLIntegral_mono' measurableSet_Ioo fun x hx => ?_
    have hx0 := hx.1
    rw [F_expl x _ hx.1 hx.2, ← ENNReal.ofReal_mul (by positivity)]
    have t : E * (KAB06.σinel (E / x) * J (E / x) * fExpl x (E / x) / x) =
        1 / x * (x * (E / x) * h (E / x) * fExpl x (E / x)) := by
      simp only [hh]; field_simp
    have hEx : 0 < E / x := by positivity
    have := hh0 (E / x) hEx
    have := hF0 x (E / x) hx.1 hx.2
    rw [t, Real.enorm_of_nonneg (by positivity)]
  have meas : Measurable (fun z : ℝ × ℝ => ENNReal.ofReal (1 / z.2) *
      ENNReal.ofReal (z.2 * (z.1 / z.2) * h (z.1 / z.2) * fExpl z.2 (z.1 / z.2))) := by
    have m1 : Measurable fun z : ℝ × ℝ => z.1 / z.2 := by fun_prop
    have m2 : Measurable fun z : ℝ × ℝ => fExpl z.2 (z.1 / z.2) := fExpl_measurable.comp (measurable_snd.prodMk m1)
    have m3 : Measurable fun z : ℝ × ℝ => h (z.1 / z.2) := hhm.comp m1
    fun_prop
  refine (setLIntegral_mono' measurableSet_Ioi s1).trans ?_
  rw [lintegral_lintegral_swap meas.aemeasurable]
  -- the substitution
  have s2 : ∀ x ∈ Set.Ioo (0:ℝ) 1, ∫⁻ E in Set.Ioi E0, ENNReal.ofReal (1 / x) *
      ENNReal.ofReal (x * (E / x) * h (E / x) * fExpl x (E / x)) ≤
      ∫⁻ E in Set.Ioi E0, ENNReal.ofReal (x * E * h E * fExpl x E) := fun x hx =>
    lintegral_scale (fun E => ENNReal.ofReal (x * E * h E * fExpl x E)) x E0 hx.1 hx.2 hE00
  refine (setLIntegral_mono' measurableSet_Ioo s2).trans ?_
  have meas2 : Measurable (fun z : ℝ × ℝ => ENNReal.ofReal (z.1 * z.2 * h z.2 * fExpl z.1 z.2)) := by
    have m2 : Measurable fun z : ℝ × ℝ => fExpl z.1 z.2 := fExpl_measurable
    have m3 : Measurable fun z : ℝ × ℝ => h z.2 := hhm.comp measurable_snd
    fun_prop
  rw [lintegral_lintegral_swap meas2.aemeasurable, ← lintegral_const_mul' _ _ ENNReal.ofReal_ne_top]
  refine setLIntegral_mono' measurableSet_Ioi fun E hE => ?_
  have hE' : 0 < E := hE00.trans hE
  have hE1 : 0.1 ≤ E := hE0.trans (le_of_lt hE)
  have hhE := hh0 E hE'
  obtain ⟨i1, i2⟩ := energy_by_parts E
  have hs := share_le _ (log_tenth E hE1)
  rw [← i2, intervalIntegral.integral_of_le zero_le_one, integral_Ioc_eq_integral_Ioo] at hs
  rw [intervalIntegrable_iff_integrableOn_Ioo_of_le zero_le_one] at i1
  have e : ∫⁻ x in Set.Ioo (0:ℝ) 1, ENNReal.ofReal (x * E * h E * fExpl x E) =
      ENNReal.ofReal (E * h E) * ENNReal.ofReal (∫ x in Set.Ioo (0:ℝ) 1, x * KAB06.F x E) := by
    rw [ofReal_integral_eq_lintegral_ofReal i1 ?_, ← lintegral_const_mul' _ _ ENNReal.ofReal_ne_top]
    · refine setLIntegral_congr_fun measurableSet_Ioo fun x hx => ?_
      rw [← ENNReal.ofReal_mul (by positivity), F_expl x E hx.1 hx.2]
      congr 1
      ring
    · filter_upwards [ae_restrict_mem measurableSet_Ioo] with x hx
      rw [F_expl x E hx.1 hx.2]
      exact mul_nonneg hx.1.le (hF0 x E hx.1 hx.2)
  rw [e, mul_comm]
  exact mul_le_mul_left (ENNReal.ofReal_le_ofReal hs) _

/-- **C118 (power).** For every proton distribution with values `p` at all energies, every target density and a
transition energy of 0.1 TeV (the default) or more, the integral of eq. 72 being exact: the spectrum at and above the
transition energy is finite, and the energy flux integrated over all photons above it is at most a fifth of the
energy of the protons above it that collide: density times speed of light times the sum over protons of energy times
inelastic cross section. Energies in erg, `S` in photons per s and eV. -/
theorem C118_power (m : KelnerModel) (pd : PDist) (hu : pd.unit.dim = Dim.diffEnergy) (hus : 0 < pd.unit.scale)
    (hnh : 0 ≤ m.nh.phys) (hEt : 0.1 * PhysUnit.TeV.scale ≤ m.Etrans.phys) (p : ℝ → ℝ) (hpm : Measurable p)
    (hp0 : ∀ E, 0 < E → 0 ≤ p E) (hp : ∀ E, 0 < E → pd.f E = fin (p E))
    (hint : IntegrableOn (fun E => E * (KAB06.σinel (E / PhysUnit.TeV.scale) * (p E * pd.unit.scale)))
      (Set.Ioi m.Etrans.phys)) :
    ∃ S : ℝ → ℝ, (∀ e, m.Etrans.phys ≤ e → 0 ≤ S e ∧ m.spectrum exactQuad pd (.array [e]) = .ok [fin (S e)]) ∧
      ∫ e in Set.Ioi m.Etrans.phys, e * S e / cEV ≤ 1 / 5 * (m.nh.phys * cC *
        ∫ E in Set.Ioi m.Etrans.phys, E * (KAB06.σinel (E / PhysUnit.TeV.scale) * (p E * pd.unit.scale))) := by
  have hev := cEV_pos
  have hc := cC_pos
  have hT := TeV_pos
  have hTe : PhysUnit.TeV.scale = 1e12 * cEV := by unfold PhysUnit.TeV cEV; norm_num
  set T := PhysUnit.TeV.scale with hTdef
  set E0 := m.Etrans.phys with hE0
  have hE00 : 0 < E0 := lt_of_lt_of_le (by positivity) hEt
  set J : ℝ → ℝ := fun E => p (E * T) * (pd.unit.scale * T) with hJ
  have hJm : Measurable J := by
    have : Measurable fun E : ℝ => p (E * T) := hpm.comp (by fun_prop)
    fun_prop
  have hJ0 : ∀ E, 0 < E → 0 ≤ J E := fun E hE => mul_nonneg (hp0 _ (by positivity)) (by positivity)
  set I : ℝ → ℝ := fun E => ∫ x in Set.Ioo (0:ℝ) 1, KAB06.σinel (E / x) * J (E / x) * KAB06.F x (E / x) / x with hI
  have hI0 : ∀ E, 0 < E → 0 ≤ I E := by
    intro E hE
    refine setIntegral_nonneg measurableSet_Ioo fun x hx => ?_
    have hx0 := hx.1
    have h1 := σinel_nonneg (E / x) (by positivity)
    have h2 := hJ0 (E / x) (by positivity)
    obtain ⟨r, hr, e⟩ := kFgamma_pos x (E / x) hx.1 hx.2
    rw [kFgamma_eq x _ hx.1 hx.2, fin_inj] at e
    rw [e]
    positivity
  have hfull : ∀ E, 0 < E → fullSpectrum exactQuad pd E = fin (cC * I E) := by
    intro E hE
    have hv : ∀ x ∈ Set.Ioo (0:ℝ) 1, fin (KAB06.σinel (E / x)) * protonsTeV pd (E / x) * fin (KAB06.F x (E / x)) / fin x =
        fin (KAB06.σinel (E / x) * J (E / x) * KAB06.F x (E / x) / x) := by
      intro x hx
      have hx0 := hx.1
      unfold protonsTeV
      rw [← hTe, hp _ (by positivity), mul_fin, mul_fin, mul_fin, div_fin _ _ hx0.ne']
    unfold fullSpectrum exactQuad
    simp only []
    rw [if_pos (fun x hx => by rw [hv x hx]; trivial), mul_fin]
    congr 2
    refine setIntegral_congr_fun measurableSet_Ioo fun x hx => ?_
    simp only [hv x hx]
    rfl
  refine ⟨fun e => m.nh.phys * (cC * I (e / T) * 1e-12), fun e he => ⟨?_, ?_⟩, ?_⟩
  · have := hI0 (e / T) (div_pos (hE00.trans_le he) hT)
    positivity
  · have h := (C74_spectrum exactQuad exactQuad_interior m pd hu [e] (fun e' h => by
      rw [List.mem_singleton] at h; rw [h]; exact hE00.trans_le he)).1 (fun e' h => by
      rw [List.mem_singleton] at h; rw [h]; exact he)
    rw [h, ← hTe]
    simp only [List.map_cons, List.map_nil]
    rw [hfull _ (div_pos (hE00.trans_le he) hT), mul_fin, mul_fin]
  -- the power
  have hpow := power_TeV J hJm hJ0 (E0 / T) (by rw [le_div_iff₀ hT]; exact hEt)
  set R : ℝ := ∫ E in Set.Ioi E0, E * (KAB06.σinel (E / T) * (p E * pd.unit.scale)) with hR
  have hR0 : 0 ≤ R := by
    refine setIntegral_nonneg measurableSet_Ioi fun E hE => ?_
    have hE' : 0 < E := hE00.trans hE
    have := σinel_nonneg (E / T) (by positivity)
    have := hp0 E hE'
    positivity
  -- the right-hand side in TeV
  have sub : ∀ f : ℝ → ℝ, ∫ E in Set.Ioi (E0 / T), f (E * T) = 1 / T * ∫ E in Set.Ioi E0, f E := by
    intro f
    have := integral_comp_mul_right_Ioi f (E0 / T) hT
    rw [this, div_mul_cancel₀ _ hT.ne', smul_eq_mul, one_div]
  have hJint : IntegrableOn (fun E => E * (KAB06.σinel E * J E)) (Set.Ioi (E0 / T)) := by
    have h := (integrableOn_Ioi_comp_mul_right_iff (fun E => E * (KAB06.σinel (E / T) * (p E * pd.unit.scale))) (E0 / T) hT).2
      (by rwa [div_mul_cancel₀ _ hT.ne'])
    refine h.congr (Filter.Eventually.of_forall fun E => ?_)
    simp only [hJ, mul_div_cancel_right₀ _ hT.ne']
    ring
  have hJe : ∫ E in Set.Ioi (E0 / T), E * (KAB06.σinel E * J E) = 1 / T * R := by
    rw [hR, ← sub]
    refine setIntegral_congr_fun measurableSet_Ioi fun E _ => ?_
    simp only [hJ, mul_div_cancel_right₀ _ hT.ne']
    ring
  rw [← ofReal_integral_eq_lintegral_ofReal hJint (by
    filter_upwards [ae_restrict_mem measurableSet_Ioi] with E hE
    have hE' : 0 < E := (div_pos hE00 hT).trans hE
    exact mul_nonneg hE'.le (mul_nonneg (σinel_nonneg E hE') (hJ0 E hE'))), hJe,
    ← ENNReal.ofReal_mul (by norm_num)] at hpow
  have hle : ∫ E in Set.Ioi (E0 / T), E * I E ≤ 1 / 5 * (1 / T * R) := by
    have h1 := norm_integral_le_lintegral_norm (μ := volume.restrict (Set.Ioi (E0 / T))) (fun E => E * I E)
    have h2 : ∫⁻ E in Set.Ioi (E0 / T), ENNReal.ofReal ‖E * I E‖ ≤ ENNReal.ofReal (1 / 5 * (1 / T * R)) := by
      refine le_trans (le_of_eq ?_) hpow
      refine setLIntegral_congr_fun measurableSet_Ioi fun E hE => ?_
      have hE' : 0 < E := (div_pos hE00 hT).trans hE
      show ENNReal.ofReal ‖E * I E‖ = ENNReal.ofReal (E * I E)
      rw [Real.norm_of_nonneg (mul_nonneg hE'.le (hI0 E hE'))]
    have h3 := ENNReal.toReal_mono ENNReal.ofReal_ne_top h2
    rw [ENNReal.toReal_ofReal (by positivity)] at h3
    exact (Real.le_norm_self _).trans (h1.trans h3)
  have hL : ∫ e in Set.Ioi E0, e * (m.nh.phys * (cC * I (e / T) * 1e-12)) / cEV =
      m.nh.phys * cC * (T * ∫ E in Set.Ioi (E0 / T), E * I E) := by
    have := sub (fun e => e * (m.nh.phys * (cC * I (e / T) * 1e-12)) / cEV)
    rw [one_div, ← div_eq_inv_mul, eq_div_iff hT.ne'] at this
    rw [← this, ← integral_const_mul, ← integral_const_mul, mul_comm, ← integral_const_mul]
    refine setIntegral_congr_fun measurableSet_Ioi fun E _ => ?_
    simp only [mul_div_cancel_right₀ _ hT.ne']
    rw [hTe]
    field_simp
    norm_num
    ring
  rw [hL]
  have := mul_le_mul_of_nonneg_left hle hT.le
  have e : T * (1 / 5 * (1 / T * R)) = 1 / 5 * R := by field_simp
  rw [e] at this
  have := mul_le_mul_of_nonneg_left this (mul_nonneg hnh hc.le)
  linarith

/-! ### Non-vacuity -/

/-- Protons with `E^-2` up to 1 PeV, the default transition energy: the hypotheses of `C118_power` are met, and the energy
of the colliding protons is not zero. -/
example : ∃ (m : KelnerModel) (pd : PDist) (p : ℝ → ℝ), pd.unit.dim = Dim.diffEnergy ∧ 0 < pd.unit.scale ∧ 0 ≤ m.nh.phys ∧
    0.1 * PhysUnit.TeV.scale ≤ m.Etrans.phys ∧ Measurable p ∧ (∀ E, 0 < E → 0 ≤ p E) ∧ (∀ E, 0 < E → pd.f E = fin (p E)) ∧
    (∃ E, m.Etrans.phys < E ∧ 0 < p E) ∧
    IntegrableOn (fun E => E * (KAB06.σinel (E / PhysUnit.TeV.scale) * (p E * pd.unit.scale)))
      (Set.Ioi m.Etrans.phys) := by
  have hT := TeV_pos
  set T := PhysUnit.TeV.scale with hTd
  set p : ℝ → ℝ := fun E => if E ≤ 1000 * T then 1 / E ^ 2 else 0 with hp
  have hE0 : (⟨0.1, PhysUnit.TeV⟩ : Qty ℝ).phys = 0.1 * T := rfl
  refine ⟨⟨⟨1, ⟨1, Dim.numDensity⟩⟩, ⟨0.1, PhysUnit.TeV⟩⟩, ⟨⟨1, Dim.diffEnergy⟩, fun e => fin (p e)⟩, p, rfl, one_pos,
    by simp [Qty.phys], hE0.ge, ?_, ?_, fun E _ => rfl, ⟨T, ?_, ?_⟩, ?_⟩
  · exact Measurable.ite (measurableSet_le measurable_id measurable_const) (by fun_prop) measurable_const
  · intro E hE; simp only [hp]; split_ifs <;> positivity
  · rw [hE0]; linarith
  · simp only [hp]; rw [if_pos (by linarith)]; positivity
  · rw [hE0, ← Set.Ioc_union_Ioi_eq_Ioi (show 0.1 * T ≤ 1000 * T by linarith)]
    refine IntegrableOn.union ?_ ?_
    · have : IntegrableOn (fun E => E * ((34.3 + 1.88 * Real.log (E / T) + 0.25 * Real.log (E / T) ^ 2) * 1e-27 *
          (1 / E ^ 2 * 1))) (Set.Icc (0.1 * T) (1000 * T)) := by
        refine ContinuousOn.integrableOn_Icc ?_
        have h1 : ContinuousOn (fun E => Real.log (E / T)) (Set.Icc (0.1 * T) (1000 * T)) :=
          ContinuousOn.log (by fun_prop) fun E hE => (div_pos (lt_of_lt_of_le (by positivity) hE.1) hT).ne'
        have h2 : ContinuousOn (fun E : ℝ => 1 / E ^ 2) (Set.Icc (0.1 * T) (1000 * T)) :=
          ContinuousOn.div (by fun_prop) (by fun_prop) fun E hE =>
            pow_ne_zero _ (lt_of_lt_of_le (by positivity) hE.1).ne'
        fun_prop
      refine (this.mono_set Set.Ioc_subset_Icc_self).congr_fun (fun E hE => ?_) measurableSet_Ioc
      have hE1 : 0.1 < E / T := by rw [lt_div_iff₀ hT]; exact hE.1
      simp only [hp, if_pos hE.2, KAB06.σinel]
      rw [if_neg (by norm_num at hE1 ⊢; linarith), if_neg (by linarith)]
      ring
    · refine (integrableOn_zero).congr_fun (fun E hE => ?_) measurableSet_Ioi
      have : ¬ E ≤ 1000 * T := not_le.2 hE
      simp only [hp, if_neg this]
      ring

/-- A proton of 50 TeV is in the range of `C118_collision`. -/
example : (0.1 : ℝ) ≤ 50 ∧ (50 : ℝ) ≤ 1e5 := by norm_num

end Naima.Props
