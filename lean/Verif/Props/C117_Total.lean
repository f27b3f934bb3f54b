import Verif.Props.C117_BremsLoss
import Verif.Props.C104_SyncPower

/-! # C117: the power radiated by a population of electrons -/

namespace Naima.Props

open Naima XR Classical Topology MeasureTheory
open Filter (Tendsto atTop)

/-- The documented bremsstrahlung spectrum (photons per second and erg) of electrons `N` (per erg) between `a` and `b` among `n`
ions per cm³: the integral of `C72` and `C93`. -/
noncomputable def bremsIntegral (n wee wep : ℝ) (N : ℝ → ℝ) (a b e : ℝ) : ℝ :=
  n * (cC * ∫ E in a..b, N E * ((wee * baringEe (E / (cMe * cC ^ 2)) (e / (cMe * cC ^ 2)) +
    wep * baringEp (E / (cMe * cC ^ 2)) (e / (cMe * cC ^ 2))) / (cMe * cC ^ 2)))

/-- What the electrons lose per second, in erg. -/
noncomputable def bremsLossRate (n wee wep : ℝ) (N : ℝ → ℝ) (a b : ℝ) : ℝ :=
  n * cC * ∫ E in a..b, N E * ((wee + wep) *
    (cMe * cC ^ 2 * betheHeitler cAlpha (cE ^ 2 / (cMe * cC ^ 2)) (E / (cMe * cC ^ 2))))

theorem baringEp_measurable2 : Measurable (fun z : ℝ × ℝ => baringEp z.1 z.2) := by
  unfold baringEp baring1
  refine Measurable.ite (measurableSet_lt measurable_snd measurable_fst) ?_ measurable_const
  have := Real.measurable_log
  fun_prop

theorem baringEe_measurable2 : Measurable (fun z : ℝ × ℝ => baringEe z.1 z.2) := by
  have := Real.measurable_log
  unfold baringEe baring1 baring2 baringA baringF
  refine Measurable.ite (measurableSet_le measurable_fst measurable_const) ?_ ?_
  · refine Measurable.ite (measurableSet_lt measurable_snd (by fun_prop)) ?_ measurable_const
    simp only
    fun_prop
  · refine Measurable.ite (measurableSet_lt measurable_snd measurable_fst) ?_ measurable_const
    refine Measurable.mul (Measurable.add (by fun_prop) (Measurable.mul (by fun_prop) ?_)) (by fun_prop)
    exact Measurable.ite (measurableSet_le measurable_snd measurable_const) (by fun_prop) (by fun_prop)

/-- A bound of the energy loss. -/
noncomputable def lossBound (γ : ℝ) : ℝ :=
  4 * r02alpha * γ * (4 / 3 * (Real.log (2 * γ) + 3 / 2)) +
    r02alpha / 3 * (8 * Real.log (2 * γ) ^ 2 + 8 * Real.log (2 * γ) + 22)

theorem ep_abs (γ : ℝ) (hγ : γTwoMeV < γ) :
    IntegrableOn (fun ε => ε * baringEp γ ε) (Set.Ioi 0) ∧
      ∫ ε in Set.Ioi 0, |ε * baringEp γ ε| ≤ lossBound γ ∧
      ∫ ε in Set.Ioi 0, ε * baringEp γ ε = betheHeitler cAlpha (cE ^ 2 / (cMe * cC ^ 2)) γ := by
  have h39 := γTwoMeV_gt
  have hγ0 : 0 < γ := by linarith
  have hr := r02alpha_pos
  obtain ⟨h1, h2⟩ := integral_below' (f := fun ε => ε * baringEp γ ε) (g := loss1 γ) hγ0
    (fun ε h => by simp only [baringEp, if_neg (not_lt.2 h.le), mul_zero])
    (fun ε h h' _ => by simp only [baringEp, if_pos h']; exact baring1_shape γ ε h h') (loss1_integrable γ hγ0)
  obtain ⟨-, h3⟩ := integral_below' (f := fun ε => |ε * baringEp γ ε|) (g := fun ε => |loss1 γ ε|) hγ0
    (fun ε h => by simp only [baringEp, if_neg (not_lt.2 h.le), mul_zero, abs_zero])
    (fun ε h h' _ => by simp only [baringEp, if_pos h', baring1_shape γ ε h h', loss1]) (loss1_integrable γ hγ0).abs
  have hx : 0 ≤ Real.log (2 * γ) := Real.log_nonneg (by linarith)
  refine ⟨h1, ?_, by rw [h2, loss1_integral γ hγ0, betheHeitler_eq]⟩
  rw [h3]
  refine (loss1_abs γ (by linarith)).trans ?_
  unfold lossBound
  have : 0 ≤ r02alpha / 3 * (8 * Real.log (2 * γ) ^ 2 + 8 * Real.log (2 * γ) + 22) := by positivity
  linarith

theorem ee_abs (γ : ℝ) (hγ : γTwoMeV < γ) :
    ∫ ε in Set.Ioi 0, |ε * baringEe γ ε| ≤ lossBound γ := by
  have h39 := γTwoMeV_gt
  have hγ0 : 0 < γ := by linarith
  obtain ⟨i2, b2⟩ := baring2_energy γ (by linarith)
  have i1 := loss1_integrable γ hγ0
  have hA := (baringA_continuous γ).continuousOn (s := Set.uIcc 0 γ)
  have ig := (i1.mul_continuousOn hA).add (i2.mul_continuousOn hA)
  obtain ⟨-, h2⟩ := integral_below' (f := fun ε => |ε * baringEe γ ε|)
    (g := fun ε => |loss1 γ ε * baringA γ ε + ε * baring2 γ ε * baringA γ ε|) hγ0
    (fun ε h => by simp only [baringEe, if_neg (not_le.2 hγ), if_neg (not_lt.2 h.le), mul_zero, abs_zero])
    (fun ε h h' _ => by
      simp only [baringEe, if_neg (not_le.2 hγ), if_pos h', loss1, ← baring1_shape γ ε h h']
      ring_nf) ig.abs
  rw [h2]
  have hm : ∫ ε in (0:ℝ)..γ, |loss1 γ ε * baringA γ ε + ε * baring2 γ ε * baringA γ ε| ≤
      ∫ ε in (0:ℝ)..γ, (|loss1 γ ε| + ε * baring2 γ ε) := by
    rw [intervalIntegral.integral_of_le hγ0.le, intervalIntegral.integral_of_le hγ0.le]
    refine integral_mono_ae ((intervalIntegrable_iff_integrableOn_Ioc_of_le hγ0.le).1 ig.abs)
      ((intervalIntegrable_iff_integrableOn_Ioc_of_le hγ0.le).1 (i1.abs.add i2)) ?_
    have n1 : ∀ᵐ ε : ℝ ∂(volume.restrict (Set.Ioc 0 γ)), ε ≠ γ :=
      ae_restrict_of_ae (by simp [ae_iff, measure_singleton])
    have n2 : ∀ᵐ ε : ℝ ∂(volume.restrict (Set.Ioc 0 γ)), ε ≠ 1 / 2 :=
      ae_restrict_of_ae (by simp [ae_iff, measure_singleton])
    filter_upwards [n1, n2, ae_restrict_mem measurableSet_Ioc] with ε h2 h2' h3
    have h4 : ε < γ := lt_of_le_of_ne h3.2 h2
    have p0 := mul_nonneg h3.1.le (baring2_nonneg γ ε (by linarith) h3.1 h4 h2')
    have a0 := baringA_nonneg γ ε (by linarith) h3.1 h4
    have a1 := (baringA_bounds γ ε (by linarith) h3.1 h4).2
    refine (abs_add_le _ _).trans (add_le_add ?_ ?_)
    · rw [abs_mul, abs_of_nonneg a0]
      exact mul_le_of_le_one_right (abs_nonneg _) a1
    · rw [abs_of_nonneg (mul_nonneg p0 a0)]
      exact mul_le_of_le_one_right p0 a1
  refine hm.trans ?_
  rw [intervalIntegral.integral_add i1.abs i2]
  exact add_le_add (loss1_abs γ (by linarith)) b2

theorem betheHeitler_pos (γ : ℝ) (hγ : 2 ≤ γ) : 0 < betheHeitler cAlpha (cE ^ 2 / (cMe * cC ^ 2)) γ := by
  have hr := r02alpha_pos
  have hl : 1 ≤ Real.log (2 * γ) := by
    rw [Real.le_log_iff_exp_le (by linarith)]
    have := Real.exp_one_lt_d9
    linarith
  rw [betheHeitler_eq]
  have : 0 < Real.log (2 * γ) - 1 / 3 := by linarith
  positivity

/-- Energies in erg instead of rest energies. -/
theorem rescale (f : ℝ → ℝ) (m : ℝ) (hm : 0 < m) (hf : IntegrableOn (fun ε => ε * f ε) (Set.Ioi 0)) :
    IntegrableOn (fun e => e * (f (e / m) / m)) (Set.Ioi 0) ∧
      ∫ e in Set.Ioi 0, e * (f (e / m) / m) = m * ∫ ε in Set.Ioi 0, ε * f ε := by
  have e : (fun e => e * (f (e / m) / m)) = fun e => (fun ε => ε * f ε) (m⁻¹ * e) := by
    funext x
    simp only [div_eq_inv_mul]
    ring
  rw [e]
  constructor
  · have := (integrableOn_Ioi_comp_mul_left_iff (fun ε => ε * f ε) 0 (inv_pos.2 hm)).2 (by rwa [mul_zero])
    exact this
  · have := integral_comp_mul_left_Ioi (fun ε => ε * f ε) 0 (inv_pos.2 hm)
    rw [mul_zero, inv_inv, smul_eq_mul] at this
    exact this

/-- **C117 (all electrons).** For every electron spectrum on a range from 1 GeV or above, every density and non-negative weights:
the energy flux of the documented spectrum is integrable over all photon energies, and its integral is the sum of the
energy losses of the electrons on `w_ee + w_ep` charges per ion, within 2 %. -/
theorem C117_documented (n wee wep : ℝ) (hn : 0 ≤ n) (h1 : 0 ≤ wee) (h2 : 0 ≤ wep) (N : ℝ → ℝ) (a b : ℝ)
    (ha : 1e9 * cEV ≤ a) (hab : a < b) (hN : Spectrum N a b) :
    IntegrableOn (fun e => e * bremsIntegral n wee wep N a b e) (Set.Ioi 0) ∧
      |(∫ e in Set.Ioi 0, e * bremsIntegral n wee wep N a b e) - bremsLossRate n wee wep N a b| ≤
        0.02 * bremsLossRate n wee wep N a b := by
  have hm : 0 < cMe * cC ^ 2 := cMec2_pos
  have hc := cC_pos
  set m := cMe * cC ^ 2 with hmdef
  have ha0 : 0 < a := lt_of_lt_of_le (by have := cEV_pos; positivity) ha
  have hγ : ∀ E ∈ Set.Icc a b, γTwoMeV < E / m := by
    intro E hE
    have t1 : γTwoMeV < 4 := by unfold γTwoMeV cEV cMe cC; norm_num
    have t2 : (1900 : ℝ) ≤ 1e9 * cEV / m := by rw [hmdef]; unfold cEV cMe cC; norm_num
    have t3 : 1e9 * cEV / m ≤ E / m := div_le_div_of_nonneg_right (ha.trans hE.1) hm.le
    linarith
  have h39 := γTwoMeV_gt
  set κ : ℝ → ℝ → ℝ := fun γ ε => wee * baringEe γ ε + wep * baringEp γ ε with hκ
  have hκm : Measurable (fun z : ℝ × ℝ => κ z.1 z.2) :=
    (baringEe_measurable2.const_mul wee).add (baringEp_measurable2.const_mul wep)
  -- one electron
  have hone : ∀ E ∈ Set.Icc a b, IntegrableOn (fun ε => ε * κ (E / m) ε) (Set.Ioi 0) ∧
      ∫ ε in Set.Ioi 0, |ε * κ (E / m) ε| ≤ (wee + wep) * lossBound (E / m) ∧
      |(∫ ε in Set.Ioi 0, ε * κ (E / m) ε) - (wee + wep) * betheHeitler cAlpha (cE ^ 2 / (cMe * cC ^ 2)) (E / m)| ≤
        0.02 * ((wee + wep) * betheHeitler cAlpha (cE ^ 2 / (cMe * cC ^ 2)) (E / m)) := by
    intro E hE
    have hg := hγ E hE
    obtain ⟨p1, p2, p3⟩ := ep_abs (E / m) hg
    obtain ⟨q1, -⟩ := ee_loss (E / m) hg
    have q2 := ee_abs (E / m) hg
    have q3 : |(∫ ε in Set.Ioi 0, ε * baringEe (E / m) ε) - betheHeitler cAlpha (cE ^ 2 / (cMe * cC ^ 2)) (E / m)| ≤
        0.02 * betheHeitler cAlpha (cE ^ 2 / (cMe * cC ^ 2)) (E / m) := by
      obtain ⟨σ, s1, -, s3⟩ := C117_electrons (E / m) (by rw [div_mul_cancel₀ _ hm.ne']; exact ha.trans hE.1)
      have : ∫ ε in Set.Ioi 0, ε * σ ε = ∫ ε in Set.Ioi 0, ε * baringEe (E / m) ε := by
        refine setIntegral_congr_ae measurableSet_Ioi ?_
        have n1 : ∀ᵐ ε : ℝ, ε ≠ E / m := by simp [ae_iff, measure_singleton]
        have n2 : ∀ᵐ ε : ℝ, ε ≠ 1 / 2 := by simp [ae_iff, measure_singleton]
        filter_upwards [n1, n2] with ε e1 e2 e3
        have t1 := s1 ε e3 e1 e2
        have t2 := (C72_cross_sections_partial (E / m) ε (by linarith) e3 e1).2 e2
        rw [t1] at t2
        rw [(fin_inj _ _).1 t2]
      rwa [this] at s3
    have ek : (fun ε => ε * κ (E / m) ε) = fun ε => wee * (ε * baringEe (E / m) ε) + wep * (ε * baringEp (E / m) ε) := by
      funext ε; simp only [hκ]; ring
    have i1 := q1.const_mul wee
    have i2 := p1.const_mul wep
    refine ⟨by rw [ek]; exact i1.add i2, ?_, ?_⟩
    · have : ∀ ε, |ε * κ (E / m) ε| ≤ wee * |ε * baringEe (E / m) ε| + wep * |ε * baringEp (E / m) ε| := by
        intro ε
        rw [congrFun ek ε]
        refine (abs_add_le _ _).trans (le_of_eq ?_)
        rw [abs_mul wee, abs_mul wep, abs_of_nonneg h1, abs_of_nonneg h2]
      have ia : IntegrableOn (fun ε => |ε * κ (E / m) ε|) (Set.Ioi 0) := by
        have : IntegrableOn (fun ε => ε * κ (E / m) ε) (Set.Ioi 0) := by rw [ek]; exact i1.add i2
        exact this.abs
      refine (setIntegral_mono ia ((q1.abs.const_mul wee).add (p1.abs.const_mul wep)) this).trans ?_
      have : ∫ ε in Set.Ioi 0, (wee * |ε * baringEe (E / m) ε| + wep * |ε * baringEp (E / m) ε|) =
          wee * (∫ ε in Set.Ioi 0, |ε * baringEe (E / m) ε|) + wep * ∫ ε in Set.Ioi 0, |ε * baringEp (E / m) ε| := by
        rw [integral_add (q1.abs.const_mul wee) (p1.abs.const_mul wep), integral_const_mul, integral_const_mul]
      have t1 := mul_le_mul_of_nonneg_left q2 h1
      have t2 := mul_le_mul_of_nonneg_left p2 h2
      calc _ = _ := this
        _ ≤ _ := by linarith
    · rw [ek, integral_add i1 i2, integral_const_mul, integral_const_mul, p3]
      have hb := betheHeitler_pos (E / m) (by linarith)
      set X := ∫ ε in Set.Ioi 0, ε * baringEe (E / m) ε
      set H := betheHeitler cAlpha (cE ^ 2 / (cMe * cC ^ 2)) (E / m)
      rw [show wee * X + wep * H - (wee + wep) * H = wee * (X - H) by ring, abs_mul, abs_of_nonneg h1]
      have t1 := mul_le_mul_of_nonneg_left q3 h1
      nlinarith [mul_nonneg h2 hb.le]
  -- rescaled
  have hres : ∀ E ∈ Set.Icc a b, IntegrableOn (fun e => e * (κ (E / m) (e / m) / m)) (Set.Ioi 0) ∧
      ∫ e in Set.Ioi 0, e * (κ (E / m) (e / m) / m) = m * ∫ ε in Set.Ioi 0, ε * κ (E / m) ε :=
    fun E hE => rescale (κ (E / m)) m hm (hone E hE).1
  have hlb : Spectrum (fun E => (wee + wep) * (m * lossBound (E / m))) a b := by
    refine Spectrum.of_continuous (fun E hE => ?_) ?_
    · have hr := r02alpha_pos
      have := hγ E hE
      have hx : 0 ≤ Real.log (2 * (E / m)) := Real.log_nonneg (by linarith)
      have : 0 < E / m := by linarith
      unfold lossBound
      positivity
    · have : ContinuousOn (fun E => Real.log (2 * (E / m))) (Set.Icc a b) :=
        ContinuousOn.log (by fun_prop) (fun E hE => by
          have := hγ E hE
          have : 0 < E / m := by linarith
          positivity)
      unfold lossBound
      fun_prop
  have hnorm : ∀ E ∈ Set.Icc a b, ∫ e in Set.Ioi 0, |e * (N E * (κ (E / m) (e / m) / m))| ≤
      N E * ((wee + wep) * (m * lossBound (E / m))) := by
    intro E hE
    have t := (rescale (fun ε => |κ (E / m) ε|) m hm (by
      refine IntegrableOn.congr_fun (s := Set.Ioi 0) (hone E hE).1.abs (fun ε hε => ?_) measurableSet_Ioi
      have : (0:ℝ) < ε := hε
      simp only [abs_mul, abs_of_pos this])).2
    have e1 : ∫ e in Set.Ioi 0, |e * (N E * (κ (E / m) (e / m) / m))| =
        N E * ∫ e in Set.Ioi 0, e * (|κ (E / m) (e / m)| / m) := by
      rw [← integral_const_mul]
      refine setIntegral_congr_fun measurableSet_Ioi fun e he => ?_
      have : (0:ℝ) < e := he
      simp only [abs_mul, abs_div, abs_of_pos this, abs_of_pos hm, abs_of_nonneg (hN.nonneg E hE)]
      ring
    have e2 : ∫ ε in Set.Ioi 0, ε * |κ (E / m) ε| = ∫ ε in Set.Ioi 0, |ε * κ (E / m) ε| := by
      refine setIntegral_congr_fun measurableSet_Ioi fun e he => ?_
      have : (0:ℝ) < e := he
      simp only [abs_mul, abs_of_pos this]
    rw [e1, t, e2]
    refine mul_le_mul_of_nonneg_left ?_ (hN.nonneg E hE)
    have := mul_le_mul_of_nonneg_left (hone E hE).2.1 hm.le
    linarith
  have hmeas : AEStronglyMeasurable (fun z : ℝ × ℝ => z.2 * (N z.1 * (κ (z.1 / m) (z.2 / m) / m)))
      ((volume.restrict (Set.Ioc a b)).prod (volume.restrict (Set.Ioi 0))) := by
    have t1 : AEStronglyMeasurable (fun z : ℝ × ℝ => N z.1)
        ((volume.restrict (Set.Ioc a b)).prod (volume.restrict (Set.Ioi 0))) :=
      (hN.aesm hab.le).aestronglyMeasurable.comp_fst
    have t2 : Measurable (fun z : ℝ × ℝ => κ (z.1 / m) (z.2 / m) / m) :=
      (hκm.comp (by fun_prop : Measurable fun z : ℝ × ℝ => (z.1 / m, z.2 / m))).div_const _
    exact measurable_snd.aestronglyMeasurable.mul (t1.mul t2.aestronglyMeasurable)
  have hprod : Integrable (fun z : ℝ × ℝ => z.2 * (N z.1 * (κ (z.1 / m) (z.2 / m) / m)))
      ((volume.restrict (Set.Ioc a b)).prod (volume.restrict (Set.Ioi 0))) := by
    rw [integrable_prod_iff hmeas]
    constructor
    · filter_upwards [ae_restrict_mem measurableSet_Ioc] with E hE
      refine ((hres E ⟨hE.1.le, hE.2⟩).1.const_mul (N E)).congr (Filter.Eventually.of_forall fun e => ?_)
      simp only; ring
    · refine Integrable.mono' ((hN.mul hlb).aesm hab.le) hmeas.norm.integral_prod_right' ?_
      filter_upwards [ae_restrict_mem measurableSet_Ioc] with E hE
      rw [Real.norm_of_nonneg (integral_nonneg fun _ => norm_nonneg _)]
      exact hnorm E ⟨hE.1.le, hE.2⟩
  have hb : ∀ e, e * bremsIntegral n wee wep N a b e =
      n * cC * ∫ E in Set.Ioc a b, e * (N E * (κ (E / m) (e / m) / m)) := by
    intro e
    unfold bremsIntegral
    rw [intervalIntegral.integral_of_le hab.le, integral_const_mul]
    ring
  have hswap := integral_integral_swap (f := fun E e => e * (N E * (κ (E / m) (e / m) / m))) hprod
  have hL : ∀ E ∈ Set.Icc a b, ∫ e in Set.Ioi 0, e * (N E * (κ (E / m) (e / m) / m)) =
      N E * (m * ∫ ε in Set.Ioi 0, ε * κ (E / m) ε) := by
    intro E hE
    rw [← (hres E hE).2, ← integral_const_mul]
    refine setIntegral_congr_fun measurableSet_Ioi fun e he => ?_
    ring
  simp only [hb]
  refine ⟨(hprod.integral_prod_right).const_mul _, ?_⟩
  rw [integral_const_mul, ← hswap]
  have hint : IntegrableOn (fun E => N E * (m * ∫ ε in Set.Ioi 0, ε * κ (E / m) ε)) (Set.Ioc a b) := by
    have := hprod.integral_prod_left
    exact IntegrableOn.congr_fun (s := Set.Ioc a b) this (fun E hE => hL E ⟨hE.1.le, hE.2⟩) measurableSet_Ioc
  rw [setIntegral_congr_fun measurableSet_Ioc (fun E hE => hL E ⟨hE.1.le, hE.2⟩)]
  have hbs : Spectrum (fun E => (wee + wep) * (m * betheHeitler cAlpha (cE ^ 2 / (cMe * cC ^ 2)) (E / m))) a b := by
    refine Spectrum.of_continuous (fun E hE => ?_) ?_
    · have := hγ E hE
      have := betheHeitler_pos (E / m) (by linarith)
      positivity
    · have : ContinuousOn (fun E => Real.log (2 * (E / m))) (Set.Icc a b) :=
        ContinuousOn.log (by fun_prop) (fun E hE => by
          have := hγ E hE
          have : 0 < E / m := by linarith
          positivity)
      unfold betheHeitler
      fun_prop
  have hbi := (hN.mul hbs).aesm hab.le
  unfold bremsLossRate
  rw [intervalIntegral.integral_of_le hab.le, ← mul_sub, abs_mul, abs_of_nonneg (mul_nonneg hn hc.le),
    mul_left_comm]
  refine mul_le_mul_of_nonneg_left ?_ (mul_nonneg hn hc.le)
  have hsub := integral_sub hint hbi
  rw [← hsub]
  refine (abs_integral_le_integral_abs).trans ?_
  rw [← integral_const_mul]
  refine setIntegral_mono_on (hint.sub hbi).abs (hbi.const_mul _) measurableSet_Ioc fun E hE => ?_
  have hE' : E ∈ Set.Icc a b := ⟨hE.1.le, hE.2⟩
  have h3 := (hone E hE').2.2
  have hN0 := hN.nonneg E hE'
  set X := ∫ ε in Set.Ioi 0, ε * κ (E / m) ε
  set H := betheHeitler cAlpha (cE ^ 2 / (cMe * cC ^ 2)) (E / m)
  rw [show N E * (m * X) - N E * ((wee + wep) * (m * H)) = N E * m * (X - (wee + wep) * H) by ring, abs_mul,
    abs_of_nonneg (mul_nonneg hN0 hm.le)]
  have := mul_le_mul_of_nonneg_left h3 (mul_nonneg hN0 hm.le)
  refine this.trans (le_of_eq ?_)
  ring


/-! ### Non-vacuity -/

/-- A 5 GeV electron. -/
example : (0 : ℝ) < 1e4 ∧ 1e9 * cEV ≤ 1e4 * (cMe * cC ^ 2) := by
  unfold cEV cMe cC; norm_num

/-- A power law of index 2 from 1 GeV to 100 TeV, in a medium of 10 ions per cm³ with the default weights of `C17`. -/
example : (0 : ℝ) ≤ 10 ∧ (0 : ℝ) ≤ 1.088 ∧ (0 : ℝ) ≤ 1.263 ∧ 1e9 * cEV ≤ 1e9 * cEV ∧ 1e9 * cEV < 1e14 * cEV ∧
    Spectrum (fun E => 1e40 / E ^ 2) (1e9 * cEV) (1e14 * cEV) := by
  have := cEV_pos
  refine ⟨by norm_num, by norm_num, by norm_num, le_rfl, mul_lt_mul_of_pos_right (by norm_num) this, ?_⟩
  refine Spectrum.of_continuous (fun E _ => by positivity) ?_
  refine ContinuousOn.div (by fun_prop) (by fun_prop) fun E hE => ?_
  have : 0 < E := lt_of_lt_of_le (by positivity) hE.1
  positivity

/-- The loss of these electrons is not zero. -/
example (γ : ℝ) (hγ : 2 ≤ γ) : 0 < betheHeitler cAlpha (cE ^ 2 / (cMe * cC ^ 2)) γ := betheHeitler_pos γ hγ

end Naima.Props
