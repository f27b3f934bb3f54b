import Verif.Proof.SyncQuad
import Verif.Props.C84_C85_Order
import Mathlib.Analysis.SpecialFunctions.Gaussian.GaussianIntegral
import Mathlib.MeasureTheory.Integral.Prod
import Mathlib.MeasureTheory.Integral.DominatedConvergence

/-! # C104: the total synchrotron power is the classical loss rate -/

namespace Naima.Props

open Naima XR Classical Topology MeasureTheory
open Filter (Tendsto atTop)

/-! ### Specification -/

/-- Thomson cross section `8π/3 (e²/mc²)²` (cgs). -/
noncomputable def thomsonCgs (q m c : ℝ) : ℝ := 8 * Real.pi / 3 * (q ^ 2 / (m * c ^ 2)) ^ 2

/-- Energy per unit time lost by an electron of Lorentz factor `γ` to synchrotron radiation in a field `B`,
averaged over directions: `4/3 σ_T c U_B (γ² - 1)` with `U_B = B²/8π` (e.g. Rybicki & Lightman, eq. 6.7b; `γ²β² = γ² - 1`). -/
noncomputable def lossRate (q m c B γ : ℝ) : ℝ :=
  4 / 3 * thomsonCgs q m c * c * (B ^ 2 / (8 * Real.pi)) * (γ ^ 2 - 1)

/-! ### One electron -/

theorem power_one (B γ : ℝ) (hB : 0 < B) (hγ : 0 < γ) :
    IntegrableOn (fun e => e * syncEmission cE cMe cC cHbar B γ e) (Set.Ioi 0) ∧
    ∫ e in Set.Ioi 0, e * syncEmission cE cMe cC cHbar B γ e =
      27 * Real.sqrt 3 / (16 * Real.pi) * (∫ x in Set.Ioi 0, gAKP x) *
        (4 / 3 * thomsonCgs cE cMe cC * cC * (B ^ 2 / (8 * Real.pi)) * γ ^ 2) := by
  have h1 := cE_pos; have h2 := cMe_pos; have h3 := cC_pos; have h4 := cHbar_pos
  have hk := critEnergy_pos B γ hB hγ
  set k := critEnergy cE cMe cC cHbar B γ with hkdef
  have hpi := Real.pi_pos
  have hpt : Set.EqOn (fun e => e * syncEmission cE cMe cC cHbar B γ e)
      (fun e => Real.sqrt 3 / (2 * Real.pi) * (cE ^ 3 * B) / (cMe * cC ^ 2 * cHbar) * gAKP (k⁻¹ * e)) (Set.Ioi 0) := by
    intro e he
    have he : (0:ℝ) < e := he
    simp only [syncEmission]
    rw [← hkdef, show e / k = k⁻¹ * e by field_simp]
    field_simp
  have hint : IntegrableOn (fun e => gAKP (k⁻¹ * e)) (Set.Ioi 0) := by
    have := (integrableOn_Ioi_comp_mul_left_iff gAKP 0 (inv_pos.2 hk)).2 (by rw [mul_zero]; exact gAKP_integrable)
    exact this
  refine ⟨(integrableOn_congr_fun hpt measurableSet_Ioi).2 (hint.const_mul _), ?_⟩
  rw [setIntegral_congr_fun measurableSet_Ioi hpt, integral_const_mul,
    integral_comp_mul_left_Ioi gAKP 0 (inv_pos.2 hk), mul_zero, inv_inv, smul_eq_mul, hkdef]
  unfold critEnergy thomsonCgs
  have hs : Real.sqrt 3 ≠ 0 := (Real.sqrt_pos.2 (by norm_num)).ne'
  field_simp
  ring

theorem power_const : 0.992 ≤ 27 * Real.sqrt 3 / (16 * Real.pi) * (∫ x in Set.Ioi 0, gAKP x) ∧
    27 * Real.sqrt 3 / (16 * Real.pi) * (∫ x in Set.Ioi 0, gAKP x) ≤ 1.005 := by
  obtain ⟨h1, h2⟩ := gAKP_integral
  have s1 : 1.73205 ≤ Real.sqrt 3 := by apply Real.le_sqrt_of_sq_le; norm_num
  have s2 : Real.sqrt 3 ≤ 1.73206 := by rw [Real.sqrt_le_left (by norm_num)]; norm_num
  have p1 := Real.pi_gt_d4
  have p2 := Real.pi_lt_d4
  have hpi := Real.pi_pos
  rw [div_mul_eq_mul_div, le_div_iff₀ (by positivity), div_le_iff₀ (by positivity)]
  constructor
  · have : (1.73205:ℝ) * 1.067 ≤ Real.sqrt 3 * ∫ x in Set.Ioi 0, gAKP x := mul_le_mul s1 h1 (by norm_num) (by positivity)
    nlinarith
  · have : (Real.sqrt 3 * ∫ x in Set.Ioi 0, gAKP x) ≤ 1.73206 * 1.0792 := mul_le_mul s2 h2 (by linarith) (by norm_num)
    nlinarith

theorem lossRate_pos (B γ : ℝ) (hB : 0 < B) (hγ : 1 < γ) : 0 < lossRate cE cMe cC B γ := by
  have := cE_pos; have := cMe_pos; have := cC_pos; have := Real.pi_pos
  have : 0 < γ ^ 2 - 1 := by nlinarith
  unfold lossRate thomsonCgs
  positivity

/-- **C104 (one electron).** The energy radiated per unit time by one electron of Lorentz factor at least 30 in a
field `B`, integrated over all photon energies, is the classical loss rate within 1 %. -/
theorem C104_one_electron (B γ : ℝ) (hB : 0 < B) (hγ : 30 ≤ γ) :
    |(∫ e in Set.Ioi 0, e * syncEmission cE cMe cC cHbar B γ e) - lossRate cE cMe cC B γ| ≤
      0.01 * lossRate cE cMe cC B γ := by
  rw [(power_one B γ hB (by linarith)).2]
  have hl := lossRate_pos B γ hB (by linarith)
  obtain ⟨k1, k2⟩ := power_const
  set K := 27 * Real.sqrt 3 / (16 * Real.pi) * (∫ x in Set.Ioi 0, gAKP x) with hK
  have e : 4 / 3 * thomsonCgs cE cMe cC * cC * (B ^ 2 / (8 * Real.pi)) * γ ^ 2 =
      lossRate cE cMe cC B γ * (γ ^ 2 / (γ ^ 2 - 1)) := by
    have : γ ^ 2 - 1 ≠ 0 := by nlinarith
    unfold lossRate
    field_simp
  have hg : 0 < γ ^ 2 - 1 := by nlinarith
  have r1 : 1 ≤ γ ^ 2 / (γ ^ 2 - 1) := by rw [le_div_iff₀ hg]; linarith
  have r2 : γ ^ 2 / (γ ^ 2 - 1) ≤ 1.002 := by rw [div_le_iff₀ hg]; nlinarith
  rw [e, abs_le]
  generalize γ ^ 2 / (γ ^ 2 - 1) = r at *
  generalize lossRate cE cMe cC B γ = P at *
  have a1 : 0.992 * P ≤ K * (P * r) := by
    calc _ = 0.992 * (P * 1) := by ring
      _ ≤ _ := mul_le_mul k1 (mul_le_mul_of_nonneg_left r1 hl.le) (by positivity) (by linarith)
  have a2 : K * (P * r) ≤ 1.005 * (P * 1.002) :=
    mul_le_mul k2 (mul_le_mul_of_nonneg_left r2 hl.le) (by positivity) (by norm_num)
  constructor <;> nlinarith

/-! ### The spectrum -/

theorem rbin_measurable (x1 x2 : ℝ) {f g : ℝ → ℝ} (hf : Measurable f) (hg : Measurable g) :
    Measurable (fun e => rbin x1 x2 (f e) (g e)) := by
  unfold rbin realBin
  refine Measurable.ite ?_ measurable_const (Measurable.ite ?_ ?_ ?_)
  · have h1 : MeasurableSet {a | f a = 0} := hf (measurableSet_singleton 0)
    have h2 : MeasurableSet {a | g a = 0} := hg (measurableSet_singleton 0)
    exact h1.union (h2.union (MeasurableSet.const _))
  · unfold Real.logb
    exact measurableSet_lt measurable_const (by fun_prop)
  · unfold Real.logb
    fun_prop
  · fun_prop

theorem binSum_measurable (l : List ℝ) (Y : ℝ → ℝ → ℝ) (hY : ∀ x, Measurable (Y x)) :
    Measurable (fun e => binSum rbin (l.map (fun x => (x, Y x e)))) := by
  induction l with
  | nil => simp only [List.map_nil, binSum]; exact measurable_const
  | cons a l ih =>
    cases l with
    | nil => simp only [List.map_cons, List.map_nil, binSum]; exact measurable_const
    | cons b l =>
      simp only [List.map_cons, binSum] at ih ⊢
      exact (rbin_measurable a b (hY a) (hY b)).add ih

theorem sync_value (m : SyncModel) (pd : PDist) (hu : pd.unit.dim = Dim.diffEnergy)
    (hus : 0 < pd.unit.scale) (hlo : m.Eemin.PosEnergy) (hhi : m.Eemax.PosEnergy)
    (hle : m.Eemin.phys ≤ m.Eemax.phys) (hB : m.B.unit.dim = Dim.magFluxDensity) (hBp : 0 < m.B.phys)
    (p : ℝ → ℝ) (hp : ∀ E ∈ Set.Icc m.Eemin.phys m.Eemax.phys, pd.f E = fin (p E))
    (h0 : ∀ E ∈ Set.Icc m.Eemin.phys m.Eemax.phys, 0 ≤ p E) :
    ∃ l : List ℝ, ∀ e > 0, m.spectrum pd [e] = .ok [fin (binSum rbin (l.map (fun x => (x, p x * pd.unit.scale *
      syncEmission cE cMe cC cHbar (m.B.phys / 0.1) (x / (cMe * cC ^ 2)) e))) * cEV)] := by
  have hm := cMec2_pos
  obtain ⟨gam, hg, hgp, hgs⟩ := gamGrid_facts m.nEed m.Eemin m.Eemax hlo hhi hle
  have hmem := gam_mem m.nEed m.Eemin m.Eemax hlo hhi hle gam hg
  refine ⟨gam.map (· * cMec2), fun e he => ?_⟩
  obtain ⟨gam', hg', -, h⟩ := C70_documented m pd hu hlo hhi hle hB hBp [e] (by simpa using he)
  have : gam' = gam := by
    have h1 : m.toElModel.gam = .ok gam := hg
    rw [h1] at hg'; injection hg' with h'; exact h'.symm
  subst this
  rw [h]
  simp only [List.map_cons, List.map_nil]
  rw [← mul_fin _ cEV, ← trapz_binSum cMec2 hm gam' hgp hgs (fun x => p x * pd.unit.scale *
      syncEmission cE cMe cC cHbar (m.B.phys / 0.1) (x / (cMe * cC ^ 2)) e)]
  · congr 4
    apply List.map_congr_left
    intro g hgm
    have e2 : g * cMec2 / (cMe * cC ^ 2) = g := by
      show g * cMec2 / cMec2 = g; field_simp
    rw [e2]
    show (fin g, pd.f (g * cMec2) * fin (pd.unit.scale * cMec2) * _) = _
    rw [hp _ (hmem g hgm), mul_fin, mul_fin]
    congr 2
    ring
  · intro g hgm
    exact mul_nonneg (mul_nonneg (h0 _ (hmem g hgm)) hus.le)
      ((sync_kernel_spectrum m.Eemin.phys m.Eemax.phys (m.B.phys / 0.1) e hlo.phys_pos (by positivity)
        he).nonneg _ (hmem g hgm))

theorem syncEmission_measurable2 (B c : ℝ) :
    Measurable (fun z : ℝ × ℝ => syncEmission cE cMe cC cHbar B (z.2 / c) z.1) := by
  unfold syncEmission critEnergy
  exact Measurable.mul (by fun_prop) (gAKP_measurable.comp (by fun_prop))

theorem Spectrum.aesm {f : ℝ → ℝ} {a b : ℝ} (hab : a ≤ b) (h : Spectrum f a b) :
    IntegrableOn f (Set.Ioc a b) :=
  (intervalIntegrable_iff_integrableOn_Ioc_of_le hab).1 (h.integrable hab)

/-- **C104 (total power).** For every electron spectrum on a range starting at 30 electron rest energies or above,
and every field: the energy flux `E dN/dE` of the computed synchrotron spectrum is integrable over all photon energies,
and as the electron grid is refined its integral tends to a value within 1 % of the sum of the classical loss rates of the electrons.
Energies in erg; the spectrum in 1/(s eV), divided by the number of erg in an eV, in 1/(s erg). -/
theorem C104_total_power (m : SyncModel) (pd : PDist) (hu : pd.unit.dim = Dim.diffEnergy)
    (hus : 0 < pd.unit.scale) (hlo : m.Eemin.PosEnergy) (hhi : m.Eemax.PosEnergy)
    (hlt : m.Eemin.phys < m.Eemax.phys) (hB : m.B.unit.dim = Dim.magFluxDensity) (hBp : 0 < m.B.phys)
    (p : ℝ → ℝ) (hp : ∀ E ∈ Set.Icc m.Eemin.phys m.Eemax.phys, pd.f E = fin (p E))
    (hs : Spectrum p m.Eemin.phys m.Eemax.phys) (h30 : 30 * (cMe * cC ^ 2) ≤ m.Eemin.phys) :
    ∃ L : ℝ → ℝ → ℝ, (∀ n, ∀ e > 0, ({ m with nEed := n } : SyncModel).spectrum pd [e] = .ok [fin (L n e)]) ∧
      (∀ n, IntegrableOn (fun e => e * (L n e / cEV)) (Set.Ioi 0)) ∧
      ∃ T, Tendsto (fun n => ∫ e in Set.Ioi 0, e * (L n e / cEV)) atTop (𝓝 T) ∧
        |T - ∫ E in m.Eemin.phys..m.Eemax.phys,
            p E * pd.unit.scale * lossRate cE cMe cC (m.B.phys / 0.1) (E / (cMe * cC ^ 2))| ≤
          0.01 * ∫ E in m.Eemin.phys..m.Eemax.phys,
            p E * pd.unit.scale * lossRate cE cMe cC (m.B.phys / 0.1) (E / (cMe * cC ^ 2)) := by
  have hm : 0 < cMe * cC ^ 2 := cMec2_pos
  have hev := cEV_pos
  set B := m.B.phys / 0.1 with hBdef
  have hB0 : 0 < B := by rw [hBdef]; positivity
  set a := m.Eemin.phys with ha
  set b := m.Eemax.phys with hb
  have ha0 : 0 < a := hlo.phys_pos
  have hsc : Spectrum (fun _ => pd.unit.scale) a b := Spectrum.of_continuous (fun _ _ => hus.le) continuousOn_const
  -- the values
  have hval : ∀ n : ℝ, ∃ l : List ℝ, ∀ e > 0, ({ m with nEed := n } : SyncModel).spectrum pd [e] = .ok [fin (binSum rbin
      (l.map (fun x => (x, p x * pd.unit.scale * syncEmission cE cMe cC cHbar B (x / (cMe * cC ^ 2)) e))) * cEV)] :=
    fun n => sync_value { m with nEed := n } pd hu hus hlo hhi hlt.le hB hBp p hp hs.nonneg
  choose l hl using hval
  set L : ℝ → ℝ → ℝ := fun n e => binSum rbin ((l n).map (fun x => (x, p x * pd.unit.scale *
    syncEmission cE cMe cC cHbar B (x / (cMe * cC ^ 2)) e))) * cEV with hL
  have hLm : ∀ n, Measurable (L n) := fun n =>
    (binSum_measurable (l n) (fun x e => p x * pd.unit.scale * syncEmission cE cMe cC cHbar B (x / (cMe * cC ^ 2)) e)
      (fun x => ((syncEmission_measurable2 B (cMe * cC ^ 2)).comp (by fun_prop : Measurable fun e : ℝ => (e, x))).const_mul _)).mul_const _
  -- the bound
  obtain ⟨A, A0, -, hA, hAb⟩ := C103_slope_and_cutoff m pd hu hus hlo hhi hlt hB hBp p hp hs
  set k := critEnergy cE cMe cC cHbar B (b / (cMe * cC ^ 2)) with hk
  have hk0 : 0 < k := critEnergy_pos B _ hB0 (div_pos (ha0.trans hlt) hm)
  have hr0 : 0 < (b / a) ^ (2e-10 : ℝ) := Real.rpow_pos_of_pos (div_pos (ha0.trans hlt) ha0) _
  have hLb : ∀ n, ∀ e > 0, 0 ≤ L n e ∧ L n e ≤ (b / a) ^ (2e-10 : ℝ) * (A n * (e ^ (-(2:ℝ) / 3) * Real.exp (-(e / k)))) := by
    intro n e he
    obtain ⟨S, h1, h2, h3⟩ := hAb n e he
    rw [hl n e he] at h1
    injection h1 with h1
    simp only [List.cons.injEq, fin_inj, and_true] at h1
    have h1 : L n e = S := h1
    rw [h1]
    refine ⟨?_, h3⟩
    have : 0 ≤ (b / a) ^ (2e-10 : ℝ) * S := le_trans (mul_nonneg (A0 n) (by positivity)) h2
    exact nonneg_of_mul_nonneg_right this hr0
  have hbi : ∀ C : ℝ, IntegrableOn (fun e : ℝ => C * (e ^ ((1:ℝ) / 3) * Real.exp (-(1 / k) * e ^ (1:ℝ)))) (Set.Ioi 0) := fun C =>
    (integrableOn_rpow_mul_exp_neg_mul_rpow (by norm_num) one_pos (by positivity)).const_mul C
  have hle : ∀ n, ∀ e ∈ Set.Ioi (0:ℝ), ‖e * (L n e / cEV)‖ ≤
      ((b / a) ^ (2e-10 : ℝ) * A n / cEV) * (e ^ ((1:ℝ) / 3) * Real.exp (-(1 / k) * e ^ (1:ℝ))) := by
    intro n e he
    have he : (0:ℝ) < e := he
    obtain ⟨h1, h2⟩ := hLb n e he
    rw [Real.norm_of_nonneg (by positivity)]
    have e3 : e ^ ((1:ℝ) / 3) = e * e ^ (-(2:ℝ) / 3) := by
      nth_rewrite 2 [← Real.rpow_one e]
      rw [← Real.rpow_add he]; norm_num
    rw [e3, Real.rpow_one, show -(1 / k) * e = -(e / k) by ring]
    calc _ ≤ e * ((b / a) ^ (2e-10 : ℝ) * (A n * (e ^ (-(2:ℝ) / 3) * Real.exp (-(e / k)))) / cEV) := by gcongr
      _ = _ := by ring
  have hmeas : ∀ n, AEStronglyMeasurable (fun e => e * (L n e / cEV)) (volume.restrict (Set.Ioi 0)) := fun n =>
    (measurable_id.mul ((hLm n).div_const _)).aestronglyMeasurable
  refine ⟨L, fun n e he => hl n e he, fun n => ?_, ?_⟩
  · apply Integrable.mono' (hbi _) (hmeas n)
    filter_upwards [ae_restrict_mem measurableSet_Ioi] with e he
    exact hle n e he
  -- the limit at each energy
  set F : ℝ → ℝ := fun e => ∫ E in a..b, p E * pd.unit.scale * syncEmission cE cMe cC cHbar B (E / (cMe * cC ^ 2)) e with hF
  have hlim : ∀ e > 0, Tendsto (fun n => L n e) atTop (𝓝 (F e * cEV)) := by
    intro e he
    obtain ⟨L', h1, h2⟩ := C83_synchrotron m pd hu hus hlo hhi hlt hB hBp p hp hs [e] (by simpa using he)
    have h2 := h2 e (by simp)
    have : (fun n => L' n e) = fun n => L n e := by
      funext n
      have := h1 n
      rw [hl n e he] at this
      injection this with this
      simp only [List.map_cons, List.map_nil, List.cons.injEq, fin_inj, and_true] at this
      exact this.symm
    rw [this] at h2
    exact h2
  -- dominated convergence
  have hdom : Tendsto (fun n => ∫ e in Set.Ioi 0, e * (L n e / cEV)) atTop (𝓝 (∫ e in Set.Ioi 0, e * F e)) := by
    set M := (∫ E in a..b, p E * pd.unit.scale * lowCoefficient B (E / (cMe * cC ^ 2))) * cEV with hM
    apply tendsto_integral_filter_of_dominated_convergence
      (fun e => ((b / a) ^ (2e-10 : ℝ) * (M + 1) / cEV) * (e ^ ((1:ℝ) / 3) * Real.exp (-(1 / k) * e ^ (1:ℝ))))
    · exact Filter.Eventually.of_forall hmeas
    · filter_upwards [hA.eventually_lt_const (lt_add_one M)] with n hn
      filter_upwards [ae_restrict_mem measurableSet_Ioi] with e he
      refine (hle n e he).trans ?_
      have he : (0:ℝ) < e := he
      apply mul_le_mul_of_nonneg_right _ (by positivity)
      gcongr
    · exact hbi _
    · filter_upwards [ae_restrict_mem measurableSet_Ioi] with e he
      have := ((hlim e he).div_const cEV).const_mul e
      rwa [show F e * cEV / cEV = F e by field_simp] at this
  refine ⟨_, hdom, ?_⟩
  -- exchange of the integrals
  set W : ℝ → ℝ := fun E => ∫ e in Set.Ioi 0, e * syncEmission cE cMe cC cHbar B (E / (cMe * cC ^ 2)) e with hW
  have hpos : ∀ E ∈ Set.Icc a b, 0 < E / (cMe * cC ^ 2) := fun E hE => div_pos (ha0.trans_le hE.1) hm
  have hn : Spectrum (fun E => p E * pd.unit.scale) a b := hs.mul hsc
  have hem0 : ∀ E ∈ Set.Icc a b, ∀ e > 0, 0 ≤ syncEmission cE cMe cC cHbar B (E / (cMe * cC ^ 2)) e := fun E hE e he =>
    (sync_kernel_spectrum a b B e ha0 hB0 he).nonneg E hE
  have hW0 : ∀ E ∈ Set.Icc a b, 0 ≤ W E := fun E hE =>
    setIntegral_nonneg measurableSet_Ioi (fun e he => mul_nonneg (le_of_lt he) (hem0 E hE e he))
  have hWc : ContinuousOn W (Set.Icc a b) := by
    have : Set.EqOn W (fun E => 27 * Real.sqrt 3 / (16 * Real.pi) * (∫ x in Set.Ioi 0, gAKP x) *
        (4 / 3 * thomsonCgs cE cMe cC * cC * (B ^ 2 / (8 * Real.pi)) * (E / (cMe * cC ^ 2)) ^ 2)) (Set.Icc a b) :=
      fun E hE => (power_one B _ hB0 (hpos E hE)).2
    exact ContinuousOn.congr (by fun_prop) this
  have hnW : Spectrum (fun E => p E * pd.unit.scale * W E) a b := hn.mul (Spectrum.of_continuous hW0 hWc)
  have hprod : Integrable (fun z : ℝ × ℝ => z.1 * (p z.2 * pd.unit.scale *
      syncEmission cE cMe cC cHbar B (z.2 / (cMe * cC ^ 2)) z.1))
      ((volume.restrict (Set.Ioi 0)).prod (volume.restrict (Set.Ioc a b))) := by
    rw [integrable_prod_iff']
    · constructor
      · filter_upwards [ae_restrict_mem measurableSet_Ioc] with E hE
        have h := ((power_one B _ hB0 (hpos E ⟨hE.1.le, hE.2⟩)).1).const_mul (p E * pd.unit.scale)
        refine h.congr (Filter.Eventually.of_forall fun e => ?_)
        simp only []; ring
      · refine (hnW.aesm hlt.le).congr_fun (f := fun E => p E * pd.unit.scale * W E) ?_ measurableSet_Ioc
        intro E hE
        have hE' : E ∈ Set.Icc a b := ⟨hE.1.le, hE.2⟩
        simp only [hW]
        rw [← integral_const_mul]
        apply setIntegral_congr_fun measurableSet_Ioi
        intro e he
        have he : (0:ℝ) < e := he
        simp only []
        rw [Real.norm_of_nonneg (mul_nonneg he.le (mul_nonneg (hn.nonneg E hE') (hem0 E hE' e he)))]
        ring
    · have h1 : AEStronglyMeasurable (fun z : ℝ × ℝ => p z.2 * pd.unit.scale)
          ((volume.restrict (Set.Ioi 0)).prod (volume.restrict (Set.Ioc a b))) :=
        (hn.aesm hlt.le).aestronglyMeasurable.comp_snd
      exact measurable_fst.aestronglyMeasurable.mul (h1.mul (syncEmission_measurable2 B (cMe * cC ^ 2)).aestronglyMeasurable)
  have hT : ∫ e in Set.Ioi 0, e * F e = ∫ E in a..b, p E * pd.unit.scale * W E := by
    rw [intervalIntegral.integral_of_le hlt.le]
    have h1 : ∫ e in Set.Ioi 0, e * F e = ∫ e in Set.Ioi 0, ∫ E in Set.Ioc a b, e * (p E * pd.unit.scale *
        syncEmission cE cMe cC cHbar B (E / (cMe * cC ^ 2)) e) := by
      apply setIntegral_congr_fun measurableSet_Ioi
      intro e he
      simp only [hF]
      rw [intervalIntegral.integral_of_le hlt.le, integral_const_mul]
    rw [h1, integral_integral_swap hprod]
    apply setIntegral_congr_fun measurableSet_Ioc
    intro E hE
    simp only [hW]
    rw [← integral_const_mul]
    apply setIntegral_congr_fun measurableSet_Ioi
    intro e he
    simp only []; ring
  rw [hT]
  have hg30 : ∀ E ∈ Set.Icc a b, 30 ≤ E / (cMe * cC ^ 2) := fun E hE => by
    rw [le_div_iff₀ hm]; exact h30.trans hE.1
  have hloss : Spectrum (fun E => p E * pd.unit.scale * lossRate cE cMe cC B (E / (cMe * cC ^ 2))) a b := by
    refine hn.mul (Spectrum.of_continuous (fun E hE => (lossRate_pos B _ hB0 (by linarith [hg30 E hE])).le) ?_)
    unfold lossRate
    fun_prop
  rw [← intervalIntegral.integral_sub (hnW.integrable hlt.le) (hloss.integrable hlt.le),
    ← intervalIntegral.integral_const_mul]
  refine (intervalIntegral.abs_integral_le_integral_abs hlt.le).trans ?_
  apply intervalIntegral.integral_mono_on hlt.le
    ((hnW.integrable hlt.le).sub (hloss.integrable hlt.le)).abs ((hloss.integrable hlt.le).const_mul _)
  intro E hE
  have h1 := C104_one_electron B (E / (cMe * cC ^ 2)) hB0 (hg30 E hE)
  rw [← mul_sub, abs_mul, abs_of_nonneg (hn.nonneg E hE)]
  calc _ ≤ p E * pd.unit.scale * (0.01 * lossRate cE cMe cC B (E / (cMe * cC ^ 2))) :=
        mul_le_mul_of_nonneg_left h1 (hn.nonneg E hE)
    _ = _ := by ring

/-! ### The hypotheses are met -/

/-- A power law of index 3 from 1 GeV to 510 TeV in 3.24 µG. -/
example : ∃ L : ℝ → ℝ → ℝ, ∃ P : ℝ, (∀ n, ∀ e > 0, (⟨⟨⟨1, PhysUnit.GeV⟩, ⟨510, PhysUnit.TeV⟩, n⟩, ⟨3.24e-6, gauss⟩⟩ : SyncModel).spectrum
      (PowerLaw.toPDist ⟨fin 1e33, (⟨1, PhysUnit.TeV⟩ : Qty ℝ).lift, fin 3⟩ ⟨1 / cEV, Dim.diffEnergy⟩) [e] = .ok [fin (L n e)]) ∧
    ∃ T, Tendsto (fun n => ∫ e in Set.Ioi 0, e * (L n e / cEV)) atTop (𝓝 T) ∧ |T - P| ≤ 0.01 * P := by
  have := cEV_pos
  have h0 : (⟨1, PhysUnit.TeV⟩ : Qty ℝ).PosEnergy := ⟨rfl, by simp [PhysUnit.TeV]; positivity, by norm_num⟩
  let m : SyncModel := ⟨⟨⟨1, PhysUnit.GeV⟩, ⟨510, PhysUnit.TeV⟩, 100⟩, ⟨3.24e-6, gauss⟩⟩
  have hlo : m.Eemin.PosEnergy := ⟨rfl, GeV_pos, by norm_num [m]⟩
  obtain ⟨L, h1, -, h3⟩ := C104_total_power m
    (PowerLaw.toPDist ⟨fin 1e33, (⟨1, PhysUnit.TeV⟩ : Qty ℝ).lift, fin 3⟩ ⟨1 / cEV, Dim.diffEnergy⟩) rfl
    (by simp only [PowerLaw.toPDist]; positivity) hlo
    ⟨rfl, by simp only [m, PhysUnit.TeV]; norm_num, by norm_num [m]⟩
    (by simp only [m, Qty.phys, PhysUnit.GeV, PhysUnit.TeV]; norm_num) rfl
    (by simp only [m, Qty.phys, gauss]; norm_num)
    (fun E => 1e33 * (E / (⟨1, PhysUnit.TeV⟩ : Qty ℝ).phys) ^ (-(3:ℝ)))
    (fun E hE => powerLaw_pdist 1e33 3 _ h0 _ E (hlo.phys_pos.trans_le hE.1))
    (Spectrum.of_continuous (fun E hE => by
        have := div_pos (hlo.phys_pos.trans_le hE.1) h0.phys_pos
        positivity)
      (ContinuousOn.mul continuousOn_const (ContinuousOn.rpow_const (by fun_prop)
        (fun E hE => Or.inl (div_pos (hlo.phys_pos.trans_le hE.1) h0.phys_pos).ne'))))
    (by simp only [m, Qty.phys, PhysUnit.GeV, cMe, cC]; norm_num)
  exact ⟨L, _, h1, h3⟩

end Naima.Props
