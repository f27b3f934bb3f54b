import Verif.Props.C15_ICKernel
import Verif.Proof.Brems
import Verif.Props.C14_Synchrotron

/-! # C17, C18 and C08, C12 for Bremsstrahlung -/

namespace Naima.Props

open Naima XR Classical

/-! ### C18: cross sections -/

/-- Eq. A2 of Baring et al. 1999 in units of `4 r0² α / mec2`: `g` electron, `eps` photon energy. -/
noncomputable def baringA2 (g eps : ℝ) : ℝ :=
  1 / eps * (1 + (1 / 3 - eps / g) * (1 - eps / g)) * (Real.log (2 * g * (g - eps) / eps) - 1 / 2)

/-- **C18.** The electron-proton cross section is exactly zero for photons above the electron energy
and eq. A2 of Baring et al. (a finite number) below. -/
theorem C18_kinematics (g eps : ℝ) (hg : 0 < g) (he : 0 < eps) :
    (g < eps → bremsEp g eps = fin 0) ∧
    (eps < g → bremsEp g eps = fin (4 * cR0 ^ 2 * cAlpha * baringA2 g eps)) := by
  refine ⟨bremsSigma1_above g eps hg he, fun h => ?_⟩
  unfold bremsEp baringA2
  rw [bremsSigma1_eq g eps he h, fin_inj]
  field_simp

/-- `log y < 1/2` exactly when `y < √e` -/
theorem log_lt_half (y : ℝ) (hy : 0 < y) : Real.log y < 1 / 2 ↔ y < Real.exp (1 / 2) :=
  Real.log_lt_iff_lt_exp hy

/-- **C18 (partial): exactly where the cross section is non-negative.** For photon energies below the
electron energy, the electron-proton cross section is non-negative if and only if
`√e ε ≤ 2γ(γ - ε)`. Missing from the full property: the remaining photon energies close to the electron
energy, where it is negative (`C18_false_negative`), and the endpoint (`C18_false_endpoint`). -/
theorem C18_sign_partial (g eps : ℝ) (he : 0 < eps) (h : eps < g) :
    fin 0 ≤ bremsEp g eps ↔ Real.exp (1 / 2) * eps ≤ 2 * g * (g - eps) := by
  have hr := cR0_pos
  have ha := cAlpha_pos
  have hg : 0 < g := by linarith
  have h1 : 0 < g - eps := by linarith
  unfold bremsEp
  rw [bremsSigma1_eq g eps he h, le_fin]
  have hk : 0 < 4 * cR0 ^ 2 * cAlpha / eps * (1 + (1 / 3 - eps / g) * (1 - eps / g)) := by
    have := sigma1_s2_pos (eps / g)
    positivity
  have hy : 0 < 2 * g * (g - eps) / eps := by positivity
  rw [mul_nonneg_iff_of_pos_left hk, sub_nonneg, Real.le_log_iff_exp_le hy, le_div_iff₀ he]

/-- **C18 fails close to the electron energy.** For every electron energy there are photon energies
below it at which the electron-proton cross section is negative. -/
theorem C18_false_negative (g : ℝ) (hg : 0 < g) :
    ∃ eps, 0 < eps ∧ eps < g ∧ bremsEp g eps < fin 0 := by
  have he1 : (1 : ℝ) < Real.exp (1 / 2) := by
    have := Real.add_one_lt_exp (x := (1:ℝ) / 2) (by norm_num)
    linarith
  refine ⟨g * (2 * g / (2 * g + 1)), by positivity, ?_, ?_⟩
  · have : 2 * g / (2 * g + 1) < 1 := by rw [div_lt_one (by positivity)]; linarith
    nlinarith
  · have hlt : g * (2 * g / (2 * g + 1)) < g := by
      have : 2 * g / (2 * g + 1) < 1 := by rw [div_lt_one (by positivity)]; linarith
      nlinarith
    have hpos : 0 < g * (2 * g / (2 * g + 1)) := by positivity
    have := (C18_sign_partial g _ hpos hlt).not
    have hneg : ¬ Real.exp (1 / 2) * (g * (2 * g / (2 * g + 1))) ≤
        2 * g * (g - g * (2 * g / (2 * g + 1))) := by
      have e : 2 * g * (g - g * (2 * g / (2 * g + 1))) = g * (2 * g / (2 * g + 1)) := by
        field_simp; ring
      rw [e, not_le]
      nlinarith
    have h2 := this.2 hneg
    unfold bremsEp at h2 ⊢
    rw [bremsSigma1_eq g _ hpos hlt] at h2 ⊢
    rw [le_fin, not_le] at h2
    rwa [lt_fin]

/-- **C18 fails at the endpoint.** At a photon energy equal to the electron energy the
electron-proton cross section is `-inf`. -/
theorem C18_false_endpoint (g : ℝ) (hg : 0 < g) : bremsEp g g = ninf := bremsSigma1_at g hg

/-- **C18 fails for electron-electron bremsstrahlung at half the electron rest mass.** At the photon
energy `mec2/2`, where the code switches between two formulas, the relativistic electron-electron cross
section is NaN for all electron energies. -/
theorem C18_false_half_mass (g : ℝ) (hg : gamTrans < g) : bremsEe g 0.5 = nan := by
  unfold bremsEe
  rw [if_neg (not_le.2 hg)]
  have : bremsSigma2 g 0.5 = nan := by
    unfold bremsSigma2
    rw [if_pos le_rfl]
    have : bremsSigma2lo g 0.5 = nan := by
      unfold bremsSigma2lo
      have h1 : XR.log (fin (1 - 2 * 0.5)) = ninf := by norm_num [XR.log]
      have h2 : (fin (-2 * (1 - 2 * 0.5)) * ninf : XR) = nan := by
        rw [mul_def]; norm_num [XR.mul, infMul, XR.neg]
      simp only [h1, h2, nan_mul', add_nan]
    rw [this, mul_nan'', nan_mul']
  unfold bremsRel
  rw [this, add_nan, nan_mul']

/-- **C18 fails for slow electrons.** Within the range the code uses it for (electrons of at most
2 MeV, photons below the kinematic limit), the non-relativistic electron-electron cross section takes
negative values. -/
theorem C18_false_nonrel_negative :
    ∃ g eps, 1 < g ∧ g ≤ gamTrans ∧ 0 < eps ∧ eps < 0.25 * (g ^ 2 - 1) ∧ bremsEe g eps < fin 0 := by
  have hr := cR0_pos
  have ha := cAlpha_pos
  set g := Real.sqrt 10 with hgdef
  have hg2 : g ^ 2 = 10 := Real.sq_sqrt (by norm_num)
  have hg0 : 0 < g := Real.sqrt_pos.2 (by norm_num)
  have hg1 : 1 < g := by nlinarith
  have hgt : g ≤ gamTrans := by
    have h1 : g < 3.2 := by nlinarith
    have h2 : (3.2 : ℝ) < gamTrans := by
      unfold gamTrans cMec2 cMe cC
      rw [lt_div_iff₀ (by norm_num)]
      simp only [PhysUnit.GeV]
      norm_num
    linarith
  refine ⟨g, 3 / 4, hg1, hgt, by norm_num, by rw [hg2]; norm_num, ?_⟩
  unfold bremsEe bremsNonrel
  rw [if_pos hgt, if_neg (by rw [hg2]; rintro (h | h) <;> norm_num at h <;> linarith)]
  have hx : (fin (4 * (3 / 4)) / fin (g ^ 2 - 1) : XR) = fin (1 / 3) := by
    rw [hg2, div_fin _ _ (by norm_num)]; norm_num
  rw [hx, div_fin _ _ (by norm_num)]
  -- g β = 3
  have hbeta : XR.sqrt (fin 1 - pow (fin g) (fin (-2))) = fin (3 / g) := by
    rw [pow_fin _ _ hg0, sub_fin]
    have e : g ^ (-2 : ℝ) = 1 / 10 := by
      rw [Real.rpow_neg hg0.le, show (2 : ℝ) = ((2 : ℕ) : ℝ) by norm_num, Real.rpow_natCast, hg2]
      norm_num
    rw [e, sqrt_fin _ (by norm_num), fin_inj]
    rw [show (1 : ℝ) - 1 / 10 = (3 / g) ^ 2 by rw [div_pow, hg2]; norm_num]
    exact Real.sqrt_sq (by positivity)
  set s := Real.sqrt (2 / 3) with hs
  set t := Real.sqrt (1 / 3) with ht
  have hs2 : s ^ 2 = 2 / 3 := Real.sq_sqrt (by norm_num)
  have ht2 : t ^ 2 = 1 / 3 := Real.sq_sqrt (by norm_num)
  have hs0 : 0 < s := Real.sqrt_pos.2 (by norm_num)
  have ht0 : 0 < t := Real.sqrt_pos.2 (by norm_num)
  have hF : bremsF (fin (1 / 3)) g = fin (-44.66 * s + 7322 / 375 * Real.log ((1 + s) / t)) := by
    unfold bremsF
    rw [hbeta]
    have e1 : XR.sqrt (fin 1 - fin (1 / 3)) = fin s := by
      rw [sub_fin, sqrt_fin _ (by norm_num), hs]; norm_num
    have e2 : XR.sqrt (fin (1 / 3)) = fin t := by rw [sqrt_fin _ (by norm_num)]
    rw [e1, e2]
    simp only [sub_fin, mul_fin, add_fin, div_fin _ _ ht0.ne',
      log_fin _ (by positivity : 0 < (1 + s) / t), hg2]
    rw [div_fin _ _ (by norm_num), div_fin _ _ (by norm_num), div_fin _ _ (by norm_num),
      div_fin _ _ (by norm_num)]
    simp only [sub_fin, mul_fin, add_fin, fin_inj]
    have e3 : 10 * (1 / 3) * g * (3 / g) * (2 + g * (3 / g)) = 50 := by field_simp; norm_num
    rw [e3]
    norm_num
    ring
  rw [hF, mul_fin, lt_fin]
  apply mul_neg_of_pos_of_neg (by positivity)
  -- log ((1+s)/t) < 3/2
  have hlog : Real.log ((1 + s) / t) < 3 / 2 := by
    rw [Real.log_lt_iff_lt_exp (by positivity)]
    have he : (2.7 : ℝ) < Real.exp 1 := by have := Real.exp_one_gt_d9; linarith
    have h3 : (4 : ℝ) < Real.exp (3 / 2) := by
      have e : Real.exp (3 / 2) ^ 2 = Real.exp 1 ^ 3 := by
        rw [← Real.exp_nat_mul, ← Real.exp_nat_mul]; norm_num
      have h4 : (16 : ℝ) < Real.exp 1 ^ 3 := by
        have : (2.7 : ℝ) ^ 3 < Real.exp 1 ^ 3 := pow_lt_pow_left₀ he (by norm_num) (by norm_num)
        norm_num at this ⊢
        linarith
      nlinarith [Real.exp_pos (3 / 2)]
    have h5 : (1 + s) / t < 4 := by
      rw [div_lt_iff₀ ht0]
      have h6 : 0.57 < t := by nlinarith
      have h7 : s < 0.82 := by nlinarith
      linarith
    linarith
  have h7 : 0.81 < s := by nlinarith
  nlinarith

/-! ### C17 -/

/-- **C17 (density).** The spectrum is linear in the ion density: a density `c > 0` times larger, in
whatever unit it is given, multiplies every value by exactly `c`. -/
theorem C17_density_linear (m m' : BremsModel) (c : ℝ) (hc : 0 < c) (pd : PDist) (es : List ℝ)
    (hel : m'.toElModel = m.toElModel) (h1 : m'.wee = m.wee) (h2 : m'.wep = m.wep)
    (w1 : m.wee ≠ 0) (w2 : m.wep ≠ 0)
    (hd : m'.n0.unit.dim = m.n0.unit.dim) (hs : 0 < m.n0.unit.scale) (hs' : 0 < m'.n0.unit.scale)
    (hn : m'.n0.phys = c * m.n0.phys) :
    ScaledOutcome c (m.spectrum pd es) (m'.spectrum pd es) := by
  unfold ScaledOutcome
  rw [brems_spectrum_eq m pd es w1 w2, brems_spectrum_eq m' pd es (h1 ▸ w1) (h2 ▸ w2), hel, hd]
  cases m.toElModel.gam with
  | error e => rfl
  | ok gam =>
    cases m.toElModel.nelec pd with
    | error e => rfl
    | ok n =>
      simp only [bind, Except.bind, pure, Except.pure]
      by_cases h : m.n0.unit.dim = Dim.numDensity
      · simp only [h, if_true, Except.map, List.map_map]
        congr 1
        apply List.map_congr_left
        intro e _
        simp only [Function.comp_apply]
        rw [bremsTotal_phys m' _ _ _ hs', bremsTotal_phys m _ _ _ hs, hn, h1, h2,
          ← scale_mul c hc, mul_fin]
        congr 2
        ring
      · simp only [h, if_false]; rfl

/-- Photons per unit time and energy (cm³/s/erg) from electrons with densities `n` at Lorentz factors
`gam` (per mec2), interacting with cross section `sigma` (cm²/mec2): `c ∫ n σ dγ`, trapezoidal in
log-log space. -/
noncomputable def channel (sigma : ℝ → ℝ → XR) (gam : List ℝ) (n : List XR) (e : ℝ) : XR :=
  fin cC * trapzLL ((gam.zip n).map
    (fun p => (fin p.1, p.2 * (sigma p.1 (e / cMec2) * fin (1 / cMec2)))))

/-- **C17 (weights, partial).** For all non-zero weights and all densities the spectrum is
`n0 (w_ee · ee + w_ep · ep)`, where `ee` and `ep` are the electron-electron and electron-proton channels,
which depend neither on weights nor on the density. Missing from the full property: weights of exactly
0, see `C17_false_weight_zero`. -/
theorem C17_weighted_sum_partial (el : ElModel) (pd : PDist) (es : List ℝ)
    (hu : pd.unit.dim = Dim.diffEnergy) (hlo : el.Eemin.PosEnergy) (hhi : el.Eemax.PosEnergy)
    (hle : el.Eemin.phys ≤ el.Eemax.phys) :
    ∃ gam n, el.gam = .ok gam ∧ el.nelec pd = .ok n ∧
      ∀ (n0 : Qty ℝ) (wee wep : ℝ), wee ≠ 0 → wep ≠ 0 →
      n0.unit.dim = Dim.numDensity → 0 < n0.unit.scale →
      BremsModel.spectrum ⟨el, n0, wee, wep⟩ pd es =
        .ok (es.map (fun e => fin (n0.phys * cEV) *
          (fin wee * channel bremsEe gam n e + fin wep * channel bremsEp gam n e))) := by
  obtain ⟨gam, hg, _, _⟩ := gamGrid_facts el.nEed el.Eemin el.Eemax hlo hhi hle
  have hg : el.gam = .ok gam := hg
  have hn := nelec_eq el pd hu gam hg
  refine ⟨gam, _, hg, hn, ?_⟩
  intro n0 wee wep h1 h2 hd hs
  rw [brems_spectrum_eq _ pd es h1 h2]
  simp only []
  rw [hg, hn]
  simp only [bind, Except.bind, pure, Except.pure, hd, if_true]
  congr 1
  apply List.map_congr_left
  intro e _
  exact bremsTotal_phys _ gam _ e hs

/-- **C17 fails for weight 0.** With either weight set to exactly 0 (as the documentation suggests for
pure electron-electron bremsstrahlung), no spectrum is returned: whatever the electrons and energies,
an exception is raised; for a valid electron distribution and one weight 0 it is a
UnitConversionError. -/
theorem C17_false_weight_zero (m : BremsModel) (pd : PDist) (es : List ℝ)
    (hd : m.n0.unit.dim = Dim.numDensity) :
    (m.wee = 0 ∨ m.wep = 0 → ∃ x, m.spectrum pd es = .error x) ∧
    ((m.wee = 0 ∧ m.wep ≠ 0) ∨ (m.wee ≠ 0 ∧ m.wep = 0) → pd.unit.dim = Dim.diffEnergy →
      m.Eemin.PosEnergy → m.Eemax.PosEnergy → m.Eemin.phys ≤ m.Eemax.phys →
      m.spectrum pd es = .error .unitConversionError) := by
  have hdim1 : ¬ (PhysUnit.erg.dim = uEmiss.dim) := by
    simp [PhysUnit.erg, uEmiss, Dim.mul, Dim.inv, Dim.numDensity, Dim.diffPower, Dim.energy]
  have hdim2 : ¬ (uEmiss.dim = PhysUnit.erg.dim) := fun h => hdim1 h.symm
  have key : ∀ gam n, m.toElModel.gam = .ok gam → m.toElModel.nelec pd = .ok n →
      (m.wee = 0 ∧ m.wep ≠ 0) ∨ (m.wee ≠ 0 ∧ m.wep = 0) →
      m.spectrum pd es = .error .unitConversionError := by
    intro gam n hg hn h
    unfold BremsModel.spectrum BremsModel.spectrumQ BremsModel.emiss
    rcases h with ⟨h1, h2⟩ | ⟨h1, h2⟩
    · rw [if_pos h1, if_neg h2, hg, hn]
      simp only [bind, Except.bind, pure, Except.pure, addQ, if_neg hdim1]
    · rw [if_pos h2, if_neg h1, hg, hn]
      simp only [bind, Except.bind, pure, Except.pure, addQ, if_neg hdim2]
  have grid : ∀ gam, m.toElModel.gam = .ok gam → (∀ n, m.toElModel.nelec pd ≠ .ok n) → 
      (m.wee ≠ 0 ∨ m.wep ≠ 0) → ∃ x, m.spectrum pd es = .error x := by
    intro gam hg hn h
    cases hn' : m.toElModel.nelec pd with
    | ok n => exact absurd hn' (hn n)
    | error x =>
      refine ⟨x, ?_⟩
      unfold BremsModel.spectrum BremsModel.spectrumQ BremsModel.emiss
      by_cases h1 : m.wee = 0
      · have h2 : m.wep ≠ 0 := by tauto
        rw [if_pos h1, if_neg h2, hg, hn']; rfl
      · rw [if_neg h1, hg, hn']; rfl
  constructor
  · intro h
    by_cases hboth : m.wee = 0 ∧ m.wep = 0
    · refine ⟨.unitConversionError, ?_⟩
      unfold BremsModel.spectrum BremsModel.spectrumQ BremsModel.emiss
      rw [if_pos hboth.1, if_pos hboth.2]
      simp only [bind, Except.bind, pure, Except.pure, addQ, if_true, Qty.toArr]
      rw [if_neg]
      simp only [PhysUnit.mul, hd]
      simp [PhysUnit.erg, uLum, Dim.mul, Dim.numDensity, Dim.diffPower, Dim.energy]
    · have hor : m.wee ≠ 0 ∨ m.wep ≠ 0 := by tauto
      cases hg : m.toElModel.gam with
      | error x =>
        refine ⟨x, ?_⟩
        unfold BremsModel.spectrum BremsModel.spectrumQ BremsModel.emiss
        by_cases h1 : m.wee = 0
        · have h2 : m.wep ≠ 0 := by tauto
          rw [if_pos h1, if_neg h2, hg]; rfl
        · rw [if_neg h1, hg]; rfl
      | ok gam =>
        by_cases hn : ∃ n, m.toElModel.nelec pd = .ok n
        · obtain ⟨n, hn⟩ := hn
          exact ⟨_, key gam n hg hn (by tauto)⟩
        · push Not at hn
          exact grid gam hg hn hor
  · intro h hu hlo hhi hle
    obtain ⟨gam, hg, _, _⟩ := gamGrid_facts m.nEed m.Eemin m.Eemax hlo hhi hle
    exact key gam _ hg (nelec_eq m.toElModel pd hu gam hg) h

/-! ### C08, C12 -/

/-- **C08 (Bremsstrahlung).** Multiplying the electron distribution by any `c > 0` multiplies every
value of the spectrum by exactly `c` (both weights non-zero; otherwise there is no spectrum). -/
theorem C08_bremsstrahlung (m : BremsModel) (w1 : m.wee ≠ 0) (w2 : m.wep ≠ 0) (c : ℝ) (hc : 0 < c)
    (pd pd' : PDist) (h : Renormalised c pd pd') (es : List ℝ) :
    ScaledOutcome c (m.spectrum pd es) (m.spectrum pd' es) := by
  rw [h.eq]
  unfold ScaledOutcome
  rw [brems_spectrum_eq m _ es w1 w2, brems_spectrum_eq m _ es w1 w2, nelec_scale _ _ _ hc]
  cases m.toElModel.gam with
  | error e => rfl
  | ok gam =>
    cases m.toElModel.nelec pd with
    | error e => rfl
    | ok n =>
      simp only [bind, Except.bind, pure, Except.pure, Except.map]
      by_cases h : m.n0.unit.dim = Dim.numDensity
      · simp only [h, if_true, List.map_map]
        congr 1
        apply List.map_congr_left
        intro e _
        exact bremsTotal_scale m c hc gam n e
      · simp only [h, if_false]; rfl

/-- **C12 (Bremsstrahlung).** The value at each position of an array request is the one returned for
that energy alone. -/
theorem C12_bremsstrahlung (m : BremsModel) (w1 : m.wee ≠ 0) (w2 : m.wep ≠ 0) (pd : PDist)
    (es : List ℝ) (out : List XR) (h : m.spectrum pd es = .ok out) :
    out.length = es.length ∧
    ∀ (i : ℕ) e v, es[i]? = some e → out[i]? = some v → m.spectrum pd [e] = .ok [v] := by
  rw [brems_spectrum_eq m _ es w1 w2] at h
  simp only [fun es => brems_spectrum_eq m pd es w1 w2]
  cases hg : m.toElModel.gam with
  | error x => rw [hg] at h; cases h
  | ok gam =>
    cases hn : m.toElModel.nelec pd with
    | error x => rw [hg, hn] at h; cases h
    | ok n =>
      rw [hg, hn] at h
      simp only [bind, Except.bind, pure, Except.pure] at h ⊢
      by_cases hd : m.n0.unit.dim = Dim.numDensity
      · simp only [hd, if_true, Except.ok.injEq] at h ⊢
        subst h
        refine ⟨by simp, ?_⟩
        intro i e v he hv
        rw [List.getElem?_map, he] at hv
        simp at hv
        simp [hv]
      · simp only [hd, if_false] at h; cases h

/-- Non-vacuity: the default weights and density with `E^-2` electrons meet all hypotheses. -/
example : ∃ (m m' : BremsModel) (pd : PDist), m.wee ≠ 0 ∧ m.wep ≠ 0 ∧
    m.n0.unit.dim = Dim.numDensity ∧ 0 < m.n0.unit.scale ∧ m'.n0.phys = 2 * m.n0.phys ∧
    m'.toElModel = m.toElModel ∧ pd.unit.dim = Dim.diffEnergy ∧ m.Eemin.PosEnergy ∧
    m.Eemax.PosEnergy ∧ m.Eemin.phys ≤ m.Eemax.phys ∧ gamTrans < 100 := by
  refine ⟨⟨⟨⟨1, PhysUnit.GeV⟩, ⟨510, PhysUnit.TeV⟩, 300⟩, ⟨1, ⟨1, Dim.numDensity⟩⟩, 1.088, 1.263⟩,
    ⟨⟨⟨1, PhysUnit.GeV⟩, ⟨510, PhysUnit.TeV⟩, 300⟩, ⟨2, ⟨1, Dim.numDensity⟩⟩, 1.088, 1.263⟩,
    ⟨⟨1, Dim.diffEnergy⟩, fun e => pow (fin e) (fin (-2))⟩, by norm_num, by norm_num, rfl,
    by norm_num, by simp [Qty.phys], rfl, rfl,
    ⟨rfl, GeV_pos, by norm_num⟩, ⟨rfl, by simp only [PhysUnit.TeV]; norm_num, by norm_num⟩, ?_, ?_⟩
  · simp only [Qty.phys, PhysUnit.GeV, PhysUnit.TeV]; norm_num
  · unfold gamTrans cMec2 cMe cC
    rw [div_lt_iff₀ (by norm_num)]
    simp only [PhysUnit.GeV]; norm_num

/-! ### The other hypotheses are met -/

example := C08_bremsstrahlung ⟨exEl, ⟨1, ⟨1, Dim.numDensity⟩⟩, 1.088, 1.263⟩ (by norm_num) (by norm_num) 3
  (by norm_num) exPd exPd3 exPd_renorm exEs

example := C17_density_linear ⟨exEl, ⟨1, ⟨1, Dim.numDensity⟩⟩, 1.088, 1.263⟩
  ⟨exEl, ⟨7, ⟨1, Dim.numDensity⟩⟩, 1.088, 1.263⟩ 7 (by norm_num) exPd exEs rfl rfl rfl (by norm_num) (by norm_num) rfl
  (by norm_num) (by norm_num) (by simp [Qty.phys])

example : ∃ out, BremsModel.spectrum ⟨exEl, ⟨1, ⟨1, Dim.numDensity⟩⟩, 1.088, 1.263⟩ exPd exEs = .ok out ∧
    out.length = 3 := by
  obtain ⟨gam, n, -, -, h⟩ := C17_weighted_sum_partial exEl exPd exEs rfl exEl_lo exEl_hi exEl_lt.le
  have h := h ⟨1, ⟨1, Dim.numDensity⟩⟩ 1.088 1.263 (by norm_num) (by norm_num) rfl (by norm_num)
  exact ⟨_, h, (C12_bremsstrahlung _ (by norm_num) (by norm_num) _ _ _ h).1.trans (by simp [exEs])⟩

example := (C17_false_weight_zero ⟨exEl, ⟨1, ⟨1, Dim.numDensity⟩⟩, 0, 1.263⟩ exPd exEs rfl).2
  (Or.inl ⟨rfl, by norm_num⟩) rfl exEl_lo exEl_hi exEl_lt.le

example := C18_sign_partial 100 1 (by norm_num) (by norm_num)

example := (C18_kinematics 100 1 (by norm_num) (by norm_num)).2 (by norm_num)

end Naima.Props
