import Mathlib.Analysis.Real.Pi.Bounds
import Verif.Proof.IC
import Verif.Props.C14_Synchrotron

/-! # C15 (inverse Compton kernels), C08, C12, C60 for InverseCompton -/

namespace Naima.Props

open Naima XR Classical

/-! ### Kernels -/

/-- **C15 (isotropic thermal field).** For every temperature `T > 0` and photon energy `> 0`: the
kernel is exactly 0 unless the photon energy is below the electron energy (and the electron above its
rest mass); there it is the positive number given by eq. 14 of Khangulyan et al. 2014. -/
theorem C15_isotropic (g T eg : ℝ) (hT : 0 < T) (heg : 0 < eg) :
    (g ≤ eg ∨ g ≤ 1 → isoPlanck g T eg = fin 0) ∧
    (eg < g → 1 < g → isoPlanck g T eg = fin (Spec.isoThermal g (1.6863699549e-10 * T) eg) ∧
      0 < Spec.isoThermal g (1.6863699549e-10 * T) eg) := by
  refine ⟨fun h => ?_, fun h1 h2 => ?_⟩
  · unfold isoPlanck
    rw [if_neg]
    rintro ⟨a, b⟩
    rcases h with h | h <;> linarith
  · have := isoPlanck_eq g T eg hT heg h1 h2
    rw [mul_comm T] at this
    exact ⟨this, isoThermal_pos g _ eg (by positivity) heg h1⟩

/-- **C15 (anisotropic thermal field, partial).** The same for every angle other than a multiple of
2π. Missing: the head-on direction `θ = 0`, see `C15_false_zero_angle`. -/
theorem C15_anisotropic_partial (g T eg θ : ℝ) (hT : 0 < T) (heg : 0 < eg) (hθ : Real.cos θ ≠ 1) :
    (g ≤ eg ∨ g ≤ 1 → aniPlanck g T eg θ = fin 0) ∧
    (eg < g → 1 < g → aniPlanck g T eg θ = fin (Spec.aniThermal g (1.6863699549e-10 * T) eg θ) ∧
      0 < Spec.aniThermal g (1.6863699549e-10 * T) eg θ) := by
  refine ⟨fun h => ?_, fun h1 h2 => ?_⟩
  · unfold aniPlanck
    rw [if_neg]
    rintro ⟨a, b⟩
    rcases h with h | h <;> linarith
  · have := aniPlanck_eq g T eg θ hT heg h1 h2 hθ
    rw [mul_comm T] at this
    exact ⟨this, aniThermal_pos g _ eg θ (by positivity) heg h1 hθ⟩

theorem G12_pinf (α a β b : ℝ) : G12 pinf α a β b = nan := by
  unfold G12
  have h1 : (fin pi26 + pinf : XR) = pinf := rfl
  have h2 : XR.exp (-pinf) = fin 0 := rfl
  have h3 : (pinf * fin 0 : XR) = nan := by show XR.mul _ _ = _; simp [XR.mul, infMul]
  rw [h1, h2, h3, nan_mul']

theorem planck_x_inf (g eg : ℝ) (hg : 0 < g) (heg : 0 < eg) (hlt : eg < g) :
    (fin eg / fin g) / (fin 1 - fin eg / fin g) / fin 0 = pinf := by
  have hz1 : eg / g < 1 := by rwa [div_lt_one hg]
  have h1 : 0 < 1 - eg / g := by linarith
  have h2 : 0 < eg / g / (1 - eg / g) := by positivity
  rw [div_fin _ _ hg.ne', sub_fin, div_fin _ _ h1.ne']
  show XR.div _ _ = _
  simp [XR.div, infMul, h2]

theorem planckCross_nan (g t : ℝ) (z h : XR) : planckCross g t z h nan = nan := by
  unfold planckCross
  simp only [add_nan, mul_nan'']

/-- **C15 fails at θ = 0.** For an anisotropic thermal field whose photons travel along the line of
sight (θ = 0, accepted by the constructor) the kernel is NaN at every photon energy below the electron
energy, instead of a finite number. -/
theorem C15_false_zero_angle (g T eg : ℝ) (heg : 0 < eg) (h : eg < g) (h1 : 1 < g) :
    aniPlanck g T eg 0 = nan := by
  have hg : 0 < g := by linarith
  unfold aniPlanck
  rw [if_pos ⟨h, h1⟩]
  simp only [Real.cos_zero, sub_self, mul_zero]
  rw [planck_x_inf g eg hg heg h, G12_pinf, G12_pinf, planckCross_nan]

theorem G34_pinf (α a β b c : ℝ) (hc : 0 < c) : G34 pinf α a β b c = nan := by
  unfold G34
  have hp := pi26_pos
  rw [scale_pinf c hc, scale_pinf (pi26 * c) (by positivity)]
  have h1 : (fin 1 + pinf : XR) = pinf := rfl
  have h2 : (pinf / pinf : XR) = nan := rfl
  simp only [h1, h2, mul_nan'', nan_mul']

/-- **C15 fails at T = 0.** A thermal field of temperature 0 K (accepted by the constructor, which only
rejects negative values) has a NaN kernel, isotropic or not. -/
theorem C15_false_zero_temperature (g eg θ : ℝ) (heg : 0 < eg) (h : eg < g) (h1 : 1 < g) :
    isoPlanck g 0 eg = nan ∧ aniPlanck g 0 eg θ = nan := by
  have hg : 0 < g := by linarith
  constructor
  · unfold isoPlanck
    rw [if_pos ⟨h, h1⟩]
    simp only [zero_mul, mul_zero]
    rw [planck_x_inf g eg hg heg h, G34_pinf _ _ _ _ _ (by norm_num),
      G34_pinf _ _ _ _ _ (by norm_num), planckCross_nan]
  · unfold aniPlanck
    rw [if_pos ⟨h, h1⟩]
    simp only [zero_mul, mul_zero]
    rw [planck_x_inf g eg hg heg h, G12_pinf, G12_pinf, planckCross_nan]

/-- **C15 (monochromatic photons).** Scattering of one seed energy `e0`: exactly 0 when the photon
energy is not below the electron energy (where the formula divides by zero or takes the logarithm of a
negative number), and when the kinematic variable is outside `[1/4γ², 1]`; inside it is eq. 22 of
Aharonian & Atoyan 1981; finite and non-negative everywhere. -/
theorem C15_monochromatic (g e0 eg : ℝ) (hg : 0 < g) (he0 : 0 < e0) (heg : 0 < eg) :
    (g ≤ eg → monoGamint g e0 eg = fin 0) ∧
    (eg < g → 1 < Spec.kinQ g e0 eg ∨ Spec.kinQ g e0 eg < 1 / (4 * g ^ 2) →
      monoGamint g e0 eg = fin 0) ∧
    (eg < g → Spec.kinQ g e0 eg < 1 → 1 / (4 * g ^ 2) < Spec.kinQ g e0 eg →
      monoGamint g e0 eg = fin (Spec.isoMono g e0 eg)) ∧
    FiniteNonneg (monoGamint g e0 eg) := by
  refine ⟨monoGamint_zero g e0 eg hg he0, fun h => (monoGamint_eq g e0 eg he0 heg h).2,
    fun h => (monoGamint_eq g e0 eg he0 heg h).1, ?_⟩
  rcases lt_or_ge eg g with h | h
  · exact monoGamint_NN g e0 eg hg he0 heg h
  · rw [monoGamint_zero g e0 eg hg he0 h]; exact ⟨0, le_rfl, rfl⟩

/-- **C15 (arbitrary photon spectrum).** The kernel integrated over any array of seed photon energies
(positive, ascending) with finite non-negative densities, one or many, is finite and non-negative, and
exactly 0 when the photon energy is not below the electron energy. -/
theorem C15_spectral (g eg : ℝ) (seeds : List ℝ) (phn : List XR) (hg : 0 < g) (heg : 0 < eg)
    (hs : ∀ e ∈ seeds, 0 < e) (hsort : seeds.Pairwise (· ≤ ·)) (hlen : phn.length = seeds.length)
    (hn : ∀ n ∈ phn, FiniteNonneg n) :
    FiniteNonneg (monoKernel g eg seeds phn) ∧ (g ≤ eg → monoKernel g eg seeds phn = fin 0) := by
  refine ⟨?_, fun h => monoKernel_zero g eg seeds phn hg h hs hlen hn⟩
  rcases lt_or_ge eg g with h | h
  · exact monoKernel_NN g eg seeds phn hg heg h hs hsort hlen hn
  · rw [monoKernel_zero g eg seeds phn hg h hs hlen hn]; exact ⟨0, le_rfl, rfl⟩

/-- Non-vacuity: a CMB photon and a 1e8 electron, inside the kinematic range. -/
example : ∃ g e0 eg : ℝ, 0 < g ∧ 0 < e0 ∧ 0 < eg ∧ eg < g ∧ Spec.kinQ g e0 eg < 1 ∧
    1 / (4 * g ^ 2) < Spec.kinQ g e0 eg := by
  refine ⟨100, 1, 50, ?_⟩
  unfold Spec.kinQ
  norm_num

/-! ### Spectrum -/

/-- The seed fields have meaningful numbers: `T > 0`, density `≥ 0`, angle not 0; photon energies
positive and ascending with as many densities, all `≥ 0`. -/
def ValidSeed : SeedNum → Prop
  | .thermal T u none => 0 < T ∧ 0 ≤ u
  | .thermal T u (some θ) => 0 < T ∧ 0 ≤ u ∧ Real.cos θ ≠ 1
  | .array es ds _ => (∀ e ∈ es, 0 < e) ∧ es.Pairwise (· ≤ ·) ∧ ds.length = es.length ∧
      ∀ n ∈ ds, FiniteNonneg n

/-- **C15 (spectrum).** For every finite non-negative electron distribution, every electron range,
every non-empty list of valid seed fields and all photon energies `> 0`, the inverse Compton spectrum is
computed and all its values are finite and non-negative. -/
theorem C15_spectrum (m : ElModel) (pd : PDist) (hu : pd.unit.dim = Dim.diffEnergy)
    (hus : 0 < pd.unit.scale) (hpd : ∀ e, 0 < e → FiniteNonneg (pd.f e))
    (hlo : m.Eemin.PosEnergy) (hhi : m.Eemax.PosEnergy) (hle : m.Eemin.phys ≤ m.Eemax.phys)
    (seeds : List SeedNum) (hne : seeds ≠ []) (hv : ∀ s ∈ seeds, ValidSeed s) (es : List ℝ)
    (hes : ∀ e ∈ es, 0 < e) :
    ∃ out, icSpectrum m seeds pd es = .ok out ∧ out.length = es.length ∧ ∀ a ∈ out, FiniteNonneg a := by
  obtain ⟨gam, n, hg, hn, hlen, hgp, hgs, hnn⟩ := gam_zip_facts m pd hu hus hpd hlo hhi hle
  have hv' : ∀ s ∈ seeds, s.Valid := by
    intro s hs
    have := hv s hs
    match s, this with
    | .thermal _ _ none, h => exact h
    | .thermal _ _ (some _), h => exact h
    | .array _ _ _, h => exact h
  match seeds, hne, hv' with
  | s :: rest, _, hv' =>
    refine ⟨es.map (icTotal gam n s rest), ?_, by simp, ?_⟩
    · rw [icSpectrum_eq, hg, hn]; rfl
    · intro a ha
      obtain ⟨e, he, rfl⟩ := List.mem_map.1 ha
      exact icTotal_NN gam n s rest hv' e (hes e he) hgp hgs hlen hnn

/-- **C08 (InverseCompton).** Multiplying the electron distribution by any `c > 0` multiplies every
value of the spectrum by exactly `c`, for any list of seed fields (valid or not), energies and grid. -/
theorem C08_inverse_compton (m : ElModel) (seeds : List SeedNum) (c : ℝ) (hc : 0 < c)
    (pd pd' : PDist) (h : Renormalised c pd pd') (es : List ℝ) :
    ScaledOutcome c (icSpectrum m seeds pd es) (icSpectrum m seeds pd' es) := by
  rw [h.eq]
  exact icSpectrum_scale m seeds pd c hc es

/-- **C12 (InverseCompton).** The value at each position of an array request is the one returned for
a one-element array with that energy. -/
theorem C12_inverse_compton (m : ElModel) (seeds : List SeedNum) (pd : PDist) (es : List ℝ)
    (out : List XR) (h : icSpectrum m seeds pd es = .ok out) :
    out.length = es.length ∧
    ∀ (i : ℕ) e v, es[i]? = some e → out[i]? = some v → icSpectrum m seeds pd [e] = .ok [v] := by
  cases seeds with
  | nil => cases h
  | cons s rest =>
    rw [icSpectrum_eq] at h
    simp only [icSpectrum_eq]
    cases hg : m.gam with
    | error x => rw [hg] at h; cases h
    | ok gam =>
      cases hn : m.nelec pd with
      | error x => rw [hg, hn] at h; cases h
      | ok n =>
        rw [hg, hn] at h
        have h' : es.map (icTotal gam n s rest) = out := by injection h
        subst h'
        refine ⟨by simp, ?_⟩
        intro i e v he hv
        rw [List.getElem?_map, he] at hv
        simp at hv
        simp [bind, Except.bind, pure, Except.pure, hv]

/-- **C12 fails for scalar requests.** A single photon energy that is not wrapped in an array (the
documentation allows "float or array") raises an exception, whatever the electrons and seed fields, so
no value is returned at all. -/
theorem C12_false_ic_scalar (m : ElModel) (seeds : List SeedNum) (pd : PDist) (e : ℝ) :
    ∃ x, icSpectrumReq m seeds pd (.scalar e) = .error x := by
  unfold icSpectrumReq
  cases seeds with
  | nil => exact ⟨_, rfl⟩
  | cons s rest =>
    cases m.gam with
    | error x => exact ⟨x, rfl⟩
    | ok g => exact ⟨_, rfl⟩

/-- **C12, which exception.** On a valid electron grid a bare photon energy is a TypeError when the first
seed field is an isotropic black body, and an IndexError when it is an anisotropic black body or a field
given by photon energies and densities. -/
theorem C12_false_ic_scalar_kind (m : ElModel) (gam : List ℝ) (hg : m.gam = .ok gam) (rest : List SeedNum)
    (pd : PDist) (e T uf θ : ℝ) (ph : List ℝ) (ds : List XR) (a : Option ℝ) :
    icSpectrumReq m (.thermal T uf none :: rest) pd (.scalar e) = .error .typeError ∧
    icSpectrumReq m (.thermal T uf (some θ) :: rest) pd (.scalar e) = .error .indexError ∧
    icSpectrumReq m (.array ph ds a :: rest) pd (.scalar e) = .error .indexError := by
  refine ⟨?_, ?_, ?_⟩ <;> simp only [icSpectrumReq, hg] <;> rfl

/-- An electron grid from 1 to 10 erg is valid. -/
example : ∃ gam, (ElModel.mk ⟨1, ⟨1, Dim.energy⟩⟩ ⟨10, ⟨1, Dim.energy⟩⟩ 100).gam = .ok gam := by
  obtain ⟨gam, hg, -⟩ := gamGrid_facts 100 ⟨1, ⟨1, Dim.energy⟩⟩ ⟨10, ⟨1, Dim.energy⟩⟩
    ⟨rfl, by norm_num, by norm_num⟩ ⟨rfl, by norm_num, by norm_num⟩ (by norm_num [Qty.phys])
  exact ⟨gam, hg⟩

/-- **C16: the angle of a non-thermal field is ignored.** A monochromatic or spectral field declared
with an angle between seed and scattered photons gives the spectrum of an isotropic field, for all
angles, electrons and energies. -/
theorem C16_false_array_angle (m : ElModel) (pd : PDist) (ph : List ℝ) (ds : List XR) (θ : ℝ)
    (es : List ℝ) :
    icSpectrum m [.array ph ds (some θ)] pd es = icSpectrum m [.array ph ds none] pd es := by
  rw [icSpectrum_eq, icSpectrum_eq]
  rfl

/-! ### C60 -/

/-- **C60 (several fields).** The spectrum of a list of fields is, energy by energy, the sum of the
spectra each field gives alone. -/
theorem C60_sum_over_fields (m : ElModel) (seeds : List SeedNum) (pd : PDist) (es : List ℝ)
    (out : List XR) (h : icSpectrum m seeds pd es = .ok out) :
    ∃ parts : List (List XR), parts.length = seeds.length ∧
      (∀ (i : ℕ) s p, seeds[i]? = some s → parts[i]? = some p → icSpectrum m [s] pd es = .ok p) ∧
      ∀ (j : ℕ) v, out[j]? = some v → v = XR.sum (parts.map (fun p => p.getD j nan)) := by
  cases seeds with
  | nil => cases h
  | cons s rest =>
    rw [icSpectrum_eq] at h
    cases hg : m.gam with
    | error x => rw [hg] at h; cases h
    | ok gam =>
      cases hn : m.nelec pd with
      | error x => rw [hg, hn] at h; cases h
      | ok n =>
        rw [hg, hn] at h
        have h' : es.map (icTotal gam n s rest) = out := by injection h
        subst h'
        refine ⟨(s :: rest).map (fun t => es.map (icAt gam n t)), by simp, ?_, ?_⟩
        · intro i t p ht hp
          rw [List.getElem?_map, ht] at hp
          simp only [Option.map_some, Option.some.injEq] at hp
          rw [icSpectrum_eq, hg, hn, ← hp]
          rfl
        · intro j v hv
          rw [List.getElem?_map] at hv
          cases he : es[j]? with
          | none => rw [he] at hv; cases hv
          | some e =>
            rw [he] at hv
            simp only [Option.map_some, Option.some.injEq] at hv
            subst hv
            have hk : ∀ t, (es.map (icAt gam n t)).getD j nan = icAt gam n t e := by
              intro t
              rw [List.getD_eq_getElem?_getD, List.getElem?_map, he]; rfl
            simp only [List.map_map, Function.comp_def, hk, List.map_cons, sum_cons]
            unfold icTotal
            generalize icAt gam n s e = a
            induction rest generalizing a with
            | nil => simp [add_zero']
            | cons t rest ih =>
              simp only [List.foldl_cons, List.map_cons, sum_cons]
              rw [ih, add_assoc']
              · rfl

/-- **C60 (proportionality).** Multiplying the energy density of a thermal field by any `c > 0`
multiplies its contribution by `c`. -/
theorem C60_density_linear (m : ElModel) (T u c : ℝ) (hT : 0 < T) (hc : 0 < c) (θ : Option ℝ)
    (pd : PDist) (es : List ℝ) :
    ScaledOutcome c (icSpectrum m [.thermal T u θ] pd es) (icSpectrum m [.thermal T (c * u) θ] pd es) := by
  unfold ScaledOutcome
  rw [icSpectrum_eq, icSpectrum_eq]
  cases m.gam with
  | error e => rfl
  | ok gam =>
    cases m.nelec pd with
    | error e => rfl
    | ok n =>
      simp only [Except.map, bind, Except.bind, pure, Except.pure, List.map_map]
      congr 1
      apply List.map_congr_left
      intro e _
      have hA := cAr_pos
      have hd : cAr * T ^ 4 ≠ 0 := by positivity
      simp only [icTotal, List.foldl_nil, Function.comp_apply, icAt]
      have hk : (SeedNum.thermal T (c * u) θ).kernel = (SeedNum.thermal T u θ).kernel := by
        cases θ <;> rfl
      have huf : (SeedNum.thermal T (c * u) θ).uf = fin c * (SeedNum.thermal T u θ).uf := by
        simp only [SeedNum.uf, div_fin _ _ hd, mul_fin, fin_inj]; ring
      rw [hk, huf, scale_mul c hc, scale_mul c hc, scale_div c hc, scale_mul c hc]

/-! ### Hypotheses about spectra are met -/

/-- The CMB, a stellar photon field seen at an angle of 1 rad, and an array of photon energies. -/
noncomputable def exSeeds : List SeedNum :=
  [.thermal 2.7 4e-13 none, .thermal 5000 1e-9 (some 1), .array [1e-12, 2e-12] [fin 3, fin 1] none]

theorem cos_one_ne : Real.cos 1 ≠ 1 := fun hc => absurd ((Real.cos_eq_one_iff_of_lt_of_lt
  (by linarith [Real.pi_gt_three]) (by linarith [Real.pi_gt_three])).1 hc) one_ne_zero

theorem exSeeds_valid : ∀ s ∈ exSeeds, ValidSeed s := by
  intro s hs
  simp only [exSeeds, List.mem_cons, List.not_mem_nil, or_false] at hs
  rcases hs with rfl | rfl | rfl
  · exact ⟨by norm_num, by norm_num⟩
  · exact ⟨by norm_num, by norm_num, cos_one_ne⟩
  · refine ⟨by simp; norm_num, by simp; norm_num, rfl, ?_⟩
    intro n hn
    simp only [List.mem_cons, List.not_mem_nil, or_false] at hn
    rcases hn with rfl | rfl
    · exact ⟨3, by norm_num, rfl⟩
    · exact ⟨1, by norm_num, rfl⟩

theorem exIC : ∃ out, icSpectrum exEl exSeeds exPd exEs = .ok out ∧ out.length = exEs.length ∧
    ∀ a ∈ out, FiniteNonneg a :=
  C15_spectrum exEl exPd rfl one_pos
    (fun e he => by obtain ⟨r, hr, h⟩ := exPd_f e he; exact ⟨r, hr.le, h⟩) exEl_lo exEl_hi exEl_lt.le
    exSeeds (by simp [exSeeds]) exSeeds_valid exEs exEs_pos

example : ∃ out, icSpectrum exEl exSeeds exPd exEs = .ok out ∧ out.length = 3 ∧
    ∃ parts : List (List XR), parts.length = 3 ∧
      ∀ (i : ℕ) s p, exSeeds[i]? = some s → parts[i]? = some p → icSpectrum exEl [s] exPd exEs = .ok p := by
  obtain ⟨out, h, hl, -⟩ := exIC
  obtain ⟨parts, h1, h2, -⟩ := C60_sum_over_fields exEl exSeeds exPd exEs out h
  exact ⟨out, h, (C12_inverse_compton _ _ _ _ _ h).1.trans (by simp [exEs]), parts, h1.trans (by simp [exSeeds]), h2⟩

example := C08_inverse_compton exEl exSeeds 3 (by norm_num) exPd exPd3 exPd_renorm exEs

example := C60_density_linear exEl 2.7 4e-13 5 (by norm_num) (by norm_num) (some 1) exPd exEs

example := C15_isotropic 1e6 2.7 1e3 (by norm_num) (by norm_num)

example := C15_anisotropic_partial 1e6 5000 1e3 1 (by norm_num) (by norm_num) cos_one_ne

example := C15_spectral 1e6 1e3 [1e-12, 2e-12] [fin 3, fin 1] (by norm_num) (by norm_num)
  (by simp; norm_num) (by simp; norm_num) rfl
  (by
    intro n hn
    simp only [List.mem_cons, List.not_mem_nil, or_false] at hn
    rcases hn with rfl | rfl
    · exact ⟨3, by norm_num, rfl⟩
    · exact ⟨1, by norm_num, rfl⟩)

end Naima.Props
