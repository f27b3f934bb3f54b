import Verif.Proof.Kelner
import Verif.Props.C14_Synchrotron

/-! # C13, C62 and C08, C12 for PionDecayKelner06 -/

namespace Naima.Props

open Naima XR Classical

/-- What is assumed of the quadrature for scaling properties: it commutes with multiplying the
integrand by a positive constant (the code asks for a relative tolerance only, `epsabs=0`). -/
def Homogeneous (Q : Quad) : Prop :=
  ∀ (c : ℝ), 0 < c → ∀ f a b, Q (fun x => fin c * f x) a b = fin c * Q f a b

/-- A positive number. -/
def Positive (a : XR) : Prop := ∃ r : ℝ, 0 < r ∧ a = fin r

/-- An energy in TeV. -/
noncomputable def inTeV (e : ℝ) : ℝ := e / PhysUnit.TeV.scale

theorem kLo_nhat (Q : Quad) (hQ : Homogeneous Q) (pd : PDist) (c : ℝ) (hc : 0 < c) (eg : ℝ) :
    kLo Q pd (fin c) eg = fin c * kLo Q pd (fin 1) eg := by
  unfold kLo
  rw [funext (kDelta_nhat pd c hc), hQ c hc, mul_left_swap c hc]

/-- The delta approximation of a request, in 1/(s eV), for a target density of 1/cm³: Kelner's delta
approximation times the factor `full(Etrans)/delta(Etrans)`. -/
noncomputable def matchedDelta (Q : Quad) (pd : PDist) (et e : ℝ) : XR :=
  kHi Q pd (inTeV et) / kLo Q pd (fin 1) (inTeV et) * kLo Q pd (fin 1) (inTeV e) * fin 1e-12

/-- The full calculation in 1/(s eV), for a target density of 1/cm³. -/
noncomputable def fullCalc (Q : Quad) (pd : PDist) (e : ℝ) : XR := kHi Q pd (inTeV e) * fin 1e-12

/-- **C13 (matching at Etrans).** For every request with energies on both sides of `Etrans` and every
proton distribution for which the two calculations at `Etrans` are positive numbers: at and above
`Etrans` the full calculation is returned, below it the delta approximation times a constant; and that
constant makes both agree at `Etrans`. Missing: distributions for which they are not positive, for which it is false
(`C13_false_no_tail`). -/
theorem C13_matched_partial (Q : Quad) (hQ : Homogeneous Q) (m : KelnerModel) (pd : PDist)
    (hu : pd.unit.dim = Dim.diffEnergy) (es : List ℝ) (hlo : ∃ e ∈ es, e < m.Etrans.phys)
    (hhi : ∃ e ∈ es, m.Etrans.phys ≤ e) (hf : Positive (kHi Q pd (inTeV m.Etrans.phys)))
    (hd : Positive (kLo Q pd (fin 1) (inTeV m.Etrans.phys))) :
    m.spectrum Q pd (.array es) = .ok (es.map (fun e => fin m.nh.phys *
      (if m.Etrans.phys ≤ e then fullCalc Q pd e else matchedDelta Q pd m.Etrans.phys e))) ∧
    matchedDelta Q pd m.Etrans.phys m.Etrans.phys = fullCalc Q pd m.Etrans.phys := by
  obtain ⟨f, hf0, ef⟩ := hf
  obtain ⟨d, hd0, ed⟩ := hd
  have hn : m.nhat Q pd es = fin (f / d) := by
    unfold KelnerModel.nhat
    rw [if_pos ⟨hlo, hhi⟩]
    unfold inTeV at ef ed
    simp only [ef, ed]
    rw [div_fin _ _ hd0.ne', mul_fin, one_mul]
  constructor
  · unfold KelnerModel.spectrum
    simp only [hu, ne_eq, not_true_eq_false, and_false, if_false]
    congr 1
    apply List.map_congr_left
    intro e _
    unfold KelnerModel.at
    by_cases c : m.Etrans.phys ≤ e
    · simp only [c, if_true]; rfl
    · simp only [c, if_false]
      rw [hn, kLo_nhat Q hQ pd _ (by positivity)]
      unfold matchedDelta
      rw [ef, ed, div_fin _ _ hd0.ne']
      rfl
  · unfold matchedDelta fullCalc
    rw [ef, ed, div_fin _ _ hd0.ne', mul_fin, div_mul_cancel₀ _ hd0.ne']

/-- **C13 (density).** The spectrum is proportional to the target density, for every quadrature. -/
theorem C13_density_linear (Q : Quad) (m m' : KelnerModel) (pd : PDist) (c : ℝ) (hc : 0 < c)
    (he : m'.Etrans = m.Etrans) (hn : m'.nh.phys = c * m.nh.phys) (r : EneReq) :
    ScaledOutcome c (m.spectrum Q pd r) (m'.spectrum Q pd r) := by
  unfold ScaledOutcome
  have h1 : ∀ es, m'.nhat Q pd es = m.nhat Q pd es := by
    intro es; unfold KelnerModel.nhat; rw [he]
  have h2 : ∀ n e, m'.at Q pd n e = m.at Q pd n e := by
    intro n e; unfold KelnerModel.at; rw [he]
  cases r with
  | scalar e => rfl
  | array es =>
    unfold KelnerModel.spectrum
    by_cases c' : es ≠ [] ∧ pd.unit.dim ≠ Dim.diffEnergy
    · simp only [if_pos c']; rfl
    · simp only [if_neg c', Except.map, List.map_map]
      congr 1
      apply List.map_congr_left
      intro e _
      simp only [Function.comp_apply]
      rw [h1, h2, hn, ← mul_fin, scale_mul c hc]

/-- **C08 (PionDecayKelner06).** Multiplying the proton distribution by any `c > 0` multiplies spectrum
and `Wp` by exactly `c`: the rescaling of the delta approximation does not change. -/
theorem C08_kelner (Q : Quad) (hQ : Homogeneous Q) (m : KelnerModel) (c : ℝ) (hc : 0 < c)
    (pd pd' : PDist) (h : Renormalised c pd pd') (r : EneReq) :
    ScaledOutcome c (m.spectrum Q pd r) (m.spectrum Q pd' r) ∧
    kWp Q pd' = fin c * kWp Q pd := by
  rw [h.eq]
  have hHi : ∀ eg, kHi Q (pd.scale c) eg = fin c * kHi Q pd eg := by
    intro eg
    unfold kHi
    rw [funext (kPhoton_scale pd c hc eg), hQ c hc, mul_left_swap c hc]
  have hLo : ∀ n eg, kLo Q (pd.scale c) n eg = fin c * kLo Q pd n eg := by
    intro n eg
    unfold kLo
    rw [funext (kDelta_scale pd c hc n), hQ c hc, mul_left_swap c hc]
  have hn : ∀ es, m.nhat Q (pd.scale c) es = m.nhat Q pd es := by
    intro es
    unfold KelnerModel.nhat
    by_cases c' : (∃ e ∈ es, e < m.Etrans.phys) ∧ (∃ e ∈ es, m.Etrans.phys ≤ e)
    · simp only [if_pos c']
      rw [hHi, hLo, scale_ratio c hc]
    · simp only [if_neg c']
  constructor
  · unfold ScaledOutcome
    cases r with
    | scalar e => rfl
    | array es =>
      unfold KelnerModel.spectrum
      have hu : (pd.scale c).unit = pd.unit := rfl
      rw [hu]
      by_cases c' : es ≠ [] ∧ pd.unit.dim ≠ Dim.diffEnergy
      · simp only [if_pos c']; rfl
      · simp only [if_neg c', Except.map, List.map_map]
        congr 1
        apply List.map_congr_left
        intro e _
        simp only [Function.comp_apply]
        rw [hn]
        have : m.at Q (pd.scale c) (m.nhat Q pd es) e = fin c * m.at Q pd (m.nhat Q pd es) e := by
          unfold KelnerModel.at
          by_cases c'' : m.Etrans.phys ≤ e
          · simp only [if_pos c'', hHi]
          · simp only [if_neg c'', hLo]
        rw [this, scale_mul c hc, mul_left_swap c hc]
  · unfold kWp
    have : (fun x => fin x * kDist (pd.scale c) x) = fun x => fin c * (fin x * kDist pd x) := by
      funext x
      rw [kDist_scale _ _ hc, mul_left_swap c hc]
    rw [this, hQ c hc, scale_mul c hc]

/-! ### C12 -/

/-- **C12 for PionDecayKelner06 (partial).** If all energies of a request are on the same side of
`Etrans`, the value at each position is the one returned for that energy alone; values at and above
`Etrans` never depend on the other energies. Missing from the full property: energies below `Etrans`
in requests with energies on both sides, see `C12_false_kelner`. -/
theorem C12_kelner_partial (Q : Quad) (m : KelnerModel) (pd : PDist) (es : List ℝ) (out : List XR)
    (h : m.spectrum Q pd (.array es) = .ok out) (i : ℕ) (e : ℝ) (v : XR) (he : es[i]? = some e)
    (hv : out[i]? = some v)
    (hside : (∀ e ∈ es, m.Etrans.phys ≤ e) ∨ (∀ e ∈ es, e < m.Etrans.phys) ∨ m.Etrans.phys ≤ e) :
    m.spectrum Q pd (.array [e]) = .ok [v] := by
  have hmem : e ∈ es := List.mem_of_getElem? he
  unfold KelnerModel.spectrum at h ⊢
  by_cases c : es ≠ [] ∧ pd.unit.dim ≠ Dim.diffEnergy
  · simp only [if_pos c] at h; cases h
  · have hu : pd.unit.dim = Dim.diffEnergy := by
      by_contra hu
      exact c ⟨List.ne_nil_of_mem hmem, hu⟩
    simp only [if_neg c, Except.ok.injEq] at h
    subst h
    rw [List.getElem?_map, he] at hv
    simp only [Option.map_some, Option.some.injEq] at hv
    simp only [hu, ne_eq, not_true_eq_false, and_false, if_false, List.map_cons, List.map_nil]
    rw [← hv]
    congr 4
    -- one energy is on one side only
    have h1 : m.nhat Q pd [e] = fin 1 := by
      unfold KelnerModel.nhat
      rw [if_neg]
      rintro ⟨⟨a, ha, hlt⟩, ⟨b, hb, hge⟩⟩
      simp only [List.mem_singleton] at ha hb
      subst ha; subst hb
      linarith
    by_cases hE : m.Etrans.phys ≤ e
    · unfold KelnerModel.at; rw [if_pos hE, if_pos hE]
    · have h2 : m.nhat Q pd es = fin 1 := by
        unfold KelnerModel.nhat
        rw [if_neg]
        rintro ⟨⟨a, ha, hlt⟩, ⟨b, hb, hge⟩⟩
        rcases hside with hs | hs | hs
        · exact hE (hs e hmem)
        · linarith [hs b hb]
        · exact hE hs
      rw [h1, h2]

/-- **C12 fails for PionDecayKelner06.** Whenever the two calculations differ at `Etrans`, the value at
every energy below `Etrans` (where the delta approximation is a positive number) changes if the same
request also contains an energy at or above `Etrans`. -/
theorem C12_false_kelner (Q : Quad) (hQ : Homogeneous Q) (m : KelnerModel) (pd : PDist)
    (hu : pd.unit.dim = Dim.diffEnergy) (hnh : 0 < m.nh.phys) (e e' : ℝ) (he : e < m.Etrans.phys)
    (he' : m.Etrans.phys ≤ e') (hf : Positive (kHi Q pd (inTeV m.Etrans.phys)))
    (hd : Positive (kLo Q pd (fin 1) (inTeV m.Etrans.phys)))
    (hde : Positive (kLo Q pd (fin 1) (inTeV e)))
    (hne : kHi Q pd (inTeV m.Etrans.phys) ≠ kLo Q pd (fin 1) (inTeV m.Etrans.phys)) :
    ∃ v w w', m.spectrum Q pd (.array [e]) = .ok [v] ∧
      m.spectrum Q pd (.array [e, e']) = .ok [w, w'] ∧ w ≠ v := by
  have hmat := (C13_matched_partial Q hQ m pd hu [e, e'] ⟨e, by simp, he⟩ ⟨e', by simp, he'⟩ hf hd).1
  obtain ⟨f, hf0, ef⟩ := hf
  obtain ⟨d, hd0, ed⟩ := hd
  obtain ⟨x, hx0, ex⟩ := hde
  rw [ef, ed] at hne
  refine ⟨fin (m.nh.phys * (x * 1e-12)), _, _, ?_, hmat, ?_⟩
  · unfold KelnerModel.spectrum
    simp only [hu, ne_eq, not_true_eq_false, and_false, if_false, List.map_cons, List.map_nil]
    congr 2
    have h1 : m.nhat Q pd [e] = fin 1 := by
      unfold KelnerModel.nhat
      rw [if_neg]
      rintro ⟨_, ⟨b, hb, hge⟩⟩
      simp only [List.mem_singleton] at hb
      subst hb
      linarith
    rw [h1]
    unfold KelnerModel.at
    rw [if_neg (by linarith)]
    unfold inTeV at ex
    rw [ex]; rfl
  · simp only [if_neg (not_le.2 he)]
    unfold matchedDelta
    rw [ef, ed, ex, div_fin _ _ hd0.ne', mul_fin, mul_fin, mul_fin, ne_eq, fin_inj]
    intro h
    apply hne
    have h2 : f / d * x * 1e-12 = x * 1e-12 := mul_left_cancel₀ hnh.ne' h
    have h3 : f / d = 1 := by
      have : f / d * x = x := by linarith
      field_simp at this
      field_simp
      linarith
    rw [fin_inj]
    field_simp at h3
    exact h3

/-- **C12 fails for scalar requests.** -/
theorem C12_false_kelner_scalar (Q : Quad) (m : KelnerModel) (pd : PDist) (e : ℝ) :
    m.spectrum Q pd (.scalar e) = .error .typeError := rfl

/-! ### C62 -/

/-- **C62 (cross section).** The inelastic cross section is a positive number above the threshold of
1.22 GeV and exactly zero at and below it. -/
theorem C62_cross_section (Ep : ℝ) (h : 0 < Ep) :
    (1.22e-3 < Ep → 0 < kSigma Ep) ∧ (Ep ≤ 1.22e-3 → kSigma Ep = 0) := kSigma_facts Ep h

/-- **C62 (photons per collision).** The number of photons per collision is a positive number at every
proton energy and every fraction `0 < x < 1` of it, although it is a product of two negative factors
that have poles at 0 and 1. -/
theorem C62_photons_per_collision (x Ep : ℝ) (hx : 0 < x) (hx1 : x < 1) :
    Positive (kFgamma x Ep) := kFgamma_pos x Ep hx hx1

/-- What is assumed of the quadrature for signs: a finite non-negative integrand on the (open) range has
a finite non-negative integral. -/
def Monotone (Q : Quad) : Prop :=
  ∀ f a, (∀ b, (∀ x, a < x → x < b → FiniteNonneg (f x)) → FiniteNonneg (Q f a (some b))) ∧
    ((∀ x, a < x → FiniteNonneg (f x)) → FiniteNonneg (Q f a none))

/-- **C62 (spectrum).** For every finite non-negative proton distribution and target density, all
positive photon energies and any quadrature that respects signs, the full calculation and the delta
approximation are finite and non-negative; so are the spectra of requests that do not straddle
`Etrans`, and of those that do if the delta approximation does not vanish at `Etrans`. -/
theorem C62_spectrum_nonneg (Q : Quad) (hQ : Monotone Q) (m : KelnerModel) (pd : PDist)
    (hu : pd.unit.dim = Dim.diffEnergy) (hus : 0 < pd.unit.scale)
    (hpd : ∀ e, 0 < e → FiniteNonneg (pd.f e)) (hnh : 0 ≤ m.nh.phys) (het : 0 < m.Etrans.phys)
    (es : List ℝ) (hes : ∀ e ∈ es, 0 < e)
    (hstr : (∀ e ∈ es, m.Etrans.phys ≤ e) ∨ (∀ e ∈ es, e < m.Etrans.phys) ∨
      kLo Q pd (fin 1) (inTeV m.Etrans.phys) ≠ fin 0) :
    ∃ out, m.spectrum Q pd (.array es) = .ok out ∧ ∀ a ∈ out, FiniteNonneg a := by
  have hT := TeV_pos
  have hC := cC_pos
  have hdist : ∀ E, 0 < E → NN (kDist pd E) := by
    intro E hE
    unfold kDist
    apply NN.mul (hpd _ (by positivity))
    apply NN.fin
    have : 0 < perTeV.scale := by simp only [perTeV]; norm_num
    positivity
  have hHi : ∀ eg, 0 < eg → NN (kHi Q pd eg) := by
    intro eg heg
    unfold kHi
    apply NN.mul (NN.fin hC.le)
    apply (hQ _ _).1
    intro x hx hx1
    unfold kPhoton
    have hq : 0 < eg / x := by positivity
    apply NN.div _ hx
    obtain ⟨r, hr, e⟩ := kFgamma_pos x (eg / x) hx hx1
    rw [e]
    exact NN.mul (NN.mul (NN.fin (kSigma_nonneg _ hq)) (hdist _ hq)) (NN.fin hr.le)
  have hmpi : 0 < kMpi := by unfold kMpi; norm_num
  have hmp : 0 < kMp := by unfold kMp; have := cMp_pos; positivity
  have hLo : ∀ n eg, NN n → 0 < eg → NN (kLo Q pd n eg) := by
    intro n eg hn heg
    unfold kLo
    apply NN.mul (NN.fin (by norm_num))
    apply (hQ _ _).2
    intro x hx
    have hmin : kMpi ≤ eg + kMpi ^ 2 / (4 * eg) := by
      have e : eg + kMpi ^ 2 / (4 * eg) - kMpi = (eg - kMpi / 2) ^ 2 / eg := by field_simp; ring
      have : 0 ≤ (eg - kMpi / 2) ^ 2 / eg := by positivity
      linarith
    have hx0 : kMpi < x := by linarith
    have hrt : 0 < x ^ 2 - kMpi ^ 2 := by nlinarith
    have hE : 0 < kMp + x / 0.17 := by
      have : 0 < x := by linarith
      positivity
    unfold kDelta
    simp only []
    rw [sqrt_fin _ hrt.le]
    apply NN.div _ (Real.sqrt_pos.2 hrt)
    apply NN.mul _ (hdist _ hE)
    apply NN.mul _ (NN.fin (kSigma_nonneg _ hE))
    exact NN.mul (NN.fin hC.le) (NN.div hn (by norm_num))
  have hnhat : NN (m.nhat Q pd es) := by
    unfold KelnerModel.nhat
    by_cases c : (∃ e ∈ es, e < m.Etrans.phys) ∧ (∃ e ∈ es, m.Etrans.phys ≤ e)
    · rw [if_pos c]
      obtain ⟨⟨a, ha, hlt⟩, ⟨b, hb, hge⟩⟩ := c
      have het' : 0 < m.Etrans.phys / PhysUnit.TeV.scale := by positivity
      have hd : kLo Q pd (fin 1) (m.Etrans.phys / PhysUnit.TeV.scale) ≠ fin 0 := by
        rcases hstr with hs | hs | hs
        · linarith [hs a ha]
        · linarith [hs b hb]
        · exact hs
      obtain ⟨r, hr, er⟩ := hLo (fin 1) _ (NN.fin zero_le_one) het'
      simp only []
      rw [er] at hd ⊢
      have hr' : r ≠ 0 := by rintro rfl; exact hd rfl
      exact NN.mul (NN.fin zero_le_one) (NN.div (hHi _ het') (lt_of_le_of_ne hr (Ne.symm hr')))
    · rw [if_neg c]; exact NN.fin zero_le_one
  unfold KelnerModel.spectrum
  simp only [hu, ne_eq, not_true_eq_false, and_false, if_false]
  refine ⟨_, rfl, ?_⟩
  intro a ha
  simp only [List.mem_map] at ha
  obtain ⟨e, he, rfl⟩ := ha
  have he0 := hes e he
  apply NN.mul (NN.fin hnh)
  apply NN.mul _ (NN.fin (by norm_num))
  unfold KelnerModel.at
  by_cases c : m.Etrans.phys ≤ e
  · rw [if_pos c]; exact hHi _ (by positivity)
  · rw [if_neg c]; exact hLo _ _ hnhat (by positivity)

/-! ### Non-vacuity -/

/-- A one-point rule: homogeneous and sign-respecting. -/
noncomputable def onePoint : Quad := fun f a b =>
  match b with
  | some b => if a < b then fin (b - a) * f ((a + b) / 2) else fin 0
  | none => f (a + 1)

theorem onePoint_homogeneous : Homogeneous onePoint := by
  intro c hc f a b
  cases b with
  | none => rfl
  | some b =>
    simp only [onePoint]
    by_cases h : a < b
    · rw [if_pos h, if_pos h, mul_left_swap c hc]
    · rw [if_neg h, if_neg h]; simp

theorem onePoint_monotone : Monotone onePoint := by
  intro f a
  constructor
  · intro b hf
    simp only [onePoint]
    by_cases h : a < b
    · rw [if_pos h]
      exact NN.mul (NN.fin (by linarith)) (hf _ (by linarith) (by linarith))
    · rw [if_neg h]; exact ⟨0, le_rfl, rfl⟩
  · intro hf
    exact hf _ (by linarith)

/-- The exact (Lebesgue) integral meets both assumptions as well. -/
noncomputable def exactQuad : Quad := fun f a b =>
  let S : Set ℝ := match b with
    | some b => Set.Ioo a b
    | none => Set.Ioi a
  if ∀ x ∈ S, IsFin (f x) then fin (∫ x in S, (f x).toReal) else nan

theorem exactQuad_homogeneous : Homogeneous exactQuad := by
  intro c hc f a b
  unfold exactQuad
  simp only []
  generalize (match b with | some b => Set.Ioo a b | none => Set.Ioi a : Set ℝ) = S
  have h1 : ∀ x, IsFin (fin c * f x) ↔ IsFin (f x) := by
    intro x
    cases f x <;> simp [IsFin, mul_def, XR.mul, infMul, hc, hc.le]
    · simp [not_lt.2 hc.le]
  simp only [h1]
  by_cases h : ∀ x ∈ S, IsFin (f x)
  · rw [if_pos h, if_pos h, mul_fin, fin_inj, ← MeasureTheory.integral_const_mul]
    congr 1
    funext x
    cases f x <;> simp [mul_def, XR.mul, infMul, hc, toReal]
    · simp [not_lt.2 hc.le]
  · rw [if_neg h, if_neg h]; rfl

theorem exactQuad_monotone : Monotone exactQuad := by
  have key : ∀ (f : ℝ → XR) (S : Set ℝ), MeasurableSet S → (∀ x ∈ S, FiniteNonneg (f x)) →
      FiniteNonneg (if ∀ x ∈ S, IsFin (f x) then fin (∫ x in S, (f x).toReal) else nan) := by
    intro f S hm hf
    rw [if_pos (by intro x hx; obtain ⟨r, _, e⟩ := hf x hx; rw [e]; trivial)]
    refine ⟨_, ?_, rfl⟩
    apply MeasureTheory.setIntegral_nonneg hm
    intro x hx
    obtain ⟨r, hr, e⟩ := hf x hx
    rw [e]; exact hr
  intro f a
  constructor
  · intro b hf
    exact key f (Set.Ioo a b) measurableSet_Ioo (fun x hx => hf x hx.1 hx.2)
  · intro hf
    exact key f (Set.Ioi a) measurableSet_Ioi (fun x hx => hf x hx)

/-- All hypotheses of the matching and of its counterexample are met: with some positive proton
distribution, `Etrans = 0.1 TeV` and the one-point rule, both calculations are positive and differ. -/
example : ∃ (m : KelnerModel) (pd : PDist) (e e' : ℝ), pd.unit.dim = Dim.diffEnergy ∧ 0 < m.nh.phys ∧
    e < m.Etrans.phys ∧ m.Etrans.phys ≤ e' ∧ (∀ e, 0 < e → FiniteNonneg (pd.f e)) ∧
    Positive (kHi onePoint pd (inTeV m.Etrans.phys)) ∧
    Positive (kLo onePoint pd (fin 1) (inTeV m.Etrans.phys)) ∧
    Positive (kLo onePoint pd (fin 1) (inTeV e)) ∧
    kHi onePoint pd (inTeV m.Etrans.phys) ≠ kLo onePoint pd (fin 1) (inTeV m.Etrans.phys) := by
  have hT := TeV_pos
  have hC := cC_pos
  have hP : 0 < perTeV.scale := by simp only [perTeV]; norm_num
  have hmpi : 0 < kMpi := by unfold kMpi; norm_num
  have hmp : 0 < kMp := by unfold kMp; have := cMp_pos; positivity
  -- the distribution: `s` up to 0.5 TeV, 1 above
  let pd : ℝ → PDist := fun s => ⟨⟨1, Dim.diffEnergy⟩,
    fun e => if e ≤ 0.5 * PhysUnit.TeV.scale then fin s else fin 1⟩
  have hd1 : ∀ s E, E ≤ 0.5 → kDist (pd s) E = fin (s * (1 / perTeV.scale)) := by
    intro s E hE
    unfold kDist
    simp only [pd]
    rw [if_pos (by nlinarith), mul_fin]
  have hd2 : ∀ s E, 0.5 < E → kDist (pd s) E = fin (1 * (1 / perTeV.scale)) := by
    intro s E hE
    unfold kDist
    simp only [pd]
    rw [if_neg (by nlinarith), mul_fin]
  obtain ⟨F, hF, eF⟩ := kFgamma_pos (1 / 2) (0.1 / (1 / 2)) (by norm_num) (by norm_num)
  have hs2 : 0 < kSigma (0.1 / (1 / 2)) := (kSigma_facts _ (by norm_num)).1 (by norm_num)
  set A := cC * (kSigma (0.1 / (1 / 2)) * (1 / perTeV.scale) * F / (1 / 2)) with hA
  have hA0 : 0 < A := by positivity
  have hHi : ∀ s, kHi onePoint (pd s) 0.1 = fin (s * A) := by
    intro s
    unfold kHi onePoint
    simp only [zero_lt_one, if_true, zero_add, sub_zero]
    unfold kPhoton
    rw [eF, hd1 s _ (by norm_num), mul_fin, mul_fin, div_fin _ _ (by norm_num), mul_fin, mul_fin,
      fin_inj, hA]
    ring
  have hLo : ∀ eg, 0 < eg → ∃ d, 0 < d ∧ (∀ (s' : ℝ), kLo onePoint (pd s') (fin 1) eg = fin d) := by
    intro eg heg
    have hx : 0 < kMpi ^ 2 / (4 * eg) := by positivity
    set x := eg + kMpi ^ 2 / (4 * eg) + 1 with hxdef
    have hx1 : 1 < x := by linarith
    have hk1 : kMpi < 1 := by unfold kMpi; norm_num
    have hrt : 0 < x ^ 2 - kMpi ^ 2 := by nlinarith
    have hE : 1 < kMp + x / 0.17 := by
      have : 1 < x / 0.17 := by rw [lt_div_iff₀ (by norm_num)]; linarith
      linarith
    have hs : 0 < kSigma (kMp + x / 0.17) := (kSigma_facts _ (by linarith)).1 (by norm_num; linarith)
    refine ⟨2 * (cC * (1 / 0.17) * kSigma (kMp + x / 0.17) * (1 * (1 / perTeV.scale)) /
      Real.sqrt (x ^ 2 - kMpi ^ 2)), ?_, ?_⟩
    · have := Real.sqrt_pos.2 hrt
      positivity
    · intro s'
      unfold kLo onePoint
      simp only []
      rw [← hxdef]
      unfold kDelta
      simp only []
      rw [sqrt_fin _ hrt.le, hd2 s' _ (by linarith), div_fin _ _ (by norm_num), mul_fin, mul_fin, mul_fin,
        div_fin _ _ (Real.sqrt_pos.2 hrt).ne', mul_fin]
  obtain ⟨d, hd0, ed⟩ := hLo 0.1 (by norm_num)
  obtain ⟨d', hd0', ed'⟩ := hLo 0.01 (by norm_num)
  have hsel : ∃ s, 0 < s ∧ s * A ≠ d := by
    by_cases h : 1 * A = d
    · exact ⟨2, by norm_num, by rw [← h]; nlinarith⟩
    · exact ⟨1, one_pos, h⟩
  obtain ⟨s, hs0, hsne⟩ := hsel
  have hinv : ∀ a, inTeV (a * PhysUnit.TeV.scale) = a := by
    intro a; unfold inTeV; field_simp
  refine ⟨⟨⟨1, ⟨1, Dim.numDensity⟩⟩, ⟨0.1, PhysUnit.TeV⟩⟩, pd s, 0.01 * PhysUnit.TeV.scale,
    1 * PhysUnit.TeV.scale, rfl, by simp [Qty.phys], ?_, ?_, ?_, ?_, ?_, ?_, ?_⟩
  · simp only [Qty.phys]; nlinarith
  · simp only [Qty.phys]; nlinarith
  · intro e _
    simp only [pd]
    split
    · exact ⟨s, hs0.le, rfl⟩
    · exact ⟨1, zero_le_one, rfl⟩
  · simp only [Qty.phys, hinv]; exact ⟨_, by positivity, hHi s⟩
  · simp only [Qty.phys, hinv]; exact ⟨d, hd0, ed s⟩
  · simp only [hinv]; exact ⟨d', hd0', ed' s⟩
  · simp only [Qty.phys, hinv]
    rw [hHi, ed s, ne_eq, fin_inj]
    exact hsne

end Naima.Props
