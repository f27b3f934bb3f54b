import Verif.Spec.Kelner
import Verif.Props.C13_Kelner
import Verif.Props.C73_PionFormula
import Mathlib.MeasureTheory.Integral.IntervalIntegral.FundThmCalculus

/-! # C74: the spectrum of PionDecayKelner06 is that of Kelner et al. (2006), with its normalisation -/

namespace Naima.Props

open Naima XR Classical

/-- The photon spectrum per collision of the code is the derivative of the number of photons. -/
theorem above_hasDeriv (x E : ℝ) (hx : 0 < x) (hx1 : x < 1) :
    ∃ r, kFgamma x E = fin r ∧ HasDerivAt (KAB06.above E) r x := by
  set L := Real.log E with hL
  have hb := kBetaInv_pos L
  have hk := kKInv_pos L
  have hlog : Real.log x < 0 := Real.log_neg hx hx1
  unfold kFgamma
  simp only [← hL]
  rw [div_fin _ _ hb.ne', div_fin _ _ hk.ne', pow_fin _ _ hx, log_fin _ hx]
  have eb : 1 / kBetaInv L = KAB06.β L := rfl
  have ek : 1 / kKInv L = KAB06.k L := rfl
  have eB : kB L = KAB06.B L := rfl
  have hb0 : 0 < KAB06.β L := by rw [← eb]; positivity
  have hk0 : 0 < KAB06.k L := by rw [← ek]; positivity
  rw [eb, ek, eB]
  have hd0 : HasDerivAt (fun z : ℝ => z ^ KAB06.β L) (KAB06.β L * x ^ (KAB06.β L - 1)) x :=
    Real.hasDerivAt_rpow_const (Or.inl hx.ne')
  have hpow : x ^ (KAB06.β L - 1) = x ^ KAB06.β L / x := Real.rpow_sub_one hx.ne' _
  rw [hpow] at hd0
  have hy0 : 0 < x ^ KAB06.β L := by positivity
  have hy1 : x ^ KAB06.β L < 1 := Real.rpow_lt_one hx.le hx1 hb0
  have hg : ∀ z, KAB06.above E z = KAB06.B L * Real.log z *
      ((1 - z ^ KAB06.β L) / (1 + KAB06.k L * z ^ KAB06.β L * (1 - z ^ KAB06.β L))) ^ 4 := fun z => rfl
  rw [funext hg]
  set b := KAB06.β L
  set k := KAB06.k L
  have h1y : 0 < 1 - x ^ b := by linarith
  have hd : 0 < 1 + k * x ^ b * (1 - x ^ b) := by positivity
  have hnum : HasDerivAt (fun z : ℝ => 1 - z ^ b) (-(b * (x ^ b / x))) x := by
    simpa using hd0.const_sub 1
  have hden : HasDerivAt (fun z : ℝ => 1 + k * z ^ b * (1 - z ^ b))
      (k * (b * (x ^ b / x)) * (1 - x ^ b) + k * x ^ b * (-(b * (x ^ b / x)))) x :=
    ((hd0.const_mul k).mul hnum).const_add 1
  have hq := (hnum.div hden hd.ne').pow 4
  have hl := (Real.hasDerivAt_log hx.ne').const_mul (KAB06.B L)
  have htot := hl.mul hq
  simp only [mul_fin, sub_fin, add_fin]
  rw [div_fin _ _ hd.ne', pow_fin _ _ (by positivity), div_fin _ _ hx.ne', div_fin _ _ hlog.ne,
    div_fin _ _ h1y.ne', div_fin _ _ hd.ne']
  simp only [mul_fin, sub_fin]
  refine ⟨_, rfl, ?_⟩
  refine htot.congr_deriv ?_
  have e4 : ∀ y : ℝ, y ^ (4 : ℝ) = y ^ 4 := fun y => by
    rw [show (4 : ℝ) = ((4 : ℕ) : ℝ) by norm_num, Real.rpow_natCast]
  rw [e4]
  simp only [Pi.div_apply, Pi.pow_apply, Nat.cast_ofNat, Nat.add_one_sub_one]
  generalize x ^ b = y at *
  generalize Real.log x = l at *
  have hl0 : l ≠ 0 := hlog.ne
  have hx0 := hx.ne'
  have h1 := h1y.ne'
  have h2 := hd.ne'
  clear hd0 hpow hq htot hnum hden hl
  generalize 1 + k * y * (1 - y) = D at *
  have h12 : 1 - 2 * y = (1 - y) - y := by ring
  rw [h12]
  generalize 1 - y = w at *
  field_simp
  ring

theorem kFgamma_eq (x E : ℝ) (hx : 0 < x) (hx1 : x < 1) : kFgamma x E = fin (KAB06.F x E) := by
  obtain ⟨r, h, hd⟩ := above_hasDeriv x E hx hx1
  rw [h]; unfold KAB06.F; rw [hd.deriv]

theorem kSigma_eq (E : ℝ) (hE : 0 < E) : kSigma E = KAB06.σinel E := by
  unfold KAB06.σinel
  by_cases c : E ≤ 1.22e-3
  · rw [if_pos c, (kSigma_facts E hE).2 c]
  · rw [if_neg c]
    push Not at c
    unfold kSigma
    by_cases c1 : E ≤ 0.1
    · have hh : kHeaviside (E - 1.22e-3) = 1 := by
        unfold kHeaviside; rw [sign_pos (by linarith)]; norm_num
      simp only [if_pos c1, hh, mul_one]
    · simp only [if_neg c1, mul_one]

/-- What is assumed of the quadrature: its result depends on the integrand inside the interval only
(Gauss-Kronrod rules do not evaluate the end points). -/
def Interior (Q : Quad) : Prop :=
  ∀ f g a, (∀ b, (∀ x, a < x → x < b → f x = g x) → Q f a (some b) = Q g a (some b)) ∧
    ((∀ x, a < x → f x = g x) → Q f a none = Q g a none)

/-- Protons per TeV at an energy in TeV. -/
noncomputable def protonsTeV (pd : PDist) (E : ℝ) : XR :=
  pd.f (E * (1e12 * cEV)) * fin (pd.unit.scale * (1e12 * cEV))

/-- Eq. 72: photons per s and TeV at `E` (TeV), for a target density of 1/cm³. -/
noncomputable def fullSpectrum (Q : Quad) (pd : PDist) (E : ℝ) : XR :=
  fin cC * Q (fun x => fin (KAB06.σinel (E / x)) * protonsTeV pd (E / x) * fin (KAB06.F x (E / x)) /
    fin x) 0 (some 1)

/-- Eqs. 77, 78: the delta approximation with `ñ = n`, in the same units. -/
noncomputable def deltaSpectrum (Q : Quad) (pd : PDist) (n : ℝ) (E : ℝ) : XR :=
  fin 2 * Q (fun ε =>
    fin (cC * (n / KAB06.Kπ) * KAB06.σinel (mProton / 1000 + ε / KAB06.Kπ)) *
      protonsTeV pd (mProton / 1000 + ε / KAB06.Kπ) / fin (Real.sqrt (ε ^ 2 - KAB06.mπ ^ 2)))
    (E + KAB06.mπ ^ 2 / (4 * E)) none

theorem kDist_eq (pd : PDist) (E : ℝ) : kDist pd E = protonsTeV pd E := by
  unfold kDist protonsTeV
  have h : PhysUnit.TeV.scale = 1e12 * cEV := by unfold PhysUnit.TeV cEV; norm_num
  have h2 : pd.unit.scale / perTeV.scale = pd.unit.scale * (1e12 * cEV) := by
    unfold perTeV cEV; norm_num; ring
  rw [h, h2]

theorem kHi_eq (Q : Quad) (hQ : Interior Q) (pd : PDist) (E : ℝ) (hE : 0 < E) :
    kHi Q pd E = fullSpectrum Q pd E := by
  unfold kHi fullSpectrum
  congr 1
  apply (hQ _ _ _).1
  intro x hx hx1
  unfold kPhoton
  rw [kSigma_eq _ (by positivity), kDist_eq, kFgamma_eq x _ hx hx1]

theorem kMp_eq : kMp = mProton / 1000 := by
  unfold kMp mProton PhysUnit.TeV cEV; norm_num; ring

theorem kLo_eq (Q : Quad) (hQ : Interior Q) (pd : PDist) (n : ℝ) (E : ℝ) (hE : 0 < E) :
    kLo Q pd (fin n) E = deltaSpectrum Q pd n E := by
  unfold kLo deltaSpectrum
  congr 1
  apply (hQ _ _ _).2
  intro x hx
  have hmpi : 0 < KAB06.mπ := by unfold KAB06.mπ; norm_num
  have hmin : KAB06.mπ ≤ E + KAB06.mπ ^ 2 / (4 * E) := by
    have e : E + KAB06.mπ ^ 2 / (4 * E) - KAB06.mπ = (E - KAB06.mπ / 2) ^ 2 / E := by field_simp; ring
    have : 0 ≤ (E - KAB06.mπ / 2) ^ 2 / E := by positivity
    linarith
  have hx0 : KAB06.mπ < x := lt_of_le_of_lt hmin hx
  have hrt : 0 < x ^ 2 - KAB06.mπ ^ 2 := by nlinarith
  have hmp : 0 < mProton := by rw [← pM_eq]; exact pM_pos
  have hp : 0 < mProton / 1000 + x / KAB06.Kπ := by
    have : 0 < x := by linarith
    unfold KAB06.Kπ; positivity
  unfold kDelta
  simp only []
  rw [kMp_eq]
  change fin cC * (fin n / fin KAB06.Kπ) * fin (kSigma (mProton / 1000 + x / KAB06.Kπ)) *
    kDist pd (mProton / 1000 + x / KAB06.Kπ) / XR.sqrt (fin (x ^ 2 - KAB06.mπ ^ 2)) = _
  rw [sqrt_fin _ hrt.le, kSigma_eq _ hp, kDist_eq, div_fin _ _ (by unfold KAB06.Kπ; norm_num), mul_fin,
    mul_fin]

/-- **C74 (photons per collision).** At every proton energy and every fraction `0 < x < 1` of it, the
spectrum per collision of the code is eq. 58 of the paper, stated as the derivative of the number of
photons. -/
theorem C74_photons_per_collision (x E : ℝ) (hx : 0 < x) (hx1 : x < 1) :
    kFgamma x E = fin (KAB06.F x E) := kFgamma_eq x E hx hx1

/-- **C74 (number of photons).** Its integral over all fractions above `x` is the closed form
`-B ln(x) ((1 - x^β)/(1 + k x^β (1 - x^β)))⁴`, which is positive. -/
theorem C74_number (E x : ℝ) (hx : 0 < x) (hx1 : x < 1) :
    ∫ t in x..1, KAB06.F t E = -KAB06.above E x ∧ 0 < -KAB06.above E x := by
  have hLb := kBetaInv_pos (Real.log E)
  have hLk := kKInv_pos (Real.log E)
  have hb0 : 0 < KAB06.β (Real.log E) := one_div_pos.2 hLb
  have hk0 : 0 < KAB06.k (Real.log E) := one_div_pos.2 hLk
  have hB0 : 0 < KAB06.B (Real.log E) := kB_pos _
  have hpos : ∀ t, 0 < t → t ≤ 1 → 0 < 1 + KAB06.k (Real.log E) * t ^ KAB06.β (Real.log E) *
      (1 - t ^ KAB06.β (Real.log E)) := by
    intro t h0 h1
    have : t ^ KAB06.β (Real.log E) ≤ 1 := Real.rpow_le_one h0.le h1 hb0.le
    have : 0 ≤ 1 - t ^ KAB06.β (Real.log E) := by linarith
    positivity
  constructor
  · have hone : KAB06.above E 1 = 0 := by simp [KAB06.above]
    have hcont : ContinuousOn (KAB06.above E) (Set.Icc x 1) := by
      have hp : ContinuousOn (fun t : ℝ => t ^ KAB06.β (Real.log E)) (Set.Icc x 1) := by
        apply ContinuousOn.rpow_const continuousOn_id
        intro t ht; left; simp only [id]; linarith [ht.1]
      unfold KAB06.above
      apply ContinuousOn.mul
      · apply ContinuousOn.mul continuousOn_const
        apply ContinuousOn.log continuousOn_id
        intro t ht; simp only [id]; linarith [ht.1]
      · apply ContinuousOn.pow
        apply ContinuousOn.div
        · exact continuousOn_const.sub hp
        · exact continuousOn_const.add ((continuousOn_const.mul hp).mul (continuousOn_const.sub hp))
        · intro t ht; exact (hpos t (by linarith [ht.1]) ht.2).ne'
    have hder : ∀ t ∈ Set.Ioo x 1, HasDerivAt (KAB06.above E) (KAB06.F t E) t := by
      intro t ht
      obtain ⟨r, _, hd⟩ := above_hasDeriv t E (by linarith [ht.1]) ht.2
      unfold KAB06.F
      rwa [hd.deriv]
    have hnn : ∀ t ∈ Set.Ioo x 1, 0 ≤ KAB06.F t E := by
      intro t ht
      obtain ⟨r, hr, e⟩ := kFgamma_pos t E (by linarith [ht.1]) ht.2
      rw [kFgamma_eq t E (by linarith [ht.1]) ht.2, fin_inj] at e
      rw [e]; exact hr.le
    have hint : IntervalIntegrable (fun t => KAB06.F t E) MeasureTheory.volume x 1 := by
      rw [intervalIntegrable_iff_integrableOn_Ioc_of_le hx1.le]
      exact intervalIntegral.integrableOn_deriv_of_nonneg hcont hder hnn
    rw [intervalIntegral.integral_eq_sub_of_hasDerivAt_of_le hx1.le hcont hder hint, hone]
    ring
  · have hlog : Real.log x < 0 := Real.log_neg hx hx1
    have hy1 : x ^ KAB06.β (Real.log E) < 1 := Real.rpow_lt_one hx.le hx1 hb0
    have hd := hpos x hx hx1.le
    have h1 : 0 < 1 - x ^ KAB06.β (Real.log E) := by linarith
    have hq : 0 < ((1 - x ^ KAB06.β (Real.log E)) / (1 + KAB06.k (Real.log E) *
      x ^ KAB06.β (Real.log E) * (1 - x ^ KAB06.β (Real.log E)))) ^ 4 := by positivity
    have : 0 < KAB06.B (Real.log E) * (-Real.log x) := mul_pos hB0 (by linarith)
    have := mul_pos this hq
    unfold KAB06.above
    simp only []
    linarith

/-- **C74 (spectrum).** For every proton distribution, target density, transition energy and positive
photon energies, and every quadrature that only looks inside the interval: the spectrum, in 1/(s eV), is
`n_h` times eq. 72 at and above `Etrans`; below it, the delta approximation with `ñ = 1` if no energy of
the request is at or above `Etrans`. (Requests on both sides: `C13_matched_partial`.) -/
theorem C74_spectrum (Q : Quad) (hQ : Interior Q) (m : KelnerModel) (pd : PDist)
    (hu : pd.unit.dim = Dim.diffEnergy) (es : List ℝ) (hes : ∀ e ∈ es, 0 < e) :
    ((∀ e ∈ es, m.Etrans.phys ≤ e) → m.spectrum Q pd (.array es) = .ok (es.map (fun e =>
      fin m.nh.phys * (fullSpectrum Q pd (e / (1e12 * cEV)) * fin 1e-12)))) ∧
    ((∀ e ∈ es, e < m.Etrans.phys) → m.spectrum Q pd (.array es) = .ok (es.map (fun e =>
      fin m.nh.phys * (deltaSpectrum Q pd 1 (e / (1e12 * cEV)) * fin 1e-12)))) := by
  have hT := TeV_pos
  have h : PhysUnit.TeV.scale = 1e12 * cEV := by unfold PhysUnit.TeV cEV; norm_num
  unfold KelnerModel.spectrum
  simp only [hu, ne_eq, not_true_eq_false, and_false, if_false]
  constructor
  · intro hs
    congr 1
    apply List.map_congr_left
    intro e he
    unfold KelnerModel.at
    rw [if_pos (hs e he), kHi_eq Q hQ pd _ (div_pos (hes e he) hT), h]
  · intro hs
    have hn : m.nhat Q pd es = fin 1 := by
      unfold KelnerModel.nhat
      rw [if_neg]
      rintro ⟨_, ⟨b, hb, hge⟩⟩
      linarith [hs b hb]
    congr 1
    apply List.map_congr_left
    intro e he
    unfold KelnerModel.at
    rw [if_neg (not_le.2 (hs e he)), hn, kLo_eq Q hQ pd _ _ (div_pos (hes e he) hT), h]

/-- The exact integral only looks inside the interval. -/
theorem exactQuad_interior : Interior exactQuad := by
  have key : ∀ (f g : ℝ → XR) (S : Set ℝ), MeasurableSet S → (∀ x ∈ S, f x = g x) →
      (if ∀ x ∈ S, IsFin (f x) then fin (∫ x in S, (f x).toReal) else nan) =
      (if ∀ x ∈ S, IsFin (g x) then fin (∫ x in S, (g x).toReal) else nan) := by
    intro f g S hS hfg
    have h1 : (∀ x ∈ S, IsFin (f x)) ↔ (∀ x ∈ S, IsFin (g x)) := by
      constructor <;> intro h x hx
      · rw [← hfg x hx]; exact h x hx
      · rw [hfg x hx]; exact h x hx
    simp only [h1]
    by_cases c : ∀ x ∈ S, IsFin (g x)
    · rw [if_pos c, if_pos c, MeasureTheory.setIntegral_congr_fun hS (fun x hx => by
        show (f x).toReal = (g x).toReal
        rw [hfg x hx])]
    · rw [if_neg c, if_neg c]
  intro f g a
  constructor
  · intro b h
    exact key f g (Set.Ioo a b) measurableSet_Ioo (fun x hx => h x hx.1 hx.2)
  · intro h
    exact key f g (Set.Ioi a) measurableSet_Ioi (fun x hx => h x hx)

/-- Non-vacuity: with the exact integral, for the default transition energy of 0.1 TeV and a power law,
energies on either side. -/
example : ∃ (m : KelnerModel) (pd : PDist), Interior exactQuad ∧ pd.unit.dim = Dim.diffEnergy ∧
    m.Etrans.phys = 0.1 * PhysUnit.TeV.scale ∧ (∀ e ∈ [PhysUnit.TeV.scale], m.Etrans.phys ≤ e) ∧
    (∀ e ∈ [PhysUnit.GeV.scale], e < m.Etrans.phys) := by
  refine ⟨⟨⟨1, ⟨1, Dim.numDensity⟩⟩, ⟨0.1, PhysUnit.TeV⟩⟩, ⟨perTeV, fun e => fin (e ^ (-2 : ℝ))⟩,
    exactQuad_interior, rfl, rfl, ?_, ?_⟩ <;>
  · intro e he
    simp only [List.mem_singleton] at he
    subst he
    simp only [Qty.phys, PhysUnit.TeV, PhysUnit.GeV]
    norm_num

end Naima.Props
