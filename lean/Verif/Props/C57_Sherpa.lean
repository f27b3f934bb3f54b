import Verif.Model.Sherpa
import Verif.Proof.Electron
import Verif.Props.C14_Synchrotron
import Verif.Props.C15_ICKernel
import Verif.Props.C17_C18_Brems
import Verif.Props.C19_C20_Pion
import Verif.Props.C22_C24_Models
import Verif.Props.C27_C28_Validator

/-! # C57: the Sherpa models

`photonFlux lut k p x` is the differential flux of the model at the single energy `x` keV. -/

namespace Naima.Props

open Naima XR Classical

noncomputable section

/-- The bins are contiguous: one upper edge per lower edge, and each upper edge is the next lower
edge. -/
def Contiguous (xlo xhi : List ℝ) : Prop :=
  xlo.length = xhi.length ∧ ∀ (i : ℕ) (a b : ℝ), xhi[i]? = some a → xlo[i + 1]? = some b → a = b

/-- `F` gives, at each of the energies, the flux returned for that energy alone. -/
def SingleFlux (lut : ℝ → ℝ → XR) (k : ShKind) (p : ShPars) (x : ℝ) (v : XR) : Prop :=
  shFlux lut k p [x] = .ok [v]

/-! ### every spectrum is computed energy by energy and is proportional to the distribution -/

/-- The outcome at each energy is that of a request of the energy alone. -/
def Pointwise (S : List ℝ → Except PyErr (List XR)) : Prop :=
  ∀ es out, S es = .ok out → out.length = es.length ∧
    ∀ (i : ℕ) e v, es[i]? = some e → out[i]? = some v → S [e] = .ok [v]

theorem icModel_pointwise (m : ElModel) (arg : SeedsArg) (pd : PDist) :
    Pointwise (icModelSpectrum m arg pd) := by
  intro es out h
  unfold icModelSpectrum at h ⊢
  cases h1 : processInputSeed arg with
  | error e => rw [h1] at h; cases h
  | ok fields =>
    rw [h1] at h
    simp only [bind, Except.bind] at h ⊢
    cases h2 : List.mapM (fun f : String × SeedField => f.2.toNum) fields with
    | error e => rw [h2] at h; cases h
    | ok seeds =>
      rw [h2] at h
      exact C12_inverse_compton m seeds pd es out h

theorem brems_pointwise (m : BremsModel) (hd : m.n0.unit.dim = Dim.numDensity) (pd : PDist) :
    Pointwise (m.spectrum pd) := by
  intro es out h
  by_cases hw : m.wee = 0 ∨ m.wep = 0
  · obtain ⟨x, hx⟩ := (C17_false_weight_zero m pd es hd).1 hw
    rw [hx] at h; cases h
  · push Not at hw
    exact C12_bremsstrahlung m hw.1 hw.2 pd es out h

theorem pionLUT_pointwise (m : PionModel) (pd : PDist) (lut : ℝ → ℝ → XR) :
    Pointwise (m.spectrumLUT pd lut) := by
  intro es out h
  unfold PionModel.spectrumLUT at h ⊢
  cases hg : m.toPrModel.Ep with
  | error x => rw [hg] at h; cases h
  | ok ep =>
    cases hj : m.toPrModel.J pd with
    | error x => rw [hg, hj] at h; cases h
    | ok j =>
      rw [hg, hj] at h
      by_cases hn : es = []
      · simp only [hn, if_true] at h; cases h
      cases hh : m.nh.toReal perCm3 with
      | error x => rw [hh] at h; simp only [hn, if_false] at h; cases h
      | ok nh =>
        rw [hh] at h
        simp only [bind, Except.bind, pure, Except.pure, hn, if_false, Except.ok.injEq] at h
        subst h
        refine ⟨by simp, ?_⟩
        intro i e v he hv
        simp only [List.getElem?_map, he, Option.map_some, Option.some.injEq] at hv
        simp [bind, Except.bind, pure, Except.pure, hv]

theorem shSpectrum_pointwise (lut : ℝ → ℝ → XR) (k : ShKind) (pd : PDist) :
    Pointwise (shSpectrum lut k pd) := by
  cases k with
  | ic a b c d => exact icModel_pointwise _ _ _
  | sync B => intro es out h; exact C12_synchrotron _ pd es out h
  | brems a b c => exact brems_pointwise _ rfl _
  | pion n => exact pionLUT_pointwise _ _ _

theorem icModel_scale (m : ElModel) (arg : SeedsArg) (c : ℝ) (hc : 0 < c) (pd pd' : PDist)
    (h : Renormalised c pd pd') (es : List ℝ) :
    ScaledOutcome c (icModelSpectrum m arg pd es) (icModelSpectrum m arg pd' es) := by
  unfold icModelSpectrum ScaledOutcome
  cases processInputSeed arg with
  | error e => rfl
  | ok fields =>
    simp only [bind, Except.bind]
    cases List.mapM (fun f : String × SeedField => f.2.toNum) fields with
    | error e => rfl
    | ok seeds => exact C08_inverse_compton m seeds c hc pd pd' h es

theorem shSpectrum_scale (lut : ℝ → ℝ → XR) (k : ShKind) (c : ℝ) (hc : 0 < c) (pd pd' : PDist)
    (h : Renormalised c pd pd') (es : List ℝ) (out : List XR)
    (ho : shSpectrum lut k pd es = .ok out) :
    shSpectrum lut k pd' es = .ok (out.map (fun a => fin c * a)) := by
  have key : ∀ r r' : Except PyErr (List XR), ScaledOutcome c r r' → r = .ok out →
      r' = .ok (out.map (fun a => fin c * a)) := by
    intro r r' h1 h2
    rw [h1, h2]; rfl
  cases k with
  | ic a b c' d => exact key _ _ (icModel_scale _ _ c hc pd pd' h es) ho
  | sync B => exact key _ _ (C08_synchrotron _ c hc pd pd' h es) ho
  | brems a b c' =>
    by_cases hw : b = 0 ∨ c' = 0
    · obtain ⟨x, hx⟩ := (C17_false_weight_zero ⟨⟨⟨100, MeV⟩, eemaxDefault, 300⟩, ⟨a, perCm3⟩, b, c'⟩
        pd es rfl).1 hw
      have ho' : BremsModel.spectrum ⟨⟨⟨100, MeV⟩, eemaxDefault, 300⟩, ⟨a, perCm3⟩, b, c'⟩ pd es =
        .ok out := ho
      rw [hx] at ho'; cases ho'
    · push Not at hw
      exact key _ _ (C08_bremsstrahlung ⟨⟨⟨100, MeV⟩, eemaxDefault, 300⟩, ⟨a, perCm3⟩, b, c'⟩
        hw.1 hw.2 c hc pd pd' h es) ho
  | pion n => exact key _ _ (C08_pion_table _ c hc pd pd' h lut es) ho

/-! ### the flux -/

theorem shFlux_ok (lut : ℝ → ℝ → XR) (k : ShKind) (p : ShPars) (xs : List ℝ) (F : List XR)
    (h : shFlux lut k p xs = .ok F) :
    ∃ pd spec, shPdist p = .ok pd ∧
      shSpectrum lut k pd (xs.map (· * keV.scale)) = .ok spec ∧ p.distance ≠ 0 ∧
      F = spec.map (fun s => s / fin (4 * Real.pi * (p.distance * kpc.scale) ^ 2) *
        fin (uFlux.scale / perSCm2KeV.scale)) := by
  unfold shFlux at h
  cases h1 : shPdist p with
  | error e => rw [h1] at h; cases h
  | ok pd =>
    rw [h1] at h
    simp only [bind, Except.bind, fluxOf, energiesErg] at h
    rw [if_pos (by rfl)] at h
    simp only at h
    cases h2 : shSpectrum lut k pd (xs.map (· * keV.scale)) with
    | error e => rw [h2] at h; cases h
    | ok spec =>
      rw [h2] at h
      simp only [DistArg.isZero, DistArg.cm] at h
      by_cases h3 : p.distance = 0
      · simp only [h3, decide_true, if_true, pure, Except.pure, Qty.toArr] at h
        rw [if_neg (by simp [uLum, perSCm2KeV, Dim.diffPower, Dim.diffFlux])] at h
        cases h
      · simp only [h3, decide_false, Bool.false_eq_true, if_false, pure, Except.pure, Qty.toArr] at h
        rw [if_pos (by rfl)] at h
        simp only [show (uFlux.dim = perSCm2KeV.dim) = True from eq_true rfl, if_true,
          Except.ok.injEq, List.map_map] at h
        exact ⟨pd, spec, rfl, h2, h3, h.symm⟩

theorem shFlux_of (lut : ℝ → ℝ → XR) (k : ShKind) (p : ShPars) (xs : List ℝ) (pd : PDist)
    (spec : List XR) (h1 : shPdist p = .ok pd)
    (h2 : shSpectrum lut k pd (xs.map (· * keV.scale)) = .ok spec) (h3 : p.distance ≠ 0) :
    shFlux lut k p xs = .ok (spec.map (fun s => s / fin (4 * Real.pi * (p.distance * kpc.scale) ^ 2) *
        fin (uFlux.scale / perSCm2KeV.scale))) := by
  unfold shFlux
  rw [h1]
  simp only [bind, Except.bind, fluxOf, energiesErg]
  rw [if_pos (by rfl)]
  simp only [h2, DistArg.isZero, DistArg.cm, h3, decide_false, Bool.false_eq_true, if_false, pure,
    Except.pure, Qty.toArr]
  rw [if_pos (by rfl)]
  simp only [show (uFlux.dim = perSCm2KeV.dim) = True from eq_true rfl, if_true, List.map_map]
  rfl

theorem shFlux_pointwise (lut : ℝ → ℝ → XR) (k : ShKind) (p : ShPars) :
    Pointwise (shFlux lut k p) := by
  intro xs F h
  obtain ⟨pd, spec, h1, h2, h3, rfl⟩ := shFlux_ok lut k p xs F h
  obtain ⟨hl, hp⟩ := shSpectrum_pointwise lut k pd _ _ h2
  refine ⟨by simpa using hl, ?_⟩
  intro i x v hx hv
  rw [List.getElem?_map] at hv
  cases hs : spec[i]? with
  | none => rw [hs] at hv; cases hv
  | some s =>
    rw [hs] at hv
    simp only [Option.map_some, Option.some.injEq] at hv
    have := hp i (x * keV.scale) s (by rw [List.getElem?_map, hx]; rfl) hs
    rw [shFlux_of lut k p [x] pd [s] h1 this h3]
    simp [hv]

/-! ### C57 -/

/-- **C57 (own edges, whole band).** For contiguous bins, the photons reported for bin `i` are the
power-law trapezium integral over its own edges of the fluxes at these two edges (each the flux
returned for that energy alone, so no other bin matters); there is one value per bin; and the values
add up to the integral over the whole band, i.e. over all the edges. -/
theorem C57_bins (lut : ℝ → ℝ → XR) (k : ShKind) (p : ShPars) (xlo xhi : List ℝ)
    (hc : Contiguous xlo xhi) (ph : List XR) (h : shCalc lut k p xlo (some xhi) = .ok ph) :
    ph.length = xlo.length ∧
    (∀ (i : ℕ) (a b : ℝ), xlo[i]? = some a → xhi[i]? = some b → ∃ Fa Fb,
      SingleFlux lut k p a Fa ∧ SingleFlux lut k p b Fb ∧
      ph[i]? = some (trapzBin (fin a) (fin b) Fa Fb)) ∧
    ∃ (top : ℝ) (F : List XR), xhi.getLast? = some top ∧ shFlux lut k p (xlo ++ [top]) = .ok F ∧
      XR.sum ph = trapz F ((xlo ++ [top]).map fin) := by
  obtain ⟨hlen, hcont⟩ := hc
  simp only [shCalc, mergex] at h
  cases hl : xhi.getLast? with
  | none => rw [hl] at h; cases h
  | some top =>
    rw [hl] at h
    simp only [bind, Except.bind, pure, Except.pure] at h
    cases hF : shFlux lut k p (xlo ++ [top]) with
    | error e => rw [hF] at h; cases h
    | ok F =>
      rw [hF] at h
      simp only [Except.ok.injEq] at h
      subst h
      obtain ⟨hFl, hFp⟩ := shFlux_pointwise lut k p _ _ hF
      have hz : (((xlo ++ [top]).map fin).zip F).length = xlo.length + 1 := by
        simp [hFl]
      refine ⟨by rw [trapzIntervals_length, hz]; omega, ?_, top, F, rfl, hF, rfl⟩
      intro i a b ha hb
      have hi : i < xlo.length := (List.getElem?_eq_some_iff.1 ha).1
      have ha' : (xlo ++ [top])[i]? = some a := by rw [List.getElem?_append_left hi]; exact ha
      have hb' : (xlo ++ [top])[i + 1]? = some b := by
        by_cases hlast : i + 1 < xlo.length
        · rw [List.getElem?_append_left hlast, List.getElem?_eq_getElem hlast]
          rw [hcont i b _ hb (List.getElem?_eq_getElem hlast)]
        · have hi1 : i + 1 = xlo.length := by omega
          rw [hi1, List.getElem?_append_right (by omega)]
          simp only [Nat.sub_self, List.getElem?_cons_zero]
          rw [List.getLast?_eq_getElem?, ← hlen, ← hi1] at hl
          simp only [Nat.add_sub_cancel] at hl
          rw [← hl, hb]
      have hFa : ∃ Fa, F[i]? = some Fa := ⟨F[i]'(by simp [hFl]; omega), List.getElem?_eq_getElem _⟩
      have hFb : ∃ Fb, F[i + 1]? = some Fb :=
        ⟨F[i + 1]'(by simp [hFl]; omega), List.getElem?_eq_getElem _⟩
      obtain ⟨Fa, hFa⟩ := hFa
      obtain ⟨Fb, hFb⟩ := hFb
      refine ⟨Fa, Fb, hFp i a Fa ha' hFa, hFp (i + 1) b Fb hb' hFb, ?_⟩
      refine trapzIntervals_get _ i (fin a, Fa) (fin b, Fb) ?_ ?_
      · rw [List.getElem?_zip_eq_some]
        exact ⟨by rw [List.getElem?_map, ha']; rfl, hFa⟩
      · rw [List.getElem?_zip_eq_some]
        exact ⟨by rw [List.getElem?_map, hb']; rfl, hFb⟩

/-- **C57 (points).** Without bins, the value at each energy is the flux at that energy alone times
the energy in keV. -/
theorem C57_points (lut : ℝ → ℝ → XR) (k : ShKind) (p : ShPars) (x : List ℝ) (ph : List XR)
    (h : shCalc lut k p x none = .ok ph) :
    ph.length = x.length ∧ ∀ (i : ℕ) (a : ℝ), x[i]? = some a →
      ∃ Fa, SingleFlux lut k p a Fa ∧ ph[i]? = some (Fa * fin a) := by
  unfold shCalc at h
  cases hF : shFlux lut k p x with
  | error e => rw [hF] at h; cases h
  | ok F =>
    rw [hF] at h
    simp only [bind, Except.bind, pure, Except.pure, Except.ok.injEq] at h
    subst h
    obtain ⟨hFl, hFp⟩ := shFlux_pointwise lut k p _ _ hF
    refine ⟨by simp [hFl], ?_⟩
    intro i a ha
    have hi : i < x.length := (List.getElem?_eq_some_iff.1 ha).1
    have hFa : F[i]? = some (F[i]'(by omega)) := List.getElem?_eq_getElem _
    refine ⟨_, hFp i a _ ha hFa, ?_⟩
    rw [List.getElem?_zipWith, hFa, ha]

/-- **C57 fails for bins that are not contiguous.** All upper edges but the last are ignored: whatever
upper edges are given, as long as the last one is the same, the result is the same. -/
theorem C57_false_gaps (lut : ℝ → ℝ → XR) (k : ShKind) (p : ShPars) (xlo xhi xhi' : List ℝ)
    (h : xhi.getLast? = xhi'.getLast?) :
    shCalc lut k p xlo (some xhi) = shCalc lut k p xlo (some xhi') := by
  simp only [shCalc, mergex, h]

/-- A source at distance 0, which the parameter limits allow, gives no fluxes: the luminosity cannot
be converted. -/
theorem C57_false_distance_zero (lut : ℝ → ℝ → XR) (k : ShKind) (p : ShPars) (xlo : List ℝ)
    (xhi : Option (List ℝ)) (hd : p.distance = 0) (ph : List XR) :
    shCalc lut k p xlo xhi ≠ .ok ph := by
  intro h
  unfold shCalc at h
  cases xhi with
  | none =>
    cases hF : shFlux lut k p xlo with
    | error e => rw [hF] at h; cases h
    | ok F => obtain ⟨_, _, _, _, h3, _⟩ := shFlux_ok lut k p _ F hF; exact h3 hd
  | some xhi =>
    cases hm : mergex xlo xhi with
    | error e => simp only [hm] at h; cases h
    | ok xs =>
      simp only [hm, bind, Except.bind] at h
      cases hF : shFlux lut k p xs with
      | error e => rw [hF] at h; cases h
      | ok F => obtain ⟨_, _, _, _, h3, _⟩ := shFlux_ok lut k p _ F hF; exact h3 hd

/-! ### `guess` -/

theorem shPdist_renorm (p : ShPars) (r : ℝ) (hr : 0 < r) (pd : PDist) (h : shPdist p = .ok pd) :
    ∃ pd', shPdist { p with ampl := r * p.ampl } = .ok pd' ∧ Renormalised r pd pd' := by
  unfold shPdist at h ⊢
  cases h1 : validateScalar (.qty (fin p.ref) PhysUnit.TeV) .positive (some [Dim.energy]) with
  | error e => rw [h1] at h; cases h
  | ok w =>
    rw [h1] at h
    simp only [h1, bind, Except.bind, pure, Except.pure] at h ⊢
    have ha : (fin (r * p.ampl * 1e30) : XR) = fin r * fin (p.ampl * 1e30) := by
      rw [mul_fin]; congr 1; ring
    by_cases hz : p.cutoff = 0
    · simp only [hz, if_true, Except.ok.injEq] at h ⊢
      refine ⟨_, rfl, ?_⟩
      subst h
      refine ⟨rfl, fun e => ?_⟩
      simp only [PowerLaw.toPDist, PowerLaw.call, validateEneEV, Qty.toValue]
      rw [if_pos (by rfl), if_pos (by rfl), if_pos (by rfl)]
      simp only [bind, Except.bind, pure, Except.pure, plEval]
      rw [ha, scale_mul r hr]
    · simp only [hz, if_false] at h ⊢
      cases h2 : validateScalar (.qty (fin p.cutoff) PhysUnit.TeV) .positive (some [Dim.energy]) with
      | error e => rw [h2] at h; cases h
      | ok w' =>
        rw [h2] at h
        simp only [Except.ok.injEq] at h ⊢
        refine ⟨_, rfl, ?_⟩
        subst h
        refine ⟨rfl, fun e => ?_⟩
        simp only [ECPL.toPDist, ECPL.call, validateEneEV, Qty.toValue]
        rw [if_pos (by rfl), if_pos (by rfl), if_pos (by rfl), if_pos (by rfl)]
        simp only [bind, Except.bind, pure, Except.pure, ecplEval]
        rw [ha, scale_mul r hr, scale_mul r hr]

theorem shFlux_scale (lut : ℝ → ℝ → XR) (k : ShKind) (p : ShPars) (r : ℝ) (hr : 0 < r)
    (xs : List ℝ) (F : List XR) (h : shFlux lut k p xs = .ok F) :
    shFlux lut k { p with ampl := r * p.ampl } xs = .ok (F.map (fun a => fin r * a)) := by
  obtain ⟨pd, spec, h1, h2, h3, rfl⟩ := shFlux_ok lut k p xs F h
  obtain ⟨pd', h1', hre⟩ := shPdist_renorm p r hr pd h1
  rw [shFlux_of lut k { p with ampl := r * p.ampl } xs pd' _ h1'
    (shSpectrum_scale lut k r hr pd pd' hre _ spec h2) h3]
  simp only [List.map_map]
  congr 1
  refine List.map_congr_left (fun s _ => ?_)
  simp only [Function.comp]
  rw [scale_div r hr, scale_mul r hr]

/-- **C57 (amplitude).** Multiplying the amplitude parameter by `r > 0` multiplies the photons of every
bin (or point) by exactly `r`. -/
theorem C57_amplitude (lut : ℝ → ℝ → XR) (k : ShKind) (p : ShPars) (r : ℝ) (hr : 0 < r)
    (xlo : List ℝ) (xhi : Option (List ℝ)) (ph : List XR) (h : shCalc lut k p xlo xhi = .ok ph) :
    shCalc lut k { p with ampl := r * p.ampl } xlo xhi = .ok (ph.map (fun a => fin r * a)) := by
  unfold shCalc at h ⊢
  cases xhi with
  | none =>
    cases hF : shFlux lut k p xlo with
    | error e => rw [hF] at h; cases h
    | ok F =>
      simp only [hF, bind, Except.bind, pure, Except.pure, Except.ok.injEq] at h
      subst h
      simp only [shFlux_scale lut k p r hr _ F hF, bind, Except.bind, pure, Except.pure]
      rw [List.zipWith_map_left, List.map_zipWith]
      congr 2
      funext a b
      rw [scale_mul r hr]
  | some xhi =>
    cases hm : mergex xlo xhi with
    | error e => simp only [hm] at h; cases h
    | ok xs =>
      simp only [hm, bind, Except.bind] at h ⊢
      cases hF : shFlux lut k p xs with
      | error e => rw [hF] at h; cases h
      | ok F =>
        simp only [hF, pure, Except.pure, Except.ok.injEq] at h
        subst h
        simp only [shFlux_scale lut k p r hr _ F hF, pure, Except.pure]
        rw [← trapzIntervals_scale_y r hr, List.zip_map_right]
        rfl

/-- **C57 (guess).** If the data and the current model have positive integrals over the lower bin
edges, then after `guess` the model's integral is that of the data (whatever the model, for points and
for bins). -/
theorem C57_guess (lut : ℝ → ℝ → XR) (k : ShKind) (p : ShPars) (dep : List XR) (xlo : List ℝ)
    (xhi : Option (List ℝ)) (model : List XR) (obs mod : ℝ) (hobs : 0 < obs) (hmod : 0 < mod)
    (h : shCalc lut k p xlo xhi = .ok model) (h1 : trapz dep (xlo.map fin) = fin obs)
    (h2 : trapz model (xlo.map fin) = fin mod) :
    ∃ (ampl : ℝ) (model' : List XR), shGuess lut k p dep xlo xhi = .ok (fin ampl) ∧
      shCalc lut k { p with ampl := ampl } xlo xhi = .ok model' ∧
      trapz model' (xlo.map fin) = trapz dep (xlo.map fin) := by
  have hr : 0 < obs / mod := div_pos hobs hmod
  refine ⟨obs / mod * p.ampl, model.map (fun a => fin (obs / mod) * a), ?_,
    C57_amplitude lut k p _ hr xlo xhi model h, ?_⟩
  · unfold shGuess
    simp only [h, bind, Except.bind, pure, Except.pure, h1, h2]
    rw [mul_fin, div_fin _ _ hmod.ne']
    congr 2
    ring
  · rw [trapz_scale_y _ hr, h2, h1, mul_fin]
    congr 1
    field_simp

/-- **C57 (particles).** The particle distribution is the power law of the parameters if the cutoff is
0, otherwise the one with exponential cutoff: at an energy of `E` erg, with everything in TeV, and the amplitude
in 1e30 / eV (1 eV = 1.602176634e-12 erg). -/
theorem C57_particles (p : ShPars) (href : 0 < p.ref) (hcut : 0 ≤ p.cutoff) :
    ∃ pd, shPdist p = .ok pd ∧ pd.unit = ⟨1 / 1.602176634e-12, Dim.diffEnergy⟩ ∧ ∀ E : ℝ, 0 < E →
      pd.f E = fin (p.ampl * 1e30 * (E / PhysUnit.TeV.scale / p.ref) ^ (-p.index) *
        (if p.cutoff = 0 then 1 else
          Real.exp (-(E / PhysUnit.TeV.scale / p.cutoff) ^ p.beta))) := by
  have key : ∀ x : ℝ, 0 ≤ x →
      validateScalar (.qty (fin x) PhysUnit.TeV) .positive (some [Dim.energy]) =
        .ok (.qty (fin x) PhysUnit.TeV) := by
    intro x hx
    simp [validateScalar, validatePhysicalType, PhysUnit.TeV, cmpScalar, bind, Except.bind, pure,
      Except.pure, cmpQty, not_lt.2 hx, show ¬ Dim.energy = Dim.one by decide]
  have hT : (0:ℝ) < PhysUnit.TeV.scale := by norm_num [PhysUnit.TeV]
  have hE' : ∀ E : ℝ, 0 < E → Qty.PosEnergy ⟨E, PhysUnit.erg⟩ := fun E hE =>
    ⟨rfl, by norm_num [PhysUnit.erg], hE⟩
  have href' : Qty.PosEnergy ⟨p.ref, PhysUnit.TeV⟩ := ⟨rfl, hT, href⟩
  have hq : ∀ E r : ℝ, Qty.phys ⟨E, PhysUnit.erg⟩ / Qty.phys ⟨r, PhysUnit.TeV⟩ =
      E / PhysUnit.TeV.scale / r := by
    intro E r
    simp only [Qty.phys, PhysUnit.erg, mul_one]
    rw [div_div, mul_comm]
  unfold shPdist
  rw [key _ href.le]
  by_cases hz : p.cutoff = 0
  · simp only [hz, if_true, bind, Except.bind, pure, Except.pure]
    refine ⟨_, rfl, rfl, fun E hE => ?_⟩
    have := C22_power_law (p.ampl * 1e30) p.index ⟨E, PhysUnit.erg⟩ ⟨p.ref, PhysUnit.TeV⟩ (hE' E hE) href'
    rw [hq] at this
    simp only [Qty.lift] at this
    simp only [PowerLaw.toPDist, this, Spec.powerLaw, mul_one]
  · simp only [hz, if_false, bind, Except.bind, pure, Except.pure, key _ hcut]
    refine ⟨_, rfl, rfl, fun E hE => ?_⟩
    have hc' : Qty.PosEnergy ⟨p.cutoff, PhysUnit.TeV⟩ := ⟨rfl, hT, lt_of_le_of_ne hcut (Ne.symm hz)⟩
    have := C22_exponential_cutoff_power_law (p.ampl * 1e30) p.index p.beta ⟨E, PhysUnit.erg⟩
      ⟨p.ref, PhysUnit.TeV⟩ ⟨p.cutoff, PhysUnit.TeV⟩ (hE' E hE) href' hc'
    rw [hq, hq] at this
    simp only [Qty.lift] at this
    simp only [ECPL.toPDist, this, Spec.ecpl, Spec.powerLaw]

/-- A concrete case: a synchrotron source with the default parameters of the Sherpa model, binned in
1-2 and 2-5 keV, meets the hypotheses of the theorems above (contiguous bins; photons are computed). -/
example (lut : ℝ → ℝ → XR) : Contiguous [1, 2] [2, 5] ∧
    ∃ ph, shCalc lut (.sync 1) ⟨2.1, 60, 100, 0, 1, 1⟩ [1, 2] (some [2, 5]) = .ok ph := by
  have hcE : (0:ℝ) < cEV := cEV_pos
  refine ⟨⟨rfl, ?_⟩, ?_⟩
  · intro i a b ha hb
    match i with
    | 0 => simp at ha hb; rw [← ha, ← hb]
    | 1 => simp at hb
    | i + 2 => simp at hb
  · obtain ⟨pd, hpd, hu, hf⟩ := C57_particles ⟨2.1, 60, 100, 0, 1, 1⟩ (by norm_num) (by norm_num)
    have hT : (0:ℝ) < PhysUnit.TeV.scale := by norm_num [PhysUnit.TeV]
    obtain ⟨out, ho, -⟩ := C14_nonneg_partial ⟨⟨⟨1, PhysUnit.GeV⟩, eemaxDefault, 100⟩, ⟨1, gauss⟩⟩ pd
      (by rw [hu]) (by rw [hu]; norm_num)
      (fun e he => ⟨_, by positivity, hf e he⟩)
      ⟨rfl, by norm_num [PhysUnit.GeV], by norm_num⟩
      ⟨rfl, by norm_num [eemaxDefault, PhysUnit.erg], by
        simp only [eemaxDefault]; exact mul_pos (by norm_num) cMec2_pos⟩
      (by
        simp only [Qty.phys, eemaxDefault, PhysUnit.GeV, PhysUnit.erg, cMec2, cMe, cC]; norm_num)
      rfl (by norm_num [Qty.phys, gauss]) ([1, 2, 5].map (· * keV.scale))
      (by
        intro e he
        simp only [List.map_cons, List.map_nil, List.mem_cons, List.not_mem_nil, or_false] at he
        have : 0 < keV.scale := mul_pos (by norm_num) hcE
        rcases he with rfl | rfl | rfl <;> linarith)
    have h0 := shFlux_of lut (.sync 1) ⟨2.1, 60, 100, 0, 1, 1⟩ [1, 2, 5] pd out hpd ho one_ne_zero
    simp only [shCalc, mergex, List.getLast?_cons_cons, List.getLast?_singleton, List.cons_append,
      List.nil_append, bind, Except.bind, pure, Except.pure, h0]
    exact ⟨_, rfl⟩

end

end Naima.Props
