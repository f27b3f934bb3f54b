import Verif.Proof.Synchrotron

/-! # C07: flux and sed for every radiative model

`L` stands for the differential luminosity of any radiative model: the numbers, in 1/(s eV), that
its spectrum computation returns for energies given in erg. -/

namespace Naima.Props

open Naima XR Classical

/-- The physical energies (erg) of a request. -/
noncomputable def energyPhys (e : Qty (List ℝ)) : List ℝ := e.value.map (· * e.unit.scale)

/-- **C07 (zero distance).** `flux(E, 0)` is the differential luminosity in 1/(s eV), for a bare 0 and
for a zero quantity. -/
theorem C07_flux_zero (spectrum : List ℝ → Except PyErr (List XR)) (e : Qty (List ℝ))
    (he : e.unit.dim = Dim.energy) (L : List XR) (hL : spectrum (energyPhys e) = .ok L)
    (d : DistArg) (hd : d = .num 0 ∨ ∃ u, d = .qty ⟨0, u⟩) :
    fluxOf spectrum e d = .ok ⟨L, uLum⟩ := by
  have hz : d.isZero = true := by
    rcases hd with rfl | ⟨u, rfl⟩ <;> simp [DistArg.isZero]
  unfold fluxOf energiesErg
  rw [if_pos he]
  simp only [bind, Except.bind]
  unfold energyPhys at hL
  rw [hL]
  simp [hz, pure, Except.pure]

/-- **C07 (inverse square).** At a distance `d ≠ 0` in any length unit, each flux value is the
differential luminosity at zero distance divided by `4 π d²` (d in cm), in 1/(s cm² eV). -/
theorem C07_flux_inverse_square (spectrum : List ℝ → Except PyErr (List XR)) (e : Qty (List ℝ))
    (he : e.unit.dim = Dim.energy) (L : List XR) (hL : spectrum (energyPhys e) = .ok L)
    (d : Qty ℝ) (hd : d.unit.dim = Dim.length) (h0 : d.value ≠ 0) :
    fluxOf spectrum e (.qty d) = .ok ⟨L.map (fun s => s / fin (4 * Real.pi * d.phys ^ 2)), uFlux⟩ := by
  have hz : (DistArg.qty d).isZero = false := by simp [DistArg.isZero, h0]
  unfold fluxOf energiesErg
  rw [if_pos he]
  simp only [bind, Except.bind]
  unfold energyPhys at hL
  rw [hL]
  simp [hz, DistArg.cm, hd, pure, Except.pure, Qty.phys]

/-- **C07 (ratio of two distances).** For finite luminosities, moving the source `k` times further
away divides the flux by `k²`. -/
theorem C07_flux_ratio (spectrum : List ℝ → Except PyErr (List XR)) (e : Qty (List ℝ))
    (he : e.unit.dim = Dim.energy) (L : List ℝ) (hL : spectrum (energyPhys e) = .ok (L.map fin))
    (d d' : Qty ℝ) (hd : d.unit.dim = Dim.length) (hd' : d'.unit.dim = Dim.length) (k : ℝ)
    (hp : 0 < d.phys) (hk : 0 < k) (hkd : d'.phys = k * d.phys) :
    ∃ F F' : List ℝ, fluxOf spectrum e (.qty d) = .ok ⟨F.map fin, uFlux⟩ ∧
      fluxOf spectrum e (.qty d') = .ok ⟨F'.map fin, uFlux⟩ ∧
      F' = F.map (fun x => x / k ^ 2) := by
  have h0 : d.value ≠ 0 := by rintro h; rw [Qty.phys, h] at hp; simp at hp
  have hp' : 0 < d'.phys := by rw [hkd]; positivity
  have h0' : d'.value ≠ 0 := by rintro h; rw [Qty.phys, h] at hp'; simp at hp'
  refine ⟨L.map (fun s => s / (4 * Real.pi * d.phys ^ 2)),
    L.map (fun s => s / (4 * Real.pi * d'.phys ^ 2)), ?_, ?_, ?_⟩
  · rw [C07_flux_inverse_square spectrum e he _ hL d hd h0]
    have : (4 * Real.pi * d.phys ^ 2) ≠ 0 := by positivity
    simp only [List.map_map]
    congr 2
    apply List.map_congr_left
    intro x _
    exact div_fin _ _ this
  · rw [C07_flux_inverse_square spectrum e he _ hL d' hd' h0']
    have : (4 * Real.pi * d'.phys ^ 2) ≠ 0 := by positivity
    simp only [List.map_map]
    congr 2
    apply List.map_congr_left
    intro x _
    exact div_fin _ _ this
  · rw [List.map_map]
    apply List.map_congr_left
    intro x _
    simp only [Function.comp_apply]
    rw [hkd]
    field_simp

theorem mul_assoc_pos (a : XR) (x K : ℝ) (hK : 0 < K) :
    a * fin x * fin K = a * fin (x * K) := by
  rw [mul_comm' (a * fin x), mul_comm' a, ← scale_mul K hK, mul_fin, mul_comm' a, mul_comm x K]

/-- **C07 (sed).** `sed(E, d)` is, element by element, `E²` times `flux(E, d)`: with `E` in erg and the
flux in 1/(s cm² eV), `sed = flux · E² / (1 eV in erg)` in erg/(cm² s); at zero distance the same
with the luminosity, in erg/s. -/
theorem C07_sed (spectrum : List ℝ → Except PyErr (List XR)) (e : Qty (List ℝ))
    (he : e.unit.dim = Dim.energy) (hu : 0 < e.unit.scale) (d : DistArg) (F : Qty (List XR))
    (hF : fluxOf spectrum e d = .ok F) :
    sedOf spectrum e d = .ok ⟨List.zipWith (fun f E => f * fin (E ^ 2 / cEV)) F.value (energyPhys e),
      if d.isZero then uPower else uSed⟩ := by
  have hFu : F.unit = if d.isZero then uLum else uFlux := by
    unfold fluxOf at hF
    cases h1 : energiesErg e with
    | error x => rw [h1] at hF; cases hF
    | ok es =>
      rw [h1] at hF
      simp only [bind, Except.bind] at hF
      cases h2 : spectrum es with
      | error x => rw [h2] at hF; cases hF
      | ok sp =>
        rw [h2] at hF
        simp only at hF
        by_cases hz : d.isZero = true
        · simp [hz, pure, Except.pure] at hF
          rw [← hF]; simp [hz]
        · simp [hz] at hF
          cases h3 : d.cm with
          | error x => rw [h3] at hF; cases hF
          | ok r =>
            rw [h3] at hF
            simp [pure, Except.pure] at hF
            rw [← hF]; simp [hz]
  have hc := cEV_pos
  unfold sedOf
  rw [hF]
  have he2 : energiesErg e = .ok (energyPhys e) := by unfold energiesErg; rw [if_pos he]; rfl
  rw [he2]
  simp only [bind, Except.bind]
  unfold Qty.toArr
  simp only [PhysUnit.mul, hFu, he]
  have hdim : (((if d.isZero = true then uLum else uFlux).dim.mul Dim.energy).mul Dim.energy) =
      (if d.isZero = true then uPower else uSed).dim := by
    by_cases hz : d.isZero = true
    · simp only [hz, if_true]; decide
    · simp only [hz]; decide
  rw [if_pos hdim]
  congr 2
  have hK : (if d.isZero = true then uLum else uFlux).scale * e.unit.scale * e.unit.scale /
      (if d.isZero = true then uPower else uSed).scale = e.unit.scale ^ 2 / cEV := by
    by_cases hz : d.isZero = true
    · simp only [hz, if_true, uLum, uPower]; field_simp
    · simp only [hz]; simp [uFlux, uSed]; field_simp
  rw [hK]
  have hKp : 0 < e.unit.scale ^ 2 / cEV := by positivity
  unfold energyPhys
  rw [List.zipWith_map_right]
  generalize F.value = L
  generalize e.value = v
  induction v generalizing L with
  | nil => simp
  | cons a v ih =>
    cases L with
    | nil => simp
    | cons b L =>
      simp only [List.zipWith_cons_cons, List.map_cons, ih]
      rw [mul_assoc_pos _ _ _ hKp]
      congr 3
      ring_nf

/-- **C07 (units of the request).** Energies and distances that are physically the same, in whatever
units, give the same flux and the same sed. -/
theorem C07_units (spectrum : List ℝ → Except PyErr (List XR)) (e e' : Qty (List ℝ))
    (he : e.unit.dim = Dim.energy) (he' : e'.unit.dim = Dim.energy) (hu : 0 < e.unit.scale)
    (hu' : 0 < e'.unit.scale) (heq : energyPhys e = energyPhys e') (d d' : Qty ℝ)
    (hd : d.unit.dim = Dim.length) (hd' : d'.unit.dim = Dim.length) (hs : 0 < d.unit.scale)
    (hs' : 0 < d'.unit.scale) (hdeq : d.phys = d'.phys) :
    fluxOf spectrum e (.qty d) = fluxOf spectrum e' (.qty d') ∧
    sedOf spectrum e (.qty d) = sedOf spectrum e' (.qty d') := by
  have hz : (DistArg.qty d).isZero = (DistArg.qty d').isZero := by
    unfold Qty.phys at hdeq
    simp only [DistArg.isZero]
    by_cases h : d.value = 0
    · have h' : d'.value = 0 := by
        rw [h] at hdeq; simp at hdeq
        rcases hdeq with h | h
        · exact h
        · exact absurd h hs'.ne'
      simp [h, h']
    · have h' : d'.value ≠ 0 := by
        intro h'
        rw [h'] at hdeq; simp at hdeq
        rcases hdeq with h2 | h2
        · exact h h2
        · exact hs.ne' h2
      simp [h, h']
  have hflux : fluxOf spectrum e (.qty d) = fluxOf spectrum e' (.qty d') := by
    have h1 : energiesErg e = .ok (energyPhys e) := by unfold energiesErg; rw [if_pos he]; rfl
    have h2 : energiesErg e' = .ok (energyPhys e') := by unfold energiesErg; rw [if_pos he']; rfl
    have h3 : DistArg.cm (.qty d) = DistArg.cm (.qty d') := by
      simp only [DistArg.cm, hd, hd', if_true]
      exact congrArg _ hdeq
    unfold fluxOf
    rw [h1, h2, heq, hz, h3]
  refine ⟨hflux, ?_⟩
  cases hF : fluxOf spectrum e (.qty d) with
  | error x =>
    have hF' : fluxOf spectrum e' (.qty d') = .error x := by rw [← hflux, hF]
    have h1 : energiesErg e = .ok (energyPhys e) := by unfold energiesErg; rw [if_pos he]; rfl
    have h2 : energiesErg e' = .ok (energyPhys e') := by unfold energiesErg; rw [if_pos he']; rfl
    unfold sedOf
    rw [h1, h2, hF, hF']
    rfl
  | ok F =>
    have hF' : fluxOf spectrum e' (.qty d') = .ok F := by rw [← hflux, hF]
    rw [C07_sed spectrum e he hu _ F hF, C07_sed spectrum e' he' hu' _ F hF', heq, hz]

/-- **C07 (rejected arguments).** Anything that is not an energy, and any non-zero distance that is
not a length, raises TypeError. -/
theorem C07_rejects (spectrum : List ℝ → Except PyErr (List XR)) (e : Qty (List ℝ)) (d : DistArg) :
    (e.unit.dim ≠ Dim.energy → fluxOf spectrum e d = .error .typeError ∧
      sedOf spectrum e d = .error .typeError) ∧
    (∀ L, e.unit.dim = Dim.energy → spectrum (energyPhys e) = .ok L →
      (∃ x, x ≠ 0 ∧ d = .num x) ∨ (∃ q : Qty ℝ, q.value ≠ 0 ∧ q.unit.dim ≠ Dim.length ∧ d = .qty q) →
      fluxOf spectrum e d = .error .typeError) := by
  constructor
  · intro h
    have h1 : energiesErg e = .error .typeError := by unfold energiesErg; rw [if_neg h]
    unfold sedOf fluxOf
    rw [h1]
    exact ⟨rfl, rfl⟩
  · intro L he hL hd
    have h1 : energiesErg e = .ok (energyPhys e) := by unfold energiesErg; rw [if_pos he]; rfl
    unfold fluxOf
    rw [h1]
    simp only [bind, Except.bind]
    rw [hL]
    rcases hd with ⟨x, hx, rfl⟩ | ⟨q, hq, hl, rfl⟩
    · simp [DistArg.isZero, hx, DistArg.cm]
    · simp [DistArg.isZero, hq, DistArg.cm, hl]

/-- Hypotheses met: two photon energies in TeV at 2 kpc. -/
example : ∃ (e : Qty (List ℝ)) (d : Qty ℝ), e.unit.dim = Dim.energy ∧ 0 < e.unit.scale ∧
    e.value.length = 2 ∧ d.unit.dim = Dim.length ∧ d.value ≠ 0 ∧ 0 < d.phys :=
  ⟨⟨[1, 10], PhysUnit.TeV⟩, ⟨2, ⟨3.0856775814913673e21, Dim.length⟩⟩, rfl,
    by simp only [PhysUnit.TeV]; norm_num, rfl, rfl, by norm_num, by simp only [Qty.phys]; norm_num⟩

end Naima.Props
