import Verif.Model.Sed
import Mathlib.Tactic.FieldSimp
import Mathlib.Tactic.Ring
import Mathlib.Tactic.NormNum
import Mathlib.Tactic.Linarith

/-! # C33: SED conversion -/

namespace Naima.Props

open Naima

/-- The physical types between which the conversion is meant to work. -/
def SpectralType (d : Dim) : Prop :=
  d = Dim.diffFlux ∨ d = Dim.diffPower ∨ d = Dim.diffEnergy ∨
  d = Dim.flux ∨ d = Dim.power ∨ d = Dim.energy

/-- Types already of SED kind (energy per ...). -/
def IsSedType (d : Dim) : Prop := d = Dim.flux ∨ d = Dim.power ∨ d = Dim.energy

instance (d : Dim) : Decidable (SpectralType d) := by unfold SpectralType; infer_instance
instance (d : Dim) : Decidable (IsSedType d) := by unfold IsSedType; infer_instance

/-- **C33 (dimensions).** For each of the six spectral physical types and both directions the
returned unit has exactly the dimensions of the input unit times the returned factor, it is an
SED-type unit when `sed=True` and a differential one otherwise, and flux-like, luminosity-like and
total-energy types stay what they are. -/
theorem C33_dimensions (u : PhysUnit) (h : SpectralType u.dim) (sed : Bool) :
    ∃ fu s, sedConversion u sed = .ok (fu, s) ∧ fu.dim = u.dim.mul s.dim ∧ 0 < fu.scale ∧
      SpectralType fu.dim ∧ (IsSedType fu.dim ↔ sed = true) ∧
      (fu.dim ∈ [Dim.flux, Dim.diffFlux] ↔ u.dim ∈ [Dim.flux, Dim.diffFlux]) ∧
      (fu.dim ∈ [Dim.power, Dim.diffPower] ↔ u.dim ∈ [Dim.power, Dim.diffPower]) := by
  obtain ⟨s, d⟩ := u
  simp only at h
  have p1 : (0:ℝ) < perTeV.scale := by norm_num [perTeV]
  have p2 : (0:ℝ) < perSTeV.scale := by norm_num [perSTeV]
  have p3 : (0:ℝ) < perSTeVCm2.scale := by norm_num [perSTeVCm2]
  have p4 : (0:ℝ) < PhysUnit.erg.scale := by norm_num [PhysUnit.erg]
  have p5 : (0:ℝ) < ergPerS.scale := by norm_num [ergPerS]
  have p6 : (0:ℝ) < ergPerSCm2.scale := by norm_num [ergPerSCm2]
  rcases h with rfl | rfl | rfl | rfl | rfl | rfl <;> cases sed
  · exact ⟨perSTeVCm2, .ones, rfl, by first | decide | (simp only; decide), p3, by first | decide | (simp only; decide), by first | decide | (simp only; decide), by first | decide | (simp only; decide), by first | decide | (simp only; decide)⟩
  · exact ⟨ergPerSCm2, .esq, rfl, by first | decide | (simp only; decide), p6, by first | decide | (simp only; decide), by first | decide | (simp only; decide), by first | decide | (simp only; decide), by first | decide | (simp only; decide)⟩
  · exact ⟨perSTeV, .ones, rfl, by first | decide | (simp only; decide), p2, by first | decide | (simp only; decide), by first | decide | (simp only; decide), by first | decide | (simp only; decide), by first | decide | (simp only; decide)⟩
  · exact ⟨ergPerS, .esq, rfl, by first | decide | (simp only; decide), p5, by first | decide | (simp only; decide), by first | decide | (simp only; decide), by first | decide | (simp only; decide), by first | decide | (simp only; decide)⟩
  · exact ⟨perTeV, .ones, rfl, by first | decide | (simp only; decide), p1, by first | decide | (simp only; decide), by first | decide | (simp only; decide), by first | decide | (simp only; decide), by first | decide | (simp only; decide)⟩
  · exact ⟨PhysUnit.erg, .esq, rfl, by first | decide | (simp only; decide), p4, by first | decide | (simp only; decide), by first | decide | (simp only; decide), by first | decide | (simp only; decide), by first | decide | (simp only; decide)⟩
  · exact ⟨perSTeVCm2, .invEsq, rfl, by first | decide | (simp only; decide), p3, by first | decide | (simp only; decide), by first | decide | (simp only; decide), by first | decide | (simp only; decide), by first | decide | (simp only; decide)⟩
  · exact ⟨ergPerSCm2, .ones, rfl, by first | decide | (simp only; decide), p6, by first | decide | (simp only; decide), by first | decide | (simp only; decide), by first | decide | (simp only; decide), by first | decide | (simp only; decide)⟩
  · exact ⟨perSTeV, .invEsq, rfl, by first | decide | (simp only; decide), p2, by first | decide | (simp only; decide), by first | decide | (simp only; decide), by first | decide | (simp only; decide), by first | decide | (simp only; decide)⟩
  · exact ⟨ergPerS, .ones, rfl, by first | decide | (simp only; decide), p5, by first | decide | (simp only; decide), by first | decide | (simp only; decide), by first | decide | (simp only; decide), by first | decide | (simp only; decide)⟩
  · exact ⟨perTeV, .invEsq, rfl, by first | decide | (simp only; decide), p1, by first | decide | (simp only; decide), by first | decide | (simp only; decide), by first | decide | (simp only; decide), by first | decide | (simp only; decide)⟩
  · exact ⟨PhysUnit.erg, .ones, rfl, by first | decide | (simp only; decide), p4, by first | decide | (simp only; decide), by first | decide | (simp only; decide), by first | decide | (simp only; decide), by first | decide | (simp only; decide)⟩

/-- **C33 (factor).** The factor is `E²` exactly when a differential spectrum is turned into an SED,
`1/E²` when an SED is turned into a differential spectrum, and 1 otherwise. -/
theorem C33_factor (u : PhysUnit) (h : SpectralType u.dim) (sed : Bool) (fu : PhysUnit)
    (s : SedFactor) (hr : sedConversion u sed = .ok (fu, s)) :
    s = (if sed then (if IsSedType u.dim then .ones else .esq)
         else (if IsSedType u.dim then .invEsq else .ones)) := by
  obtain ⟨sc, d⟩ := u
  simp only at h
  rcases h with rfl | rfl | rfl | rfl | rfl | rfl <;> cases sed <;>
    (simp [sedConversion, Dim.flux, Dim.diffFlux, Dim.power, Dim.diffPower, Dim.energy,
      Dim.diffEnergy, Dim.diffNumDensity] at hr
     rw [← hr.2]; simp [IsSedType, Dim.flux, Dim.diffFlux, Dim.power, Dim.diffPower, Dim.energy,
       Dim.diffEnergy])

/-- Physical size (cgs) of one unit of a documented result: 1 erg or 1 TeV⁻¹ (1 TeV = 1.602176634
erg exactly), and the dimensions of the result next to those of the input. -/
def DocumentedSedUnit (d : Dim) (sed : Bool) (fu : PhysUnit) : Prop :=
  if sed then fu.scale = 1 ∧ fu.dim = (if d = Dim.flux ∨ d = Dim.diffFlux then Dim.flux
    else if d = Dim.power ∨ d = Dim.diffPower then Dim.power else Dim.energy)
  else fu.scale * 1.602176634 = 1 ∧ fu.dim = (if d = Dim.flux ∨ d = Dim.diffFlux then Dim.diffFlux
    else if d = Dim.power ∨ d = Dim.diffPower then Dim.diffPower else Dim.diffEnergy)

/-- **C33 (units returned).** The unit returned is exactly the documented one: erg/(s cm²), erg/s or
erg for an SED, 1/(s TeV cm²), 1/(s TeV) or 1/TeV for a differential spectrum, whatever unit the
spectrum came in. -/
theorem C33_units (u : PhysUnit) (h : SpectralType u.dim) (sed : Bool) (fu : PhysUnit)
    (s : SedFactor) (hr : sedConversion u sed = .ok (fu, s)) : DocumentedSedUnit u.dim sed fu := by
  obtain ⟨sc, d⟩ := u
  simp only at h
  rcases h with rfl | rfl | rfl | rfl | rfl | rfl <;> cases sed <;>
    (simp [sedConversion, Dim.flux, Dim.diffFlux, Dim.power, Dim.diffPower, Dim.energy,
      Dim.diffEnergy, Dim.diffNumDensity] at hr
     rw [← hr.1]
     simp [DocumentedSedUnit, perTeV, perSTeV, perSTeVCm2, ergPerS, ergPerSCm2, PhysUnit.erg,
       Dim.flux, Dim.diffFlux, Dim.power, Dim.diffPower, Dim.energy, Dim.diffEnergy]
     try norm_num)

/-- **C33 (values).** Converting a spectrum value at a positive energy always succeeds; its physical
size is multiplied by 1, `E²` or `1/E²` as `C33_factor` says, independently of the units used. -/
theorem C33_converts (f E : Qty ℝ) (hf : SpectralType f.unit.dim) (hE : E.PosEnergy) (sed : Bool) :
    ∃ g, applySed f E sed = .ok g ∧
      g.phys = f.phys * (if sed then (if IsSedType f.unit.dim then 1 else E.phys ^ 2)
                         else (if IsSedType f.unit.dim then 1 / E.phys ^ 2 else 1)) ∧
      SpectralType g.unit.dim ∧ (IsSedType g.unit.dim ↔ sed = true) ∧
      (g.unit.dim ∈ [Dim.flux, Dim.diffFlux] ↔ f.unit.dim ∈ [Dim.flux, Dim.diffFlux]) ∧
      (g.unit.dim ∈ [Dim.power, Dim.diffPower] ↔ f.unit.dim ∈ [Dim.power, Dim.diffPower]) := by
  obtain ⟨fu, s, hr, hdim, hsc, hspec, hsed, hfl, hpw⟩ := C33_dimensions f.unit hf sed
  have hs := C33_factor f.unit hf sed fu s hr
  have hp := hE.phys_pos
  have hv := hE.pos
  have hu := hE.proper
  unfold applySed
  rw [hr]
  have hd : ∀ (fac : PhysUnit), fac.dim = s.dim →
      (f.unit.mul fac).dim = fu.dim := by
    intro fac hfac; rw [hdim, ← hfac]; rfl
  have hen := hE.isEnergy
  unfold Qty.phys
  cases s with
  | ones =>
    refine ⟨_, by simp only [Qty.to]; rw [if_pos (hd _ rfl)], ?_, hspec, hsed, hfl, hpw⟩
    have : (if sed then (if IsSedType f.unit.dim then (1:ℝ) else (E.value * E.unit.scale) ^ 2)
        else (if IsSedType f.unit.dim then 1 / (E.value * E.unit.scale) ^ 2 else 1)) = 1 := by
      cases sed <;> by_cases hi : IsSedType f.unit.dim <;> simp [hi] at hs ⊢
    rw [this]
    simp only [PhysUnit.mul]
    field_simp
  | esq =>
    refine ⟨_, by simp only [Qty.to]; rw [if_pos (hd _ (by simp [SedFactor.dim, hen]))],
      ?_, hspec, hsed, hfl, hpw⟩
    have : (if sed then (if IsSedType f.unit.dim then (1:ℝ) else (E.value * E.unit.scale) ^ 2)
        else (if IsSedType f.unit.dim then 1 / (E.value * E.unit.scale) ^ 2 else 1))
        = (E.value * E.unit.scale) ^ 2 := by
      cases sed <;> by_cases hi : IsSedType f.unit.dim <;> simp [hi] at hs ⊢
    rw [this]
    simp only [PhysUnit.mul]
    field_simp
  | invEsq =>
    refine ⟨_, by simp only [Qty.to]; rw [if_pos (hd _ (by simp [SedFactor.dim, hen]))],
      ?_, hspec, hsed, hfl, hpw⟩
    have : (if sed then (if IsSedType f.unit.dim then (1:ℝ) else (E.value * E.unit.scale) ^ 2)
        else (if IsSedType f.unit.dim then 1 / (E.value * E.unit.scale) ^ 2 else 1))
        = 1 / (E.value * E.unit.scale) ^ 2 := by
      cases sed <;> by_cases hi : IsSedType f.unit.dim <;> simp [hi] at hs ⊢
    rw [this]
    simp only [PhysUnit.mul]
    field_simp

/-- **C33 (round trip).** Converting to SED and back to a differential spectrum (or the other way
round) restores the physical value of a spectrum of the original kind. -/
theorem C33_round_trip (f E : Qty ℝ) (hf : SpectralType f.unit.dim) (hE : E.PosEnergy) :
    ∀ back : Bool, (IsSedType f.unit.dim ↔ back = true) →
      ∃ g g', applySed f E (!back) = .ok g ∧ applySed g E back = .ok g' ∧ g'.phys = f.phys := by
  intro back hback
  obtain ⟨g, h1, h2, h3, h4, -⟩ := C33_converts f E hf hE (!back)
  obtain ⟨g', k1, k2, -⟩ := C33_converts g E h3 hE back
  refine ⟨g, g', h1, k1, ?_⟩
  have hp := hE.phys_pos
  rw [k2, h2]
  cases back with
  | true =>
    have hi : IsSedType f.unit.dim := hback.2 rfl
    have hg : ¬ IsSedType g.unit.dim := by rw [h4]; simp
    simp [hi, hg]; field_simp
  | false =>
    have hi : ¬ IsSedType f.unit.dim := by rw [hback]; simp
    have hg : IsSedType g.unit.dim := by rw [h4]; simp
    simp [hi, hg]; field_simp

/-- **C33 (idempotent).** Converting twice in the same direction changes nothing more. -/
theorem C33_idempotent (f E : Qty ℝ) (hf : SpectralType f.unit.dim) (hE : E.PosEnergy)
    (sed : Bool) :
    ∃ g g', applySed f E sed = .ok g ∧ applySed g E sed = .ok g' ∧ g'.phys = g.phys := by
  obtain ⟨g, h1, h2, h3, h4, -⟩ := C33_converts f E hf hE sed
  obtain ⟨g', k1, k2, -⟩ := C33_converts g E h3 hE sed
  refine ⟨g, g', h1, k1, ?_⟩
  rw [k2]
  cases sed with
  | true => have := h4.2 rfl; simp [this]
  | false => have : ¬ IsSedType g.unit.dim := by rw [h4]; simp
             simp [this]

/-- **C33 (unsupported types).** Every physical type other than the six spectral ones and
"differential number density" raises UnitsError, in both directions. -/
theorem C33_unsupported (u : PhysUnit) (h : ¬ SpectralType u.dim) (hn : u.dim ≠ Dim.diffNumDensity)
    (sed : Bool) : sedConversion u sed = .error .unitsError := by
  unfold SpectralType at h
  simp only [not_or] at h
  obtain ⟨h1, h2, h3, h4, h5, h6⟩ := h
  simp [sedConversion, h1, h2, h3, h4, h5, h6, hn]

/-- **C33 is false of the code for "differential number density".** The type is accepted as
supported but the unit returned is that of a luminosity: the dimensions never match, and the
conversion every caller performs raises UnitConversionError. -/
theorem C33_false_number_density (f E : Qty ℝ) (hf : f.unit.dim = Dim.diffNumDensity)
    (hE : E.unit.dim = Dim.energy) (sed : Bool) :
    (∃ fu s, sedConversion f.unit sed = .ok (fu, s) ∧ fu.dim ≠ f.unit.dim.mul s.dim) ∧
    applySed f E sed = .error .unitConversionError := by
  obtain ⟨v, ⟨sc, d⟩⟩ := f
  obtain ⟨ev, ⟨esc, ed⟩⟩ := E
  simp only at hf hE
  subst hf hE
  cases sed
  · exact ⟨⟨perSTeV, .ones, rfl, by simp only; decide⟩, rfl⟩
  · exact ⟨⟨ergPerS, .esq, rfl, by simp only; decide⟩, rfl⟩

/-- non-vacuity: 1/(s TeV cm²) is a spectral type, 5 TeV a positive energy. -/
example : SpectralType perSTeVCm2.dim ∧ Qty.PosEnergy ⟨5, PhysUnit.TeV⟩ :=
  ⟨Or.inl rfl, ⟨rfl, by norm_num [PhysUnit.TeV], by norm_num⟩⟩

end Naima.Props
