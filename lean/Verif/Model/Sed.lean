import Verif.Base.Units

/-! # `utils.sed_conversion` -/

namespace Naima

/-- units named by the code -/
noncomputable def ergPerS : PhysUnit := ⟨1, Dim.power⟩
/-- erg/(s cm²) -/
noncomputable def ergPerSCm2 : PhysUnit := ⟨1, Dim.flux⟩
/-- 1/TeV -/
noncomputable def perTeV : PhysUnit := ⟨1 / 1.602176634, Dim.diffEnergy⟩
/-- 1/(s TeV cm²) -/
noncomputable def perSTeVCm2 : PhysUnit := ⟨1 / 1.602176634, Dim.diffFlux⟩
/-- 1/(s TeV) -/
noncomputable def perSTeV : PhysUnit := ⟨1 / 1.602176634, Dim.diffPower⟩

/-- The factor `sedf`: `ones` (dimensionless), `energy**2` or `1/energy**2`. -/
inductive SedFactor | ones | esq | invEsq
  deriving DecidableEq

/-- utils.py:219-282 `sed_conversion(energy, model_unit, sed)`, decision part: the returned unit and
which of the three factors is returned. -/
noncomputable def sedConversion (model : PhysUnit) (sed : Bool) :
    Except PyErr (PhysUnit × SedFactor) :=
  let pt := model.dim
  let isIntegral := pt ∈ [Dim.power, Dim.energy, Dim.flux]
  let isDifferential := pt ∈ [Dim.diffFlux, Dim.diffPower, Dim.diffEnergy, Dim.diffNumDensity]
  let sedf : Except PyErr SedFactor :=
    if (sed = true ∧ isIntegral) ∨ (sed = false ∧ isDifferential) then .ok .ones
    else if sed = true ∧ isDifferential then .ok .esq
    else if sed = false ∧ isIntegral then .ok .invEsq
    else .error .unitsError
  let isEnergyFlux := pt ∈ [Dim.energy, Dim.diffEnergy]
  let isParticleFlux := pt ∈ [Dim.flux, Dim.diffFlux]
  match sedf with
  | .error e => .error e
  | .ok s =>
    .ok (if sed then
           (if isEnergyFlux then PhysUnit.erg else if isParticleFlux then ergPerSCm2 else ergPerS)
         else
           (if isEnergyFlux then perTeV else if isParticleFlux then perSTeVCm2 else perSTeV), s)

/-- Value (cgs) of the factor at an energy of physical size `E`. -/
noncomputable def SedFactor.phys (s : SedFactor) (E : ℝ) : ℝ :=
  match s with
  | .ones => 1
  | .esq => E ^ 2
  | .invEsq => 1 / E ^ 2

/-- Dimensions of the factor, the energy being an energy. -/
def SedFactor.dim (s : SedFactor) : Dim :=
  match s with
  | .ones => Dim.one
  | .esq => Dim.energy.mul Dim.energy
  | .invEsq => (Dim.energy.mul Dim.energy).inv

/-- How every caller uses the result: `(flux * sedf).to(f_unit)` (utils.py:74-76, core.py:71,
plot.py). The quantities are given by physical size (cgs) and unit; UnitConversionError if the
dimensions do not match. -/
noncomputable def applySed (f : Qty ℝ) (E : Qty ℝ) (sed : Bool) : Except PyErr (Qty ℝ) :=
  match sedConversion f.unit sed with
  | .error e => .error e
  | .ok (fu, s) =>
    let factorUnit : PhysUnit := match s with
      | .ones => ⟨1, Dim.one⟩
      | .esq => ⟨E.unit.scale ^ 2, E.unit.dim.mul E.unit.dim⟩
      | .invEsq => ⟨1 / E.unit.scale ^ 2, (E.unit.dim.mul E.unit.dim).inv⟩
    let factorVal : ℝ := match s with
      | .ones => 1
      | .esq => E.value ^ 2
      | .invEsq => 1 / E.value ^ 2
    Qty.to ⟨f.value * factorVal, f.unit.mul factorUnit⟩ fu

end Naima
