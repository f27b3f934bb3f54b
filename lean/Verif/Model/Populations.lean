import Verif.Model.ICModel

/-!
# The other analytic models as particle distributions (src/naima/models.py:207-423, src/naima/radiative.py:156-162)

As `PowerLaw.toPDist` and `ECPL.toPDist`: called with energies in erg, result in the unit of the amplitude.
-/

namespace Naima

open XR

noncomputable section

/-- A `BrokenPowerLaw` instance (models.py:207-254) as particle distribution of a radiative model. -/
def BPL.toPDist (m : BPL) (unit : PhysUnit) : PDist where
  unit := unit
  f e := match m.call ⟨fin e, PhysUnit.erg⟩ with
    | .ok v => v
    | .error _ => nan

/-- The same for `ExponentialCutoffBrokenPowerLaw` (models.py:290-354). -/
def ECBPL.toPDist (m : ECBPL) (unit : PhysUnit) : PDist where
  unit := unit
  f e := match m.call ⟨fin e, PhysUnit.erg⟩ with
    | .ok v => v
    | .error _ => nan

/-- The same for `LogParabola` (models.py:380-423). -/
def LogParabola.toPDist (m : LogParabola) (unit : PhysUnit) : PDist where
  unit := unit
  f e := match m.call ⟨fin e, PhysUnit.erg⟩ with
    | .ok v => v
    | .error _ => nan

end

end Naima
