import Verif.Model.ICSeed
import Verif.Model.ICKernel
import Verif.Model.Models

/-!
# `InverseCompton` from its arguments to its spectrum (src/naima/radiative.py:424-430, 609-710)

Joins `Model/ICSeed` (processing of the `seed_photon_fields` argument) and `Model/ICKernel`
(the numbers).
-/

namespace Naima

open XR Classical

noncomputable section

/-- The number in a one-element array or scalar quantity, with its unit. -/
def scalarQty : PyVal → Option (XR × PhysUnit)
  | .qty x u => some (x, u)
  | .qarr _ [x] u => some (x, u)
  | _ => none

/-- A finite number. -/
def asFinite : XR → Option ℝ
  | .fin r => some r
  | _ => none

/-- `T.to("K").value`, `u / (ar T**4)` and `theta.to("rad").value` for a scalar quantity
(radiative.py:666-674): the size of the quantity in cgs.  Simplification: values that are not finite
are reported as a ValueError, and arrays of several elements (possible for `theta` only, `validate_scalar` refusing
them for `T` and `u`) as a TypeError. -/
def sizeOf (v : PyVal) (d : Dim) : Except PyErr ℝ :=
  match scalarQty v with
  | none => .error .typeError
  | some (x, u) =>
    if u.dim = d then
      match asFinite x with
      | some r => .ok (r * u.scale)
      | none => .error .valueError
    else .error .unitConversionError

/-- The same for `theta`, absent for an isotropic field. -/
def thetaOf : Option PyVal → Except PyErr (Option ℝ)
  | none => .ok none
  | some v => (sizeOf v Dim.angle).map some

/-- `(seed_energy / mec2).decompose().value` (radiative.py:618). -/
def photE0 (v : PyVal) : Except PyErr (List ℝ) :=
  match v with
  | .qarr _ d u =>
    if u.dim = Dim.energy then
      match d.mapM asFinite with
      | some rs => .ok (rs.map fun r => r * u.scale / cMec2)
      | none => .error .valueError
    else .error .unitConversionError
  | _ => .error .typeError

/-- `phn.to(1/(mec2 cm3))` for several energies, `phn.to(mec2/cm3)` for one (radiative.py:638-643). -/
def photDens (v : PyVal) : Except PyErr (List XR) :=
  match v with
  | .qarr _ d u =>
    if 1 < d.length then
      if u.dim = Dim.diffNumDensity then .ok (d.map fun x => x * fin (u.scale * cMec2))
      else .error .unitConversionError
    else if u.dim = Dim.pressure then .ok (d.map fun x => x * fin (u.scale / cMec2))
    else .error .unitConversionError
  | _ => .error .typeError

/-- What `_calc_specic` reads from a processed field (radiative.py:665-682).  Arrays of different
lengths cannot be broadcast. -/
def SeedField.toNum : SeedField → Except PyErr SeedNum
  | .thermal T uu th => do
    let T ← sizeOf T Dim.temperature
    let uu ← sizeOf uu Dim.pressure
    let th ← thetaOf th
    return .thermal T uu th
  | .array en de th => do
    let en ← photE0 en
    let de ← photDens de
    if en.length ≠ de.length then throw .valueError
    return .array en de (match thetaOf th with | .ok t => t | .error _ => none)

/-- `InverseCompton(particle_distribution, seed_photon_fields).` then `_spectrum` on an array of
energies in erg (radiative.py:424-430, 689-710). -/
def icModelSpectrum (m : ElModel) (arg : SeedsArg) (pd : PDist) (es : List ℝ) :
    Except PyErr (List XR) := do
  let fields ← processInputSeed arg
  let seeds ← fields.mapM (fun f => f.2.toNum)
  icSpectrum m seeds pd es

/-- A `PowerLaw` instance as particle distribution of a radiative model: called with energies in erg
(radiative.py:159-160), result in the unit of the amplitude. -/
def PowerLaw.toPDist (m : PowerLaw) (unit : PhysUnit) : PDist where
  unit := unit
  f e := match m.call ⟨fin e, PhysUnit.erg⟩ with
    | .ok v => v
    | .error _ => nan

/-- The same for `ExponentialCutoffPowerLaw`. -/
def ECPL.toPDist (m : ECPL) (unit : PhysUnit) : PDist where
  unit := unit
  f e := match m.call ⟨fin e, PhysUnit.erg⟩ with
    | .ok v => v
    | .error _ => nan

end

end Naima
