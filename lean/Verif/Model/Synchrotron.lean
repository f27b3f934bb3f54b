import Verif.Model.Electron

/-!
# `BaseRadiative.flux`, `sed` and `Synchrotron._spectrum` (src/naima/radiative.py:43-134, 282-342)

A two-dimensional array (particle energy × photon energy) is a list of rows.
-/

namespace Naima

open XR Classical

noncomputable section

/-- `trapz_loglog(y, x, axis=0)` for a matrix `y` given as rows paired with their abscissa
(utils.py:285-355): consecutive rows are combined element by element, and the resulting rows are
added up. `ncol` is the number of columns. -/
def trapzAxis0 (ncol : ℕ) : List (XR × List XR) → List XR
  | p :: q :: rest =>
    List.zipWith (· + ·) (List.zipWith (trapzBin p.1 q.1) p.2 q.2) (trapzAxis0 ncol (q :: rest))
  | _ => List.replicate ncol (fin 0)

/-- The energies of a request: `_validate_ene` (radiative.py:43-58) for a Quantity (a scalar is a
one-element list here: every spectrum returns an array), then `.to("erg").value`. -/
def energiesErg (e : Qty (List ℝ)) : Except PyErr (List ℝ) :=
  if e.unit.dim = Dim.energy then .ok (e.value.map (· * e.unit.scale)) else .error .typeError

/-- The photon energies of a request after `_validate_ene` (radiative.py:43-58) and conversion to erg: zero-dimensional or one-dimensional. -/
inductive EneReq
  | scalar (e : ℝ)
  | array (es : List ℝ)

/-- `Gtilde` (radiative.py:300-311). -/
def Gtilde (x : XR) : XR :=
  let cb := cbrt x
  let gt1 := fin 1.808 * cb / XR.sqrt (fin 1 + fin 3.4 * sq cb)
  let gt2 := fin 1 + fin 2.210 * sq cb + fin 0.347 * pow cb (fin 4)
  let gt3 := fin 1 + fin 1.353 * sq cb + fin 0.217 * pow cb (fin 4)
  gt1 * (gt2 / gt3) * XR.exp (-x)

/-- `CS1` at one photon energy in erg (radiative.py:319-328); `b` is the field in G. -/
def syncCS1 (b e : ℝ) : XR :=
  fin (Real.sqrt 3 * cE ^ 3 * b) / fin (2 * Real.pi * cMe * cC ^ 2 * cHbar * e)

/-- Critical energy in erg for a Lorentz factor (radiative.py:331-332). -/
def syncEc (b g : ℝ) : ℝ := 3 * cE * cHbar * b * g ^ 2 / (2 * (cMe * cC))

/-- One element of `dNdE` (radiative.py:334-335). -/
def syncKernel (b g e : ℝ) : XR := syncCS1 b e * Gtilde (fin e / fin (syncEc b g))

/-- 1 G = 1e-4 kg s⁻² A⁻¹ = 0.1 g s⁻² A⁻¹. -/
def gauss : PhysUnit := ⟨0.1, Dim.magFluxDensity⟩

/-- `Synchrotron` (radiative.py:273-280): the electron attributes and the field. -/
structure SyncModel extends ElModel where
  B : Qty ℝ

/-- `Synchrotron._spectrum` on energies in erg (radiative.py:319-342): matrix
`vstack(nelec) * dNdE`, integrated along axis 0, in 1/(s erg), then in 1/(s eV). -/
def SyncModel.spectrum (m : SyncModel) (pd : PDist) (es : List ℝ) : Except PyErr (List XR) := do
  let b ← m.B.toReal gauss
  let gam ← m.toElModel.gam
  let nelec ← m.toElModel.nelec pd
  let rows := (gam.zip nelec).map (fun p => (fin p.1, es.map (fun e => p.2 * syncKernel b p.1 e)))
  return (trapzAxis0 es.length rows).map (fun s => s * fin cEV)

/-! ### flux and sed -/

/-- The unit 1/(s cm² eV). -/
def uFlux : PhysUnit := ⟨1 / cEV, Dim.diffFlux⟩
/-- The unit 1/(s eV). -/
def uLum : PhysUnit := ⟨1 / cEV, Dim.diffPower⟩
/-- The unit erg/(cm² s). -/
def uSed : PhysUnit := ⟨1, Dim.flux⟩
/-- The unit erg/s. -/
def uPower : PhysUnit := ⟨1, Dim.power⟩

/-- The `distance` argument: a plain number or a Quantity. -/
inductive DistArg
  | num (x : ℝ)
  | qty (d : Qty ℝ)

/-- `distance != 0` (radiative.py:104, 125): astropy compares any unit with a bare zero. -/
def DistArg.isZero : DistArg → Bool
  | .num x => decide (x = 0)
  | .qty d => decide (d.value = 0)

/-- `validate_scalar("distance", distance, physical_type="length")` and `.to("cm")`
(radiative.py:105-106). -/
def DistArg.cm : DistArg → Except PyErr ℝ
  | .num _ => .error .typeError
  | .qty d => if d.unit.dim = Dim.length then .ok (d.value * d.unit.scale) else .error .typeError

/-- `BaseRadiative.flux` without its memo (radiative.py:102-111).  `spectrum` takes energies in erg
and returns numbers in 1/(s eV). The result carries its unit. -/
def fluxOf (spectrum : List ℝ → Except PyErr (List XR)) (e : Qty (List ℝ)) (d : DistArg) :
    Except PyErr (Qty (List XR)) := do
  let es ← energiesErg e
  let spec ← spectrum es
  if d.isZero then return ⟨spec, uLum⟩
  let r ← d.cm
  return ⟨spec.map (fun s => s / fin (4 * Real.pi * r ^ 2)), uFlux⟩

/-- `q.to(unit)` of an array quantity. -/
def Qty.toArr (q : Qty (List XR)) (u : PhysUnit) : Except PyErr (Qty (List XR)) :=
  if q.unit.dim = u.dim then .ok ⟨q.value.map (fun x => x * fin (q.unit.scale / u.scale)), u⟩
  else .error .unitConversionError

/-- `BaseRadiative.sed` (radiative.py:125-134). -/
def sedOf (spectrum : List ℝ → Except PyErr (List XR)) (e : Qty (List ℝ)) (d : DistArg) :
    Except PyErr (Qty (List XR)) := do
  let outUnit := if d.isZero then uPower else uSed
  let _ ← energiesErg e
  let fl ← fluxOf spectrum e d
  let prod : Qty (List XR) := ⟨List.zipWith (fun f x => f * fin (x ^ 2)) fl.value e.value,
    (fl.unit.mul e.unit).mul e.unit⟩
  prod.toArr outUnit

end

end Naima
