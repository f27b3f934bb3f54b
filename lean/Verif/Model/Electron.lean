import Verif.Model.Const
import Verif.Model.Trapz

/-!
# Particle grids and energy content (src/naima/radiative.py:137-236, 992-1096)

Arrays are lists.  Energies handed to the particle distribution are always in one unit (erg for
electrons, GeV for protons), so a distribution is a function of a real number and a result unit.
-/

namespace Naima

open XR Classical

noncomputable section

/-- A particle distribution as the radiative classes use it: called element-wise on energies, it
returns numbers in a fixed unit.  `f` takes the energy in erg. -/
structure PDist where
  unit : PhysUnit
  f : ℝ → XR

/-- `1 / mec2_unit` (radiative.py:37, 160). -/
def perMec2 : PhysUnit := ⟨1 / cMec2, Dim.diffEnergy⟩
/-- `1 / GeV` (radiative.py:1015). -/
def perGeV : PhysUnit := ⟨1 / PhysUnit.GeV.scale, Dim.diffEnergy⟩

/-- `pd.to(unit).value` for the output of the particle distribution on some energies (in erg). -/
def PDist.valuesIn (pd : PDist) (u : PhysUnit) (es : List ℝ) : Except PyErr (List XR) :=
  if pd.unit.dim = u.dim then .ok (es.map (fun e => pd.f e * fin (pd.unit.scale / u.scale)))
  else .error .unitConversionError

/-- `np.log10(E / unit).value` (radiative.py:150-151, 187-188, 1006-1008, 1042-1043): astropy refuses
to take the logarithm of a quantity with a dimension (`UnitTypeError`, a TypeError). -/
def log10Ratio (e : Qty ℝ) (size : ℝ) : Except PyErr XR :=
  if e.unit.dim = Dim.energy then .ok (log10 (fin (e.value * (e.unit.scale / size))))
  else .error .typeError

/-- `np.logspace(lmin, lmax, max(10, int(n * (lmax - lmin))))` (radiative.py:152-154, 189-191).
The two logarithms are finite whenever `int` does not raise, see `gridSize`. -/
def logGrid (lmin lmax n : XR) : Except PyErr (List ℝ) := do
  let k ← gridSize n (lmax - lmin)
  return logspace lmin.toReal lmax.toReal k

/-- Attributes `Eemin`, `Eemax`, `nEed` of an electron model (radiative.py:142). -/
structure ElModel where
  Eemin : Qty ℝ
  Eemax : Qty ℝ
  nEed : ℝ

/-- The Lorentz factor grid between two energies (radiative.py:150-154 and 187-191, the same
code twice). -/
def gamGrid (n : ℝ) (lo hi : Qty ℝ) : Except PyErr (List ℝ) := do
  let a ← log10Ratio lo cMec2
  let b ← log10Ratio hi cMec2
  logGrid a b (fin n)

/-- `_gam` (radiative.py:147-154). -/
def ElModel.gam (m : ElModel) : Except PyErr (List ℝ) := gamGrid m.nEed m.Eemin m.Eemax

/-- `particle_distribution(gam * mec2).to(1 / mec2_unit).value` (radiative.py:159-160, 192). -/
def nelecOf (pd : PDist) (gam : List ℝ) : Except PyErr (List XR) :=
  pd.valuesIn perMec2 (gam.map (· * cMec2))

/-- `_nelec` (radiative.py:156-160). -/
def ElModel.nelec (m : ElModel) (pd : PDist) : Except PyErr (List XR) := do
  nelecOf pd (← m.gam)

/-- `trapz_loglog(gam * nelec, gam * mec2)` in erg (radiative.py:165, 193). -/
def weOf (gam : List ℝ) (nelec : List XR) : XR :=
  trapz (List.zipWith (fun g n => fin g * n) gam nelec) (gam.map (fun g => fin (g * cMec2)))

/-- `We` (radiative.py:162-166), in erg. -/
def ElModel.We (m : ElModel) (pd : PDist) : Except PyErr XR := do
  let gam ← m.gam
  let nelec ← m.nelec pd
  return weOf gam nelec

/-- `compute_We` (radiative.py:168-195), in erg. -/
def ElModel.computeWe (m : ElModel) (pd : PDist) (Eemin Eemax : Option (Qty ℝ)) :
    Except PyErr XR :=
  match Eemin, Eemax with
  | none, none => m.We pd
  | lo?, hi? => do
    let hi := hi?.getD m.Eemax
    let lo := lo?.getD m.Eemin
    let gam ← gamGrid m.nEed lo hi
    let nelec ← nelecOf pd gam
    return weOf gam nelec

/-! ### Protons (radiative.py:992-1096) -/

/-- Attributes `Epmin`, `Epmax`, `nEpd` of a proton model (radiative.py:997). -/
structure PrModel where
  Epmin : Qty ℝ
  Epmax : Qty ℝ
  nEpd : ℝ

/-- `E.to("GeV").value` (radiative.py:1006-1007, 1042-1043). -/
def inGeV (e : Qty ℝ) : Except PyErr ℝ := e.toReal PhysUnit.GeV

/-- `int(nEpd * np.log10(Epmax / Epmin))` and the `max` (radiative.py:1008); both are energies
here, their `.to("GeV")` having succeeded. -/
def decadesRatio (lo hi : Qty ℝ) : XR :=
  log10 (fin (hi.value * hi.unit.scale) / fin (lo.value * lo.unit.scale))

/-- `_Ep` in GeV (radiative.py:1002-1009).  Simplification: with both limits negative (the only
limits that are not positive for which `int` does not raise, see
`C96_proton_limits_partial`) numpy would go on with an
array of NaN; a ValueError is reported instead (`PrModel.EpX` in `ProtonGrid` has the NaN). -/
def PrModel.Ep (m : PrModel) : Except PyErr (List ℝ) := do
  let lo ← inGeV m.Epmin
  let hi ← inGeV m.Epmax
  let k ← gridSize (fin m.nEpd) (decadesRatio m.Epmin m.Epmax)
  if lo ≤ 0 then throw .valueError
  return logspace (Real.logb 10 lo) (Real.logb 10 hi) k

/-- `particle_distribution(Ep * GeV).to("1/GeV").value` (radiative.py:1014-1015, 1052). -/
def protOf (pd : PDist) (ep : List ℝ) : Except PyErr (List XR) :=
  pd.valuesIn perGeV (ep.map (· * PhysUnit.GeV.scale))

/-- `_J` (radiative.py:1011-1015). -/
def PrModel.J (m : PrModel) (pd : PDist) : Except PyErr (List XR) := do protOf pd (← m.Ep)

/-- `trapz_loglog(Ep * J, Ep) * GeV` in erg (radiative.py:1020, 1053). -/
def wpOf (ep : List ℝ) (j : List XR) : XR :=
  trapz (List.zipWith (fun e n => fin e * n) ep j) (ep.map fin) * fin PhysUnit.GeV.scale

/-- `Wp` (radiative.py:1017-1021), in erg. -/
def PrModel.Wp (m : PrModel) (pd : PDist) : Except PyErr XR := do
  let ep ← m.Ep
  let j ← m.J pd
  return wpOf ep j

/-- the grid of `compute_Wp` in GeV (radiative.py:1042-1051) -/
def epGrid (n : ℝ) (lo hi : Qty ℝ) : Except PyErr (List ℝ) := do
  let lo ← inGeV lo
  let hi ← inGeV hi
  logGrid (log10 (fin lo)) (log10 (fin hi)) (fin n)

/-- `trapz_loglog(Ep * pdist, Ep).to("erg")` with quantities (radiative.py:1052-1053): the numbers
are in `GeV * unit * GeV`. -/
def wpQty (ep : List ℝ) (pd : PDist) : Except PyErr XR :=
  if pd.unit.dim = Dim.diffEnergy then
    .ok (trapz (ep.map (fun e => fin e * pd.f (e * PhysUnit.GeV.scale))) (ep.map fin) *
      fin (PhysUnit.GeV.scale * pd.unit.scale * PhysUnit.GeV.scale))
  else .error .unitConversionError

/-- `compute_Wp` (radiative.py:1023-1055), in erg. -/
def PrModel.computeWp (m : PrModel) (pd : PDist) (Epmin Epmax : Option (Qty ℝ)) :
    Except PyErr XR :=
  match Epmin, Epmax with
  | none, none => m.Wp pd
  | lo?, hi? => do
    let hi := hi?.getD m.Epmax
    let lo := lo?.getD m.Epmin
    let ep ← epGrid m.nEpd lo hi
    wpQty ep pd

/-! ### `set_We` / `set_Wp` (radiative.py:197-236, 1057-1096)

Attributes of the particle distribution hold references to `Quantity` objects.
`amplitude *= k` multiplies a `Quantity` *in place*, so it acts on the referenced object;
`setattr(pd, name, old * k)` makes a new object.  The objects are cells of a store. -/

/-- the stored `Quantity` objects -/
abbrev Store := List (Qty XR)

/-- A distribution object: its attributes (references into the store), and what it computes from
the attribute values. -/
structure DistObj where
  attrs : Dict String Nat

/-- The values of the attributes. -/
def DistObj.vals (o : DistObj) (h : Store) : Dict String (Qty XR) :=
  o.attrs.map (fun p => (p.1, h.getD p.2 ⟨nan, PhysUnit.erg⟩))

/-- `(We / oldWe).decompose()`, both energies, `oldWe` in erg. -/
def weRatio (W : Qty XR) (old : XR) : XR := W.value * fin W.unit.scale / old

/-- The body of `set_We` / `set_Wp` after the validation and `oldWe = compute_We(...)`
(radiative.py:221-236, 1081-1096).  A missing attribute is logged (default name) or raises
AttributeError (explicit name). -/
def rescale (o : DistObj) (h : Store) (k : XR) :
    Option String → Except PyErr (DistObj × Store)
  | none =>
    match o.attrs.get? "amplitude" with
    | none => .ok (o, h)
    | some r => .ok (o, h.modify r (fun q => ⟨q.value * k, q.unit⟩))
  | some name =>
    match o.attrs.get? name with
    | none => .error .attributeError
    | some r =>
      let q := h.getD r ⟨nan, PhysUnit.erg⟩
      .ok (⟨o.attrs.set name h.length⟩, h ++ [⟨q.value * k, q.unit⟩])

/-- `set_We` / `set_Wp` (radiative.py:197-236, 1057-1096); `content` is `compute_We(Emin, Emax)`
of the model as a function of the attribute values. -/
def setEnergy (content : Dict String (Qty XR) → Except PyErr XR) (o : DistObj) (h : Store)
    (W : Qty XR) (name : Option String) : Except PyErr (DistObj × Store) := do
  if W.unit.dim ≠ Dim.energy then throw .typeError
  let old ← content (o.vals h)
  rescale o h (weRatio W old) name

end

end Naima
