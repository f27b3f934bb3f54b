import Verif.Model.DataTable
import Mathlib.Analysis.SpecialFunctions.Trigonometric.Basic

/-! # Priors and likelihood: `naima/core.py:34-121` -/

namespace Naima

open XR Classical

noncomputable section

/-- core.py:34-39 `uniform_prior(value, umin, umax)` (chained comparison). -/
def uniformPrior (value umin umax : XR) : XR :=
  if umin ≤ value ∧ value ≤ umax then fin 0 else ninf

/-- core.py:42-44 `normal_prior(value, mean, sigma)`. -/
def normalPrior (value mean sigma : XR) : XR :=
  fin (-0.5) * (fin 2 * fin Real.pi * sigma) - (value - mean) * (value - mean) / (fin 2 * sigma)

/-- core.py:47-58 `log_uniform_prior(value, umin=0, umax=None)`. -/
def logUniformPrior (value : XR) (umin : XR := fin 0) (umax : Option XR := none) : XR :=
  if fin 0 < value ∧ umin ≤ value then
    match umax with
    | some m => if value ≤ m then fin 1 / value else ninf
    | none => fin 1 / value
  else ninf

/-- A spectrum returned by the user's model function: an array Quantity.  The values are physical
sizes (value times unit scale, cgs). -/
structure Spectrum where
  vals : List XR
  unit : PhysUnit

/-- core.py:66-67 `physical_type in ["power", "flux"]`. -/
def unitIsSed (d : Dim) : Bool := decide (d = Dim.power ∨ d = Dim.flux)

/-- core.py:69-71: the model in the representation of the data.  UnitConversionError if the
dimensions do not agree (line 71, or the subtraction of line 76 when no conversion is made).
Simplifications: `1/energy**2` is real division (energies are not zero); numpy broadcasting of a
length-one model is not modelled (a model of another length raises, line 76). -/
def toDataKind (model : Spectrum) (data : VTable) : Except PyErr (List XR) :=
  if unitIsSed model.unit.dim ≠ unitIsSed data.fluxU.dim then
    match sedConversion model.unit (unitIsSed data.fluxU.dim) with
    | .error e => .error e
    | .ok (_, s) =>
      if model.unit.dim.mul s.dim = data.fluxU.dim then
        .ok (List.zipWith (fun m r => fin (s.phys r.energy) * m) model.vals data.rows)
      else .error .unitConversionError
  else if model.unit.dim = data.fluxU.dim then .ok model.vals
  else .error .unitConversionError

/-- core.py:76-84: the term of one measured point, `difference = model - flux`;
`loerr * lo + hierr * hi` selects one of the two (finite) errors. -/
def lnTerm (m : XR) (r : Row) : XR :=
  let difference := m - fin r.flux
  let err := if fin 0 < difference then r.fluxErrorHi else r.fluxErrorLo
  (-(difference * difference)) / fin (2 * err ^ 2)

/-- core.py:91 `np.sum(model[ul] > data["flux"][ul])` -/
def violatedCount (pairs : List (XR × Row)) : Nat :=
  (pairs.filter (fun p => p.2.ul && decide (fin p.2.flux < p.1))).length

/-- core.py:64-94 `lnprobmodel(model, data)`.  The flux errors of a validated table have the unit of
the fluxes (`C34_sorted_permutation`), so no further unit check is needed. -/
def lnprobmodel (model : Spectrum) (data : VTable) : Except PyErr XR := do
  let m ← toDataKind model data
  if m.length ≠ data.rows.length then throw .indexError
  let pairs := m.zip data.rows
  let total := XR.sum ((pairs.filter (fun p => !p.2.ul)).map (fun p => lnTerm p.1 p.2))
  if pairs.any (fun p => p.2.ul) then
    let violated := violatedCount pairs
    -- `data["cl"][violated_uls]`: indexed by the *number* of violated limits
    match data.rows[violated]? with
    | none => throw .indexError
    | some r => pure (total + fin (violated : ℝ) * log (fin 1 - r.cl))
  else pure total

/-- An object a model function can return beside the spectrum; `β` are arbitrary objects. -/
inductive Blob (β : Type)
  | spec (s : Spectrum)
  | nan
  | other (b : β)

/-- What the model function returns: an array Quantity, or an iterable that is not an ndarray. -/
inductive ModelOut (β : Type)
  | array (s : Spectrum)
  | iterable (l : List (Blob β))

/-- `np.isinf` -/
def isInf : XR → Bool
  | pinf => true
  | ninf => true
  | _ => false

/-- core.py:98-101: the prior, 0 if there is none. -/
def priorValue {P : Type} (priorfunc : Option (P → Except PyErr XR)) (pars : P) : Except PyErr XR :=
  match priorfunc with
  | none => .ok (fin 0)
  | some f => f pars

/-- core.py:105-113: the spectrum to compare with the data, and the blob. -/
def splitOutput {β : Type} : ModelOut β → Except PyErr (Blob β × List (Blob β))
  | .iterable [] => .error .indexError
  | .iterable (b :: l) => .ok (b, b :: l)
  | .array s => .ok (.spec s, [.spec s, .nan])

/-- core.py:115-119: the total.  A spectrum without unit raises AttributeError in `lnprobmodel`. -/
def totalLnprob {β : Type} (prior : XR) (model : Blob β) (data : VTable) : Except PyErr XR :=
  if isInf prior then .ok prior
  else match model with
    | .spec s => (lnprobmodel s data).map (fun l => l + prior)
    | _ => .error .attributeError

/-- core.py:97-121 `lnprob(pars, data, modelfunc, priorfunc)`.  The prior is called first, the model
always; either may raise. -/
def lnprob {P β : Type} (pars : P) (data : VTable)
    (modelfunc : P → VTable → Except PyErr (ModelOut β))
    (priorfunc : Option (P → Except PyErr XR)) : Except PyErr (XR × List (Blob β)) := do
  let lnprobPriors ← priorValue priorfunc pars
  let modelout ← modelfunc pars data
  let mb ← splitOutput modelout
  let total ← totalLnprob lnprobPriors mb.1 data
  pure (total, mb.2)

end

end Naima
