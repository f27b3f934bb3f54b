import Verif.Model.Models
import Verif.Model.Validator
import Verif.Model.Synchrotron

/-!
# `TableModel` and `EblAbsorptionModel` (src/naima/models.py:425-552)

The cubic spline behind `scipy.interpolate.interp1d(kind="cubic")` is a parameter of the model
(`Interp`): a function of the sorted table nodes and the abscissa.  Everything around it
(validation, logarithms, sorting, length and duplicate checks, the fill value outside the table,
units) is modelled.  What the theorems assume about the spline is stated in `Spec.Spline`.
-/

namespace Naima

open XR Classical

noncomputable section

/-- The interpolating function computed by `make_interp_spline(x, y, k=3)` from sorted nodes
`(x, y)`, evaluated at an abscissa. -/
abbrev Interp := List (XR × XR) → XR → XR

/-- Order of numpy's sort: NaN last (a total preorder on floats). -/
def npLE (a b : XR) : Prop := a ≤ b ∨ b.IsNaN

/-- `interp1d(x, y, fill_value=-inf, bounds_error=False, kind="cubic")`
(models.py:462-464): unequal lengths, fewer than four entries or repeated abscissae raise
ValueError; the nodes are sorted (stable mergesort, `assume_sorted=False`).
When an abscissa is NaN scipy replaces the abscissae by a linear grid from the smallest to the largest
that is not NaN, to build a dummy spline: no such abscissa, or all of them equal, is a ValueError.
Simplification: an infinite abscissa (energy 0) next to a NaN is not told apart from a finite one. -/
def interp1d (x y : List XR) : Except PyErr (List (XR × XR)) :=
  if x.length ≠ y.length then .error .valueError
  else if x.length < 4 then .error .valueError
  else
    let nodes := (x.zip y).mergeSort (fun a b => decide (npLE a.1 b.1))
    if (∀ a ∈ x, ¬ a.IsNaN) ∧ ∃ p ∈ nodes.zip nodes.tail, eqv p.1.1 p.2.1 then .error .valueError
    else if (∃ a ∈ x, a.IsNaN) ∧ ∀ a ∈ x, ∀ b ∈ x, ¬ a.IsNaN → ¬ b.IsNaN → eqv a b then .error .valueError
    else .ok nodes

/-- Evaluation of the object returned by `interp1d` at one point (models.py:468): the fill value
`-inf` below the first and above the last abscissa (comparisons with NaN are False); a table with a
NaN anywhere gives NaN inside; otherwise the spline. -/
def interpEval (I : Interp) (nodes : List (XR × XR)) (x : XR) : XR :=
  if ∃ p, nodes.head? = some p ∧ x < p.1 then ninf
  else if ∃ p, nodes.getLast? = some p ∧ p.1 < x then ninf
  else if ∃ p ∈ nodes, p.1.IsNaN ∨ p.2.IsNaN then nan
  else I nodes x

/-- A `TableModel` instance. -/
structure TableModel where
  amplitude : XR
  nodes : List (XR × XR)
  unit : PhysUnit

/-- The dimensionless unit `u.Unit("")`. -/
def unitOne : PhysUnit := ⟨1, Dim.one⟩

/-- `TableModel.__init__` (models.py:445-464).  `values` are the numbers of the values array and
`vunit` its unit if it has one. Energies that are not a Quantity array of energies raise TypeError;
`domain="positive"` is passed to `validate_array`, which ignores it. -/
def TableModel.init (energy : PyVal) (values : List XR) (vunit : Option PhysUnit)
    (amplitude : XR) : Except PyErr TableModel :=
  match validateArray energy .positive 1 none (some [Dim.energy]) with
  | .error e => .error e
  | .ok (.qarr _ es eu) =>
    let loge := es.map (fun e => log10 (e * fin (eu.scale / PhysUnit.eV.scale)))
    let logy := values.map log10
    match interp1d loge logy with
    | .error e => .error e
    | .ok nodes => .ok ⟨amplitude, nodes, vunit.getD unitOne⟩
  | .ok _ => .error .typeError      -- unreachable: only array Quantities pass

/-- `TableModel.__call__` at one energy (models.py:466-469). -/
def TableModel.call (I : Interp) (m : TableModel) (e : Qty XR) : Except PyErr (Qty XR) := do
  let ev ← validateEneEV e
  return ⟨m.amplitude * pow (fin 10) (interpEval I m.nodes (log10 ev)), m.unit⟩

/-! ### EBL absorption -/

/-- The file `data/tau_dominguez11.npz` (models.py:518-523): the `energy` column in TeV and the
columns `col2`, `col3`, …  -/
structure EblData where
  energy : List ℝ
  col : ℕ → List ℝ

/-- `np.arange(0.01, 4, 0.01)` (models.py:522): 399 redshifts 0.01, 0.02, …, 3.99. -/
def redshiftList : List ℝ := (List.range 399).map (fun i : ℕ => 0.01 * ((i : ℝ) + 1))

/-- `ndarray.argmin()` of an array without NaN: index of the first smallest element. -/
def argmin : List XR → ℕ
  | [] => 0
  | [_] => 0
  | a :: b :: l =>
    let j := argmin (b :: l)
    match (b :: l)[j]? with
    | some c => if c < a then j + 1 else 0
    | none => 0

/-- Value of the redshift as a plain number after `redshift *= u.dimensionless_unscaled` and
`validate_scalar(..., domain="positive", physical_type="dimensionless")` (models.py:501-509).
Simplification: only scalar floats and scalar Quantities are modelled; anything else raises
TypeError. -/
def validateRedshift (z : PyVal) : Except PyErr XR :=
  let q : PyVal := match z with
    | .num x => .qty x unitOne
    | v => v
  match validateScalar q .positive (some [Dim.one]) with
  | .error e => .error e
  | .ok (.qty x u) => .ok (x * fin u.scale)
  | .ok _ => .error .typeError

/-- Name of the column used for a redshift: `2 + argmin |redshift_list - redshift|`
(models.py:525-527). -/
def eblColumn (z : XR) : ℕ := 2 + argmin (redshiftList.map (fun w => XR.abs (fin w - z)))

/-- `table_values[table_values > 150.0] = 150.0` (models.py:531). -/
def clip150 (t : ℝ) : ℝ := if t > 150 then 150 else t

/-- The values passed to `TableModel.__init__` (models.py:524-536): NaN redshifts take neither
branch and `taus` is unbound. -/
def eblTaus (d : EblData) (z : XR) : Except PyErr (List XR) :=
  if fin 0.01 ≤ z then .ok ((d.col (eblColumn z)).map (fun t => pow (fin 10) (fin (clip150 t))))
  else if z < fin 0.01 then .ok ((List.replicate d.energy.length (fin 0)).map (pow (fin 10)))
  else .error .unboundLocalError

/-- `EblAbsorptionModel.__init__` (models.py:499-540). -/
def eblInit (d : EblData) (redshift : PyVal) (model : String := "Dominguez") :
    Except PyErr TableModel :=
  match validateRedshift redshift with
  | .error e => .error e
  | .ok z =>
    if model = "Dominguez" then
      match eblTaus d z with
      | .error e => .error e
      | .ok taus =>
        TableModel.init (.qarr [d.energy.length] (d.energy.map fin) PhysUnit.TeV) taus
          (some unitOne) (fin 1)
    else .error .valueError

/-- Optical depth used for one energy (models.py:546-551); the energy has passed
`_validate_ene`. -/
def eblTau (I : Interp) (m : TableModel) (e : Qty XR) : Except PyErr XR :=
  match e.toValue PhysUnit.GeV with
  | .error err => .error err
  | .ok g =>
    if g < fin 1 then .ok (fin 0)
    else match e.toValue PhysUnit.TeV with
      | .error err => .error err
      | .ok t =>
        if fin 100 < t then .ok (log10 (fin 6000))
        else match m.call I e with
          | .error err => .error err
          | .ok q => .ok (log10 (q.value * fin q.unit.scale))

/-- The photon energies passed to `transmission`: a scalar or an array Quantity. -/
inductive EblReq
  | scalar (e : Qty XR)
  | array (es : List XR) (u : PhysUnit)

/-- `EblAbsorptionModel.transmission` (models.py:542-552): `len` of a scalar Quantity raises
TypeError. -/
def eblTransmission (I : Interp) (m : TableModel) : EblReq → Except PyErr (List XR)
  | .scalar _ => .error .typeError
  | .array es u =>
    if u.dim = Dim.energy then
      es.mapM (fun e => do return XR.exp (-(← eblTau I m ⟨e, u⟩)))
    else .error .typeError

end

end Naima
