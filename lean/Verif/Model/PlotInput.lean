import Verif.Model.Overlay
import Verif.Model.DataTable

/-! # What `plot_data` plots (plot.py:1207-1300): the forms of `input_data` -/

namespace Naima

open Classical

noncomputable section

/-- `input_data` (plot.py:1221-1224, 1246-1260): an astropy table or a list of them; an object that is
neither a table nor iterable but has an attribute `data` (an `EnsembleSampler` made by `get_sampler`); a
dictionary of columns (`energyU`, `fluxU`: the units of its columns `energy` and `flux`, `none` if there
is no such column; `rows` and `hasGroup`: number of values in a column, and whether there is a column
`group`); anything else. -/
inductive PlotInput
  | tables (ts : List InTable)
  | withData (d : VTable)
  | dict (energyU fluxU : Option PhysUnit) (hasGroup : Bool) (rows : Nat)
  | other

/-- A row of a validated table with numbers in the units of the columns. -/
def VTable.fitRow (v : VTable) (r : Row) : FitRow :=
  ⟨r.energy / v.energyU.scale, r.flux / v.fluxU.scale, r.fluxErrorLo / v.fluxErrorLoU.scale,
    r.fluxErrorHi / v.fluxErrorHiU.scale, r.ul, r.group⟩

/-- A validated table as the plotting functions read it. -/
def VTable.toFit (v : VTable) : FitTable :=
  ⟨v.energyU, v.fluxU, v.fluxErrorLoU, v.fluxErrorHiU, v.rows.map v.fitRow⟩

/-- The horizontal error bars of a row, in the unit of the energies (plot.py:1058, 1096-1102).
Simplification: rows that agree in everything but their horizontal bars are given the same bars (they are
used for the horizontal bars and the limits of the axis; C110 says nothing about them). -/
def VTable.bars (v : VTable) (r : FitRow) : ℝ × ℝ :=
  match v.rows.find? (fun q => v.fitRow q = r) with
  | some q => (q.energyErrorLo / v.energyU.scale, q.energyErrorHi / v.energyU.scale)
  | none => (0, 0)

/-- The other arguments of `plot_data`. -/
structure PlotOpts where
  xlabel : Option (List Char)
  ylabel : Option (List Char)
  sed : Bool
  eUnit : Option PhysUnit

/-- `_plot_data_to_ax(data, ...)` for a dictionary (plot.py:1031-1043): `sed_conversion` is evaluated, then
`data_all[np.where(...)]` looks up a tuple of arrays, which cannot be hashed (TypeError). Without rows but
with a column `group` the loop is not entered and `data` is unbound; without that column one is added, with
as many zeros as the dictionary has columns (at least two). A dictionary without `flux` raises KeyError. -/
def plotDict (eU : PhysUnit) (fluxU : Option PhysUnit) (hasGroup : Bool) (rows : Nat) (sed : Bool) :
    Except PyErr AxesState :=
  match fluxU with
  | none => .error .keyError
  | some fU =>
    match sedArr fU eU sed with
    | .error e => .error e
    | .ok _ => if hasGroup ∧ rows = 0 then .error .unboundLocalError else .error .typeError

/-- `plot_data(input_data, ...)` on the axes `ax` (plot.py:1207-1300). A TypeError of the validation is
only swallowed if the input has an attribute `data` or is a dictionary with a key `energy`, which tables
and lists of tables are not; iterating a sampler, a dictionary (over its keys) or an unsuitable object is a
TypeError. -/
def plotInput (T : UnitText) (sort : List Row → List Row) (ax : AxesState) (o : PlotOpts) :
    PlotInput → Except PyErr AxesState
  | .tables ts =>
    match validateDataTable sort ts none with
    | .error e => .error e
    | .ok v => plotData T ax ⟨v.toFit, v.bars, o.xlabel, o.ylabel, o.sed, o.eUnit⟩
  | .withData v => plotData T ax ⟨v.toFit, v.bars, o.xlabel, o.ylabel, o.sed, o.eUnit⟩
  | .dict (some eU) fluxU hasGroup rows => plotDict eU fluxU hasGroup rows o.sed
  | .dict none _ _ _ => .error .typeError
  | .other => .error .typeError

end

end Naima
