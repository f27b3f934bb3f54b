import Verif.Model.Sed
import Verif.Model.Edges
import Verif.Model.Validator

/-! # Data tables: `utils.validate_column`, `_validate_single_data_table`, `validate_data_table`

An astropy `Table` is modelled by its header (which columns are present, with which unit and dtype,
and the `cl` keyword of the metadata) and its list of rows; a row holds one number per possible
column, and the numbers of absent columns are never read.  Values are finite reals.

Validated tables store *physical sizes* (value times unit scale, cgs) together with the unit of
each column: `Quantity.to` then keeps the physical size and changes the unit. -/

namespace Naima

/-- dtype of the `ul` column: `np.int_`, `np.bool_`, `np.str_`, anything else -/
inductive UlType | int | bool | str | other
  deriving DecidableEq

/-- One row of an input table (values in the column's unit). -/
structure RawRow where
  energy : ℝ := 0
  flux : ℝ := 0
  fluxError : ℝ := 0
  fluxErrorLo : ℝ := 0
  fluxErrorHi : ℝ := 0
  group : ℤ := 0
  energyWidth : ℝ := 0
  energyError : ℝ := 0
  energyErrorLo : ℝ := 0
  energyErrorHi : ℝ := 0
  energyLo : ℝ := 0
  energyHi : ℝ := 0
  /-- integer or boolean flag -/
  ulInt : ℤ := 0
  /-- string flag -/
  ulStr : String := ""
  fluxUl : ℝ := 0

/-- An input table: for each column `none` if absent, otherwise its unit (a column without unit is
dimensionless, as `u.Quantity(column, unit=None)` makes it). -/
structure InTable where
  energyU : Option PhysUnit := none
  fluxU : Option PhysUnit := none
  fluxErrorU : Option PhysUnit := none
  fluxErrorLoU : Option PhysUnit := none
  fluxErrorHiU : Option PhysUnit := none
  hasGroup : Bool := false
  energyWidthU : Option PhysUnit := none
  energyErrorU : Option PhysUnit := none
  energyErrorLoU : Option PhysUnit := none
  energyErrorHiU : Option PhysUnit := none
  energyLoU : Option PhysUnit := none
  energyHiU : Option PhysUnit := none
  ulType : Option UlType := none
  fluxUlU : Option PhysUnit := none
  /-- `meta["keywords"]["cl"]["value"]` -/
  cl : Option PyVal := none
  rows : List RawRow

/-- A row of a validated table: physical sizes (cgs). -/
structure Row where
  energy : ℝ
  flux : ℝ
  fluxErrorLo : ℝ
  fluxErrorHi : ℝ
  group : ℤ
  energyErrorLo : ℝ
  energyErrorHi : ℝ
  ul : Bool
  cl : XR

/-- A validated table with the units of its columns. -/
structure VTable where
  energyU : PhysUnit
  fluxU : PhysUnit
  fluxErrorLoU : PhysUnit
  fluxErrorHiU : PhysUnit
  energyErrorLoU : PhysUnit
  energyErrorHiU : PhysUnit
  rows : List Row

/-- utils.py:118 `flux_types` -/
def fluxTypes : List Dim := [Dim.flux, Dim.diffFlux, Dim.power, Dim.diffPower]

/-- utils.py:23-36 `validate_column(data_table, key, pt)`: a missing column raises TypeError.  The
column's values are passed to `validate_array`, which only looks at unit and shape. -/
noncomputable def validateColumn (rows : List RawRow) (col : Option PhysUnit) (f : RawRow → ℝ)
    (pt : List Dim) : Except PyErr PhysUnit :=
  match col with
  | none => .error .typeError
  | some u =>
    match validateArray (.qarr [rows.length] (rows.map (fun r => XR.fin (f r))) u) .positive 1 none
        (some pt) with
    | .ok _ => .ok u
    | .error e => .error e

/-- utils.py:124-137: `flux_error_lo`, `flux_error_hi` with their units. -/
noncomputable def fluxErrors (t : InTable) :
    Except PyErr ((PhysUnit × (RawRow → ℝ)) × (PhysUnit × (RawRow → ℝ))) := do
  if t.fluxErrorU.isSome then
    let u ← validateColumn t.rows t.fluxErrorU (·.fluxError) fluxTypes
    pure ((u, fun r => r.fluxError * u.scale), (u, fun r => r.fluxError * u.scale))
  else if t.fluxErrorLoU.isSome && t.fluxErrorHiU.isSome then
    let ul ← validateColumn t.rows t.fluxErrorLoU (·.fluxErrorLo) fluxTypes
    let uh ← validateColumn t.rows t.fluxErrorHiU (·.fluxErrorHi) fluxTypes
    pure ((ul, fun r => r.fluxErrorLo * ul.scale), (uh, fun r => r.fluxErrorHi * uh.scale))
  else throw .typeError

/-- utils.py:139-143: the group of each row. -/
def rowGroup (t : InTable) (g : ℤ) (r : RawRow) : ℤ := if t.hasGroup then r.group else g

/-- utils.py:145-171: half-widths of the energy bins (physical sizes) and their units.
`eU` is the validated unit of the energy column. -/
noncomputable def energyErrors (t : InTable) (g : ℤ) (eU : PhysUnit) :
    Except PyErr (PhysUnit × PhysUnit × List (ℝ × ℝ)) := do
  if t.energyWidthU.isSome then
    let u ← validateColumn t.rows t.energyWidthU (·.energyWidth) [Dim.energy]
    pure (u, u, t.rows.map fun r => (r.energyWidth / 2 * u.scale, r.energyWidth / 2 * u.scale))
  else if t.energyErrorU.isSome then
    let u ← validateColumn t.rows t.energyErrorU (·.energyError) [Dim.energy]
    pure (u, u, t.rows.map fun r => (r.energyError * u.scale, r.energyError * u.scale))
  else if t.energyErrorLoU.isSome && t.energyErrorHiU.isSome then
    let ul ← validateColumn t.rows t.energyErrorLoU (·.energyErrorLo) [Dim.energy]
    let uh ← validateColumn t.rows t.energyErrorHiU (·.energyErrorHi) [Dim.energy]
    pure (ul, uh, t.rows.map fun r => (r.energyErrorLo * ul.scale, r.energyErrorHi * uh.scale))
  else if t.energyLoU.isSome && t.energyHiU.isSome then
    let ul ← validateColumn t.rows t.energyLoU (·.energyLo) [Dim.energy]
    let uh ← validateColumn t.rows t.energyHiU (·.energyHi) [Dim.energy]
    -- `data["energy"] - energy_lo` has the unit of the energy, `energy_hi - data["energy"]` that of
    -- the energy_hi column
    pure (eU, uh, t.rows.map fun r =>
      (r.energy * eU.scale - r.energyLo * ul.scale, r.energyHi * uh.scale - r.energy * eU.scale))
  else
    let (lo, hi) ← generateEnergyEdges (t.rows.map (·.energy)) (some (t.rows.map (rowGroup t g)))
    pure (eU, eU, List.zipWith (fun a b => (a * eU.scale, b * eU.scale)) lo hi)

/-- utils.py:173-193: upper-limit flags. -/
def ulFlags (t : InTable) : Except PyErr (RawRow → Bool) :=
  match t.ulType with
  | none => .ok fun _ => false
  | some .int | some .bool => .ok fun r => decide (r.ulInt ≠ 0)
  | some .str =>
      if t.rows.all (fun r => r.ulStr = "True" ∨ r.ulStr = "False") then
        .ok fun r => decide (r.ulStr = "True")
      else .error .typeError
  | some .other => .error .typeError

/-- utils.py:195-196: fluxes of upper limits are taken from `flux_ul` if present
(`data["flux"][ul] = flux_ul[ul]`: UnitConversionError on incompatible units). -/
noncomputable def fluxVals (t : InTable) (fU : PhysUnit) (ul : RawRow → Bool) :
    Except PyErr (RawRow → ℝ) :=
  match t.fluxUlU with
  | none => .ok fun r => r.flux * fU.scale
  | some u =>
    if u.dim = fU.dim then
      .ok fun r => if ul r then r.fluxUl * u.scale else r.flux * fU.scale
    else .error .unitConversionError

/-- utils.py:198-211: confidence level. -/
noncomputable def clVal (t : InTable) : Except PyErr XR :=
  match t.cl with
  | none => .ok (XR.fin 0.9)
  | some v =>
    match validateScalar v .none none with
    | .ok (.num x) => .ok x
    | .ok _ => .error .typeError      -- unreachable: without a physical type only numbers pass
    | .error e => .error e

/-- utils.py:115-213 `_validate_single_data_table(data_table, group)`. -/
noncomputable def validateSingle (t : InTable) (g : ℤ) : Except PyErr VTable := do
  let eU ← validateColumn t.rows t.energyU (·.energy) [Dim.energy]
  let fU ← validateColumn t.rows t.fluxU (·.flux) fluxTypes
  let ((floU, flo), (fhiU, fhi)) ← fluxErrors t
  let (eloU, ehiU, edges) ← energyErrors t g eU
  let ul ← ulFlags t
  let flux ← fluxVals t fU ul
  let cl ← clVal t
  pure { energyU := eU, fluxU := fU, fluxErrorLoU := floU, fluxErrorHiU := fhiU,
         energyErrorLoU := eloU, energyErrorHiU := ehiU,
         rows := List.zipWith (fun r e =>
           { energy := r.energy * eU.scale, flux := flux r, fluxErrorLo := flo r,
             fluxErrorHi := fhi r, group := rowGroup t g r, energyErrorLo := e.1,
             energyErrorHi := e.2, ul := ul r, cl := cl }) t.rows edges }

/-- utils.py:66-78 `dt_sed_conversion(dt, sed)`: each of the three flux columns is multiplied by the
factor and converted to the returned unit (UnitConversionError on incompatible dimensions).
Simplification: `1/energy**2` is only meaningful for non-zero energies. -/
noncomputable def dtSedConversion (t : VTable) (sed : Bool) : Except PyErr VTable := do
  let (fu, s) ← sedConversion t.fluxU sed
  let chk (u : PhysUnit) : Except PyErr Unit :=
    if u.dim.mul s.dim = fu.dim then .ok () else .error .unitConversionError
  chk t.fluxU
  chk t.fluxErrorLoU
  chk t.fluxErrorHiU
  pure { t with
    fluxU := fu, fluxErrorLoU := fu, fluxErrorHiU := fu,
    rows := t.rows.map fun r =>
      { r with flux := r.flux * s.phys r.energy,
               fluxErrorLo := r.fluxErrorLo * s.phys r.energy,
               fluxErrorHi := r.fluxErrorHi * s.phys r.energy } }

/-- utils.py:93-106 (loop body): the physical-type test, the conversion, and
`for row in dt: data_new.add_row(row)`.  `QTable.add_row` converts each value to the unit of the
receiving column and turns a failed conversion into ValueError; with no rows nothing is checked. -/
noncomputable def appendTable (fpt : Dim) (sed : Bool) (acc : VTable) (dt : VTable) :
    Except PyErr VTable := do
  -- `"flux" in physical_type` is membership of that exact name
  if (dt.fluxU.dim = Dim.flux ∧ fpt = Dim.power) ∨ (dt.fluxU.dim = Dim.power ∧ fpt = Dim.flux) then
    throw .typeError
  let dt ← dtSedConversion dt sed
  if dt.rows = [] then pure acc
  else if dt.energyU.dim = acc.energyU.dim ∧ dt.fluxU.dim = acc.fluxU.dim ∧
      dt.fluxErrorLoU.dim = acc.fluxErrorLoU.dim ∧ dt.fluxErrorHiU.dim = acc.fluxErrorHiU.dim ∧
      dt.energyErrorLoU.dim = acc.energyErrorLoU.dim ∧
      dt.energyErrorHiU.dim = acc.energyErrorHiU.dim then
    pure { acc with rows := acc.rows ++ dt.rows }
  else throw .valueError

/-- utils.py:80-83: every table of the list, with its position as group number. -/
noncomputable def validateAll (ts : List InTable) (g : Nat) : Except PyErr (List VTable) :=
  match ts with
  | [] => .ok []
  | t :: ts => do
    let v ← validateSingle t (g : ℤ)
    let vs ← validateAll ts (g + 1)
    pure (v :: vs)

/-- utils.py:38-112 `validate_data_table(data_table, sed)`.  `sort` stands for
`data_new[np.argsort(data_new["energy"])]`; numpy's default sort is not stable, so theorems
quantify over every function that returns an energy-ordered permutation.  An empty list raises
IndexError.  A single table is the one-element list. -/
noncomputable def validateDataTable (sort : List Row → List Row) (ts : List InTable)
    (sed : Option Bool) : Except PyErr VTable := do
  match ← validateAll ts 0 with
  | [] => throw .indexError
  | first :: rest =>
    let fpt := first.fluxU.dim
    -- `if sed is None: sed = f_pt in ["flux", "power"]`
    let sed := sed.getD (decide (fpt = Dim.flux ∨ fpt = Dim.power))
    let acc ← dtSedConversion first sed
    let out ← rest.foldlM (appendTable fpt sed) acc
    pure { out with rows := sort out.rows }

/-- A function that behaves like indexing with `np.argsort(energy)`. -/
def IsEnergySort (sort : List Row → List Row) : Prop :=
  ∀ l, (sort l).Perm l ∧ (sort l).Pairwise (fun a b => a.energy ≤ b.energy)

/-- utils.py:398-481 `build_data_table(...)`.  The arguments are given as an `InTable` whose `none`
columns are the arguments left at `None`; columns that are not arguments of the function
(`group`, `energy_error*`, `flux_ul`) are dropped.  Returns the (unvalidated) table it built, after
checking that it validates. -/
noncomputable def buildDataTable (sort : List Row → List Row) (a : InTable) :
    Except PyErr InTable := do
  -- utils.py:449-451
  let chkCl : Except PyErr Unit := match a.cl with
    | none => .ok ()
    | some v => (validateScalar v .none none).map (fun _ => ())
  chkCl
  let both := a.energyLoU.isSome && a.energyHiU.isSome
  let errBoth := a.fluxErrorLoU.isSome && a.fluxErrorHiU.isSome
  if a.fluxErrorU = none ∧ errBoth = false then throw .typeError
  -- `np.array(ul, dtype=int)`: strings such as "True" are not integers. Simplification: dtypes other
  -- than int, bool and str (floats are truncated) are reported as a TypeError.
  let chkUl : Except PyErr Unit := match a.ulType with
    | some .str => .error .valueError
    | some .other => .error .typeError
    | _ => .ok ()
  chkUl
  let t : InTable := {
    energyU := a.energyU
    fluxU := a.fluxU
    fluxErrorU := a.fluxErrorU
    fluxErrorLoU := if a.fluxErrorU = none ∧ errBoth = true then a.fluxErrorLoU else none
    fluxErrorHiU := if a.fluxErrorU = none ∧ errBoth = true then a.fluxErrorHiU else none
    energyWidthU := a.energyWidthU
    energyLoU := if a.energyWidthU = none ∧ both = true then a.energyLoU else none
    energyHiU := if a.energyWidthU = none ∧ both = true then a.energyHiU else none
    ulType := if a.ulType = none then none else some .int
    cl := a.cl
    rows := a.rows }
  let _ ← validateDataTable sort [t] none
  pure t

/-- The columns of a validated table, given back as an input table (the `cl` column of a validated
table is a column, not metadata). -/
noncomputable def VTable.toInput (v : VTable) : InTable where
  energyU := some v.energyU
  fluxU := some v.fluxU
  fluxErrorLoU := some v.fluxErrorLoU
  fluxErrorHiU := some v.fluxErrorHiU
  hasGroup := true
  energyErrorLoU := some v.energyErrorLoU
  energyErrorHiU := some v.energyErrorHiU
  ulType := some .bool
  rows := v.rows.map fun r =>
    { energy := r.energy / v.energyU.scale, flux := r.flux / v.fluxU.scale,
      fluxErrorLo := r.fluxErrorLo / v.fluxErrorLoU.scale,
      fluxErrorHi := r.fluxErrorHi / v.fluxErrorHiU.scale, group := r.group,
      energyErrorLo := r.energyErrorLo / v.energyErrorLoU.scale,
      energyErrorHi := r.energyErrorHi / v.energyErrorHiU.scale,
      ulInt := if r.ul then 1 else 0 }

end Naima
