import Verif.Model.Sed
import Mathlib.Data.Finset.Sort
import Mathlib.Data.Finset.Dedup

/-!
# Residuals of a fit: `_plot_residuals_to_ax` (src/naima/plot.py:1130-1195)

What is modelled is the numbers handed to `ax.errorbar`: for every group the positions `ene` and the
residuals. Colours, markers and horizontal error bars are not modelled.
-/

namespace Naima

open XR Classical

noncomputable section

/-- A row of a validated data table: values in the units of the columns. -/
structure FitRow where
  e : ℝ
  f : ℝ
  elo : ℝ
  ehi : ℝ
  ul : Bool
  group : ℤ

/-- A validated data table: units of `energy`, `flux`, `flux_error_lo`, `flux_error_hi`. -/
structure FitTable where
  eU : PhysUnit
  fU : PhysUnit
  loU : PhysUnit
  hiU : PhysUnit
  rows : List FitRow

/-- A model spectrum `(energies, fluxes)` with units. -/
structure FitModel where
  eU : PhysUnit
  fU : PhysUnit
  pts : List (ℝ × XR)

/-- `f_unit, sedf = sed_conversion(energy, unit, sed)` followed by `(flux * sedf).to(f_unit)`: the unit and
the number by which a value in `unit` at energy `e` (in `eU`) is multiplied (plot.py:1139-1141,
1164-1168; utils.py:219-282). -/
def sedArr (unit eU : PhysUnit) (sed : Bool) : Except PyErr (PhysUnit × (ℝ → ℝ)) :=
  match sedConversion unit sed with
  | .error e => .error e
  | .ok (fu, s) =>
    let factorDim := match s with
      | .ones => Dim.one
      | .esq => eU.dim.mul eU.dim
      | .invEsq => (eU.dim.mul eU.dim).inv
    if unit.dim.mul factorDim = fu.dim then
      .ok (fu, fun e => s.phys (e * eU.scale) * (unit.scale / fu.scale))
    else .error .unitConversionError

/-- `np.allclose(a, b)` with the default tolerances, on arrays of the same size (plot.py:1146-1148). -/
def allclose (a b : List ℝ) : Prop :=
  ∀ p ∈ a.zip b, |p.1 - p.2| ≤ 1e-8 + 1e-5 * |p.2|

/-- The interval search of `np.interp` on sorted points: the value at `x` between `p` and the rest. -/
def resInterpFrom (p : ℝ × XR) (x : ℝ) : List (ℝ × XR) → XR
  | [] => p.2
  | q :: rest =>
    if q.1 ≤ x then resInterpFrom q x rest
    else if p.1 = x then p.2
    else (q.2 - p.2) / fin (q.1 - p.1) * fin (x - p.1) + p.2

/-- `interp1d(x, y, bounds_error=False)`: points sorted by abscissa (stable), NaN outside, otherwise
`np.interp` (plot.py:1152). -/
def resInterp1d (pts : List (ℝ × XR)) (x : ℝ) : XR :=
  match pts.insertionSort (fun p q => p.1 ≤ q.1) with
  | [] => nan
  | p :: rest =>
    if x < p.1 ∨ ((p :: rest).getLast (List.cons_ne_nil _ _)).1 < x then nan else resInterpFrom p x rest

/-- `np.unique(data_all["group"])` (plot.py:1137) -/
def resGroups (t : FitTable) : List ℤ := (t.rows.map (·.group)).toFinset.sort (· ≤ ·)

/-- `interp` (plot.py:1145-1149): the energies of the table, as numbers in the unit of the table, are
compared with those of the model as numbers in the unit of the plot. -/
def resInterp (t : FitTable) (m : FitModel) (eU : PhysUnit) : Prop :=
  t.rows.length ≠ m.pts.length ∨
    ¬ allclose (t.rows.map (·.e)) (m.pts.map (fun p => p.1 * (m.eU.scale / eU.scale)))

/-- One group (plot.py:1154-1195): `idx` are its rows with the model flux at the same position of the
table, `ml` the plotted points of the model and `mfu` their unit. The factor `dsedf` and the unit
`df_unit` come from the flux column and are applied to the mean of the two errors, so errors of another
dimension do not convert (plot.py:1163-1170). -/
def resGroup (t : FitTable) (eU : PhysUnit) (sed : Bool) (mfu : PhysUnit) (ml : List (ℝ × XR))
    (interp : Prop) (idx : List (FitRow × Option XR)) : Except PyErr (List (ℝ × XR)) := do
  let (dfu, ds) ← sedArr t.fU t.eU sed
  if t.hiU.dim ≠ t.loU.dim ∨ t.loU.dim ≠ t.fU.dim ∨ t.eU.dim ≠ eU.dim then .error .unitConversionError
  else if ¬ interp ∧ mfu.dim ≠ dfu.dim then .error .unitConversionError
  else
    .ok ((idx.filter (fun r => ¬ r.1.ul)).map (fun r =>
      let ene := r.1.e * (t.eU.scale / eU.scale)
      let flux := fin (r.1.f * ds r.1.e)
      let dflux := fin ((r.1.elo + r.1.ehi * (t.hiU.scale / t.loU.scale)) / 2 * (ds r.1.e * (t.loU.scale / t.fU.scale)))
      let model := if interp then resInterp1d ml ene
        else (r.2.getD nan) * fin (mfu.scale / dfu.scale)
      (ene, (flux - model) / dflux)))

/-- `_plot_residuals_to_ax` (plot.py:1130-1195): for each group the plotted points. -/
def residuals (t : FitTable) (m : FitModel) (eU : PhysUnit) (sed : Bool) :
    Except PyErr (List (List (ℝ × XR))) := do
  let (mfu, ms) ← sedArr m.fU m.eU sed
  if m.eU.dim ≠ eU.dim then .error .unitConversionError
  else
    let ml := m.pts.map (fun p => (p.1 * (m.eU.scale / eU.scale), p.2 * fin (ms p.1)))
    let rows := (List.range t.rows.length).zip t.rows
    (resGroups t).mapM (fun g => resGroup t eU sed mfu ml (resInterp t m eU)
      ((rows.filter (fun r => r.2.group = g)).map (fun r => (r.2, (ml[r.1]?).map (·.2)))))

end

end Naima
