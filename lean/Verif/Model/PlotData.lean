import Verif.Model.Residuals
import Mathlib.Data.List.Sort

/-!
# Plotting data: `_plot_data_to_ax` (src/naima/plot.py:1017-1127) and the option dictionaries of
`plot_data` and `plot_fit` (plot.py:747-768, 1207-1218)

What is modelled is the numbers handed to matplotlib. Colours and labels are not modelled. `errorbar` refuses negative bar lengths (matplotlib ≥ 3.4, trusted).
-/

namespace Naima

open Classical

noncomputable section

/-- A measured point as drawn: abscissa, ordinate, lower and upper bar lengths. -/
structure Bar where
  x : ℝ
  y : ℝ
  lo : ℝ
  hi : ℝ

/-- An upper limit as drawn (plot.py:996-1014 with the default `height_fraction=0.25`): abscissa,
ordinate, and the length of the arrow that points down from there. -/
structure LimitMark where
  x : ℝ
  y : ℝ
  arrow : ℝ

/-- What one call draws: measured points and upper limits of each group, the lengths of the horizontal bars
(to the left and to the right) of the points and of the limits of each group, the limits of the `x` axis and
the lower limit of the `y` axis if they are set. -/
structure DataPlot where
  points : List (List Bar)
  limits : List (List LimitMark)
  pointBars : List (List (ℝ × ℝ))
  limitBars : List (List (ℝ × ℝ))
  xlim : Option (ℝ × ℝ)
  ymin : Option ℝ

/-- plot.py:1053-1056: the lower bar length in the unit of `flux_error_lo`; a bar that would reach zero
or below is replaced by `flux·(1 - 1e-7)`. -/
def yerrLo (t : FitTable) (r : FitRow) : ℝ :=
  let y := r.f * (t.fU.scale / t.loU.scale)
  if y - r.elo ≤ 0 then y * (1 - 1e-7) else r.elo

/-- plot.py:1073-1079 for one measured point; `s` is the factor of `sed_conversion`, `fu` its unit. -/
def barOf (t : FitTable) (eU fu : PhysUnit) (s : SedFactor) (r : FitRow) : Bar where
  x := r.e * (t.eU.scale / eU.scale)
  y := r.f * s.phys (r.e * t.eU.scale) * (t.fU.scale / fu.scale)
  lo := yerrLo t r * s.phys (r.e * t.eU.scale) * (t.loU.scale / fu.scale)
  hi := r.ehi * (t.hiU.scale / t.loU.scale) * s.phys (r.e * t.eU.scale) * (t.loU.scale / fu.scale)

/-- plot.py:1084-1092 with `_plot_ulims` (996-1014) for one upper limit. -/
def limitOf (t : FitTable) (eU fu : PhysUnit) (s : SedFactor) (r : FitRow) : LimitMark :=
  let y := r.f * s.phys (r.e * t.eU.scale) * (t.fU.scale / fu.scale)
  { x := r.e * (t.eU.scale / eU.scale), y := y, arrow := 0.25 * y }

/-- plot.py:1058, 1077, 1088: the horizontal bar of a row; `err` are the horizontal errors in the unit of
the energies. -/
def hbarOf (t : FitTable) (err : FitRow → ℝ × ℝ) (eU : PhysUnit) (r : FitRow) : ℝ × ℝ :=
  ((err r).1 * (t.eU.scale / eU.scale), (err r).2 * (t.eU.scale / eU.scale))

/-- What is drawn for one group. -/
structure GroupPlot where
  points : List Bar
  limits : List LimitMark
  pointBars : List (ℝ × ℝ)
  limitBars : List (ℝ × ℝ)

/-- plot.py:1049-1092, one group: ValueError for a negative bar length. -/
def drawGroup (t : FitTable) (err : FitRow → ℝ × ℝ) (eU fu : PhysUnit) (s : SedFactor) (g : ℤ) :
    Except PyErr GroupPlot :=
  let data := t.rows.filter (fun r => r.group = g)
  let bars := (data.filter (fun r => ¬ r.ul)).map (barOf t eU fu s)
  let lims := (data.filter (fun r => r.ul)).map (limitOf t eU fu s)
  let hbars := data.map (hbarOf t err eU)
  if (∃ b ∈ bars, b.lo < 0 ∨ b.hi < 0) ∨ (∃ b ∈ lims, b.arrow < 0) ∨ (∃ b ∈ hbars, b.1 < 0 ∨ b.2 < 0) then
    .error .valueError
  else .ok ⟨bars, lims, (data.filter (fun r => ¬ r.ul)).map (hbarOf t err eU),
    (data.filter (fun r => r.ul)).map (hbarOf t err eU)⟩

/-- `np.min` of an array; ValueError if it is empty. -/
def npMinArr : List ℝ → Except PyErr ℝ
  | [] => .error .valueError
  | a :: l => .ok (l.foldl min a)

/-- `np.max` of an array. -/
def npMaxArr : List ℝ → Except PyErr ℝ
  | [] => .error .valueError
  | a :: l => .ok (l.foldl max a)

/-- plot.py:1096-1102: limits of the `x` axis, from the rows of the variable `data`, which after the loop
is the last group; `err` are the horizontal error bars of a row. `set_xlim` refuses NaN (ValueError) and
ignores limits that are not positive (both trusted). Simplification: errors in the unit of the
energies, `energy + error ≥ 0`. -/
def drawXlim (eU : PhysUnit) (tU : PhysUnit) (err : FitRow → ℝ × ℝ) (data : List FitRow) :
    Except PyErr (Option (ℝ × ℝ)) := do
  let lo ← npMinArr (data.map (fun r => r.e - (err r).1))
  let hi ← npMaxArr (data.map (fun r => r.e + (err r).2))
  let lo := lo * (tU.scale / eU.scale)
  let hi := hi * (tU.scale / eU.scale)
  if lo < 0 ∨ hi < 0 then .error .valueError
  else if lo = 0 ∨ hi = 0 then pure none
  else pure (some ((10 : ℝ) ^ ⌊Real.logb 10 lo⌋, (10 : ℝ) ^ ⌈Real.logb 10 hi⌉))

/-- plot.py:1103-1111: lower limit of the `y` axis. -/
def drawYmin (t : FitTable) (fu : PhysUnit) (s : SedFactor) : Except PyErr (Option ℝ) := do
  let notul := t.rows.filter (fun r => ¬ r.ul)
  if ∃ r ∈ notul, r.elo * t.loU.scale ≥ r.f * t.fU.scale then
    let good := notul.filter (fun r => r.elo * t.loU.scale < r.f * t.fU.scale)
    let m ← npMinArr (good.map (fun r =>
      r.f * s.phys (r.e * t.eU.scale) * (t.fU.scale / fu.scale) -
        r.elo * s.phys (r.e * t.eU.scale) * (t.loU.scale / fu.scale)))
    pure (some ((10 : ℝ) ^ ⌊Real.logb 10 m⌋))
  else pure none

/-- `_plot_data_to_ax` (plot.py:1017-1127). Without rows the variable `data` used after the loop is not
bound. -/
def plotDataToAx (t : FitTable) (err : FitRow → ℝ × ℝ) (eU : PhysUnit) (sed : Bool) :
    Except PyErr DataPlot :=
  match sedArr t.fU t.eU sed, sedConversion t.fU sed with
  | .error e, _ => .error e
  | _, .error e => .error e
  | .ok _, .ok (fu, s) =>
    if t.rows ≠ [] ∧ (t.loU.dim ≠ t.fU.dim ∨ t.hiU.dim ≠ t.loU.dim ∨ t.eU.dim ≠ eU.dim) then
      .error .unitConversionError
    else
      match (resGroups t).mapM (drawGroup t err eU fu s) with
      | .error e => .error e
      | .ok gs =>
        match (resGroups t).getLast? with
        | none => .error .unboundLocalError
        | some g =>
          match drawXlim eU t.eU err (t.rows.filter (fun r => r.group = g)), drawYmin t fu s with
          | .error e, _ => .error e
          | _, .error e => .error e
          | .ok xlim, .ok ymin => .ok ⟨gs.map (·.points), gs.map (·.limits),
            gs.map (·.pointBars), gs.map (·.limitBars), xlim, ymin⟩

end

/-! ## Option dictionaries -/

/-- The dictionaries bound as default values of `ulim_opts` in the signatures of `plot_data` and
`plot_fit`: created once, when the functions are defined. -/
structure PlotDefaults (V : Type) where
  data : Dict String V
  fit : Dict String V

/-- A call of `plot_data` or `plot_fit` with `ulim_opts` and `errorbar_opts` given (`some`) or not, for a
table with upper limits (`hasUL`) in at least one group or without. -/
structure PlotCall (V : Type) where
  isFit : Bool
  ulimOpts : Option (Dict String V)
  errorbarOpts : Option (Dict String V)
  hasUL : Bool

/-- plot.py:1081-1083: the dictionary handed to `_plot_ulims` -/
def ulimDict {V : Type} (c : PlotCall V) (ulim : Dict String V) : Dict String V :=
  match (c.errorbarOpts.getD []).get? "elinewidth" with
  | some w => ulim.set "elinewidth" w
  | none => ulim

/-- One call (plot.py:1081-1092 with 858-867, 919-927, 1281-1289): the options used for the upper limits
(`none` if there are none), the caller's dictionary afterwards and the default dictionaries
afterwards. The dictionary is modified in place, whichever object it is. -/
def plotCall {V : Type} (st : PlotDefaults V) (c : PlotCall V) :
    Option (Dict String V) × Option (Dict String V) × PlotDefaults V :=
  let ulim := c.ulimOpts.getD (if c.isFit then st.fit else st.data)
  if c.hasUL then
    let d := ulimDict c ulim
    (some d, c.ulimOpts.map (fun _ => d),
      if c.ulimOpts.isSome then st
      else if c.isFit then { st with fit := d } else { st with data := d })
  else (none, c.ulimOpts, st)

/-- A sequence of calls in one session: the results of each. -/
def plotCalls {V : Type} : PlotDefaults V → List (PlotCall V) →
    List (Option (Dict String V) × Option (Dict String V))
  | _, [] => []
  | st, c :: cs =>
    let r := plotCall st c
    (r.1, r.2.1) :: plotCalls r.2.2 cs

/-- `_plot_ulims(..., capsize=5, height_fraction=0.25, elinewidth=2)` (plot.py:996): the value used for
an option; TypeError for an unknown one. -/
def ulimOption {V : Type} (dflt : String → Option V) (d : Dict String V) (k : String) : Except PyErr V :=
  if ∃ k' ∈ d.keys, dflt k' = none then .error .typeError
  else match d.get? k with
    | some v => .ok v
    | none => match dflt k with
      | some v => .ok v
      | none => .error .typeError

/-- `plot_CI` (plot.py:562, `confs.sort(reverse=True)`, and 576-586): the confidence levels in the order
in which their bands are drawn, and the caller's list afterwards. The sort is in place. Equal levels are
indistinguishable numbers, so stability of the sort does not matter. -/
noncomputable def plotCIConfs (confs : List ℝ) : List ℝ × List ℝ :=
  let s := confs.insertionSort (fun a b => b ≤ a)
  (s, s)

end Naima
