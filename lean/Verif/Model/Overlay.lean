import Verif.Model.PlotData

/-!
# `plot_data` on a figure (src/naima/plot.py:1207-1300)

The axes of a figure as a state: the two labels and the layers drawn so far, and `plot_data` as the update.
Reading and printing of unit names is astropy's and a parameter (`UnitText`). Not modelled: finding the axes
in the figure, colours, `autoscale`, and what is left on the axes if a call raises.
-/

namespace Naima

open Classical

noncomputable section

/-- astropy's `u.Unit(text)` (`none`: ValueError) and `unit.to_string("latex_inline")`. -/
structure UnitText where
  parse : List Char → Option PhysUnit
  latex : PhysUnit → List Char

/-- One call's worth of points on the axes: the units the abscissae and ordinates are given in, and the
numbers. -/
structure Layer where
  eU : PhysUnit
  fU : PhysUnit
  plot : DataPlot

/-- The axes. -/
structure AxesState where
  xlabel : List Char
  ylabel : List Char
  layers : List Layer

/-- A new figure. -/
def AxesState.new : AxesState := ⟨[], [], []⟩

/-- The arguments of `plot_data`: the validated table (with the horizontal error bars), labels, `sed` and
`e_unit`. -/
structure OverlayCall where
  table : FitTable
  err : FitRow → ℝ × ℝ
  xlabel : Option (List Char)
  ylabel : Option (List Char)
  sed : Bool
  eUnit : Option PhysUnit

/-- plot.py:1272 `label.split("[")[-1].split("]")[0]` -/
def bracketText (label : List Char) : List Char :=
  ((label.reverse.takeWhile (· ≠ '[')).reverse).takeWhile (· ≠ ']')

/-- plot.py:1271-1274: the unit of the label, dimensionless if it cannot be read. -/
def oldUnit (T : UnitText) (label : List Char) : PhysUnit :=
  match T.parse (bracketText label) with
  | some u => u
  | none => ⟨1, Dim.one⟩

/-- plot.py:1276-1279 -/
def overlayUnit (T : UnitText) (label : List Char) (c : OverlayCall) : PhysUnit :=
  match c.eUnit with
  | some u => u
  | none => if (oldUnit T label).dim = Dim.energy then oldUnit T label else c.table.eU

/-- plot.py:1294-1296 -/
def energyLabel (T : UnitText) (u : PhysUnit) : List Char :=
  "$\\mathrm{Energy}$ [".toList ++ T.latex u ++ "]".toList

/-- plot.py:1113-1125 -/
def fluxLabel (T : UnitText) (sed : Bool) (u : PhysUnit) : List Char :=
  (if sed then "$E^2\\mathrm{{d}}N/\\mathrm{{d}}E$ [".toList else "$\\mathrm{{d}}N/\\mathrm{{d}}E$ [".toList) ++
    T.latex u ++ "]".toList

/-- `plot_data` (plot.py:1271-1296, with 1031-1032, 1113-1127). -/
def plotData (T : UnitText) (ax : AxesState) (c : OverlayCall) : Except PyErr AxesState :=
  let eU := overlayUnit T ax.xlabel c
  match plotDataToAx c.table c.err eU c.sed, sedConversion c.table.fU c.sed with
  | .error e, _ => .error e
  | _, .error e => .error e
  | .ok p, .ok (fu, _) =>
    .ok {
      xlabel := match c.xlabel with
        | some l => l
        | none => if ax.xlabel = [] then energyLabel T eU else ax.xlabel
      ylabel := match c.ylabel with
        | some l => l
        | none => fluxLabel T c.sed fu
      layers := ax.layers ++ [⟨eU, fu, p⟩] }

/-- Several calls on the same figure. -/
def plotMany (T : UnitText) : AxesState → List OverlayCall → Except PyErr AxesState
  | ax, [] => .ok ax
  | ax, c :: cs =>
    match plotData T ax c with
    | .error e => .error e
    | .ok ax' => plotMany T ax' cs

end

end Naima
