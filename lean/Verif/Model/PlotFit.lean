import Verif.Model.PlotData

/-!
# `plot_fit` (src/naima/plot.py:746-993): what is drawn and the limits of the axes

Modelled: which layers are drawn and the limits set for the axes. The numbers of the layers are those of
Model/PlotData (data), Model/Residuals, Model/Results (bands). The limits matplotlib chooses by itself
(`ax1.axis()`) are a parameter. Legends, fonts and labels of the axes are not modelled.
-/

namespace Naima

open XR Classical

noncomputable section

/-- Arguments of `plot_fit` that decide what is drawn (`none`: not given, or `None`). -/
structure FitArgs where
  plotdata : Option Bool := none
  plotresiduals : Option Bool := none
  confs : Option (List ℝ) := none
  nSamples : Option ℕ := some 100
  sed : Bool := true
  mlInfo : Bool := false

/-- How the model is drawn: confidence bands, sample models, or the best one only. -/
inductive ModelLayer
  | bands (confs : List ℝ)
  | samples (n : ℕ)
  | best

/-- What the figure shows. -/
inductive FitFigure
  | dataOnly
  | model (layer : ModelLayer) (data residuals info : Bool)

/-- Python truth of `n_samples` -/
def truthy : Option ℕ → Bool
  | some n => decide (n ≠ 0)
  | none => false

/-- plot.py:846-851: `plotdata`; `model` is `model_ML` of `find_ML` (`none`: `(None, None)`, of which `len`
raises TypeError). Units are equivalent if they have the same dimensions. -/
def fitPlotdata (a : FitArgs) (model : Option FitModel) (t : FitTable) : Except PyErr Bool :=
  match a.plotdata with
  | some b => .ok b
  | none =>
    match model with
    | none => .error .typeError
    | some m =>
      if m.pts.length = t.rows.length then
        match sedConversion m.fU a.sed with
        | .error e => .error e
        | .ok (mu, _) =>
          match sedConversion t.fU a.sed with
          | .error e => .error e
          | .ok (du, _) => .ok (decide (mu.dim = du.dim))
      else .ok false

/-- plot.py:853-854: `plotresiduals`, as a truth value. -/
def fitPlotresiduals (a : FitArgs) (plotdata : Bool) : Bool :=
  match a.plotresiduals with
  | some b => b
  | none => plotdata && (a.confs.isSome || truthy a.nSamples)

/-- plot.py:846-937, 972-981: the layers of the figure. -/
def fitFigure (a : FitArgs) (model : Option FitModel) (t : FitTable) : Except PyErr FitFigure :=
  match fitPlotdata a model t with
  | .error e => .error e
  | .ok pd =>
    let pr := fitPlotresiduals a pd
    if a.confs.isNone && !truthy a.nSamples && pd && !pr then .ok .dataOnly
    else
      let layer := match a.confs with
        | some c => ModelLayer.bands c
        | none => if truthy a.nSamples then .samples (a.nSamples.getD 0) else .best
      .ok (.model layer pd (pd && pr) (a.mlInfo && (a.confs.isSome || truthy a.nSamples)))

/-- `xmin, xmax, ymin, ymax = ax1.axis()` -/
structure Axis where
  xmin : ℝ
  xmax : ℝ
  ymin : ℝ
  ymax : ℝ

/-- plot.py:940-946: limits from all rows of the table, see `drawXlim`. -/
def fitXlimData (ax : Axis) (eU : PhysUnit) (t : FitTable) (err : FitRow → ℝ × ℝ) : Except PyErr Axis :=
  match drawXlim eU t.eU err t.rows with
  | .error e => .error e
  | .ok none => .ok ax
  | .ok (some (lo, hi)) => .ok { ax with xmin := lo, xmax := hi }

/-- a point of the model: energy in `eU` and value in the unit plotted (plot.py:960-962) -/
def fitPoint (m : FitModel) (eU fu : PhysUnit) (s : SedFactor) (p : ℝ × XR) : ℝ × XR :=
  (p.1 * (m.eU.scale / eU.scale), p.2 * fin (s.phys (p.1 * m.eU.scale) * (m.fU.scale / fu.scale)))

/-- plot.py:947-963: a model without data. -/
def fitAxisModel (ax : Axis) (eU : PhysUnit) (m : FitModel) (sed : Bool) : Except PyErr Axis :=
  let ymin := max ax.ymin (ax.ymax / 10 ^ (if sed then 10 else 20))
  match sedConversion m.fU sed with
  | .error e => .error e
  | .ok (fu, s) =>
    match npMaxArr (((m.pts.map (fitPoint m eU fu s)).filter (fun q => decide (fin ymin < q.2))).map (·.1)) with
    | .error e => .error e
    | .ok xmax => .ok { ax with ymin := ymin, xmax := (10 : ℝ) ^ ⌈Real.logb 10 xmax⌉ }

/-- plot.py:965-970: `e_range` (in the unit of the axis) is made visible. -/
def fitErange (ax : Axis) : Option (ℝ × ℝ) → Axis
  | none => ax
  | some (lo, hi) => { ax with xmin := min ax.xmin lo, xmax := max ax.xmax hi }

/-- plot.py:940-970: the limits of the axes of a figure that shows a model. -/
def fitAxis (ax : Axis) (eU : PhysUnit) (t : FitTable) (err : FitRow → ℝ × ℝ) (m : FitModel)
    (sed plotdata : Bool) (eRange : Option (ℝ × ℝ)) : Except PyErr Axis :=
  match (if plotdata then fitXlimData ax eU t err else fitAxisModel ax eU m sed) with
  | .error e => .error e
  | .ok a => .ok (fitErange a eRange)

end

end Naima
