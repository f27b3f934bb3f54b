import Verif.Model.Blob
import Verif.Model.Sed

/-!
# Curves and bands: `plot_samples`, `plot_CI`, `_plot_MLmodel` (src/naima/plot.py:396-435, 504-664)

Modelled: the numbers handed to matplotlib. Colours, labels and the pool of processes are not modelled;
`np.random.randint` is any function giving indices. Energies and values of a curve have the same length (otherwise
ValueError from broadcasting; simplification: also for length one).
-/

namespace Naima

open XR Classical

noncomputable section

/-- the factor of `sed_conversion` at an energy (cgs) -/
def sedX (s : SedFactor) (E : XR) : XR :=
  match s with
  | .ones => fin 1
  | .esq => E * E
  | .invEsq => fin 1 / (E * E)

/-- The argument `sed` (True, False or None) as the conditions of `sed_conversion` (utils.py:240-263) see it. -/
def sedArg : Option Bool → Bool
  | some b => b
  | none => false

/-- plot.py:512-514, 579-581, 654-655: `modelx.to(e_unit).value` and `(my * sedf).to(f_unit).value`, with
`f_unit, sedf = sed_conversion(modelx, unit, sed)`. -/
def curve (x : BQty) (row : List XR) (unit eU : PhysUnit) (sed : Bool) : Except PyErr (List (XR × XR)) :=
  match sedConversion unit sed with
  | .error e => .error e
  | .ok (fu, s) =>
    if x.unit.dim ≠ eU.dim then .error .unitConversionError
    else if x.vals.length ≠ row.length then .error .valueError
    else if unit.dim.mul s.dim ≠ fu.dim then .error .unitConversionError
    else .ok ((x.vals.zip row).map (fun p =>
      (p.1 * fin (x.unit.scale / eU.scale),
       p.2 * sedX s (p.1 * fin x.unit.scale) * fin (unit.scale / fu.scale))))

/-- plot.py:677-685 and 419-431: energies and spectrum of a blob, given the energies it was computed for.
`len` of a scalar that is not a Quantity raises TypeError. -/
def blobModel (energy : BQty) : MBlob → Except PyErr (BQty × BQty)
  | .qty q => .ok (energy, q)
  | .pair e m => .ok (e, m)
  | .num _ => .error .typeError
  | .other => .error .typeError

/-- plot.py:396-435 `_calc_ML`: the stored blob of the most likely sample, or for an `e_range` (of which the
energies are `grid`) the model evaluated there with its parameters. -/
def calcML {P : Type} (lnprob : List (List XR)) (chain : List (List P)) (blobs : List (List (List MBlob)))
    (modelfn : P → BQty → Except PyErr (List MBlob)) (energy : BQty) (grid : Option BQty) (idx : ℕ) :
    Except PyErr (BQty × BQty) :=
  match findML lnprob chain blobs with
  | .error e => .error e
  | .ok (_, p, bs) =>
    match (blobAt idx bs).bind (blobModel energy) with
    | .error e => .error e
    | .ok xy =>
      match grid with
      | none => .ok xy
      | some g =>
        match modelfn p g with
        | .error e => .error e
        | .ok out => (blobAt idx out).bind (blobModel g)

/-- The two uses of `np.random.randint(n, size=k)` in a call: in `_read_or_calc_samples` (plot.py:378) and
in `plot_samples` (plot.py:652), as functions of `n` and `k`. -/
structure Draws where
  inner : ℕ → ℕ → List ℕ
  outer : ℕ → ℕ → List ℕ

/-- plot.py:346-393 `_read_or_calc_samples`; `n_samples` matters only for an `e_range`.  `randint(0, ...)`
raises ValueError. -/
def samplesFor {P : Type} (chain : List (List P)) (blobs : List (List (List MBlob)))
    (modelfn : P → BQty → Except PyErr (List MBlob)) (energy : BQty) (grid : Option BQty) (idx : ℕ)
    (lastStep : Bool) (nSamples : ℕ) (rand : ℕ → ℕ → List ℕ) : Except PyErr (Option BQty × Samples) :=
  match grid with
  | none => processBlob blobs energy idx lastStep
  | some g =>
    let n := (if lastStep then chain.getLastD [] else chain.flatten).length
    if n = 0 then .error .valueError
    else calcSamples modelfn chain lastStep (rand n nSamples) g idx

/-- plot.py:652-659: the curve of the sample number `d`. -/
def drawSample (x : BQty) (m : Samples) (eU : PhysUnit) (sed : Bool) (d : ℕ) : Except PyErr (List (XR × XR)) :=
  match m.rows[d]? with
  | some row => curve x row m.unit eU sed
  | none => .error .indexError

/-- plot.py:504-519 `_plot_MLmodel`: the curve of the best model. -/
def drawML {P : Type} (lnprob : List (List XR)) (chain : List (List P)) (blobs : List (List (List MBlob)))
    (modelfn : P → BQty → Except PyErr (List MBlob)) (energy : BQty) (grid : Option BQty) (idx : ℕ)
    (sed : Bool) (eU : PhysUnit) : Except PyErr (List (XR × XR)) :=
  match calcML lnprob chain blobs modelfn energy grid idx with
  | .error e => .error e
  | .ok (ex, my) => curve ex my.vals my.unit eU sed

/-- plot.py:593-664 `plot_samples`: the sample curves and the curve of the best model. `sed_conversion` of
`None` (a scalar blob) raises AttributeError (simplification: also where an error of the unit or a wrong
type would be reported first); `5.0 / n_samples` raises ZeroDivisionError. `n_samples` is not handed to
`_read_or_calc_samples` (plot.py:640-647), whose default is 100. -/
def plotSamples {P : Type} (lnprob : List (List XR)) (chain : List (List P)) (blobs : List (List (List MBlob)))
    (modelfn : P → BQty → Except PyErr (List MBlob)) (energy : BQty) (grid : Option BQty) (idx : ℕ)
    (sed lastStep : Bool) (eU : PhysUnit) (nSamples : ℕ) (draws : Draws) :
    Except PyErr (List (List (XR × XR)) × List (XR × XR)) :=
  match samplesFor chain blobs modelfn energy grid idx lastStep 100 draws.inner with
  | .error e => .error e
  | .ok (none, _) => .error .attributeError
  | .ok (some x, m) =>
    if nSamples = 0 then .error .zeroDivisionError
    else if m.rows.length = 0 then .error .valueError else
    match (draws.outer m.rows.length nSamples).mapM (drawSample x m eU sed) with
    | .error e => .error e
    | .ok curves =>
      match drawML lnprob chain blobs modelfn energy grid idx sed eU with
      | .error e => .error e
      | .ok best => .ok (curves, best)

/-- plot.py:576-586: the two edges (lower, upper) of one band as curves. -/
def drawBand (x : BQty) (unit eU : PhysUnit) (sed : Bool) (band : List (XR × XR)) :
    Except PyErr (List (XR × XR) × List (XR × XR)) :=
  match curve x (band.map (·.1)) unit eU sed with
  | .error e => .error e
  | .ok lo =>
    match curve x (band.map (·.2)) unit eU sed with
    | .error e => .error e
    | .ok hi => .ok (lo, hi)

/-- plot.py:458-474: the number of samples to compute, for an `e_range` only (otherwise None, unused). -/
def ciCount (cdf : ℝ → ℝ) (grid : Option BQty) (confs : List ℝ) : Except PyErr ℕ :=
  match grid with
  | none => .ok 0
  | some _ =>
    match ciSampleCount cdf confs with
    | .error e => .error e
    | .ok (n, _) => .ok n

/-- plot.py:521-586 `plot_CI`: for each level (`confs` sorted, plot.py:562) the two edges of the band as
curves, and the curve of the best model; for an `e_range` the number of samples is `ciSampleCount`. An empty list raises IndexError (`CI[0]`). Simplification: a level
zero, for which the colour is not finite and matplotlib raises, is treated like any other. -/
def plotCI {P : Type} (cdf : ℝ → ℝ) (lnprob : List (List XR)) (chain : List (List P))
    (blobs : List (List (List MBlob))) (modelfn : P → BQty → Except PyErr (List MBlob)) (energy : BQty)
    (grid : Option BQty) (idx : ℕ) (sed lastStep : Bool) (eU : PhysUnit) (rand : ℕ → ℕ → List ℕ) (confs : List ℝ) :
    Except PyErr (List (List (XR × XR) × List (XR × XR)) × List (XR × XR)) :=
  match ciCount cdf grid confs with
  | .error e => .error e
  | .ok nSamples =>
  match samplesFor chain blobs modelfn energy grid idx lastStep nSamples rand with
  | .error e => .error e
  | .ok (none, _) => .error .typeError
  | .ok (some x, m) =>
    match calcCI cdf m.rows x.vals.length (confs.mergeSort (fun a b => decide (b ≤ a))) with
    | .error e => .error e
    | .ok bands =>
      if bands.length = 0 then .error .indexError else
      match bands.mapM (drawBand x m.unit eU sed) with
      | .error e => .error e
      | .ok drawn =>
        match drawML lnprob chain blobs modelfn energy grid idx sed eU with
        | .error e => .error e
        | .ok best => .ok (drawn, best)

end

end Naima
