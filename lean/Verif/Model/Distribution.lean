import Verif.Model.Curves
import Verif.Model.ChainSummary

/-!
# `find_ML`, `plot_blob` and `plot_distribution` (src/naima/plot.py:667-744, 1303-1390)

Modelled: the values returned by `find_ML`; which figure `plot_blob` makes, from which numbers; the numbers of
a distribution figure. Not modelled: histogram and density heights, positions of text, `plot_fit` itself (C88).
-/

namespace Naima

open XR Classical

noncomputable section

/-- What a model function returns: a bare Quantity array or a list (tuple) of blobs. -/
inductive FitOut
  | bare (q : BQty)
  | blobs (l : List MBlob)

/-- The entries of an output: those of a bare array are its elements. -/
def FitOut.entries : FitOut → List MBlob
  | .bare q => q.vals.map (fun v => .qty ⟨true, [v], q.unit⟩)
  | .blobs l => l

/-- plot.py:696-699: `(p84 - p16) / 2` of the samples of each of the `n` parameters. -/
def mlErr (flat : List (List ℝ)) (n : ℕ) : List ℝ :=
  (List.range n).map (fun p =>
    (percentile (flat.map (fun v => v.getD p 0)) 84 - percentile (flat.map (fun v => v.getD p 0)) 16) / 2)

/-- plot.py:676-694: energies and spectrum of the best model: read from the blob `bs` of the best sample (`none`
if the sampler has no blobs) or recomputed with the model function. -/
def mlModel (energy : BQty) (modelfn : Option (List ℝ → Except PyErr FitOut)) (idx : Option ℕ) (p : List ℝ)
    (bs : Option (List MBlob)) : Except PyErr (Option BQty × Option BQty) :=
  match idx, bs, modelfn with
  | some i, some w, _ =>
    match (blobAt i w).bind (blobModel energy) with
    | .error e => .error e
    | .ok (x, m) => .ok (some x, some m)
  | some i, none, some f =>
    match f p with
    | .error e => .error e
    | .ok out =>
      match processBlob [[out.entries]] energy i true with
      | .error e => .error e
      | .ok (x, m) =>
        match m.rows with
        | [] => .error .indexError
        | row :: _ => .ok (x, some ⟨x.isNone, row, m.unit⟩)
  | _, _, _ => .ok (none, none)

/-- plot.py:667-702 `find_ML` with all that it returns: log-probability, parameters, uncertainties, model. The
chain has `n` parameters. -/
def findMLAll (lnprob : List (List XR)) (chain : List (List (List ℝ))) (blobs : Option (List (List (List MBlob))))
    (n : ℕ) (energy : BQty) (modelfn : Option (List ℝ → Except PyErr FitOut)) (idx : Option ℕ) :
    Except PyErr (XR × List ℝ × List ℝ × Option BQty × Option BQty) :=
  match findML lnprob chain (match blobs with
      | some b => b.map (·.map some)
      | none => chain.map (·.map (fun _ => none))) with
  | .error e => .error e
  | .ok (m, p, bs) =>
    match mlModel energy modelfn idx p bs with
    | .error e => .error e
    | .ok (x, y) => .ok (m, p, mlErr chain.flatten n, x, y)

/-- The figure made by `plot_blob`. -/
inductive BlobFigure
  | distribution (values : List XR) (unit : PhysUnit)
  | fit (idx : ℕ) (lastStep : Bool)

/-- plot.py:727-744 `plot_blob`: a distribution if the blob is scalar, otherwise `plot_fit`. -/
def plotBlob (blobs : List (List (List MBlob))) (energy : BQty) (idx : ℕ) (lastStep : Bool) :
    Except PyErr BlobFigure :=
  match processBlob blobs energy idx lastStep with
  | .error e => .error e
  | .ok (none, m) => .ok (.distribution m.rows.flatten m.unit)
  | .ok (some _, _) => .ok (.fit idx lastStep)

/-- The numbers of a distribution figure: the vertical line (median), the shaded span, the standard deviation
and the line `label = value` of the text, the number of bins. -/
structure DistFigure where
  median : ℝ
  span : ℝ × ℝ
  std : ℝ
  shown : Shown
  bins : ℕ

/-- `np.std` -/
def npStd (l : List ℝ) : ℝ :=
  Real.sqrt ((l.map (fun x => (x - l.sum / l.length) ^ 2)).sum / l.length)

/-- plot.py:1303-1390 `plot_distribution` for finite samples. `gaussian_kde` raises for samples that are all
equal, but then the printing of the uncertainties has raised before (`decimals`). -/
def plotDistribution (rnd : ℝ → ℤ) (samples : List ℝ) : Except PyErr DistFigure :=
  if samples = [] then .error .indexError
  else
    match summaryLine rnd samples with
    | .error e => .error e
    | .ok s => .ok {
        median := percentile samples 50
        span := (percentile samples 16, percentile samples 84)
        std := npStd samples
        shown := s
        bins := min (max 25 (samples.length / 100)) 100 }

end

end Naima
