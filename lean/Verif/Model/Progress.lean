import Verif.Model.Sampler
import Verif.Model.Distribution
import Verif.Model.ChainPlot
import Verif.Model.Guess
import Verif.Model.PlotData

/-! # The progress printed while a chain runs: `_run_mcmc` (`naima/core.py:127-160`) -/

namespace Naima

open Classical

noncomputable section

/-- An ensemble as emcee yields it: one row of parameters per walker, and their log-probabilities (finite here). -/
structure Ensemble where
  coords : List (List ℝ)
  logProb : List ℝ

/-- core.py:129: `100.0 * float(i) / float(nrun)` -/
def progressOf (i n : ℕ) : ℝ := 100 * (i : ℝ) / (n : ℝ)

/-- Python's `x % y` of floats, `y > 0`. -/
def pyMod (x y : ℝ) : ℝ := x - y * ⌊x / y⌋

/-- core.py:130: `if progress % 5 < (5.0 / float(nrun))`. Reals: in floating point the comparison may go either way when both
sides are equal. -/
def printsAt (i n : ℕ) : Prop := pyMod (progressOf i n) 5 < 5 / (n : ℝ)

/-- What is printed at one step: `int(progress)`, `i`, `nrun`; the labels; the medians and standard deviations of the parameters
over the walkers; average and maximum of the log-probabilities. -/
structure ProgressReport where
  percent : ℤ
  step : ℕ
  total : ℕ
  labels : List Label
  medians : List ℝ
  stds : List ℝ
  lnAvg : ℝ
  lnMax : ℝ

/-- `state.coords[:, npar]` -/
def walkerColumn (e : Ensemble) (p : ℕ) : List ℝ := e.coords.map (fun row => row.getD p 0)

/-- core.py:131-159: the report. `npars` fields are formatted with `*sampler.labels`: too few labels raise IndexError, more are
ignored. The maximum of no walkers raises ValueError. -/
def reportOf (labels : List Label) (npars i n : ℕ) (e : Ensemble) : Except PyErr ProgressReport :=
  if labels.length < npars then .error .indexError
  else match npMaxArr e.logProb with
    | .error err => .error err
    | .ok m => .ok
      { percent := ⌊progressOf i n⌋, step := i, total := n
        labels := labels.take npars
        medians := (List.range npars).map (fun p => percentile (walkerColumn e p) 50)
        stds := (List.range npars).map (fun p => npStd (walkerColumn e p))
        lnAvg := npMean e.logProb, lnMax := m }

/-- core.py:128: the loop over the ensembles that `sampler.sample` yields, from number `i` on: the reports printed, and the
exception that ended the loop. -/
def progressLoop (labels : List Label) (npars n : ℕ) : ℕ → List Ensemble → List ProgressReport × Option PyErr
  | _, [] => ([], none)
  | i, e :: es =>
    if printsAt i n then
      match reportOf labels npars i n e with
      | .error err => ([], some err)
      | .ok r => let rest := progressLoop labels npars n (i + 1) es; (r :: rest.1, rest.2)
    else progressLoop labels npars n (i + 1) es

/-- The reports of a run of `n` steps whose successive ensembles are `es`. -/
def progressReports (labels : List Label) (npars n : ℕ) (es : List Ensemble) : List ProgressReport × Option PyErr :=
  progressLoop labels npars n 0 es

end

end Naima
