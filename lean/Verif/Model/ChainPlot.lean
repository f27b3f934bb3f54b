import Verif.Model.ChainSummary
import Verif.Model.Distribution

/-!
# Plot of a chain: `plot_chain` and `_plot_chain_func` (src/naima/plot.py:26-52, 111-270)

The text summary of a parameter is modelled in `Model/ChainSummary.lean`. Modelled here: which samples are
drawn where, the numbers shown, and in which calls no figure is made. Colours, axis positions, the curve of
the kernel density and the height of the axis are not modelled. Real numbers stand for floats, so the
comparison of a walker's fraction with the threshold is exact.
-/

namespace Naima

open Classical

noncomputable section

/-- `sampler.get_chain()`: an array of shape `(steps, walkers, parameters)`; `val s w p` is its entry. -/
structure ChainArr where
  nsteps : ℕ
  nwalkers : ℕ
  npars : ℕ
  val : ℕ → ℕ → ℕ → ℝ

/-- What `_plot_chain_func` reads of the sampler: the chain, the labels and the acceptance fractions, and
the autocorrelation times emcee estimates (`none`: emcee raises AutocorrError, plot.py:196-201). -/
structure ChainSampler where
  chain : ChainArr
  labels : List Label
  acceptance : List ℝ
  autocorr : Option (ℕ → ℝ)

/-- `chain[:, :, p]`: the index of the column read; negative numbers count from the end (plot.py:120). -/
def axisIndex (n : ℕ) (p : ℤ) : Except PyErr ℕ :=
  if 0 ≤ p ∧ p < n then .ok p.toNat
  else if -(n : ℤ) ≤ p ∧ p < 0 then .ok (n + p).toNat
  else .error .indexError

/-- plot.py:120: `chain[:, :, p].T`, one row for each walker -/
def chainTraces (c : ChainArr) (p : ℕ) : List (List ℝ) :=
  (List.range c.nwalkers).map (fun w : ℕ => (List.range c.nsteps).map (fun s : ℕ => c.val s w p))

/-- plot.py:121-126: the samples of the distribution. `traces[:, -1]` of no steps is an IndexError. -/
def chainDist (c : ChainArr) (p : ℕ) (lastStep : Bool) : Except PyErr (List ℝ) :=
  if lastStep then
    if c.nsteps = 0 then .error .indexError
    else .ok ((List.range c.nwalkers).map (fun w : ℕ => c.val (c.nsteps - 1) w p))
  else .ok (chainTraces c p).flatten

/-- plot.py:142-146: is walker `w` of `n` drawn in colour? -/
def redWalker (n w : ℕ) : Bool :=
  let thresh : ℝ := if n < 60 then 1 - 3 / n else 0.95
  decide (thresh ≤ (w : ℝ) / n)

/-- The figure of one parameter (plot.py:134-270): the walker traces drawn in grey and in colour, the axis
label, the samples and number of bins of the histogram, the line at the median and the edges of the band,
and the text: walkers, steps, autocorrelation time, mean acceptance fraction, which samples, median,
standard deviation and the lines of the summary. -/
structure ChainFig where
  label : Label
  grey : List (List ℝ)
  coloured : List (List ℝ)
  dist : List ℝ
  bins : ℕ
  median : ℝ
  span : ℝ × ℝ
  walkers : ℕ
  steps : ℕ
  autocorr : Option ℝ
  acceptance : ℝ
  lastEnsemble : Bool
  std : ℝ
  lines : List (Label × Shown)

/-- `np.mean` -/
def npMean (l : List ℝ) : ℝ := l.sum / l.length

/-- `scipy.stats.gaussian_kde` refuses fewer than two samples, and samples that are all equal (a
LinAlgError, which numpy makes a ValueError) (plot.py:169). -/
def kdeRefuses (d : List ℝ) : Prop := d.length < 2 ∨ ∀ x ∈ d, ∀ y ∈ d, x = y

/-- `_plot_chain_func(sampler, p, last_step)` (plot.py:111-270) for a chain with three axes, which is what
`get_chain()` returns. `3.0 / nwalkers` without walkers is a ZeroDivisionError (plot.py:142). -/
def plotChainFunc (rnd : ℝ → ℤ) (s : ChainSampler) (p : ℤ) (lastStep : Bool) : Except PyErr ChainFig := do
  let label ← pyIndex s.labels p
  let q ← axisIndex s.chain.npars p
  let dist ← chainDist s.chain q lastStep
  let n := s.chain.nwalkers
  if n = 0 then .error .zeroDivisionError
  else if kdeRefuses dist then .error .valueError
  else
    let lines ← chainSummary rnd label dist
    .ok { label := label
          grey := ((chainTraces s.chain q).zipIdx.filter (fun t => !redWalker n t.2)).map (·.1)
          coloured := ((chainTraces s.chain q).zipIdx.filter (fun t => redWalker n t.2)).map (·.1)
          dist := dist
          bins := min (max 25 (dist.length / 100)) 100
          median := percentile dist 50
          span := (percentile dist 16, percentile dist 84)
          walkers := n
          steps := s.chain.nsteps
          autocorr := s.autocorr.map (fun f => f q)
          acceptance := npMean s.acceptance
          lastEnsemble := lastStep
          std := npStd dist
          lines := lines }

/-- plot.py:45-47: the loop over the parameters from number `p` on, `k` of them: the figures made, and the
exception that ended the loop. -/
def plotChainLoop (rnd : ℝ → ℤ) (s : ChainSampler) (lastStep : Bool) :
    ℕ → ℕ → List ChainFig × Option PyErr
  | _, 0 => ([], none)
  | p, k + 1 =>
    match plotChainFunc rnd s p lastStep with
    | .error e => ([], some e)
    | .ok f => let r := plotChainLoop rnd s lastStep (p + 1) k; (f :: r.1, r.2)

/-- `plot_chain(sampler, p, last_step)` (plot.py:26-52): the figures made, and the value returned (`none`
for Python's `None`) or the exception raised. -/
def plotChain (rnd : ℝ → ℤ) (s : ChainSampler) (p : Option ℤ) (lastStep : Bool) :
    List ChainFig × Except PyErr (Option ChainFig) :=
  match p with
  | none =>
    match plotChainLoop rnd s lastStep 0 s.chain.npars with
    | (figs, none) => (figs, .ok none)
    | (figs, some e) => (figs, .error e)
  | some p =>
    match plotChainFunc rnd s p lastStep with
    | .error e => ([], .error e)
    | .ok f => ([f], .ok (some f))

end

end Naima
