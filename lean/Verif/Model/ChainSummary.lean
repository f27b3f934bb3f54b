import Verif.Model.Results

/-!
# Text summary of a parameter in a chain plot (src/naima/plot.py:65-108, 172-174, 231-265)

A printed decimal number is modelled by its digits: the integer `k` and the number of decimals `n`
(negative: zeros before the decimal point), standing for `k·10⁻ⁿ`. Number formatting (`round`,
`"{:.nf}".format`) is trusted to round to a nearest decimal; which of two nearest ones is left open
(`rnd`). Drawing, the autocorrelation time, acceptance fraction and standard deviation lines are not
modelled, nor is `gaussian_kde` (which raises if all samples are equal).
-/

namespace Naima

open Classical

noncomputable section

/-- A printed decimal number `k·10⁻ⁿ`. -/
structure Dec where
  k : ℤ
  n : ℤ

/-- the number a printed decimal stands for -/
def Dec.val (d : Dec) : ℝ := d.k * (10 : ℝ) ^ (-d.n)

/-- What `_latex_value_error` prints: `value ± lo` (`hi` the same) or `value +hi -lo`, all times
`10^order` (printed only if not 0). -/
structure Shown where
  value : Dec
  lo : Dec
  hi : Dec
  order : ℤ

/-- `round2(x, n)` (plot.py:65-72) -/
def round2 (rnd : ℝ → ℤ) (x : ℝ) (n : ℤ) : Dec := ⟨rnd (x * (10 : ℝ) ^ n), n⟩

/-- `int(x)` of a float: towards zero. -/
def pyIntR (x : ℝ) : ℤ := if 0 ≤ x then ⌊x⌋ else ⌈x⌉

/-- `-int(np.floor(np.log10(e)))`, one more if `e * 10**n < 2` (plot.py:83-85, 88-90, 99-101).
`int` of `-inf` is an OverflowError, of NaN a ValueError. -/
def decimals (e : ℝ) : Except PyErr ℤ :=
  if e = 0 then .error .overflowError
  else if e < 0 then .error .valueError
  else
    let n := -⌊Real.logb 10 e⌋
    if e * (10 : ℝ) ^ n < 2 then .ok (n + 1) else .ok n

/-- `_latex_value_error(val, elo, ehi, tol=0.25)` (plot.py:75-108) -/
def latexValueError (rnd : ℝ → ℤ) (val elo ehi : ℝ) : Except PyErr Shown := do
  if val = 0 then .error .overflowError
  else
    let order₀ := pyIntR (Real.logb 10 |val|)
    let scaled : Bool := decide (order₀ > 2 ∨ order₀ < -2)
    let order := if scaled then order₀ else 0
    let val := if scaled then val / (10 : ℝ) ^ order₀ else val
    let elo := if scaled then elo / (10 : ℝ) ^ order₀ else elo
    let ehi := if scaled then ehi / (10 : ℝ) ^ order₀ else ehi
    let nlo ← decimals elo
    if ehi ≠ 0 then
      let nhi ← decimals ehi
      if |elo - ehi| / ((elo + ehi) / 2) > 0.25 then
        .ok ⟨round2 rnd val (max nlo nhi), round2 rnd elo nlo, round2 rnd ehi nhi, order⟩
      else
        let e := (elo + ehi) / 2
        let n ← decimals e
        .ok ⟨round2 rnd val n, round2 rnd e n, round2 rnd e n, order⟩
    else
      .ok ⟨round2 rnd val nlo, round2 rnd elo nlo, round2 rnd elo nlo, order⟩

/-- plot.py:172-174, 235-239: the median and its distances to the 16th and 84th percentiles, printed. -/
def summaryLine (rnd : ℝ → ℤ) (dist : List ℝ) : Except PyErr Shown :=
  latexValueError rnd (percentile dist 50) (percentile dist 50 - percentile dist 16)
    (percentile dist 84 - percentile dist 50)

/-- plot.py:231-265: the lines `label = value` printed for a parameter; a second line for the
exponential if the label contains `log10(` or `log(`. -/
def chainSummary (rnd : ℝ → ℤ) (label : Label) (dist : List ℝ) : Except PyErr (List (Label × Shown)) := do
  if dist = [] then .error .indexError
  else
    let first ← summaryLine rnd dist
    if isLogLabel label then
      match newDist label dist none with
      | none => .error .unboundLocalError
      | some d =>
        let second ← summaryLine rnd d
        .ok [(label, first), (labelInner label, second)]
    else .ok [(label, first)]

end

end Naima
