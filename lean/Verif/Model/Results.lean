import Verif.Model.NelderMead
import Verif.Model.Guess
import Mathlib.Data.List.Infix
import Mathlib.Data.List.Sort

/-! # Maximum-likelihood sample, confidence bands and the results table
(`naima/plot.py:273-343, 438-501, 667-702`, `naima/analysis.py:165-363`)

A chain is indexed `[step][walker][parameter]`, as emcee's `get_chain()` returns it; log-probabilities
and blobs are indexed `[step][walker]`. -/

namespace Naima

open XR Classical

noncomputable section

/-! ## `find_ML` -/

/-- position of the first element satisfying `p`, scanning from position `i` -/
def firstIdx (p : XR → Bool) : List XR → Nat → Option Nat
  | [], _ => none
  | a :: l, i => if p a then some i else firstIdx p l (i + 1)

/-- `np.argmax` of a flattened array: the first NaN if there is one, otherwise the first maximum.
ValueError for an empty array. -/
def npArgmax (l : List XR) : Except PyErr Nat :=
  match firstIdx (fun a => decide (a = nan)) l 0 with
  | some i => .ok i
  | none =>
    match firstIdx (fun a => decide (∀ b ∈ l, b ≤ a)) l 0 with
    | some i => .ok i
    | none => .error .valueError

/-- `np.unravel_index(n, shape)` for an array of rows of length `w`. -/
def unravel (n w : Nat) : Nat × Nat := (n / w, n % w)

/-- plot.py:667-702 `find_ML(sampler, modelidx)`: the returned log-probability, parameter vector and the
blob at the same index (of which the entry `modelidx` is returned). The array shapes agree. -/
def findML {P B : Type} (lnprob : List (List XR)) (chain : List (List P)) (blobs : List (List B)) :
    Except PyErr (XR × P × B) := do
  let n ← npArgmax lnprob.flatten
  let w := (lnprob.headD []).length
  let (i, j) := unravel n w
  match (lnprob[i]?.bind (·[j]?)), (chain[i]?.bind (·[j]?)), (blobs[i]?.bind (·[j]?)) with
  | some m, some p, some b => .ok (m, p, b)
  | _, _, _ => .error .indexError

/-! ## Order statistics -/

/-- `np.sort` -/
def npSort (l : List XR) : List XR := l.mergeSort (fun a b => decide (npLe a b))

/-- plot.py:486-499: one edge of the band at one energy: `np.sort(samples)[int(fr * (n - 1))]`. -/
def bandEdge (samples : List XR) (fr : ℝ) : Except PyErr XR :=
  match (npSort samples)[⌊fr * ((samples.length : ℝ) - 1)⌋₊]? with
  | some y => .ok y
  | none => .error .indexError

/-- plot.py:486-499 for one confidence level and the samples at one energy: `(ymin, ymax)`.  `cdf` is
`scipy.stats.norm.cdf`. -/
def bandAt (cdf : ℝ → ℝ) (samples : List XR) (conf : ℝ) : Except PyErr (XR × XR) := do
  let lo ← bandEdge samples (cdf (-conf))
  let hi ← bandEdge samples (cdf conf)
  pure (lo, hi)

/-- `model[:, i]` -/
def sampleColumn (model : List (List XR)) (i : Nat) : List XR := model.map (fun m => m.getD i nan)

/-- plot.py:438-501 `_calc_CI`: bands for each confidence level and each of the `n` energies. -/
def calcCI (cdf : ℝ → ℝ) (model : List (List XR)) (n : Nat) (confs : List ℝ) :
    Except PyErr (List (List (XR × XR))) :=
  confs.mapM (fun conf => (List.range n).mapM (fun i => bandAt cdf (sampleColumn model i) conf))

/-- `np.percentile(l, q)` of a non-empty array of finite numbers (method "linear"). -/
def percentile (l : List ℝ) (q : ℝ) : ℝ :=
  let s := l.mergeSort (fun a b => decide (a ≤ b))
  let t : ℝ := ((l.length : ℝ) - 1) * (q / 100)
  let i := ⌊t⌋₊
  s.getD i 0 + (t - i) * (s.getD (min (i + 1) (l.length - 1)) 0 - s.getD i 0)

/-! ## The results table -/

/-- A row of the results table: label, median, unc_lo, unc_hi. -/
structure ResRow where
  label : Label
  median : ℝ
  lo : ℝ
  hi : ℝ

/-- analysis.py:279-286 (and 296-300, 331-335): `np.percentile` of no samples raises IndexError. -/
def mkRow (label : Label) (dist : List ℝ) : Except PyErr ResRow :=
  if dist = [] then .error .indexError
  else .ok { label := label
             median := percentile dist 50
             lo := percentile dist 50 - percentile dist 16
             hi := percentile dist 84 - percentile dist 50 }

/-- analysis.py:241-244: the samples used. `get_chain()[:, -1, :]` indexes the *second* axis. -/
def resultSamples (lastStep : Bool) (chain : List (List (List ℝ))) : Except PyErr (List (List ℝ)) :=
  if lastStep then
    chain.mapM (fun step => match step.getLast? with
      | some w => .ok w
      | none => .error .indexError)
  else .ok chain.flatten

/-- `dists[:, p]` -/
def distColumn (dists : List (List ℝ)) (p : Nat) : Except PyErr (List ℝ) :=
  dists.mapM (fun r => match r[p]? with
    | some x => .ok x
    | none => .error .indexError)

/-- `label.split("(")[0]` -/
def labelHead (l : Label) : Label := l.takeWhile (· ≠ '(')

/-- `label.split("(")[-1].split(")")[0]` -/
def labelInner (l : Label) : Label :=
  ((l.reverse.takeWhile (· ≠ '(')).reverse).takeWhile (· ≠ ')')

/-- analysis.py:288 `"log10(" in label or "log(" in label` -/
def isLogLabel (l : Label) : Bool := decide (log10Pre <:+: l) || decide (logPre <:+: l)

/-- analysis.py:289-294: `new_dist`; if the part before the first parenthesis is neither `log10` nor
`log` the variable keeps the value of an earlier parameter (`none`: not yet bound). -/
def newDist (l : Label) (dist : List ℝ) (stale : Option (List ℝ)) : Option (List ℝ) :=
  if labelHead l = ['l', 'o', 'g', '1', '0'] then some (dist.map (fun x => (10 : ℝ) ^ x))
  else if labelHead l = ['l', 'o', 'g'] then some (dist.map Real.exp)
  else stale

/-- analysis.py:279-300: rows of the parameters from number `p` on. -/
def paramRows (convertLog : Bool) (dists : List (List ℝ)) :
    Nat → List Label → Option (List ℝ) → Except PyErr (List ResRow)
  | _, [], _ => .ok []
  | p, l :: ls, stale =>
    match distColumn dists p with
    | .error e => .error e
    | .ok dist =>
      match mkRow l dist with
      | .error e => .error e
      | .ok r =>
        if convertLog && isLogLabel l then
          match newDist l dist stale with
          | none => .error .unboundLocalError
          | some nd =>
            match mkRow (labelInner l) nd with
            | .error e => .error e
            | .ok r' => (paramRows convertLog dists (p + 1) ls (some nd)).map (fun rs => r :: r' :: rs)
        else (paramRows convertLog dists (p + 1) ls stale).map (fun rs => r :: rs)

/-- A blob as far as the table is concerned: a Quantity of size one, a Python scalar, anything else. -/
inductive BlobVal
  | qty (v : ℝ)
  | num (v : ℝ)
  | other

/-- analysis.py:325-329: the value of a blob, given whether the first one was a Quantity: `.value` of a
plain number raises AttributeError; a Quantity or another object inside an array of numbers raises
TypeError. -/
def blobValue (isQty : Bool) : BlobVal → Except PyErr ℝ
  | .qty v => if isQty then .ok v else .error .typeError
  | .num v => if isQty then .error .attributeError else .ok v
  | .other => .error .attributeError

/-- analysis.py:318-324: the blob number `idx` of all walkers at the last step, or of all samples. -/
def blobSamples (lastStep : Bool) (blobs : List (List (List BlobVal))) (idx : Nat) : List BlobVal :=
  ((if lastStep then blobs.getLastD [] else blobs.flatten)).map (fun w => w.getD idx .other)

/-- analysis.py:305-335: the row of blob `idx`, if it is scalar in the first walker of the last step. -/
def blobRow (lastStep : Bool) (blobs : List (List (List BlobVal))) (idx : Nat) (name : Label) :
    Except PyErr (List ResRow) :=
  match ((blobs.getLastD []).headD []).getD idx .other with
  | .other => .ok []
  | .qty _ => do
      let dist ← (blobSamples lastStep blobs idx).mapM (blobValue true)
      let r ← mkRow name dist
      pure [r]
  | .num _ => do
      let dist ← (blobSamples lastStep blobs idx).mapM (blobValue false)
      let r ← mkRow name dist
      pure [r]

/-- `"blob{0}".format(idx)` -/
def blobLabel (idx : Nat) : Label := "blob".toList ++ (toString idx).toList

/-- analysis.py:165-363 `save_results_table`: the rows of the table, without the metadata and the
writing of the file. -/
def resultsTable (convertLog lastStep includeBlobs : Bool) (labels : List Label)
    (chain : List (List (List ℝ))) (blobs : List (List (List BlobVal))) : Except PyErr (List ResRow) :=
  match resultSamples lastStep chain with
  | .error e => .error e
  | .ok dists =>
    match paramRows convertLog dists 0 labels none with
    | .error e => .error e
    | .ok rows =>
      if includeBlobs then
        ((List.range ((blobs.getLastD []).headD []).length).mapM
          (fun idx => blobRow lastStep blobs idx (blobLabel idx))).map (fun rs => rows ++ rs.flatten)
      else .ok rows

end

end Naima
