import Verif.Model.Results
import Mathlib.Analysis.SpecialFunctions.Log.Basic

/-!
# Metadata and file of `save_results_table` (src/naima/analysis.py:165-363)

The rows are those of `resultsTable` (Model/Results). Here: the metadata, its conversion for the format of
the file, and the file. `astropy.table.Table.write` is modelled as storing the table under its name, or
raising OSError if there is such a file and `overwrite` is false. Log messages and column descriptions are
not modelled.
-/

namespace Naima

open XR Classical

noncomputable section

/-- A value of the metadata. `npScalar`, `npVector`, `npMatrix`: numpy scalars and arrays (at most two
dimensions); `py`: any other Python object. -/
inductive MetaVal (V : Type)
  | nat (n : ℕ)
  | float (x : XR)
  | floats (l : List ℝ)
  | text (s : Label)
  | npScalar (x : XR)
  | npVector (l : List ℝ)
  | npMatrix (l : List (List ℝ))
  | py (v : V)

/-- A blob as far as the table is concerned: a Quantity of size one with its unit, a Python scalar,
anything else. -/
inductive UBlob
  | qty (v : ℝ) (unit : Label)
  | num (v : ℝ)
  | other

/-- `b.value` or `b`: the unit is not used (analysis.py:325-329). -/
def UBlob.forget : UBlob → BlobVal
  | .qty v _ => .qty v
  | .num v => .num v
  | .other => .other

/-- `format`: the two formats treated separately, and any other one astropy can write. -/
inductive TableFormat
  | ecsv | ipac | other (name : Label)
  deriving DecidableEq

/-- What `save_results_table` reads from the sampler. `blobs` is `get_blobs()` (`none` if the model returned
none), `nData` is `len(sampler.data)`, `runInfo` the attribute `run_info` (if there is one). -/
structure ResRun (V : Type) where
  labels : List Label
  chain : List (List (List ℝ))
  lnprob : List (List XR)
  blobs : Option (List (List (List UBlob)))
  nData : ℕ
  runInfo : Option (Dict Label (MetaVal V))

/-- The table: its rows, `t.meta` (`top`) without the entry `keywords`, and `t.meta["keywords"]` (the `"value"` of
each). -/
structure ResTable (V : Type) where
  format : TableFormat
  rows : List ResRow
  top : Dict Label (MetaVal V)
  keywords : Option (Dict Label (MetaVal V))

/-- `metadata.update(d)` -/
def dictUpdate {V : Type} (m d : Dict Label (MetaVal V)) : Dict Label (MetaVal V) :=
  d.foldl (fun m kv => m.set kv.1 kv.2) m

/-- analysis.py:272: `BIC = len(MLp) * np.log(len(sampler.data)) - 2 * ML` -/
def bicOf (k n : ℕ) (ml : XR) : XR := fin k * XR.log (fin n) - fin 2 * ml

/-- analysis.py:263-273: the first four entries. `find_ML(sampler, None)` does not look at the blobs. -/
def baseMeta {V : Type} (nSamples nData : ℕ) (ml : XR) (mlp : List ℝ) : Dict Label (MetaVal V) :=
  [("n_samples".toList, .nat nSamples), ("ML_pars".toList, .floats mlp),
   ("MaxLogLikelihood".toList, .float ml), ("BIC".toList, .npScalar (bicOf mlp.length nData ml))]

/-- `"blob{0}_unit".format(idx)` -/
def blobUnitKey (idx : ℕ) : Label := "blob".toList ++ (toString idx).toList ++ "_unit".toList

/-- analysis.py:308-327: the entry for the unit of blob `idx`, which is that of the first walker of the last
step. -/
def blobUnitEntry {V : Type} (blobs : List (List (List UBlob))) (idx : ℕ) (m : Dict Label (MetaVal V)) :
    Dict Label (MetaVal V) :=
  match ((blobs.getLastD []).headD []).getD idx .other with
  | .qty _ u => m.set (blobUnitKey idx) (.text u)
  | _ => m

/-- analysis.py:305-329, the loop over the blobs. -/
def blobUnitEntries {V : Type} (blobs : List (List (List UBlob))) (m : Dict Label (MetaVal V)) :
    Dict Label (MetaVal V) :=
  (List.range ((blobs.getLastD []).headD []).length).foldl (fun m idx => blobUnitEntry blobs idx m) m

/-- analysis.py:350: `a.item()` of a row of a matrix -/
def rowItem : List ℝ → Except PyErr ℝ
  | [x] => .ok x
  | _ => .error .valueError

/-- analysis.py:347-353: a numpy value to plain Python. `a.item()` of a row that does not have exactly one
element raises ValueError. -/
def toPlain {V : Type} : MetaVal V → Except PyErr (MetaVal V)
  | .npScalar x => .ok (.float x)
  | .npVector l => .ok (.floats l)
  | .npMatrix l => (l.mapM rowItem).map .floats
  | v => .ok v

/-- analysis.py:346-353, the loop over the items. -/
def plainMeta {V : Type} : Dict Label (MetaVal V) → Except PyErr (Dict Label (MetaVal V))
  | [] => .ok []
  | (k, v) :: m =>
    match toPlain v with
    | .error e => .error e
    | .ok v' => (plainMeta m).map (fun m' => (k, v') :: m')

/-- analysis.py:219-225: the format used. -/
def formatUsed (hasYaml : Bool) (f : TableFormat) : TableFormat :=
  if !hasYaml && decide (f = .ecsv) then .ipac else f

/-- analysis.py:233-235, 358: the name of the file. -/
def resultsFile (out : Label) (f : TableFormat) : Label :=
  out ++ "_results.".toList ++ (if f = .ecsv then "ecsv".toList else "dat".toList)

/-- analysis.py:276-277 -/
def withRunInfo {V : Type} (run : ResRun V) (m : Dict Label (MetaVal V)) : Dict Label (MetaVal V) :=
  match run.runInfo with
  | some d => dictUpdate m d
  | none => m

/-- analysis.py:305-329 -/
def withBlobUnits {V : Type} (includeBlobs : Bool) (run : ResRun V) (m : Dict Label (MetaVal V)) :
    Dict Label (MetaVal V) :=
  match includeBlobs, run.blobs with
  | true, some b => blobUnitEntries b m
  | _, _ => m

/-- analysis.py:263-277, 305-329: the metadata before the conversion. -/
def tableMeta {V : Type} (includeBlobs : Bool) (nSamples : ℕ) (ml : XR) (mlp : List ℝ) (run : ResRun V) :
    Dict Label (MetaVal V) :=
  let m := baseMeta nSamples run.nData ml mlp
  withBlobUnits includeBlobs run (withRunInfo run m)

/-- analysis.py:337-355: the table with its metadata. -/
def metaTable {V : Type} (f : TableFormat) (rows : List ResRow) (m : Dict Label (MetaVal V)) :
    Except PyErr (ResTable V) :=
  match f with
  | .ipac => .ok { format := f, rows := rows, top := [], keywords := some m }
  | .ecsv => (plainMeta m).map (fun m' => { format := f, rows := rows, top := m', keywords := none })
  | .other _ => .ok { format := f, rows := rows, top := m, keywords := none }

/-- analysis.py:165-355: everything up to the writing of the file. With `include_blobs` and no blobs
`blobs[-1]` raises TypeError. -/
def makeTable {V : Type} (hasYaml : Bool) (format : TableFormat) (convertLog lastStep includeBlobs : Bool)
    (run : ResRun V) : Except PyErr (ResTable V) :=
  match resultSamples lastStep run.chain with
  | .error e => .error e
  | .ok dists =>
    match findML run.lnprob run.chain run.lnprob with
    | .error e => .error e
    | .ok (ml, mlp, _) =>
      match includeBlobs, run.blobs with
      | true, none =>
        match paramRows convertLog dists 0 run.labels none with
        | .error e => .error e
        | .ok _ => .error .typeError
      | _, _ =>
        match resultsTable convertLog lastStep includeBlobs run.labels run.chain
            ((run.blobs.getD []).map (fun step => step.map (fun w => w.map UBlob.forget))) with
        | .error e => .error e
        | .ok rows => metaTable (formatUsed hasYaml format) rows
            (tableMeta includeBlobs dists.length ml mlp run)

/-- analysis.py:165-363 `save_results_table`, with the files before and after. -/
def saveResultsTable {V : Type} (hasYaml : Bool) (out : Label) (format : TableFormat)
    (convertLog lastStep includeBlobs overwrite : Bool) (run : ResRun V)
    (files : Dict Label (ResTable V)) : Dict Label (ResTable V) × Except PyErr (ResTable V) :=
  match makeTable hasYaml format convertLog lastStep includeBlobs run with
  | .error e => (files, .error e)
  | .ok t =>
    let name := resultsFile out (formatUsed hasYaml format)
    if !overwrite && decide (name ∈ files.keys) then (files, .error .ioError)
    else (files.set name t, .ok t)

end

end Naima
