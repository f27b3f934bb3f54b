import Verif.Base.Units
import Verif.Model.Guess
import Std.Data.String.ToNat

/-! # Saving and reading runs (`naima/analysis.py:366-590`)

An HDF5 file is modelled as the tree of named datasets and attributes that `h5py` presents; the byte
format, compression and `h5py`'s own buffering are not modelled.  Numbers are `XR`, so NaN blobs are
included.  Unit strings (`unit.to_string()` / parsing) are modelled as the unit itself, and the data
table as an opaque value (`write_table_hdf5` / `read_table_hdf5` of astropy are trusted to be inverse). -/

namespace Naima

open XR Classical

noncomputable section

/-- An array of rank 0, 1 or 2. -/
inductive Arr
  | d0 (x : XR)
  | d1 (l : List XR)
  | d2 (m : List (List XR))

namespace Arr

/-- `np.ndim` -/
def rank : Arr → Nat
  | d0 _ => 0
  | d1 _ => 1
  | d2 _ => 2

/-- `np.shape`; `none` if the rows have different lengths (NumPy refuses such data). -/
def shape : Arr → Option (List Nat)
  | d0 _ => some []
  | d1 l => some [l.length]
  | d2 m => if ∀ r ∈ m, r.length = (m.headD []).length then some [m.length, (m.headD []).length] else none

/-- multiplication by a number -/
def scale (k : ℝ) : Arr → Arr
  | d0 x => d0 (x * fin k)
  | d1 l => d1 (l.map (· * fin k))
  | d2 m => d2 (m.map (fun r => r.map (· * fin k)))

end Arr

/-- the unit `""` -/
def dimless : PhysUnit := ⟨1, Dim.one⟩

/-- One metadata blob of one sample: a Quantity, a float, a tuple or list of one-dimensional arrays
(each with a unit if it is a Quantity), or anything else (int, str, None, tuples of numbers, ...). -/
inductive SBlob
  | qty (a : Arr) (u : PhysUnit)
  | num (x : XR)
  | tup (members : List (List XR × Option PhysUnit))
  | other

/-- The part of an `emcee.EnsembleSampler` that is saved; chain, log-probabilities and blobs are indexed
`[step][walker]`. `V`: run-information values, `T`: data tables. -/
structure Run (V T : Type) where
  chain : List (List (List ℝ))
  logProb : List (List XR)
  blobs : List (List (List SBlob))
  data : T
  runInfo : Dict Label V
  acceptance : ℝ
  labels : List Label

/-- Value of an HDF5 attribute. -/
inductive Attr (V : Type)
  | val (v : V)
  | str (v : V)
  | num (x : ℝ)
  | label (l : Label)

/-- A blob dataset: one entry per sample, and the unit attributes. -/
structure Dataset where
  rows : List Arr
  attrs : Dict Label PhysUnit

/-- The contents of an HDF5 file written by `save_run`, possibly incomplete. -/
structure H5 (V T : Type) where
  chain : Option (List (List (List ℝ))) := none
  logProb : Option (List (List XR)) := none
  dsets : Dict Label Dataset := []
  table : Option T := none
  attrs : Dict Label (Attr V) := []

/-- The writes that `save_run` performs, in order. -/
inductive Op (V T : Type)
  | openW
  | chain (c : List (List (List ℝ)))
  | logProb (l : List (List XR))
  | dset (name : Label) (rows : List Arr)
  | dsetAttr (name key : Label) (u : PhysUnit)
  | table (t : T)
  | attr (key : Label) (a : Attr V)

/-- Effect of one write on the file (`none`: no such file). `h5py.File(filename, "w")` truncates. -/
def Op.apply {V T : Type} (op : Op V T) (f : Option (H5 V T)) : Option (H5 V T) :=
  match op with
  | .openW => some {}
  | .chain c => f.map (fun f => { f with chain := some c })
  | .logProb l => f.map (fun f => { f with logProb := some l })
  | .dset name rows => f.map (fun f => { f with dsets := Dict.set f.dsets name ⟨rows, []⟩ })
  | .dsetAttr name key u => f.map (fun f => match Dict.get? f.dsets name with
      | some d => { f with dsets := Dict.set f.dsets name ⟨d.rows, Dict.set d.attrs key u⟩ }
      | none => f)
  | .table t => f.map (fun f => { f with table := some t })
  | .attr key a => f.map (fun f => { f with attrs := Dict.set f.attrs key a })

/-- The file after a sequence of writes. -/
def applyOps {V T : Type} (ops : List (Op V T)) (f : Option (H5 V T)) : Option (H5 V T) :=
  ops.foldl (fun f op => op.apply f) f

/-- `"<stem>{0}".format(i)` -/
def numbered (stem : Label) (i : Nat) : Label := stem ++ (Nat.repr i).toList

/-- `"blob{0}".format(i)` -/
def blobKey (i : Nat) : Label := numbered "blob".toList i
/-- `"label{0}".format(i)` -/
def labelKey (i : Nat) : Label := numbered "label".toList i
/-- `"unit{0}".format(i)` -/
def unitKey (i : Nat) : Label := numbered "unit".toList i
/-- `"unit"` -/
def unitKey0 : Label := "unit".toList
/-- `"acceptance_fraction"` -/
def accKey : Label := "acceptance_fraction".toList

/-! ## save_run -/

/-- analysis.py:411-431: the unit strings of a blob; `none` if its format is unknown. -/
def blobUnits : SBlob → Option (List PhysUnit)
  | .qty _ u => some [u]
  | .num _ => some [dimless]
  | .tup ms => some (ms.map (fun m => m.2.getD dimless))
  | .other => none

/-- analysis.py:433-437: `walkerblob[idx]` for every step and walker, in this order. -/
def blobColumn (blobs : List (List (List SBlob))) (idx : Nat) : Except PyErr (List SBlob) :=
  blobs.flatten.mapM (fun w => match w[idx]? with
    | some b => .ok b
    | none => .error .indexError)

/-- An entry of a list of Quantities in the given unit. -/
def SBlob.toUnit (u : PhysUnit) : SBlob → Except PyErr Arr
  | .qty a v => if v.dim = u.dim then .ok (a.scale (v.scale / u.scale)) else .error .unitConversionError
  | _ => .error .typeError

/-- An entry of a list that contains no Quantity at top level: NumPy takes the numbers of the arrays in
a tuple and ignores their units. -/
def SBlob.rawArr : SBlob → Except PyErr Arr
  | .num x => .ok (.d0 x)
  | .tup ms => .ok (.d2 (ms.map (·.1)))
  | _ => .error .typeError

/-- NumPy accepts a list of arrays only if their shapes agree. -/
def checkShapes (rows : List Arr) : Except PyErr (List Arr) :=
  match rows with
  | [] => .ok []
  | r :: _ => if r.shape ≠ none ∧ ∀ r' ∈ rows, r'.shape = r.shape then .ok rows else .error .valueError

/-- analysis.py:438 `u.Quantity(blob).value`: a list of Quantities is converted to the unit of its *first*
entry; other lists are passed to NumPy.  Lists that mix Quantities with other items raise (astropy
accepts some dimensionless mixtures: not modelled). -/
def quantityValue (col : List SBlob) : Except PyErr (List Arr) :=
  match col with
  | .qty a u :: rest => (((.qty a u : SBlob) :: rest).mapM (SBlob.toUnit u)).bind checkShapes
  | col => (col.mapM SBlob.rawArr).bind checkShapes

/-- analysis.py:440-447: the dataset and its unit attributes; IndexError for `units[0]` if the tuple
has no members. -/
def datasetOps {V T : Type} (idx : Nat) (units : List PhysUnit) (rows : List Arr) :
    List (Op V T) × Option PyErr :=
  match units with
  | [] => ([.dset (blobKey idx) rows], some .indexError)
  | [u] => ([.dset (blobKey idx) rows, .dsetAttr (blobKey idx) unitKey0 u], none)
  | us => (.dset (blobKey idx) rows ::
      us.zipIdx.map (fun uj => .dsetAttr (blobKey idx) (unitKey uj.2) uj.1), none)

/-- analysis.py:408-447: the loop over the blobs of the first walker of the last step, from number `idx`
on. -/
def blobOps {V T : Type} (blobs : List (List (List SBlob))) :
    List SBlob → Nat → List (Op V T) × Option PyErr
  | [], _ => ([], none)
  | item :: items, idx =>
    match blobUnits item with
    | none => blobOps blobs items (idx + 1)
    | some units =>
      match (blobColumn blobs idx).bind quantityValue with
      | .error e => ([], some e)
      | .ok rows =>
        match datasetOps idx units rows with
        | (ops, some e) => (ops, some e)
        | (ops, none) =>
          let (ops', e) := blobOps blobs items (idx + 1)
          (ops ++ ops', e)

/-- analysis.py:457-464: run information; a value that HDF5 cannot hold is saved as its string. -/
def infoOps {V T : Type} (storable : V → Bool) (info : Dict Label V) : List (Op V T) :=
  info.map (fun kv => .attr kv.1 (if storable kv.2 then .val kv.2 else .str kv.2))

/-- analysis.py:470-471 -/
def labelOps {V T : Type} (labels : List Label) : List (Op V T) :=
  labels.zipIdx.map (fun li => .attr (labelKey li.2) (.label li.1))

/-- analysis.py:449-471: the writes after the blobs. -/
def tailOps {V T : Type} (storable : V → Bool) (s : Run V T) : List (Op V T) :=
  .table s.data :: (infoOps storable s.runInfo ++ (.attr accKey (.num s.acceptance) :: labelOps s.labels))

/-- analysis.py:399-471: all writes to the file, and the exception that ends them, if any.
`sampler.get_blobs()[-1][0]` raises IndexError if there is no sample. -/
def saveOps {V T : Type} (storable : V → Bool) (s : Run V T) : List (Op V T) × Option PyErr :=
  let start : List (Op V T) := [.openW, .chain s.chain, .logProb s.logProb]
  match (s.blobs.getLast?).bind (·.head?) with
  | none => (start, some .indexError)
  | some blob =>
    match blobOps s.blobs blob 0 with
    | (ops, some e) => (start ++ ops, some e)
    | (ops, none) => (start ++ ops ++ tailOps storable s, none)

/-- `pathlib.Path(filename).suffix` for a file name without directories: from the last dot, if it is
neither the first nor the last character. -/
def fileSuffix (name : Label) : Label :=
  let ext := (name.reverse.takeWhile (· ≠ '.')).reverse
  let stem := name.take (name.length - ext.length - 1)
  if ext.length < name.length ∧ ext ≠ [] ∧ stem ≠ [] then '.' :: ext else []

/-- A file system: contents of the file of each name. -/
abbrev FS (V T : Type) := Label → Option (H5 V T)

/-- analysis.py:390-471 `save_run(filename, sampler, clobber=...)`: the writes to the named file and the
outcome. -/
def saveRun {V T : Type} (storable : V → Bool) (fs : FS V T) (name : Label) (clobber : Bool)
    (s : Run V T) : List (Op V T) × Option PyErr :=
  if fileSuffix name ∉ [".hdf5".toList, ".h5".toList] then ([], some .valueError)
  else if fs name ≠ none ∧ clobber = false then ([], none)
  else saveOps storable s

/-- The file system when `save_run` is stopped (killed, power cut, ...) after `k` of its writes. -/
def crashAfter {V T : Type} (storable : V → Bool) (fs : FS V T) (name : Label) (clobber : Bool)
    (s : Run V T) (k : Nat) : FS V T :=
  fun p => if p = name then applyOps ((saveRun storable fs name clobber s).1.take k) (fs name) else fs p

/-- The file system when `save_run` has returned or raised. -/
def afterSave {V T : Type} (storable : V → Bool) (fs : FS V T) (name : Label) (clobber : Bool)
    (s : Run V T) : FS V T :=
  fun p => if p = name then applyOps (saveRun storable fs name clobber s).1 (fs name) else fs p

/-! ## read_run -/

/-- A blob of one sample as returned by `read_run`: a Quantity, or a list of two Quantities. -/
inductive RBlob
  | qty (a : Arr) (u : PhysUnit)
  | pair (a : List XR) (ua : PhysUnit) (b : List XR) (ub : PhysUnit)

/-- A blob dataset after analysis.py:541-554. -/
inductive Series
  | flat (rows : List Arr) (u : PhysUnit)
  | pair (a : List (List XR)) (ua : PhysUnit) (b : List (List XR)) (ub : PhysUnit)

/-- `ds[:, j, :]` -/
def memberRows (rows : List Arr) (j : Nat) : Except PyErr (List (List XR)) :=
  rows.mapM (fun r => match r with
    | .d2 m => match m[j]? with
      | some l => .ok l
      | none => .error .valueError
    | _ => .error .valueError)

/-- `ds.attrs[key]` -/
def attrOr (d : Dict Label PhysUnit) (key : Label) : Except PyErr PhysUnit :=
  match Dict.get? d key with
  | some u => .ok u
  | none => .error .keyError

/-- analysis.py:542-554: one blob dataset; the number of members of a tuple is taken to be the rank of
its entries, which is two. -/
def readSeries (d : Dataset) : Except PyErr Series :=
  match d.rows with
  | [] => .error .indexError
  | r :: _ =>
    if r.rank ≤ 1 then do
      let u ← attrOr d.attrs unitKey0
      pure (.flat d.rows u)
    else do
      let a ← memberRows d.rows 0
      let ua ← attrOr d.attrs (unitKey 0)
      let b ← memberRows d.rows 1
      let ub ← attrOr d.attrs (unitKey 1)
      pure (.pair a ua b ub)

/-- analysis.py:538-556: at most `n` more blobs from number `i` on; KeyError ends the loop, other
exceptions propagate. -/
def readBlobs {V T : Type} (f : H5 V T) : Nat → Nat → Except PyErr (List Series)
  | 0, _ => .ok []
  | n + 1, i =>
    match Dict.get? f.dsets (blobKey i) with
    | none => .ok []
    | some d =>
      match readSeries d with
      | .error .keyError => .ok []
      | .error e => .error e
      | .ok s => (readBlobs f n (i + 1)).map (fun l => s :: l)

/-- analysis.py:562-571: entry `n` of a series. -/
def Series.at (n : Nat) : Series → Except PyErr RBlob
  | .flat rows u => match rows[n]? with
    | some a => .ok (.qty a u)
    | none => .error .indexError
  | .pair a ua b ub => match a[n]?, b[n]? with
    | some x, some y => .ok (.pair x ua y ub)
    | _, _ => .error .indexError

/-- analysis.py:558-573: blobs of every step and walker. -/
def organise (series : List Series) (nsteps nwalkers : Nat) : Except PyErr (List (List (List RBlob))) :=
  (List.range nsteps).mapM (fun step => (List.range nwalkers).mapM (fun walker =>
    series.mapM (Series.at (step * nwalkers + walker))))

/-- Length of the first axis of a blob; `none` for scalars. -/
def RBlob.lead : RBlob → Option Nat
  | .qty (.d0 _) _ => none
  | .qty (.d1 l) _ => some l.length
  | .qty (.d2 m) _ => some m.length
  | .pair _ _ _ _ => some 2

/-- The numbers of a blob. -/
def RBlob.raw : RBlob → Arr
  | .qty a _ => a
  | .pair a _ b _ => .d2 [a, b]

/-- The blobs of a reloaded run: objects, or an array of higher dimension in which the units are gone. -/
inductive RBlobs
  | objects (l : List (List (List RBlob)))
  | exploded (l : List (List (List Arr)))

/-- analysis.py:575 `np.array(result_blobs, dtype=object)`: NumPy makes the array as deep as the nested
data allow.  If all blobs of all samples have a first axis of the same length, they are taken apart and
their units are lost (cf. the comment in core.py:110-113); otherwise the blobs stay as objects. -/
def npObject (l : List (List (List RBlob))) : RBlobs :=
  if ∃ n, l.flatten.flatten ≠ [] ∧ ∀ b ∈ l.flatten.flatten, b.lead = some n
  then .exploded (l.map (fun s => s.map (fun w => w.map RBlob.raw)))
  else .objects l

/-- What `read_run` returns. -/
structure ReadResult (V T : Type) where
  chain : List (List (List ℝ))
  logProb : List (List XR)
  blobs : RBlobs
  runInfo : Dict Label (Attr V)
  acceptance : Attr V
  labels : List (Attr V)
  data : T

/-- lookup raising KeyError -/
def lookupOr {α : Type} (o : Option α) : Except PyErr α :=
  match o with
  | some a => .ok a
  | none => .error .keyError

/-- analysis.py:497-588 `read_run` on the contents of a file. The labels read are as many as the chain
has parameters (`nblobs` in the code). -/
def readRun {V T : Type} (f : H5 V T) : Except PyErr (ReadResult V T) := do
  let chain ← lookupOr f.chain
  let logProb ← lookupOr f.logProb
  let series ← readBlobs f 100 0
  let blobs ← organise series chain.length (chain.headD []).length
  let acc ← lookupOr (Dict.get? f.attrs accKey)
  let labels ← (List.range ((chain.headD []).headD []).length).mapM
    (fun i => lookupOr (Dict.get? f.attrs (labelKey i)))
  let table ← lookupOr f.table
  pure { chain := chain, logProb := logProb, blobs := npObject blobs, runInfo := f.attrs,
         acceptance := acc, labels := labels, data := table }

/-! ## `_result` -/

/-- A NumPy array: shape and elements in C order. -/
structure NDArray (α : Type) where
  shape : List Nat
  data : List α

/-- position in C order of the element with the given indices -/
def cOffset : List Nat → List Nat → Nat
  | _ :: ns, i :: is => i * ns.prod + cOffset ns is
  | _, _ => 0

/-- `a[i, j, ...]` -/
def NDArray.get {α : Type} (a : NDArray α) (idx : List Nat) : Option α := a.data[cOffset a.shape idx]?

/-- `v.reshape(s)`: ValueError if the sizes differ. -/
def NDArray.reshape {α : Type} (a : NDArray α) (s : List Nat) : Except PyErr (NDArray α) :=
  if s.prod = a.data.length then .ok ⟨s, a.data⟩ else .error .valueError

/-- analysis.py:479-486 `_result.get_value(name, flat)`: `s = list(v.shape[1:]); s[0] = prod(v.shape[:2])`. -/
def getValue {α : Type} (v : NDArray α) (flat : Bool) : Except PyErr (NDArray α) :=
  if flat then
    match v.shape.drop 1 with
    | [] => .error .indexError
    | _ :: rest => v.reshape ((v.shape.take 2).prod :: rest)
  else .ok v

end

end Naima
