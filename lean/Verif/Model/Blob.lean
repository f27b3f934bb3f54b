import Verif.Model.Results
import Verif.Model.Const
import Verif.Base.Units

/-! # Model samples from the sampler: `naima/plot.py:273-501`

`_process_blob`, `_read_or_calc_samples`, and the number of samples used by `_calc_CI`.  Blobs are
indexed `[step][walker][blob number]`. -/

namespace Naima

open XR Classical

noncomputable section

/-- An `astropy` Quantity as stored in a blob: a scalar or a one-dimensional array. -/
structure BQty where
  /-- shape `()` rather than `(n,)` -/
  scalar : Bool
  vals : List XR
  unit : PhysUnit

/-- A metadata blob: a Quantity, a Python or numpy scalar, a two-element tuple or list of Quantities,
or anything else. -/
inductive MBlob
  | qty (q : BQty)
  | num (x : XR)
  | pair (e m : BQty)
  | other

/-- An array of samples with their unit, `model` in the code: one row per sample. -/
structure Samples where
  rows : List (List XR)
  unit : PhysUnit

/-- `u.Quantity([q0, q1, ...])` for Quantities: everything is converted to the unit of the first one
(UnitConversionError), and the shapes must agree (ValueError). -/
def stackQty : List BQty → Except PyErr Samples
  | [] => .ok ⟨[], ⟨1, Dim.one⟩⟩
  | q0 :: qs =>
    if ∀ q ∈ qs, q.unit.dim = q0.unit.dim then
      if ∀ q ∈ qs, q.scalar = q0.scalar ∧ q.vals.length = q0.vals.length then
        .ok ⟨(q0 :: qs).map (fun q => q.vals.map (fun v => v * fin (q.unit.scale / q0.unit.scale))), q0.unit⟩
      else .error .valueError
    else .error .unitConversionError

/-- the Quantity of a sample whose first sample was a Quantity (simplification: anything else in the
list makes the conversion raise TypeError) -/
def asQty : MBlob → Except PyErr BQty
  | .qty q => .ok q
  | _ => .error .typeError

/-- the number of a sample whose first sample was a plain scalar (likewise) -/
def asNum : MBlob → Except PyErr BQty
  | .num x => .ok ⟨true, [x], ⟨1, Dim.one⟩⟩
  | _ => .error .typeError

/-- `walkerblob[modelidx][1]` (likewise) -/
def asPair : MBlob → Except PyErr BQty
  | .pair _ m => .ok m
  | _ => .error .typeError

/-- `walkerblob[modelidx]`: IndexError if there is no such blob -/
def blobAt (idx : Nat) (w : List MBlob) : Except PyErr MBlob :=
  match w[idx]? with
  | some b => .ok b
  | none => .error .indexError

/-- plot.py:301-308, 312-319, 329-336: the blobs number `idx` of the last step, or of all steps in
order. -/
def gatherBlobs (blobs : List (List (List MBlob))) (idx : Nat) (lastStep : Bool) : Except PyErr (List MBlob) :=
  (if lastStep then blobs.getLastD [] else blobs.flatten).mapM (blobAt idx)

/-- plot.py:273-343 `_process_blob` for blobs and a data energy array: `modelx` (None for scalars) and
`model`. `blob0` is the one of the first walker of the last step (plot.py:287).  A Quantity that is
neither as long as the energies nor a scalar leaves `modelx` unbound: UnboundLocalError at the return. -/
def processBlob (blobs : List (List (List MBlob))) (energy : BQty) (idx : Nat) (lastStep : Bool) :
    Except PyErr (Option BQty × Samples) :=
  match blobs.getLast? with
  | none => .error .indexError
  | some last =>
    match last with
    | [] => .error .indexError
    | w0 :: _ =>
      match blobAt idx w0 with
      | .error e => .error e
      | .ok (.qty q0) =>
        match (gatherBlobs blobs idx lastStep).bind (fun l => (l.mapM asQty).bind stackQty) with
        | .error e => .error e
        | .ok m =>
          if q0.vals.length = energy.vals.length then .ok (some energy, m)
          else if q0.vals.length = 1 then .ok (none, m)
          else .error .unboundLocalError
      | .ok (.num _) =>
        match (gatherBlobs blobs idx lastStep).bind (fun l => (l.mapM asNum).bind stackQty) with
        | .error e => .error e
        | .ok m => .ok (none, m)
      | .ok (.pair e0 _) =>
        match (gatherBlobs blobs idx lastStep).bind (fun l => (l.mapM asPair).bind stackQty) with
        | .error e => .error e
        | .ok m => .ok (some e0, m)
      | .ok .other => .error .typeError

/-- plot.py:362-371 (and 403-412): the energies for `e_range`, in its unit: `np.logspace(log10(e0),
log10(e1), n)`.  (For limits that are not positive and finite the grid is not modelled: NaN and
infinities.)  Fewer than two limits raise IndexError; further elements are ignored. -/
def eRangeGrid (erange : List ℝ) (n : Nat) : Except PyErr (List ℝ) :=
  match erange with
  | e0 :: e1 :: _ => .ok (logspace (Real.logb 10 e0) (Real.logb 10 e1) n)
  | _ => .error .indexError

/-- plot.py:378 `chain[i]` -/
def pickPars {P : Type} (pool : List P) (i : Nat) : Except PyErr P :=
  match pool[i]? with
  | some p => .ok p
  | none => .error .indexError

/-- plot.py:376-391: the samples computed for an `e_range`: the model is evaluated at parameter
vectors drawn (by the indices `draws`) from the last step or from the whole chain; a bare array is
wrapped in a list (`modelfn` returns the list of blobs here); one sample per draw. -/
def calcSamples {P : Type} (modelfn : P → BQty → Except PyErr (List MBlob)) (chain : List (List P))
    (lastStep : Bool) (draws : List Nat) (energy : BQty) (idx : Nat) :
    Except PyErr (Option BQty × Samples) :=
  let pool := if lastStep then chain.getLastD [] else chain.flatten
  match draws.mapM (pickPars pool) with
  | .error e => .error e
  | .ok pars =>
    match pars.mapM (fun p => modelfn p energy) with
    | .error e => .error e
    | .ok outs => processBlob [outs] energy idx true

/-- plot.py:458-474: the number of samples computed for the confidence levels `confs` when `e_range` is
given, and whether the warning about too few samples is given. `int(1 / cdf + 1)` (ZeroDivision is a
numpy warning giving infinity, whose `int` raises OverflowError; `np.max([])` raises ValueError). -/
def ciSampleCount (cdf : ℝ → ℝ) (confs : List ℝ) : Except PyErr (Nat × Bool) :=
  match confs with
  | [] => .error .valueError
  | c :: cs =>
    let maxconf := cs.foldl max c
    if cdf (-maxconf) = 0 then .error .overflowError
    else
      let minsamples := min 100 ⌊1 / cdf (-maxconf) + 1⌋₊
      if minsamples > 1000 then .ok (1000, true) else .ok (minsamples, false)

end

end Naima
