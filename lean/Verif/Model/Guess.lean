import Verif.Model.LnProb

/-! # Parameter labels and the normalisation guess: `naima/core.py:344-419` -/

namespace Naima

open XR Classical

/-- A label, as its sequence of characters. -/
abbrev Label := List Char

/-- core.py:347, 349 and model_fitter.py:75, 77 `"par{0}".format(i)` -/
def parLabel (i : Nat) : Label := "par".toList ++ (toString i).toList

/-- core.py:344-349: labels used by `get_sampler` for `npar` parameters. (A list given by the user is
extended in place.) -/
def samplerLabels (labels : Option (List Label)) (npar : Nat) : List Label :=
  match labels with
  | none => ['n', 'o', 'r', 'm'] :: (List.range' 1 (npar - 1)).map parLabel
  | some l => if l.length < npar then l ++ (List.range' l.length (npar - l.length)).map parLabel else l

/-- model_fitter.py:73-77: labels used by `InteractiveModelFitter`. -/
def fitterLabels (labels : Option (List Label)) (npar : Nat) : List Label :=
  match labels with
  | none => (List.range npar).map parLabel
  | some l => if l.length < npar then l ++ (List.range' l.length (npar - l.length)).map parLabel else l

/-- `str.lower` (ASCII letters; simplification: other letters are left alone) -/
def lowerLabel (l : Label) : Label := l.map Char.toLower

/-- core.py:380 `["norm", "ampl", "we", "wp"]` -/
def normBase : List Label := [['n', 'o', 'r', 'm'], ['a', 'm', 'p', 'l'], ['w', 'e'], ['w', 'p']]

/-- `"log("` -/
def logPre : Label := ['l', 'o', 'g', '(']
/-- `"log10("` -/
def log10Pre : Label := ['l', 'o', 'g', '1', '0', '(']

/-- core.py:380-383 -/
def normNames : List Label :=
  normBase ++ normBase.map (fun n => logPre ++ n) ++ normBase.map (fun n => log10Pre ++ n)

/-- core.py:384-390: `idxs`; `labels.index(l2)` is the first position of an equal label. -/
def normIdxs (labels : List Label) : List Nat :=
  normNames.flatMap (fun n =>
    (labels.filter (fun l => n.isPrefixOf (lowerLabel l))).map (fun l => labels.idxOf l))

noncomputable section

/-- `np.trapezoid(y, x)`: `(diff(x) * (y[1:] + y[:-1]) / 2).sum()`. -/
def npTrapezoid : List XR → List ℝ → XR
  | y :: y' :: ys, x :: x' :: xs =>
      fin (x' - x) * (y' + y) / fin 2 + npTrapezoid (y' :: ys) (x' :: xs)
  | _, _ => fin 0

/-- core.py:393-401: `np.trapezoid(energy * (flux * sedf).to(nunit), energy)` as a physical size (cgs)
with the dimensions of `nunit`.  An array of another length raises ValueError. -/
def energyFluxOf (vals : List XR) (unit : PhysUnit) (rows : List Row) : Except PyErr (XR × Dim) :=
  match sedConversion unit false with
  | .error e => .error e
  | .ok (nunit, s) =>
    if vals.length ≠ rows.length then .error .valueError
    else if unit.dim.mul s.dim = nunit.dim then
      .ok (npTrapezoid (List.zipWith (fun v r => fin r.energy * (v * fin (s.phys r.energy))) vals rows)
        (rows.map (·.energy)), nunit.dim)
    else .error .unitConversionError

/-- `p0[i] = g(p0[i])`: IndexError if there is no such element. -/
def modifyAt (p0 : List XR) (i : Nat) (g : XR → XR) : Except PyErr (List XR) :=
  if i < p0.length then .ok (p0.modify i g) else .error .indexError

/-- core.py:403-408: apply the guess to the parameter with label `lab` at position `i`. -/
def applyRatio (lab : Label) (p0 : List XR) (i : Nat) (ratio : XR) : Except PyErr (List XR) :=
  if logPre.isPrefixOf lab then modifyAt p0 i (fun x => x + XR.log ratio)
  else if log10Pre.isPrefixOf lab then modifyAt p0 i (fun x => x + XR.log10 ratio)
  else modifyAt p0 i (fun x => x * ratio)

/-- core.py:360-377: both spectra must be convertible to a differential one; otherwise UnitsError. -/
def unitsCheck (spec : PhysUnit) (data : PhysUnit) : Except PyErr Unit :=
  match sedConversion spec false, sedConversion data false with
  | .ok _, .ok _ => .ok ()
  | _, _ => .error .unitsError

/-- core.py:392-408: the guess itself, `i` being the one index found.  A ratio that is not
dimensionless (flux data, luminosity model) raises TypeError when it is stored in, or converted to, a
float. -/
def guessAt (labels : List Label) (p0 : List XR) (data : VTable) (spec : Spectrum) (i : Nat) :
    Except PyErr (List XR) :=
  match energyFluxOf spec.vals spec.unit data.rows,
        energyFluxOf (data.rows.map (fun r => fin r.flux)) data.fluxU data.rows with
  | .error e, _ => .error e
  | .ok _, .error e => .error e
  | .ok (currFlux, d1), .ok (dataFlux, d2) =>
    if d1 = d2 then applyRatio (labels.getD i []) p0 i (dataFlux / currFlux)
    else .error .typeError

/-- core.py:351-419: units check and normalisation guess; returns the new `p0`.  `spec` is the first
element of the model output at `p0`. -/
def guessNorm (guess : Bool) (labels : List Label) (p0 : List XR) (data : VTable) (spec : Spectrum) :
    Except PyErr (List XR) :=
  match unitsCheck spec.unit data.fluxU with
  | .error e => .error e
  | .ok () =>
    if guess then
      match normIdxs labels with
      | [i] => guessAt labels p0 data spec i
      | _ => .ok p0
    else .ok p0

end

end Naima
