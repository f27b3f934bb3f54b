import Verif.Model.Guess
import Verif.Model.NelderMead

/-! # `get_sampler` as a whole: `naima/core.py:336-481`

The pieces (`samplerLabels`, `guessNorm`, `prefit`, the interactive fitter, `makeSampler`) are modelled
elsewhere; here is their composition, with what happens to the objects the caller passed in. -/

namespace Naima

open XR Classical

/-- What kind of Python object `p0` is. -/
inductive P0Kind
  | list
  | tuple
  | floatArray
  | intArray

noncomputable section

/-- The number held by an element of `p0` after a float has been stored in it.  An integer array
truncates (a NaN or an infinity becomes the smallest 64-bit integer). -/
def storeIn (k : P0Kind) (x : XR) : XR :=
  match k, x with
  | .intArray, fin v => fin (truncCast v)
  | .intArray, _ => fin (-9223372036854775808)
  | _, x => x

/-- core.py:403-408 for each kind of `p0`: a tuple does not support item assignment (TypeError); the
stored value is converted to the element type of an array.  (Only the element at the position found
is stored into; the other elements of an integer array are integers, which the conversion keeps.) -/
def storeGuess (k : P0Kind) (new : List XR) : Except PyErr (List XR) :=
  match k with
  | .tuple => .error .typeError
  | k => .ok (new.map (storeIn k))

/-- core.py:379-419: the guess; the result is the content of the caller's `p0` afterwards. -/
def guessInPlace (k : P0Kind) (guess : Bool) (labels : List Label) (p0 : List XR) (data : VTable)
    (spec : Spectrum) : Except PyErr (List XR) :=
  match unitsCheck spec.unit data.fluxU with
  | .error e => .error e
  | .ok () =>
    if guess then
      match normIdxs labels with
      | [i] =>
        match guessAt labels p0 data spec i with
        | .error e => .error e
        | .ok new => storeGuess k new
      | _ => .ok p0
    else .ok p0

/-- core.py:475-481: `spread`, `p0var` and the walkers. `normal i` is the vector of standard normal
numbers drawn for walker `i`. -/
def initialWalkers (isML : Bool) (nwalkers : Nat) (p0 : List XR) (normal : Nat → List ℝ) :
    List (List XR) :=
  (List.range nwalkers).map (fun i =>
    List.zipWith (fun p n => p + (fin (if isML then 0.005 else 0.1) * p) * fin n) p0 (normal i))

/-- The arguments of `get_sampler` that matter here. -/
structure GSArgs where
  kind : P0Kind
  p0 : List XR
  labels : Option (List Label)
  nwalkers : Nat
  guess : Bool
  prefit : Bool
  /-- `interactive=True`: what the fitter window returns (`imf.pars`, `imf.P0_IS_ML`) for the `p0`
  and labels it was opened with -/
  interactive : Option (List XR → List Label → List XR × Bool)

/-- What `get_sampler` has produced when the burn-in begins, and the caller's objects at that time. -/
structure GSResult where
  /-- `sampler.labels` -/
  labels : List Label
  /-- `sampler.run_info["p0"]` -/
  start : List XR
  isML : Bool
  walkers : List (List XR)
  /-- the caller's `p0` and `labels` objects -/
  callerP0 : List XR
  callerLabels : Option (List Label)

/-- core.py:336-481 `get_sampler` up to the burn-in; `data` is the validated data table, `model` the
user's model function (first element of its output), `fit` is `_prefit`. -/
def getSampler (a : GSArgs) (data : VTable) (model : List XR → Except PyErr Spectrum)
    (fit : List XR → Except PyErr (List XR × Bool)) (normal : Nat → List ℝ) : Except PyErr GSResult :=
  let labels := samplerLabels a.labels a.p0.length
  match model a.p0 with
  | .error e => .error e
  | .ok spec =>
    match guessInPlace a.kind a.guess labels a.p0 data spec with
    | .error e => .error e
    | .ok p1 =>
      let p2 := match a.interactive with
        | none => (p1, false)
        | some w => w p1 labels
      match (if a.prefit = true ∧ p2.2 = false then fit p2.1 else .ok p2) with
      | .error e => .error e
      | .ok p3 =>
        .ok { labels := labels
              start := p3.1
              isML := p3.2
              walkers := initialWalkers p3.2 a.nwalkers p3.1 normal
              callerP0 := p1
              callerLabels := a.labels.map (fun _ => labels) }

end

/-- One move of emcee's default (stretch) ensemble move, as trusted: every walker is afterwards either
where one was before, or at `c - (c - s) * z` for two walkers `c`, `s` and a number `z`. -/
def StretchMove (X X' : List (List XR)) : Prop :=
  X'.length = X.length ∧ ∀ x ∈ X', x ∈ X ∨
    ∃ c ∈ X, ∃ s ∈ X, ∃ z : ℝ, x = List.zipWith (fun a b => a - (a - b) * fin z) c s

/-- Ensembles reachable by any number of moves. -/
inductive StretchReach : List (List XR) → List (List XR) → Prop
  | refl (X : List (List XR)) : StretchReach X X
  | step {X Y Z : List (List XR)} : StretchReach X Y → StretchMove Y Z → StretchReach X Z

end Naima
