import Verif.Base.XR
import Verif.Base.Py
import Mathlib.Algebra.Order.Floor.Ring

/-! # `naima/extern/minimize.py`: Nelder–Mead, and `core._prefit`

Points are vectors of finite reals, objective values ideal IEEE numbers.  The objective is a total
function here; an exception raised by it simply propagates out of `minimize`. -/

namespace Naima

open XR Classical

noncomputable section

/-- a parameter vector -/
abbrev Vec := List ℝ

/-- numpy's sort order: NaN after everything else -/
def npLe (a b : XR) : Prop := b = nan ∨ a ≤ b

/-- `a * x + b * y` -/
def vlin (a : ℝ) (x : Vec) (b : ℝ) (y : Vec) : Vec := List.zipWith (fun p q => a * p + b * q) x y

/-- minimize.py:132 `numpy.add.reduce(sim[:-1], 0) / N` -/
def centroid (pts : List (Vec × XR)) : Vec :=
  match pts with
  | [] => []
  | p :: rest =>
    (rest.foldl (fun acc q => List.zipWith (· + ·) acc q.1) p.1).map (fun x => x / (pts.length : ℝ))

/-- minimize.py:107-116: the starting simplex.  `cast` is the conversion made when a value is stored
into an array of `x0`'s dtype: the identity for float, truncation for integer arrays. -/
def startPoint (cast : ℝ → ℝ) (x0 : Vec) (k : Nat) : Vec :=
  x0.set k (cast (if x0.getD k 0 ≠ 0 then (1 + 0.05) * x0.getD k 0 else 0.00025))

/-- minimize.py:101-116 -/
def startSimplex (f : Vec → XR) (cast : ℝ → ℝ) (x0 : Vec) : List (Vec × XR) :=
  (x0, f x0) :: (List.range x0.length).map
    (fun k => (startPoint cast x0 k, f (startPoint cast x0 k)))

/-- The stopping test, minimize.py:126-130.  `numpy.max` of an array is `<= tol` exactly when every
element is (a NaN makes both false). -/
def nmConverged (xtol ftol : ℝ) (sim : List (Vec × XR)) : Prop :=
  match sim with
  | [] => False
  | best :: rest =>
    (∀ p ∈ rest, ∀ q ∈ p.1.zip best.1, XR.abs ((fin q.1 - fin q.2) / fin q.2) ≤ fin xtol) ∧
    (∀ p ∈ rest, XR.abs ((best.2 - p.2) / best.2) ≤ fin ftol)

/-- minimize.py:173-176: a vertex after shrinking towards the best one -/
def shrinkPt (cast : ℝ → ℝ) (best x : Vec) : Vec :=
  (List.zipWith (fun b y => b + 0.5 * (y - b)) best x).map cast

/-- One iteration without the final sort (minimize.py:132-176): the new simplex and the points at
which the objective was evaluated, in order. `sim` is sorted, best first. -/
def nmMove (f : Vec → XR) (cast : ℝ → ℝ) (sim : List (Vec × XR)) :
    List (Vec × XR) × List Vec :=
  let best := sim.headD ([], nan)
  let worst := sim.getLastD ([], nan)
  let second := sim.dropLast.getLastD ([], nan)
  let xbar := centroid sim.dropLast
  -- `sim[-1] = x; fsim[-1] = v`
  let put (x : Vec) (v : XR) : List (Vec × XR) := sim.dropLast ++ [(x.map cast, v)]
  let shrunk : List Vec := sim.tail.map (fun p => shrinkPt cast best.1 p.1)
  let shrink : List (Vec × XR) := best :: shrunk.map (fun y => (y, f y))
  let xr := vlin 2 xbar (-1) worst.1
  let fxr := f xr
  if fxr < best.2 then
    let xe := vlin 3 xbar (-2) worst.1
    let fxe := f xe
    if fxe < fxr then (put xe fxe, [xr, xe]) else (put xr fxr, [xr, xe])
  else if fxr < second.2 then (put xr fxr, [xr])
  else if fxr < worst.2 then
    let xc := vlin 1.5 xbar (-0.5) worst.1
    let fxc := f xc
    if fxc ≤ fxr then (put xc fxc, [xr, xc]) else (shrink, [xr, xc] ++ shrunk)
  else
    let xcc := vlin 0.5 xbar 0.5 worst.1
    let fxcc := f xcc
    if fxcc < worst.2 then (put xcc fxcc, [xr, xcc]) else (shrink, [xr, xcc] ++ shrunk)

/-- Loop state: simplex with values, all points evaluated so far (`fcalls[0]` is their number,
minimize.py:22-31), and the iteration counter. -/
structure NMState where
  sim : List (Vec × XR)
  evals : List Vec
  iterations : Nat

/-- minimize.py:125-185: the loop.  `sort` is reordering by `numpy.argsort(fsim)`. -/
def nmLoop (sort : List (Vec × XR) → List (Vec × XR)) (f : Vec → XR) (cast : ℝ → ℝ)
    (xtol ftol : ℝ) (maxfun maxiter : Nat) (s : NMState) : NMState :=
  if s.evals.length < maxfun ∧ s.iterations < maxiter then
    if nmConverged xtol ftol s.sim then s
    else
      nmLoop sort f cast xtol ftol maxfun maxiter
        { sim := sort (nmMove f cast s.sim).1
          evals := s.evals ++ (nmMove f cast s.sim).2
          iterations := s.iterations + 1 }
  else s
termination_by maxiter - s.iterations

/-- State at the start of the loop (minimize.py:101-123). -/
def nmInit (sort : List (Vec × XR) → List (Vec × XR)) (f : Vec → XR) (cast : ℝ → ℝ) (x0 : Vec) :
    NMState where
  sim := sort (startSimplex f cast x0)
  evals := (startSimplex f cast x0).map (·.1)
  iterations := 1

/-- `numpy.min` of a non-empty array: NaN if any element is NaN -/
def npMin (l : List XR) : XR :=
  if nan ∈ l then nan else l.foldr (fun a b => if a ≤ b then a else b) pinf

/-- The `OptimizeResult` (minimize.py:209-217). -/
structure NMResult where
  x : Vec
  fun' : XR
  nit : Nat
  nfev : Nat
  status : Nat
  success : Bool
  /-- not part of the result object: the points evaluated, and the final simplex -/
  evals : List Vec
  sim : List (Vec × XR)

/-- minimize.py:44-220 `minimize(func, x0, options=...)`; `maxfev`, `maxiter` default to `200 * N`.
Modelled for a non-empty vector (numpy raises on an empty one). -/
def minimize (sort : List (Vec × XR) → List (Vec × XR)) (f : Vec → XR) (cast : ℝ → ℝ) (x0 : Vec)
    (xtol ftol : ℝ) (maxfev maxiter : Option Nat) : NMResult :=
  let maxiter := maxiter.getD (x0.length * 200)
  let maxfun := maxfev.getD (x0.length * 200)
  let s := nmLoop sort f cast xtol ftol maxfun maxiter (nmInit sort f cast x0)
  let status := if s.evals.length ≥ maxfun then 1 else if s.iterations ≥ maxiter then 2 else 0
  { x := (s.sim.headD ([], nan)).1
    fun' := npMin (s.sim.map (·.2))
    nit := s.iterations
    nfev := s.evals.length
    status := status
    success := decide (status = 0)
    evals := s.evals
    sim := s.sim }

/-- A function that behaves like reordering by `numpy.argsort(fsim)` (which is not stable). -/
def IsNMSort (sort : List (Vec × XR) → List (Vec × XR)) : Prop :=
  ∀ l, (sort l).Perm l ∧ (sort l).Pairwise (fun a b => npLe a.2 b.2)

/-- Conversion to an integer dtype: truncation towards zero. -/
def truncCast (x : ℝ) : ℝ := if 0 ≤ x then (⌊x⌋ : ℝ) else (⌈x⌉ : ℝ)

/-- core.py:163-217 `_prefit(p0, data, model, prior)`: `ll` is the log-probability with a flat prior
(`lnprob(p, data, model, flat_prior)[0]`), `llPrior` the one with the user's prior.  Returns the new
`p0` and the flag `P0_IS_ML`. -/
def prefit (sort : List (Vec × XR) → List (Vec × XR)) (cast : ℝ → ℝ) (ll llPrior : Vec → XR)
    (p0 : Vec) : Vec × Bool :=
  let result := minimize sort (fun p => -(ll p)) cast p0 1e-1 1e-3 (some 500) none
  let lp := llPrior result.x
  let inf := match lp with
    | pinf => true
    | ninf => true
    | _ => false
  if (result.success = true ∨ result.status = 1) ∧ inf = false then
    -- `P0_IS_ML = True` only in the branch `status != 1`
    (result.x, decide (result.status ≠ 1))
  else (p0, false)

end

end Naima
