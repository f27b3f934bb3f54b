import Verif.Model.Memo
import Verif.Model.Sherpa

/-!
# The distance in the cache key (src/naima/model_utils.py:44-47, radiative.py:88-134)

`flux(energies, distance=d)` puts `str(d)` in the key, all digits of the number.  `sed(energies, d)` calls
`self.flux(photon_energy, distance)` (radiative.py:132), so there the distance is a positional argument and enters the key
as part of `str(args)`, that is with its `repr`, which numpy writes with the digits its print options ask for.
`InverseCompton` overrides `flux` and passes the distance on by keyword (radiative.py:733), so this is about the other
radiative models.
-/

namespace Naima

open XR Classical

noncomputable section

/-- How numbers are written: numpy's print option `precision` (8 unless the user has called `numpy.set_printoptions`), how
decimals are rounded, and the texts of a decimal without and with exponent, and of a float with all its digits (`str`). -/
structure NumText where
  precision : ℕ
  rnd : ℝ → ℤ
  fixed : ℚ → PyStr
  sci : ℚ → PyStr
  full : ℝ → PyStr

/-- `numpy.array2string` of one positive number: `precision` digits after the decimal point; numbers below 1e-4 and from
1e8 on are written with an exponent. -/
def NumText.shown (t : NumText) (x : ℝ) : PyStr :=
  if 1e-4 ≤ x ∧ x < 1e8 then t.fixed (t.rnd (x * 10 ^ t.precision) / 10 ^ t.precision)
  else
    let e : ℤ := ⌊Real.logb 10 x⌋
    t.sci (t.rnd (x * (10 : ℝ) ^ ((t.precision : ℤ) - e)) / (10 : ℚ) ^ ((t.precision : ℤ) - e))

/-- `(<Quantity ` -/
def argsHead : PyStr := ['(', '<', 'Q', 'u', 'a', 'n', 't', 'i', 't', 'y', ' ']

/-- `>,)` -/
def argsTail : PyStr := ['>', ',', ')']

/-- `str(args)` for the one positional argument `d` (model_utils.py:46-47): a tuple of one Quantity. -/
def NumText.args (t : NumText) (uname : PhysUnit → PyStr) (d : Qty ℝ) : PyStr :=
  argsHead ++ t.shown d.value ++ ' ' :: (uname d.unit ++ argsTail)

/-- Ways in which the memoised `flux` is called for given energies: as `flux(E)`, as `flux(E, distance=d)`, and, by `sed`,
as `flux(E, d)`. -/
inductive DistCall
  | default
  | keyword (d : Qty ℝ)
  | positional (d : Qty ℝ)

/-- The distance meant (radiative.py:89: the default is 1 kpc). -/
def DistCall.distance : DistCall → Qty ℝ
  | .default => ⟨1, kpc⟩
  | .keyword d => d
  | .positional d => d

/-- The request as it enters the key (model_utils.py:44-47); everything else is that of `r`. -/
def distReq (t : NumText) (uname : PhysUnit → PyStr) (r : FluxReq Unit) (q : DistCall) : FluxReq DistCall where
  energyBytes := r.energyBytes
  energyUnit := r.energyUnit
  distance := match q with
    | .keyword d => some (.quantity (t.full d.value) (uname d.unit))
    | _ => none
  posArgs := match q with
    | .positional d => some (t.args uname d)
    | _ => none
  modelParams := r.modelParams
  distParams := r.distParams
  hidden := q

/-- The digest of such a request (model_utils.py:58). -/
def distKey (t : NumText) (uname : PhysUnit → PyStr) (sha : PyStr → PyStr) (r : FluxReq Unit) (q : DistCall) : PyStr :=
  FluxReq.key sha (distReq t uname r q)

/-- What a user asks for: `flux(E)`, `flux(E, distance=d)` or `sed(E, d)` / `sed(E, distance=d)`. -/
inductive DistOp
  | flux
  | fluxAt (d : Qty ℝ)
  | sedAt (d : Qty ℝ)

/-- The call of `flux` such an operation leads to (radiative.py:88, 132). -/
def DistOp.call : DistOp → DistCall
  | .flux => .default
  | .fluxAt d => .keyword d
  | .sedAt d => .positional d

/-- `(flux * photon_energy**2.0).to(out_unit)` (radiative.py:125-132). -/
def sedFromFlux (e : Qty (List ℝ)) (d : Qty ℝ) (fl : Qty (List XR)) : Except PyErr (Qty (List XR)) :=
  Qty.toArr ⟨List.zipWith (fun f x => f * fin (x ^ 2)) fl.value e.value, (fl.unit.mul e.unit).mul e.unit⟩
    (if (DistArg.qty d).isZero then uPower else uSed)

/-- One call, with the cache of the object (radiative.py:88-134, model_utils.py:13-74).  `spectrum` is the `_spectrum` of
the model, `e` the energies. -/
def distCall (t : NumText) (uname : PhysUnit → PyStr) (sha : PyStr → PyStr) (r : FluxReq Unit)
    (spectrum : List ℝ → Except PyErr (List XR)) (e : Qty (List ℝ)) (m : Memo PyStr (Qty (List XR))) :
    DistOp → Except PyErr (Qty (List XR)) × Memo PyStr (Qty (List XR))
  | .flux =>
    Memo.call (fun q : DistCall => fluxOf spectrum e (.qty q.distance)) (distKey t uname sha r) m true DistOp.flux.call
  | .fluxAt d =>
    Memo.call (fun q : DistCall => fluxOf spectrum e (.qty q.distance)) (distKey t uname sha r) m true
      (DistOp.fluxAt d).call
  | .sedAt d =>
    match energiesErg e with
    | .error x => (.error x, m)
    | .ok _ =>
      match Memo.call (fun q : DistCall => fluxOf spectrum e (.qty q.distance)) (distKey t uname sha r) m true
          (DistOp.sedAt d).call with
      | (.error x, m') => (.error x, m')
      | (.ok fl, m') => (sedFromFlux e d fl, m')

/-- A history of such calls on one object; the answers in order. -/
def distRun (t : NumText) (uname : PhysUnit → PyStr) (sha : PyStr → PyStr) (r : FluxReq Unit)
    (spectrum : List ℝ → Except PyErr (List XR)) (e : Qty (List ℝ)) (m : Memo PyStr (Qty (List XR))) :
    List DistOp → List (Except PyErr (Qty (List XR)))
  | [] => []
  | op :: rest =>
    (distCall t uname sha r spectrum e m op).1 ::
      distRun t uname sha r spectrum e (distCall t uname sha r spectrum e m op).2 rest

end

end Naima
