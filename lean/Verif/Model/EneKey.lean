import Verif.Model.EneArg
import Verif.Model.ICKernel

/-!
# The photon energies in the cache key (src/naima/model_utils.py:36-43) and their shape

`energy.value.tobytes()` is the memory of the numbers in C order, eight bytes each, whatever the shape; the `value` of a
scalar Quantity is a `numpy.float64`, which has `tobytes` too (astropy ≥ 6.1 as required in pyproject.toml).
-/

namespace Naima

open XR

/-- The numbers of a Quantity, in C order. -/
def eneData : PyVal → List XR
  | .qty x _ => [x]
  | .qarr _ d _ => d
  | _ => []

/-- The shape of a Quantity; `()` for a scalar. -/
def eneShape : PyVal → List ℕ
  | .qarr s _ _ => s
  | _ => []

/-- The unit of a Quantity. -/
def eneUnit : PyVal → PhysUnit
  | .qty _ u => u
  | .qarr _ _ u => u
  | _ => ⟨1, Dim.one⟩

/-- `energy.value.tobytes()` (model_utils.py:37).  `enc` is the eight bytes of a number.  Simplification: the numbers
are float64 in native byte order, as `u.Quantity` makes them from Python numbers. -/
def eneBytes (enc : XR → PyStr) (v : PyVal) : PyStr := ((eneData v).map enc).flatten

/-- The request for the energies `v` when everything else (distance, parameters) is that of `r`; `uname` is
`unit.to_string()` (model_utils.py:42-43).  All that the result depends on besides is `v` itself. -/
def eneReq (enc : XR → PyStr) (uname : PhysUnit → PyStr) (r : FluxReq Unit) (v : PyVal) : FluxReq PyVal where
  energyBytes := eneBytes enc v
  energyUnit := uname (eneUnit v)
  distance := r.distance
  posArgs := r.posArgs
  modelParams := r.modelParams
  distParams := r.distParams
  hidden := v

/-- The digest under which the result for the energies `v` is stored (model_utils.py:36-58). -/
def eneKey (enc : XR → PyStr) (uname : PhysUnit → PyStr) (sha : PyStr → PyStr) (r : FluxReq Unit) (v : PyVal) : PyStr :=
  FluxReq.key sha (eneReq enc uname r v)

/-! ## numpy broadcasting of a product (radiative.py:132, `self.flux(..) * photon_energy**2.0`) -/

/-- The shape of the result, both shapes given with the last axis first; `ValueError` when they do not fit. -/
def bcastShape : List ℕ → List ℕ → Except PyErr (List ℕ)
  | [], t => .ok t
  | s, [] => .ok s
  | a :: s, b :: t =>
    match bcastShape s t with
    | .error e => .error e
    | .ok r =>
      if a = b then .ok (a :: r)
      else if b = 1 then .ok (a :: r)
      else if a = 1 then .ok (b :: r)
      else .error .valueError

/-- Which number of an array of shape `a` stands at position `i` of the result of shape `o` (last axis first). -/
def bcastIndex : List ℕ → List ℕ → ℕ → ℕ
  | o :: os, a :: as, i => (if a = 1 then 0 else i % o) + a * bcastIndex os as (i / o)
  | _, _, _ => 0

/-- `x * y` of two arrays, with their shapes. -/
noncomputable def bcastMul (x y : List ℕ × List XR) : Except PyErr (List ℕ × List XR) :=
  match bcastShape x.1.reverse y.1.reverse with
  | .error e => .error e
  | .ok o => .ok (o.reverse, (List.range o.prod).map (fun i : ℕ =>
      x.2.getD (bcastIndex o x.1.reverse i) nan * y.2.getD (bcastIndex o y.1.reverse i) nan))

/-- `(flux * photon_energy**2.0).to(out_unit)` (radiative.py:132); `k` is the factor between the units. -/
noncomputable def sedFinish (k : ℝ) (v : PyVal) (f : List ℕ × List XR) : Except PyErr (List ℕ × List XR) :=
  match bcastMul f (eneShape v, (eneData v).map (fun x => x * x)) with
  | .error e => .error e
  | .ok r => .ok (r.1, r.2.map (fun y => y * fin k))

/-- `InverseCompton._spectrum` as a function of the validated energies (radiative.py:657-710), with the shape of the
result: zero-dimensional and one-dimensional requests; for others the outcome is `deep`.  Simplification: the numbers of
the energies are finite. -/
noncomputable def icBody (m : ElModel) (seeds : List SeedNum) (pd : PDist)
    (deep : PyVal → Except PyErr (List ℕ × List XR)) (v : PyVal) : Except PyErr (List ℕ × List XR) :=
  let erg (x : XR) : ℝ := (match x with | fin r => r | _ => 0) * (eneUnit v).scale
  match v with
  | .qty x _ => (icSpectrumReq m seeds pd (.scalar (erg x))).map (fun l => ([], l))
  | .qarr [n] d _ => (icSpectrumReq m seeds pd (.array (d.map erg))).map (fun l => ([n], l))
  | v => deep v

end Naima
