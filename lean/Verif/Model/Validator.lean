import Verif.Base.Units

/-! # `naima/extern/validator.py` and `utils.validate_column` -/

namespace Naima

open Classical

/-- The Python values passed to the validators. -/
inductive PyVal : Type
  /-- a real Python/numpy scalar -/
  | num (x : XR)
  /-- a complex scalar with non-zero imaginary part -/
  | cplx
  /-- a plain `np.ndarray` -/
  | arr (shape : List Nat) (data : List XR)
  /-- a (nested) list or tuple, with the shape and contents `np.array` gives it -/
  | seq (shape : List Nat) (data : List XR)
  /-- a scalar `Quantity` -/
  | qty (x : XR) (u : PhysUnit)
  /-- an array `Quantity` -/
  | qarr (shape : List Nat) (data : List XR) (u : PhysUnit)

/-- The `domain` argument. Any other value (e.g. a misspelt name) is ignored by the code. -/
inductive Domain : Type
  | none | positive | strictlyPositive | negative | strictlyNegative
  | range (lo hi : XR)
  | other

/-- extern/validator.py:8-23 `validate_physical_type`.  `pt` is `none` for `physical_type=None`,
a one-element list for a string, the list otherwise.  Physical types are dimension vectors
(`Base/Units`). -/
def validatePhysicalType (v : PyVal) (pt : Option (List Dim)) : Except PyErr Unit :=
  match pt with
  | .none => .ok ()
  | .some types =>
    match v with
    | .qty _ u => if u.dim ∈ types then .ok () else .error .typeError
    | .qarr _ _ u => if u.dim ∈ types then .ok () else .error .typeError
    | _ => .error .typeError

/-- Comparison of a scalar Quantity with a plain number: astropy raises UnitConversionError unless
the unit is dimensionless or the number is zero, infinite or NaN. -/
noncomputable def cmpQty (x : XR) (u : PhysUnit) (op : XR → XR → Prop) (bound : XR) :
    Except PyErr Bool :=
  if u.dim = Dim.one then .ok (decide (op (x * XR.fin u.scale) bound))
  else match bound with
    | .fin b => if b = 0 then .ok (decide (op x bound)) else .error .unitConversionError
    | _ => .ok (decide (op x bound))

/-- The truth value of `if value OP bound:`. -/
noncomputable def cmpScalar (v : PyVal) (op : XR → XR → Prop) (bound : XR) : Except PyErr Bool :=
  match v with
  | .num x => .ok (decide (op x bound))
  | .qty x u => cmpQty x u op bound
  -- `if array < 0:` is "truth value of an array is ambiguous" except for one element
  | .arr _ data | .seq _ data => match data with
      | [x] => .ok (decide (op x bound))
      | _ => .error .valueError
  | .qarr _ data u => match data with
      | [x] => cmpQty x u op bound
      | _ => .error .valueError
  | .cplx => .error .typeError

/-- extern/validator.py:26-53 `validate_scalar`.
Simplification: `if not physical_type` is read as `physical_type is None` (no caller passes an
empty string or list). -/
noncomputable def validateScalar (v : PyVal) (dom : Domain) (pt : Option (List Dim)) :
    Except PyErr PyVal := do
  validatePhysicalType v pt
  match pt, v with
  | .some _, _ => pure ()
  | .none, .num _ => pure ()
  | .none, _ => throw .typeError       -- `np.isscalar` is False for arrays and Quantities
  match dom with
  | .positive => if ← cmpScalar v (· < ·) (XR.fin 0) then throw .valueError
  | .strictlyPositive => if ← cmpScalar v (· ≤ ·) (XR.fin 0) then throw .valueError
  | .negative => if ← cmpScalar v (fun a b => b < a) (XR.fin 0) then throw .valueError
  | .strictlyNegative => if ← cmpScalar v (fun a b => b ≤ a) (XR.fin 0) then throw .valueError
  | .range lo hi =>
      -- `value < domain[0] or value > domain[-1]` (short-circuit)
      if ← cmpScalar v (· < ·) lo then throw .valueError
      if ← cmpScalar v (fun a b => b < a) hi then throw .valueError
  | .none | .other => pure ()
  pure v

/-- extern/validator.py:56-85 `validate_array`.  The `domain` argument is accepted and never
used. -/
def validateArray (v : PyVal) (_dom : Domain) (ndim : Nat) (shape : Option (List Nat))
    (pt : Option (List Dim)) : Except PyErr PyVal := do
  validatePhysicalType v pt
  -- `if type(value) in [list, tuple]: value = np.array(value)`
  let v : PyVal := match v with
    | .seq s d => .arr s d
    | v => v
  -- a scalar Quantity is an ndarray with ndim 0
  let sh : Option (List Nat) := match v with
    | .arr s _ => some s
    | .qarr s _ _ => some s
    | .qty _ _ => some []
    | _ => Option.none
  match sh with
  | Option.none => throw .typeError
  | some s =>
    if s.length ≠ ndim then throw .typeError
    match shape with
    | Option.none => pure v
    | some want => if s ≠ want then throw .valueError else pure v

end Naima
