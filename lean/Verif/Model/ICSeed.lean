import Verif.Model.Validator
import Verif.Model.Const

/-!
# `InverseCompton._process_input_seed` (src/naima/radiative.py:432-545)
-/

namespace Naima

open XR Classical

noncomputable section

/-- One entry of the `seed_photon_fields` list: a string, a list of three or four items starting
with a name, a list of another length, or anything else.
Simplification: the first item of a list is a string (the code accepts any hashable name). -/
inductive SeedSpec
  | str (s : String)
  | list3 (name : String) (T uu : PyVal)
  | list4 (name : String) (T uu theta : PyVal)
  | listN
  | other

/-- The `seed_photon_fields` argument: a list, a string, or something else. -/
inductive SeedsArg
  | list (l : List SeedSpec)
  | str (s : String)
  | other

/-- A processed field: keys `type`, `isotropic`/`theta`, and `T`, `u` or `energy`,
`photon_density`.  `theta = none` is `isotropic = True`. -/
inductive SeedField
  | thermal (T u : PyVal) (theta : Option PyVal)
  | array (energy density : PyVal) (theta : Option PyVal)

/-- Kelvin -/
def kelvin : PhysUnit := ⟨1, Dim.temperature⟩
/-- eV / cm³ -/
def eVcm3 : PhysUnit := ⟨cEV, Dim.pressure⟩

/-- `ar * T**4` (radiative.py:458, 499): numbers `ar T⁴`, unit `erg/(cm³ K⁴)` times the fourth power
of the unit of `T`. -/
def arT4 (T : XR) (u : PhysUnit) : PyVal :=
  .qty (fin cAr * pow T (fin 4)) ⟨u.scale ^ 4, Dim.pressure⟩

/-- `T.unit` (radiative.py:487): AttributeError for anything but a Quantity. -/
def unitOf : PyVal → Except PyErr PhysUnit
  | .qty _ u => .ok u
  | .qarr _ _ u => .ok u
  | _ => .error .attributeError

/-- `if uu == 0:` (radiative.py:498). -/
def isZeroVal : PyVal → Except PyErr Bool
  | .num x => .ok (decide (eqv x (fin 0)))
  | .qty x _ => .ok (decide (eqv x (fin 0)))
  | .cplx => .ok false
  | .arr _ d => match d with
      | [x] => .ok (decide (eqv x (fin 0)))
      | _ => .error .valueError
  | .qarr _ d _ => match d with
      | [x] => .ok (decide (eqv x (fin 0)))
      | _ => .error .valueError
  | .seq _ _ => .ok false          -- a list or tuple is never equal to 0

/-- `ar * T**4` for a scalar or one-element temperature. -/
def arT4Of : PyVal → PyVal
  | .qty x u => arT4 x u
  | .qarr s d u => .qarr s (d.map (fun x => fin cAr * pow x (fin 4))) ⟨u.scale ^ 4, Dim.pressure⟩
  | v => v

/-- `u.Quantity((v,)).flatten()` (radiative.py:512-513): data and unit of a one-dimensional array. -/
def flatQ : PyVal → Except PyErr (List XR × PhysUnit)
  | .qty x u => .ok ([x], u)
  | .qarr _ d u => .ok (d, u)
  | .num x => .ok ([x], ⟨1, Dim.one⟩)
  | .arr _ d => .ok (d, ⟨1, Dim.one⟩)
  | .seq _ d => .ok (d, ⟨1, Dim.one⟩)
  | .cplx => .error .typeError

/-- `uu /= seed["energy"] ** 2` (radiative.py:531), in place: the shapes must be the same. -/
def divEnergySq (d : List XR) (u : PhysUnit) (e : List XR) (ue : PhysUnit) :
    Except PyErr (List XR × PhysUnit) :=
  if d.length = e.length then
    .ok (List.zipWith (fun a b => a / pow b (fin 2)) d e,
      ⟨u.scale / ue.scale ^ 2, u.dim.div (ue.dim.mul ue.dim)⟩)
  else .error .valueError

/-- thermal branch (radiative.py:490-508) -/
def parseThermal (T uu : PyVal) (theta : Option PyVal) : Except PyErr SeedField := do
  let _ ← validateScalar T .positive (some [Dim.temperature])
  if ← isZeroVal uu then return .thermal T (arT4Of T) theta
  let _ ← validateScalar uu .positive (some [Dim.pressure])
  return .thermal T uu theta

/-- the density of a non-thermal seed (radiative.py:522-537) -/
def parseDensity (e : List XR) (ue : PhysUnit) (d : List XR) (ud : PhysUnit) :
    Except PyErr PyVal := do
  if e.length = 1 then
    validateScalar (.qarr [d.length] d ud) .positive (some [Dim.pressure])
  else
    let (d, ud) ← if ud.dim = Dim.pressure then divEnergySq d ud e ue else pure (d, ud)
    validateArray (.qarr [d.length] d ud) .positive 1 none (some [Dim.diffNumDensity])

/-- non-thermal branch (radiative.py:510-537) -/
def parseArray (T uu : PyVal) (theta : Option PyVal) : Except PyErr SeedField := do
  let (e, ue) ← flatQ T
  let (d, ud) ← flatQ uu
  let en ← validateArray (.qarr [e.length] e ue) .positive 1 none (some [Dim.energy])
  let de ← parseDensity e ue d ud
  return .array en de theta

/-- list entries (radiative.py:474-537) -/
def parseList (T uu : PyVal) (theta : Option PyVal) : Except PyErr SeedField := do
  let theta ← match theta with
    | none => pure none
    | some t => do
      let t ← validateScalar t .none (some [Dim.angle])
      pure (some t)
  let u ← unitOf T
  if u.dim = Dim.temperature then parseThermal T uu theta else parseArray T uu theta

/-- string entries (radiative.py:453-473) -/
def parseStr (s : String) : Except PyErr SeedField :=
  if s = "CMB" then .ok (.thermal (.qty (fin 2.72548) kelvin) (arT4 (fin 2.72548) kelvin) none)
  else if s = "FIR" then .ok (.thermal (.qty (fin 30) kelvin) (.qty (fin 0.5) eVcm3) none)
  else if s = "NIR" then .ok (.thermal (.qty (fin 3000) kelvin) (.qty (fin 1.0) eVcm3) none)
  else .error .typeError

/-- One pass of the loop (radiative.py:451-543): the name and the field. -/
def parseSeed : SeedSpec → Except PyErr (String × SeedField)
  | .str s => do return (s, ← parseStr s)
  | .list3 name T uu => do return (name, ← parseList T uu none)
  | .list4 name T uu theta => do return (name, ← parseList T uu (some theta))
  | .listN => .error .typeError
  | .other => .error .typeError

/-- The loop: `result[name] = seed` (radiative.py:449-543). -/
def parseLoop : List SeedSpec → Dict String SeedField → Except PyErr (Dict String SeedField)
  | [], acc => .ok acc
  | s :: rest, acc => do
    let (name, f) ← parseSeed s
    parseLoop rest (acc.set name f)

/-- Python `s.split("-")`. -/
def splitDash (s : String) : List String := (splitDashL s.toList).map String.ofList
where
  /-- on character lists -/
  splitDashL : List Char → List (List Char)
    | [] => [[]]
    | c :: cs =>
      if c = '-' then [] :: splitDashL cs
      else match splitDashL cs with
        | [] => [[c]]
        | w :: ws => (c :: w) :: ws

/-- `_process_input_seed` (radiative.py:432-545). -/
def processInputSeed : SeedsArg → Except PyErr (Dict String SeedField)
  | .list l => parseLoop l []
  | .str s => parseLoop ((splitDash s).map .str) []
  | .other => .error .attributeError

end

end Naima
