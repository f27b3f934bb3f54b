import Verif.Model.Memo
import Verif.Model.Validator

/-!
# What may be given as photon energy
(src/naima/model_utils.py:21-41; radiative.py:43-58, 113-134, 761-791; models.py:33-46)
-/

namespace Naima

open XR

/-- A column of a table, or an item of a dict: any value of `PyVal`, or a list of scalar Quantities. -/
inductive EneCol
  | val (v : PyVal)
  | qseq (items : List (XR × PhysUnit))

/-- The `energy` argument: any value of `PyVal`, a list of scalar Quantities, or a dict or Table with
its columns.  Simplification: other objects are not represented. -/
inductive EneArg
  | val (v : PyVal)
  | qseq (items : List (XR × PhysUnit))
  | mapping (cols : Dict String EneCol)

/-- `u.Quantity(x)` (model_utils.py:30; radiative.py:49, 55): plain numbers are dimensionless; a list of
Quantities is converted to the unit of the first one, UnitConversionError (a TypeError) if that cannot
be done.  Simplification: a complex number, which is dimensionless, is shown as NaN. -/
noncomputable def quantityOf : EneCol → Except PyErr PyVal
  | .val (.qty x u) => .ok (.qty x u)
  | .val (.qarr s d u) => .ok (.qarr s d u)
  | .val (.num x) => .ok (.qty x ⟨1, Dim.one⟩)
  | .val .cplx => .ok (.qty nan ⟨1, Dim.one⟩)
  | .val (.arr s d) => .ok (.qarr s d ⟨1, Dim.one⟩)
  | .val (.seq s d) => .ok (.qarr s d ⟨1, Dim.one⟩)
  | .qseq [] => .ok (.qarr [0] [] ⟨1, Dim.one⟩)
  | .qseq ((x, u) :: rest) =>
    if ∀ q ∈ rest, q.2.dim = u.dim then
      .ok (.qarr [rest.length + 1] (x :: rest.map (fun q => q.1 * fin (q.2.scale / u.scale))) u)
    else .error .unitConversionError

/-- `_validate_ene` (radiative.py:43-58, models.py:33-46). -/
noncomputable def validateEne : EneArg → Except PyErr PyVal
  | .mapping cols =>
    match cols.get? "energy" with
    | none => .error .typeError
    | some c =>
      match quantityOf c with
      | .error e => .error e
      | .ok v => validateArray v .none 1 none (some [Dim.energy])
  | .val v =>
    match quantityOf (.val v) with
    | .error e => .error e
    | .ok v =>
      match validatePhysicalType v (some [Dim.energy]) with
      | .error e => .error e
      | .ok _ => .ok v
  | .qseq l =>
    match quantityOf (.qseq l) with
    | .error e => .error e
    | .ok v =>
      match validatePhysicalType v (some [Dim.energy]) with
      | .error e => .error e
      | .ok _ => .ok v

/-- model_utils.py:24-33: `energy = u.Quantity(energy["energy"])`, keeping `energy` on a TypeError
(UnitConversionError is one), ValueError or IndexError: these are what Quantities, arrays, lists and
numbers raise when indexed with a string.  A KeyError is not caught. -/
noncomputable def memoEnergy : EneArg → Except PyErr EneArg
  | .val v => .ok (.val v)
  | .qseq l => .ok (.qseq l)
  | .mapping cols =>
    match cols.get? "energy" with
    | none => .error .keyError
    | some c =>
      match quantityOf c with
      | .ok v => .ok (.val v)
      | .error .typeError => .ok (.mapping cols)
      | .error .valueError => .ok (.mapping cols)
      | .error .indexError => .ok (.mapping cols)
      | .error .unitConversionError => .ok (.mapping cols)
      | .error e => .error e

/-- model_utils.py:35-43: the key needs `energy.value` and `energy.unit`, which only Quantities have
(`energy.value` is looked up again in the handler of the AttributeError). -/
def hasValue : EneArg → Except PyErr PyVal
  | .val (.qty x u) => .ok (.qty x u)
  | .val (.qarr s d u) => .ok (.qarr s d u)
  | _ => .error .attributeError

/-- A function decorated with `@memoize` whose body passes its energies to `_validate_ene`
(model_utils.py:13-74; radiative.py:88-111 with 296, 702, 983, 1523, 1745; models.py `__call__`).
`body` is the function of the validated energies; `key` the digest for these energies, all other
arguments and parameters being fixed. -/
noncomputable def energyCall {κ ρ : Type} [DecidableEq κ] (body : PyVal → Except PyErr ρ)
    (key : PyVal → κ) (m : Memo κ ρ) (enabled : Bool) (arg : EneArg) : Except PyErr ρ × Memo κ ρ :=
  if enabled then
    match memoEnergy arg with
    | .error e => (.error e, m)
    | .ok arg' =>
      match hasValue arg' with
      | .error e => (.error e, m)
      | .ok v => Memo.call (fun v => (validateEne (.val v)).bind body) key m true v
  else
    match validateEne arg with
    | .error e => (.error e, m)
    | .ok v => (body v, m)

/-- `BaseRadiative.sed` (radiative.py:113-134): validation first, then `flux` of the result, times
`E**2` (`finish`, which may raise). -/
noncomputable def energySed {κ ρ : Type} [DecidableEq κ] (body : PyVal → Except PyErr ρ)
    (key : PyVal → κ) (finish : PyVal → ρ → Except PyErr ρ) (m : Memo κ ρ) (enabled : Bool)
    (arg : EneArg) : Except PyErr ρ × Memo κ ρ :=
  match validateEne arg with
  | .error e => (.error e, m)
  | .ok v =>
    match energyCall body key m enabled (.val v) with
    | (.error e, m') => (.error e, m')
    | (.ok f, m') => (finish v f, m')

/-- `photon_energy**2.0` on the argument as given (radiative.py:788): TypeError for lists, dicts and
tables. -/
def squareable : EneArg → Except PyErr PyVal
  | .val (.seq _ _) => .error .typeError
  | .val v => .ok v
  | .qseq _ => .error .typeError
  | .mapping _ => .error .typeError

/-- `InverseCompton.sed(energies, distance, seed)` (radiative.py:778-791) on an object in any state
`σ`: `super().sed`, and with a seed the flux of that seed times `photon_energy**2.0`. -/
def icSed {σ ρ S : Type} (sedAll : σ → EneArg → Except PyErr ρ × σ)
    (fluxSeed : σ → EneArg → S → Except PyErr ρ × σ) (finish : PyVal → ρ → Except PyErr ρ)
    (s : σ) (arg : EneArg) (seed : Option S) : Except PyErr ρ × σ :=
  match sedAll s arg with
  | (.error e, s') => (.error e, s')
  | (.ok tot, s') =>
    match seed with
    | none => (.ok tot, s')
    | some k =>
      match fluxSeed s' arg k with
      | (.error e, s'') => (.error e, s'')
      | (.ok f, s'') =>
        match squareable arg with
        | .error e => (.error e, s'')
        | .ok v => (finish v f, s'')

end Naima
