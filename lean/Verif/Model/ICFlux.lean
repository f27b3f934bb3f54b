import Mathlib.Analysis.SpecialFunctions.Trigonometric.Basic
import Verif.Base.Py
import Verif.Model.Memo

/-!
# `InverseCompton.flux` on one object: memo and the `specic` attribute
(src/naima/radiative.py:88-111, 689-759)

Arrays of spectrum values (already in 1/(s eV)) are `List ℝ`; distances are in cm.
-/

namespace Naima

/-- The `distance` argument after unit handling: zero, a length (in cm, non-zero), or something
`validate_scalar` rejects. -/
inductive Dist
  | zero
  | cm (d : ℝ)
  | bad

/-- The `seed` argument (radiative.py:712, 732-747). -/
inductive SeedArg
  | none
  | int (i : Int)
  | name (s : String)

/-- radiative.py:104-111 and 749-757: division by `4 pi d^2` unless the distance is zero. -/
noncomputable def atDistance (spec : List ℝ) : Dist → Except PyErr (List ℝ)
  | .zero => .ok spec
  | .cm d => .ok (spec.map (fun x => x / (4 * Real.pi * d ^ 2)))
  | .bad => .error .typeError

/-- `np.sum(u.Quantity(self.specic), axis=0)` (radiative.py:710).  With no seed at all the sum is a
dimensionless 0.0, whose conversion in `flux` fails. -/
noncomputable def sumSeeds : List (List ℝ) → Except PyErr (List ℝ)
  | [] => .error .unitConversionError
  | a :: rest => .ok (rest.foldl (List.zipWith (· + ·)) a)

/-- An InverseCompton object as far as `flux` is concerned: `P` are all parameter values (and seed
fields, and particle distribution), `E` the energy argument.
`seeds p` are the names of the seed photon fields in order, `specOf p e s` is `_calc_specic`, which
may raise. -/
structure ICObj (P E : Type) where
  seeds : P → List String
  specOf : P → E → String → Except PyErr (List ℝ)

/-- State: memo of total fluxes, and the attribute `specic` (radiative.py:704). -/
structure ICState (κ : Type) where
  memo : Memo κ (List ℝ)
  specic : List (List ℝ)

/-- a newly built object (no `specic` attribute yet, modelled as empty) -/
def ICState.init {κ : Type} : ICState κ := ⟨Memo.empty, []⟩

/-- The loop of radiative.py:704-708: `specic` is reset and filled seed by seed; if one
`_calc_specic` raises, `specic` keeps what was already appended. -/
def fillSpecic (specOf : String → Except PyErr (List ℝ)) :
    List String → List (List ℝ) → Except PyErr Unit × List (List ℝ)
  | [], acc => (.ok (), acc)
  | s :: rest, acc =>
    match specOf s with
    | .error e => (.error e, acc)
    | .ok spec => fillSpecic specOf rest (acc ++ [spec])

variable {P E κ : Type} [DecidableEq κ]

/-- The undecorated `BaseRadiative.flux` with `InverseCompton._spectrum` (radiative.py:102-111,
702-710): result and new `specic`. -/
noncomputable def ICObj.compute (o : ICObj P E) (p : P) (e : E) (d : Dist) :
    Except PyErr (List ℝ) × List (List ℝ) :=
  match fillSpecic (o.specOf p e) (o.seeds p) [] with
  | (.error err, sp) => (.error err, sp)
  | (.ok (), sp) =>
    match sumSeeds sp with
    | .error err => (.error err, sp)
    | .ok tot => (atDistance tot d, sp)

/-- `super().flux(photon_energy, distance=distance)` through `@memoize` (radiative.py:730). -/
noncomputable def ICObj.superFlux (o : ICObj P E) (key : P × E × Dist → κ) (s : ICState κ)
    (p : P) (e : E) (d : Dist) : Except PyErr (List ℝ) × ICState κ :=
  match s.memo.cache.get? (key (p, e, d)) with
  | some v => (.ok v, s)
  | none =>
    match o.compute p e d with
    | (.error err, sp) => (.error err, ⟨s.memo, sp⟩)
    | (.ok v, sp) => (.ok v, ⟨s.memo.store (key (p, e, d)) v, sp⟩)

/-- `list.index(seed)`: position of the first occurrence. -/
def indexOf? (l : List String) (s : String) : Option Nat := l.findIdx? (· == s)

/-- The seed argument checks of radiative.py:732-747. -/
def resolveSeed (seeds : List String) : SeedArg → Except PyErr (Option Int)
  | .none => .ok Option.none
  | .name s =>
    match indexOf? seeds s with
    | Option.none => .error .valueError
    | some i => .ok (some (i : Int))
  | .int i => if i > (seeds.length : Int) then .error .valueError else .ok (some i)

/-- `InverseCompton.flux` (radiative.py:730-759). -/
noncomputable def ICObj.flux (o : ICObj P E) (key : P × E × Dist → κ) (s : ICState κ)
    (p : P) (e : E) (d : Dist) (seed : SeedArg) : Except PyErr (List ℝ) × ICState κ :=
  match o.superFlux key s p e d with
  | (.error err, s') => (.error err, s')
  | (.ok model, s') =>
    match resolveSeed (o.seeds p) seed with
    | .error err => (.error err, s')
    | .ok Option.none => (.ok model, s')
    | .ok (some i) =>
      match d with
      | .bad => (.error .typeError, s')
      | d =>
        match pyIndex s'.specic i with
        | .error err => (.error err, s')
        | .ok spec => (atDistance spec d, s')

/-- A history of `flux` calls. -/
noncomputable def ICObj.run (o : ICObj P E) (key : P × E × Dist → κ) (s : ICState κ) :
    List (P × E × Dist × SeedArg) → List (Except PyErr (List ℝ)) × ICState κ
  | [] => ([], s)
  | (p, e, d, seed) :: rest =>
    let (r, s') := o.flux key s p e d seed
    let (rs, s'') := o.run key s' rest
    (r :: rs, s'')

end Naima
