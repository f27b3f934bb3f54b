import Verif.Model.Memo

/-!
# Several model objects and their caches (src/naima/radiative.py:140-145, 994-1000, 1575-1578;
src/naima/models.py:75-78, 140-143, 217-220, 301-312, 388-391)

`memoize` looks up `cls._cache` and `cls._queue` on the object it is called with.  An attribute set in
`__init__` belongs to the object; an attribute of the class body is one object shared by all instances.
-/

namespace Naima

/-- The classes with a memoised method. -/
inductive ModelClass
  | synchrotron | inverseCompton | bremsstrahlung | pionDecay | pionDecayKelner06
  | powerLaw | expCutoffPowerLaw | brokenPowerLaw | expCutoffBrokenPowerLaw | logParabola
  deriving DecidableEq

/-- Where a cache lives: in one object, or in the class. -/
inductive CacheLoc
  | ofObject (id : Nat)
  | ofClass (c : ModelClass)
  deriving DecidableEq

/-- A model object: its class and its identity. -/
structure ModelObj where
  cls : ModelClass
  id : Nat
  deriving DecidableEq

/-- `cls._cache` / `cls._queue`: created in `BaseElectron.__init__` and `BaseProton.__init__`
(radiative.py:144-145, 999-1000), class attributes of `PionDecayKelner06` (radiative.py:1577-1578) and of the
spectral models (models.py:77-78, 142-143, 219-220, 311-312, 390-391). -/
def ModelObj.cacheLoc (o : ModelObj) : CacheLoc :=
  match o.cls with
  | .synchrotron | .inverseCompton | .bremsstrahlung | .pionDecay => .ofObject o.id
  | c => .ofClass c

/-- The default of `_memoize` (radiative.py:143, 998, 1576; models.py:76, 141, 218, 310, 389). -/
def ModelClass.memoizeDefault : ModelClass → Bool
  | .synchrotron | .inverseCompton | .bremsstrahlung | .pionDecay | .pionDecayKelner06 => true
  | _ => false

/-- All caches of a session. -/
abbrev Session (κ ρ : Type) := CacheLoc → Memo κ ρ

namespace Session

/-- A new session: empty caches. -/
def start {κ ρ : Type} : Session κ ρ := fun _ => Memo.empty

/-- A memoised call on one object (model_utils.py:13-74): the cache found on the object is used and
updated in place. -/
def call {κ ρ α : Type} [DecidableEq κ] (compute : ModelObj → α → Except PyErr ρ)
    (key : ModelObj → α → κ) (s : Session κ ρ) (o : ModelObj) (enabled : Bool) (r : α) :
    Except PyErr ρ × Session κ ρ :=
  let c := Memo.call (compute o) (key o) (s o.cacheLoc) enabled r
  (c.1, fun l => if l = o.cacheLoc then c.2 else s l)

/-- A session: calls on any objects, in order; the outputs. -/
def run {κ ρ α : Type} [DecidableEq κ] (compute : ModelObj → α → Except PyErr ρ)
    (key : ModelObj → α → κ) (s : Session κ ρ) :
    List (ModelObj × Bool × α) → List (Except PyErr ρ) × Session κ ρ
  | [] => ([], s)
  | (o, en, r) :: rest =>
    let c := call compute key s o en r
    let t := run compute key c.2 rest
    (c.1 :: t.1, t.2)

end Session

end Naima
