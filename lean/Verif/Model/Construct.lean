import Verif.Model.ICSeed
import Verif.Model.Synchrotron

/-!
# The constructors of the radiative models
(src/naima/radiative.py:67-86, 140-145, 273-280, 424-431, 821-838, 995-1000, 1154-1173, 1580-1590)

An object is its `__dict__`.  The `**kwargs` of a constructor never contain one of its named arguments: Python
binds those first.
-/

namespace Naima

open XR Classical

noncomputable section

/-- The value of an attribute. -/
inductive AttrVal
  /-- a number, array or Quantity -/
  | val (v : PyVal)
  | bool (b : Bool)
  | text (s : String)
  | names (l : List String)
  | seeds (d : Dict String SeedField)
  /-- anything else (a function, a dict, …) -/
  | other

/-- What a constructor sees of the `particle_distribution` argument: its attribute `amplitude`, if it has one,
and what a call on `[0.1, 1, 10] TeV` returns or raises. -/
structure DistnArg where
  amplitude : Option PyVal
  output : Except PyErr PyVal

/-- `validate_physical_type("Particle distribution", pd, physical_type="differential energy")`
(radiative.py:73-77, 81-85). -/
def checkDistn (v : PyVal) : Except PyErr Unit := validatePhysicalType v (some [Dim.diffEnergy])

/-- `BaseRadiative.__init__` (radiative.py:67-86): the amplitude is looked at first; if there is none
(AttributeError) or it has another physical type (TypeError), the output decides. -/
def initRadiative (d : DistnArg) : Except PyErr Unit :=
  match d.amplitude with
  | some a =>
    match checkDistn a with
    | .ok () => .ok ()
    | .error _ => d.output.bind checkDistn
  | none => d.output.bind checkDistn

/-- `self.__dict__.update(**kwargs)` (radiative.py:280, 431, 838, 1173, 1590). -/
def updateDict (obj kwargs : Dict String AttrVal) : Dict String AttrVal :=
  kwargs.foldl (fun o p => o.set p.1 p.2) obj

/-- `self.param_names += [...]` (radiative.py:279, 429, 835, 1172). -/
def addParamNames (obj : Dict String AttrVal) (l : List String) : Dict String AttrVal :=
  match obj.get? "param_names" with
  | some (.names n) => obj.set "param_names" (.names (n ++ l))
  | _ => obj

/-- a scalar Quantity -/
def qv (x : ℝ) (u : PhysUnit) : AttrVal := .val (.qty (fin x) u)
/-- a plain number -/
def nv (x : ℝ) : AttrVal := .val (.num (fin x))

/-- mega-electronvolt -/
def uMeV : PhysUnit := ⟨1.602176634e-6, Dim.energy⟩
/-- peta-electronvolt -/
def uPeV : PhysUnit := ⟨1602.176634, Dim.energy⟩
/-- 1/cm³ -/
def uPerCm3 : PhysUnit := ⟨1, Dim.numDensity⟩
/-- `mec2 = (m_e * c**2).cgs` (radiative.py:36): the number is in erg. -/
def mec2Times (x : ℝ) : AttrVal := qv (x * cMec2) PhysUnit.erg

/-- `BaseElectron.__init__` (radiative.py:140-145). -/
def initElectron (d : DistnArg) : Except PyErr (Dict String AttrVal) := do
  initRadiative d
  return [("particle_distribution", .other), ("param_names", .names ["Eemin", "Eemax", "nEed"]),
    ("_memoize", .bool true), ("_cache", .other), ("_queue", .other)]

/-- `BaseProton.__init__` (radiative.py:995-1000). -/
def initProton (d : DistnArg) : Except PyErr (Dict String AttrVal) := do
  initRadiative d
  return [("particle_distribution", .other), ("param_names", .names ["Epmin", "Epmax", "nEpd"]),
    ("_memoize", .bool true), ("_cache", .other), ("_queue", .other)]

/-- The default `B=3.24e-6 * u.G` (radiative.py:273). -/
def defaultB : PyVal := .qty (fin 3.24e-6) gauss
/-- The default `1 / u.cm**3` of `n0` and `nh` (radiative.py:821, 1157, 1581). -/
def defaultDensity : PyVal := .qty (fin 1) uPerCm3
/-- The default `Etrans=0.1 * u.TeV` (radiative.py:1581). -/
def defaultEtrans : PyVal := .qty (fin 0.1) PhysUnit.TeV
/-- The default `seed_photon_fields=["CMB"]` (radiative.py:424). -/
def defaultSeeds : SeedsArg := .list [.str "CMB"]

/-- `Synchrotron.__init__` (radiative.py:273-280). -/
def initSynchrotron (d : DistnArg) (B : PyVal := defaultB) (kwargs : Dict String AttrVal := []) :
    Except PyErr (Dict String AttrVal) := do
  let o ← initElectron d
  let b ← validateScalar B .none (some [Dim.magFluxDensity])
  return updateDict (addParamNames (updateDict o [("B", .val b), ("Eemin", qv 1 PhysUnit.GeV), ("Eemax", mec2Times 1e9),
    ("nEed", nv 100)]) ["B"]) kwargs

/-- `InverseCompton.__init__` (radiative.py:424-431). -/
def initInverseCompton (d : DistnArg) (seeds : SeedsArg := defaultSeeds) (kwargs : Dict String AttrVal := []) :
    Except PyErr (Dict String AttrVal) := do
  let o ← initElectron d
  let s ← processInputSeed seeds
  return updateDict (addParamNames (updateDict o [("seed_photon_fields", .seeds s), ("Eemin", qv 1 PhysUnit.GeV),
    ("Eemax", mec2Times 1e9), ("nEed", nv 100)]) ["seed_photon_fields"]) kwargs

/-- The abundances `Y` of H and He relative to H (radiative.py:829). -/
def abundY : List ℝ := [1.0, 9.59e-2]
/-- The charges `Z` (radiative.py:830). -/
def chargeZ : List ℝ := [1, 2]
/-- `X = Y / np.sum(Y)` (radiative.py:831-832). -/
def abundX : List ℝ := abundY.map (· / abundY.sum)
/-- `np.sum(Z * X)` (radiative.py:833). -/
def defaultWeightEe : ℝ := (List.zipWith (· * ·) chargeZ abundX).sum
/-- `np.sum(Z**2 * X)` (radiative.py:834). -/
def defaultWeightEp : ℝ := (List.zipWith (fun z x => z ^ 2 * x) chargeZ abundX).sum

/-- `Bremsstrahlung.__init__` (radiative.py:821-838): `n0` is stored as it is. -/
def initBremsstrahlung (d : DistnArg) (n0 : PyVal := defaultDensity) (kwargs : Dict String AttrVal := []) :
    Except PyErr (Dict String AttrVal) := do
  let o ← initElectron d
  return updateDict (addParamNames (updateDict o [("n0", .val n0), ("Eemin", qv 100 uMeV), ("Eemax", mec2Times 1e9),
    ("nEed", nv 300), ("weight_ee", nv defaultWeightEe), ("weight_ep", nv defaultWeightEp)])
    ["n0", "weight_ee", "weight_ep"]) kwargs

/-- `_m_p + _Tth + 1e-4` in GeV (radiative.py:1167-1169, 1211-1213): the class attributes
`_m_p = (m_p * c**2).to("GeV").value`, `_Tth = 0.27966184`. -/
def defaultEpmin : ℝ := cMp * cC ^ 2 / PhysUnit.GeV.scale + 0.27966184 + 1e-4

/-- `PionDecay.__init__` (radiative.py:1154-1173). -/
def initPionDecay (d : DistnArg) (nh : PyVal := defaultDensity) (nuclear : AttrVal := .bool true)
    (kwargs : Dict String AttrVal := []) : Except PyErr (Dict String AttrVal) := do
  let o ← initProton d
  let n ← validateScalar nh .none (some [Dim.numDensity])
  return updateDict (addParamNames (updateDict o [("nh", .val n), ("nuclear_enhancement", nuclear), ("useLUT", .bool true),
    ("hiEmodel", .text "Pythia8"), ("Epmin", qv defaultEpmin PhysUnit.GeV), ("Epmax", qv 10 uPeV),
    ("nEpd", nv 100)]) ["nh", "nuclear_enhancement", "useLUT", "hiEmodel"]) kwargs

/-- The class attribute `PionDecayKelner06.param_names` (radiative.py:1575). -/
def kelnerParamNames : List String := ["nh", "Etrans"]

/-- `PionDecayKelner06.__init__` (radiative.py:1580-1590): `super().__init__` is not called, so the
distribution is not looked at. -/
def initKelner (_d : DistnArg) (nh : PyVal := defaultDensity) (Etrans : PyVal := defaultEtrans)
    (kwargs : Dict String AttrVal := []) : Except PyErr (Dict String AttrVal) := do
  let n ← validateScalar nh .none (some [Dim.numDensity])
  let e ← validateScalar Etrans .positive (some [Dim.energy])
  return updateDict [("particle_distribution", .other), ("nh", .val n), ("Etrans", .val e)] kwargs

end

end Naima
