import Verif.Model.Construct
import Mathlib.Analysis.Real.Pi.Bounds

/-!
# C100 — constructing a radiative model
-/

namespace Naima.Props

open XR Classical

/-- A Quantity (scalar or array) of a physical type. -/
def IsQuantityOf (d : Dim) : PyVal → Prop
  | .qty _ u => u.dim = d
  | .qarr _ _ u => u.dim = d
  | _ => False

/-- The distribution is a number of particles per unit energy, as far as its amplitude or three sample values
tell. -/
def GoodDistn (p : DistnArg) : Prop :=
  (∃ a, p.amplitude = some a ∧ IsQuantityOf Dim.diffEnergy a) ∨
    ∃ v, p.output = .ok v ∧ IsQuantityOf Dim.diffEnergy v

/-- Construction succeeds. -/
def Accepted {α : Type} (r : Except PyErr α) : Prop := ∃ o, r = .ok o

private theorem vpt_iff (v : PyVal) (d : Dim) :
    validatePhysicalType v (some [d]) = if IsQuantityOf d v then .ok () else .error .typeError := by
  unfold validatePhysicalType IsQuantityOf
  cases v <;> simp

private theorem vs_none (v : PyVal) (d : Dim) :
    validateScalar v .none (some [d]) = if IsQuantityOf d v then .ok v else .error .typeError := by
  unfold validateScalar
  rw [vpt_iff]
  by_cases h : IsQuantityOf d v <;> simp [h, bind, Except.bind, pure, Except.pure]

private theorem check_iff (v : PyVal) :
    checkDistn v = if IsQuantityOf Dim.diffEnergy v then .ok () else .error .typeError := vpt_iff v _

/-- **C100 (the distribution is checked).**  The check common to `Synchrotron`, `InverseCompton`,
`Bremsstrahlung` and `PionDecay` accepts exactly the distributions whose amplitude or sample output is a
number per unit energy; otherwise it raises TypeError, or what the distribution itself raised. -/
theorem C100_distribution (p : DistnArg) :
    (initRadiative p = .ok () ↔ GoodDistn p) ∧
      (¬ GoodDistn p → initRadiative p = .error .typeError ∨ ∃ e, p.output = .error e ∧ initRadiative p = .error e) := by
  obtain ⟨a, out⟩ := p
  have hout : ∀ r : Except PyErr PyVal, (r.bind checkDistn = .ok () ↔ ∃ v, r = .ok v ∧ IsQuantityOf Dim.diffEnergy v)
      ∧ ((¬ ∃ v, r = .ok v ∧ IsQuantityOf Dim.diffEnergy v) → r.bind checkDistn = .error .typeError ∨
        ∃ e, r = .error e ∧ r.bind checkDistn = .error e) := by
    intro r
    cases r with
    | error e => simp [Except.bind]
    | ok v =>
      simp only [Except.bind, check_iff]
      by_cases h : IsQuantityOf Dim.diffEnergy v <;> simp [h]
  unfold GoodDistn initRadiative
  cases a with
  | none =>
    simp only [reduceCtorEq, false_and, exists_false, false_or]
    exact hout out
  | some a =>
    simp only [check_iff, Option.some.injEq, exists_eq_left']
    by_cases h : IsQuantityOf Dim.diffEnergy a
    · simp [h]
    · simp only [h, if_false, false_or]
      exact hout out

private theorem electron_iff (p : DistnArg) : Accepted (initElectron p) ↔ GoodDistn p := by
  rw [← (C100_distribution p).1]
  unfold Accepted initElectron
  cases h : initRadiative p with
  | ok u => simp [bind, Except.bind, pure, Except.pure]
  | error e => simp [bind, Except.bind]

private theorem proton_iff (p : DistnArg) : Accepted (initProton p) ↔ GoodDistn p := by
  rw [← (C100_distribution p).1]
  unfold Accepted initProton
  cases h : initRadiative p with
  | ok u => simp [bind, Except.bind, pure, Except.pure]
  | error e => simp [bind, Except.bind]

/-- **C100 (what is accepted), `Synchrotron`.**  Exactly a good distribution with a field that is a Quantity of
magnetic flux density, whatever the keywords. -/
theorem C100_synchrotron (p : DistnArg) (B : PyVal) (kw : Dict String AttrVal) :
    Accepted (initSynchrotron p B kw) ↔ GoodDistn p ∧ IsQuantityOf Dim.magFluxDensity B := by
  rw [← electron_iff]
  unfold Accepted initSynchrotron
  rw [vs_none]
  cases h : initElectron p with
  | error e => simp [bind, Except.bind]
  | ok o => by_cases hB : IsQuantityOf Dim.magFluxDensity B <;> simp [hB, bind, Except.bind, pure, Except.pure]

/-- **C100 (what is accepted), `InverseCompton`**: the seeds decide (C16 says which are good). -/
theorem C100_inverse_compton (p : DistnArg) (seeds : SeedsArg) (kw : Dict String AttrVal) :
    Accepted (initInverseCompton p seeds kw) ↔ GoodDistn p ∧ Accepted (processInputSeed seeds) := by
  rw [← electron_iff]
  unfold Accepted initInverseCompton
  cases h : initElectron p with
  | error e => simp [bind, Except.bind]
  | ok o => cases hs : processInputSeed seeds <;> simp [bind, Except.bind, pure, Except.pure]

/-- **C100 (what is accepted), `PionDecay`**: a target density that is a number density. -/
theorem C100_pion (p : DistnArg) (nh : PyVal) (nuc : AttrVal) (kw : Dict String AttrVal) :
    Accepted (initPionDecay p nh nuc kw) ↔ GoodDistn p ∧ IsQuantityOf Dim.numDensity nh := by
  rw [← proton_iff]
  unfold Accepted initPionDecay
  rw [vs_none]
  cases h : initProton p with
  | error e => simp [bind, Except.bind]
  | ok o => by_cases hB : IsQuantityOf Dim.numDensity nh <;> simp [hB, bind, Except.bind, pure, Except.pure]

/-- **C100, false of `Bremsstrahlung`.**  The ion density is not looked at: a good distribution is accepted with
any `n0` at all. -/
theorem C100_false_bremsstrahlung_density (p : DistnArg) (n0 : PyVal) (kw : Dict String AttrVal) :
    Accepted (initBremsstrahlung p n0 kw) ↔ GoodDistn p := by
  rw [← electron_iff]
  unfold Accepted initBremsstrahlung
  cases h : initElectron p <;> simp [bind, Except.bind, pure, Except.pure]

/-- **C100, false of `PionDecayKelner06`.**  The distribution is not looked at: with a good density and
transition energy, whatever is given as distribution is accepted. -/
theorem C100_false_kelner_distribution (p p' : DistnArg) (nh Et : PyVal) (kw : Dict String AttrVal) :
    initKelner p nh Et kw = initKelner p' nh Et kw ∧ Accepted (initKelner p) := by
  refine ⟨rfl, ?_⟩
  unfold Accepted initKelner
  rw [vs_none]
  have h1 : IsQuantityOf Dim.numDensity defaultDensity := rfl
  have h2 : validateScalar defaultEtrans .positive (some [Dim.energy]) = .ok defaultEtrans := by
    unfold validateScalar validatePhysicalType defaultEtrans
    have h3 : ¬ (fin 0.1 : XR) < fin 0 := by
      show ¬ ((0.1 : ℝ) < 0)
      norm_num
    simp [PhysUnit.TeV, cmpScalar, cmpQty, bind, Except.bind, pure, Except.pure, Dim.energy, Dim.one, h3]
  simp [h1, h2, bind, Except.bind, pure, Except.pure]

/-- **C100 (`PionDecayKelner06`).**  For finite scalar Quantities with a proper unit: accepted exactly with a
number density and a transition energy that is a non-negative energy. -/
theorem C100_kelner (p : DistnArg) (nh : PyVal) (x : ℝ) (u : PhysUnit) (kw : Dict String AttrVal) :
    Accepted (initKelner p nh (.qty (fin x) u) kw) ↔
      IsQuantityOf Dim.numDensity nh ∧ u.dim = Dim.energy ∧ 0 ≤ x := by
  unfold Accepted initKelner
  rw [vs_none]
  have key : (∃ o, validateScalar (.qty (fin x) u) .positive (some [Dim.energy]) = .ok o) ↔
      u.dim = Dim.energy ∧ 0 ≤ x := by
    unfold validateScalar validatePhysicalType
    by_cases hu : u.dim = Dim.energy
    · have h3 : ((fin x : XR) < fin 0) ↔ x < 0 := Iff.rfl
      have h1 : ¬ (Dim.energy = Dim.one) := by decide
      by_cases hx : 0 ≤ x
      · simp [hu, cmpScalar, cmpQty, bind, Except.bind, pure, Except.pure, h1, h3, hx, not_lt.2 hx]
      · simp [hu, cmpScalar, cmpQty, bind, Except.bind, pure, Except.pure, h1, h3, hx, not_le.1 hx, throw,
          throwThe, MonadExceptOf.throw]
    · simp [hu, bind, Except.bind]
  rw [← key]
  by_cases hn : IsQuantityOf Dim.numDensity nh
  · cases hv : validateScalar (.qty (fin x) u) .positive (some [Dim.energy]) <;>
      simp [hn, bind, Except.bind, pure, Except.pure]
  · simp [hn, bind, Except.bind]

/-! ### Attributes -/

private theorem get?_updateDict (kw : Dict String AttrVal) : ∀ (o : Dict String AttrVal) (k : String), k ∉ kw.keys →
    Dict.get? (updateDict o kw) k = Dict.get? o k := by
  induction kw with
  | nil => intro o k _; rfl
  | cons p kw ih =>
    intro o k hk
    simp only [Dict.keys, List.map_cons, List.mem_cons, not_or] at hk
    show Dict.get? (updateDict (o.set p.1 p.2) kw) k = _
    rw [ih _ _ hk.2, Dict.get?_set_other _ _ _ _ hk.1]

private theorem get?_updateDict_mem (kw : Dict String AttrVal) : ∀ (o : Dict String AttrVal) (k : String) (v : AttrVal),
    kw.keys.Nodup → (k, v) ∈ kw → Dict.get? (updateDict o kw) k = some v := by
  induction kw with
  | nil => intro o k v _ h; simp at h
  | cons p kw ih =>
    intro o k v hn hm
    simp only [Dict.keys, List.map_cons, List.nodup_cons] at hn
    show Dict.get? (updateDict (o.set p.1 p.2) kw) k = _
    rcases List.mem_cons.1 hm with h | h
    · subst h
      rw [get?_updateDict kw _ _ hn.1, Dict.get?_set_self]
    · exact ih _ _ _ hn.2 h

/-- The constructors with their named arguments applied. -/
inductive Constructor : (Dict String AttrVal → Except PyErr (Dict String AttrVal)) → Prop
  | synchrotron (p B) : Constructor (fun kw => initSynchrotron p B kw)
  | inverseCompton (p s) : Constructor (fun kw => initInverseCompton p s kw)
  | bremsstrahlung (p n) : Constructor (fun kw => initBremsstrahlung p n kw)
  | pionDecay (p n nuc) : Constructor (fun kw => initPionDecay p n nuc kw)
  | kelner (p n e) : Constructor (fun kw => initKelner p n e kw)

private theorem ctor_form {mk : Dict String AttrVal → Except PyErr (Dict String AttrVal)} (h : Constructor mk) :
    ∃ r : Except PyErr (Dict String AttrVal), ∀ kw, mk kw = r.map (fun o => updateDict o kw) := by
  cases h with
  | synchrotron p B =>
    refine ⟨initSynchrotron p B [], fun kw => ?_⟩
    unfold initSynchrotron
    cases initElectron p with
    | error e => rfl
    | ok o => cases validateScalar B .none (some [Dim.magFluxDensity]) <;> simp [bind, Except.bind, pure, Except.pure, Except.map, updateDict]
  | inverseCompton p s =>
    refine ⟨initInverseCompton p s [], fun kw => ?_⟩
    unfold initInverseCompton
    cases initElectron p with
    | error e => rfl
    | ok o => cases processInputSeed s <;> simp [bind, Except.bind, pure, Except.pure, Except.map, updateDict]
  | bremsstrahlung p n =>
    refine ⟨initBremsstrahlung p n [], fun kw => ?_⟩
    unfold initBremsstrahlung
    cases initElectron p <;> simp [bind, Except.bind, pure, Except.pure, Except.map, updateDict]
  | pionDecay p n nuc =>
    refine ⟨initPionDecay p n nuc [], fun kw => ?_⟩
    unfold initPionDecay
    cases initProton p with
    | error e => rfl
    | ok o => cases validateScalar n .none (some [Dim.numDensity]) <;> simp [bind, Except.bind, pure, Except.pure, Except.map, updateDict]
  | kelner p n e =>
    refine ⟨initKelner p n e [], fun kw => ?_⟩
    unfold initKelner
    cases validateScalar n .none (some [Dim.numDensity]) with
    | error e => rfl
    | ok o => cases validateScalar e .positive (some [Dim.energy]) <;> simp [bind, Except.bind, pure, Except.pure, Except.map, updateDict]

/-- **C100 (keywords).**  For every radiative class and all named arguments: an attribute given as a keyword has
the given value, and every other attribute the value it has without keywords. -/
theorem C100_keywords {mk : Dict String AttrVal → Except PyErr (Dict String AttrVal)} (h : Constructor mk)
    {o o' : Dict String AttrVal} {kw : Dict String AttrVal} (hkw : kw.keys.Nodup) (ho : mk [] = .ok o)
    (ho' : mk kw = .ok o') :
    (∀ k v, (k, v) ∈ kw → o'.get? k = some v) ∧ ∀ k, k ∉ kw.keys → o'.get? k = o.get? k := by
  obtain ⟨r, hr⟩ := ctor_form h
  rw [hr] at ho ho'
  cases r with
  | error e => cases ho
  | ok b =>
    simp only [Except.map, Except.ok.injEq] at ho ho'
    subst ho ho'
    refine ⟨fun k v hm => get?_updateDict_mem kw _ k v hkw hm, fun k hk => get?_updateDict kw _ k hk⟩

/-- **C100, false: keywords are not checked.**  Every radiative class that accepts its named arguments accepts any
further keyword, misspelt or not, with any value; so a misspelt option silently leaves the default
(`C100_keywords`), and a plain number can be given as an energy. -/
theorem C100_false_keywords_unchecked {mk : Dict String AttrVal → Except PyErr (Dict String AttrVal)}
    (h : Constructor mk) (kw kw' : Dict String AttrVal) : Accepted (mk kw) ↔ Accepted (mk kw') := by
  obtain ⟨r, hr⟩ := ctor_form h
  unfold Accepted
  rw [hr, hr]
  cases r <;> simp [Except.map]

/-! ### Documented defaults -/

/-- An attribute is the scalar Quantity `x u`. -/
def IsQ (o : Dict String AttrVal) (k : String) (x : ℝ) (u : PhysUnit) : Prop :=
  o.get? k = some (.val (.qty (fin x) u))

/-- An attribute is the plain number `x`. -/
def IsN (o : Dict String AttrVal) (k : String) (x : ℝ) : Prop := o.get? k = some (.val (.num (fin x)))

/-- An attribute is an energy within half a unit of the last digit of the documented value `x u`. -/
def IsAbout (o : Dict String AttrVal) (k : String) (x half : ℝ) (u : PhysUnit) : Prop :=
  ∃ y v, IsQ o k y v ∧ v.dim = u.dim ∧ |y * v.scale / u.scale - x| ≤ half

private theorem Eemax_about (o : Dict String AttrVal) (h : o.get? "Eemax" = some (mec2Times 1e9)) :
    IsAbout o "Eemax" 510 1 PhysUnit.TeV := by
  refine ⟨1e9 * cMec2, PhysUnit.erg, h, rfl, ?_⟩
  unfold cMec2 cMe cC PhysUnit.erg PhysUnit.TeV
  rw [abs_le]
  constructor <;> norm_num

/-- **C100 (documented defaults), `Synchrotron`.**  Field 3.24e-6 G, electrons from 1 GeV to 510 TeV, 100 points per
decade, memoisation on. -/
theorem C100_defaults_synchrotron (p : DistnArg) (o : Dict String AttrVal) (h : initSynchrotron p = .ok o) :
    IsQ o "B" 3.24e-6 gauss ∧ IsQ o "Eemin" 1 PhysUnit.GeV ∧ IsAbout o "Eemax" 510 1 PhysUnit.TeV ∧
      IsN o "nEed" 100 ∧ o.get? "_memoize" = some (.bool true) := by
  unfold initSynchrotron initElectron at h
  rw [vs_none, if_pos (show IsQuantityOf Dim.magFluxDensity defaultB from rfl)] at h
  cases hr : initRadiative p with
  | error e => rw [hr] at h; cases h
  | ok u =>
    rw [hr] at h
    cases h
    refine ⟨?_, ?_, Eemax_about _ ?_, ?_, ?_⟩ <;> rfl

/-- **C100 (documented defaults), `InverseCompton`**, except `nEed`: the microwave background, electrons from 1 GeV
to 510 TeV. -/
theorem C100_defaults_inverse_compton_partial (p : DistnArg) (o : Dict String AttrVal)
    (h : initInverseCompton p = .ok o) :
    (∃ T U, o.get? "seed_photon_fields" = some (.seeds [("CMB", .thermal T U none)])) ∧
      IsQ o "Eemin" 1 PhysUnit.GeV ∧ IsAbout o "Eemax" 510 1 PhysUnit.TeV ∧
      o.get? "_memoize" = some (.bool true) := by
  unfold initInverseCompton initElectron at h
  cases hr : initRadiative p with
  | error e => rw [hr] at h; cases h
  | ok u =>
    rw [hr] at h
    cases h
    refine ⟨⟨_, _, rfl⟩, ?_, Eemax_about _ ?_, ?_⟩ <;> rfl

/-- **C100, false: the documented grid of `InverseCompton`.**  The class documents 300 points per decade; every
object made without the keyword has 100. -/
theorem C100_false_inverse_compton_grid (p : DistnArg) (seeds : SeedsArg) (o : Dict String AttrVal)
    (h : initInverseCompton p seeds = .ok o) : IsN o "nEed" 100 ∧ ¬ IsN o "nEed" 300 := by
  unfold initInverseCompton initElectron at h
  cases hr : initRadiative p with
  | error e => rw [hr] at h; cases h
  | ok u =>
    rw [hr] at h
    cases hs : processInputSeed seeds with
    | error e => rw [hs] at h; cases h
    | ok s =>
      rw [hs] at h
      cases h
      have h1 : Dict.get? (updateDict (addParamNames (updateDict [("particle_distribution", .other),
          ("param_names", .names ["Eemin", "Eemax", "nEed"]), ("_memoize", .bool true), ("_cache", .other),
          ("_queue", .other)] [("seed_photon_fields", .seeds s), ("Eemin", qv 1 PhysUnit.GeV),
          ("Eemax", mec2Times 1e9), ("nEed", nv 100)]) ["seed_photon_fields"]) []) "nEed" =
          some (nv 100) := by
        simp [updateDict, addParamNames, Dict.set, Dict.get?, Dict.keys, List.find?]
      refine ⟨h1, ?_⟩
      unfold IsN
      rw [h1]
      unfold nv
      simp

/-- **C100 (documented defaults), `Bremsstrahlung`.**  One ion per cm³, weights 1.088 and 1.263 to the digits
given; the electrons start at a tenth of a GeV and end at 510 TeV. -/
theorem C100_defaults_bremsstrahlung (p : DistnArg) (o : Dict String AttrVal) (h : initBremsstrahlung p = .ok o) :
    IsQ o "n0" 1 uPerCm3 ∧ (∃ w, IsN o "weight_ee" w ∧ |w - 1.088| ≤ 5e-4) ∧
      (∃ w, IsN o "weight_ep" w ∧ |w - 1.263| ≤ 5e-4) ∧
      IsAbout o "Eemin" 0.1 0 PhysUnit.GeV ∧ IsAbout o "Eemax" 510 1 PhysUnit.TeV := by
  unfold initBremsstrahlung initElectron at h
  cases hr : initRadiative p with
  | error e => rw [hr] at h; cases h
  | ok u =>
    rw [hr] at h
    cases h
    refine ⟨rfl, ⟨_, rfl, ?_⟩, ⟨_, rfl, ?_⟩, ⟨100, uMeV, rfl, rfl, ?_⟩, Eemax_about _ rfl⟩
    · simp only [defaultWeightEe, chargeZ, abundX, abundY, List.map, List.sum, List.foldr, List.zipWith]
      rw [abs_le]
      constructor <;> norm_num
    · simp only [defaultWeightEp, chargeZ, abundX, abundY, List.map, List.sum, List.foldr, List.zipWith]
      rw [abs_le]
      constructor <;> norm_num
    · simp only [uMeV, PhysUnit.GeV]; norm_num

/-- **C100 (documented defaults), the grid of `Bremsstrahlung`.**  300 points per decade, three times as
many as the other electron models. -/
theorem C100_bremsstrahlung_grid (p : DistnArg) (n0 : PyVal) (o : Dict String AttrVal)
    (h : initBremsstrahlung p n0 = .ok o) : IsN o "nEed" 300 := by
  unfold IsN
  change Dict.get? o "nEed" = some (nv 300)
  unfold initBremsstrahlung initElectron at h
  cases hr : initRadiative p with
  | error e => rw [hr] at h; cases h
  | ok u =>
    rw [hr] at h
    simp only [bind, Except.bind, pure, Except.pure] at h
    generalize nv defaultWeightEe = w1 at h
    generalize nv defaultWeightEp = w2 at h
    generalize mec2Times 1e9 = w3 at h
    generalize qv 100 uMeV = w4 at h
    generalize nv 300 = w5 at h ⊢
    have e : Dict.get? o "nEed" = some w5 := by
      rw [← Except.ok.inj h]
      simp [updateDict, addParamNames, Dict.set, Dict.get?, Dict.keys, List.find?]
    exact e

/-- **C100 (documented defaults), `PionDecay`.**  One proton per cm³, protons from 1.22 GeV to 10 PeV, 100 points per
decade, Pythia 8 and the lookup table, nuclear enhancement. -/
theorem C100_defaults_pion (p : DistnArg) (o : Dict String AttrVal) (h : initPionDecay p = .ok o) :
    IsQ o "nh" 1 uPerCm3 ∧ IsAbout o "Epmin" 1.22 0.005 PhysUnit.GeV ∧ IsAbout o "Epmax" 10000 0 PhysUnit.TeV ∧
      IsN o "nEpd" 100 ∧ o.get? "hiEmodel" = some (.text "Pythia8") ∧ o.get? "useLUT" = some (.bool true) ∧
      o.get? "nuclear_enhancement" = some (.bool true) := by
  unfold initPionDecay initProton at h
  rw [vs_none, if_pos (show IsQuantityOf Dim.numDensity defaultDensity from rfl)] at h
  cases hr : initRadiative p with
  | error e => rw [hr] at h; cases h
  | ok u =>
    rw [hr] at h
    cases h
    refine ⟨rfl, ⟨_, _, rfl, rfl, ?_⟩, ⟨10, uPeV, rfl, rfl, ?_⟩, rfl, rfl, rfl, rfl⟩
    · unfold defaultEpmin cMp cC PhysUnit.GeV
      rw [abs_le]
      constructor <;> norm_num
    · simp only [uPeV, PhysUnit.TeV]; norm_num

/-- The names an object lists as its parameters. -/
def ListsParams (o : Dict String AttrVal) (names : List String) : Prop := o.get? "param_names" = some (.names names)

/-- Every attribute of the object is one of `names`, the distribution, the list of parameters or private. -/
def AllListed (o : Dict String AttrVal) (names : List String) : Prop :=
  ∀ k ∈ o.keys, k ∈ names ∨ k = "particle_distribution" ∨ k = "param_names" ∨ k.front = '_'

private theorem params_sync (p B o) (h : initSynchrotron p B = .ok o) :
    ListsParams o ["Eemin", "Eemax", "nEed", "B"] ∧ AllListed o ["Eemin", "Eemax", "nEed", "B"] := by
  unfold initSynchrotron initElectron at h
  cases hr : initRadiative p with
  | error e => rw [hr] at h; cases h
  | ok u =>
    rw [hr] at h
    cases hv : validateScalar B .none (some [Dim.magFluxDensity]) with
    | error e => rw [hv] at h; cases h
    | ok b =>
      rw [hv] at h
      cases h
      refine ⟨?_, ?_⟩
      · simp [ListsParams, updateDict, addParamNames, Dict.set, Dict.get?, Dict.keys, List.find?]
      · simp [AllListed, updateDict, addParamNames, Dict.set, Dict.get?, Dict.keys, List.find?]
        decide

private theorem params_ic (p s o) (h : initInverseCompton p s = .ok o) :
    ListsParams o ["Eemin", "Eemax", "nEed", "seed_photon_fields"] ∧ AllListed o ["Eemin", "Eemax", "nEed", "seed_photon_fields"] := by
  unfold initInverseCompton initElectron at h
  cases hr : initRadiative p with
  | error e => rw [hr] at h; cases h
  | ok u =>
    rw [hr] at h
    cases hv : processInputSeed s with
    | error e => rw [hv] at h; cases h
    | ok b =>
      rw [hv] at h
      cases h
      refine ⟨?_, ?_⟩
      · simp [ListsParams, updateDict, addParamNames, Dict.set, Dict.get?, Dict.keys, List.find?]
      · simp [AllListed, updateDict, addParamNames, Dict.set, Dict.get?, Dict.keys, List.find?]
        decide

private theorem params_brems (p n o) (h : initBremsstrahlung p n = .ok o) :
    ListsParams o ["Eemin", "Eemax", "nEed", "n0", "weight_ee", "weight_ep"] ∧
      AllListed o ["Eemin", "Eemax", "nEed", "n0", "weight_ee", "weight_ep"] := by
  unfold initBremsstrahlung initElectron at h
  cases hr : initRadiative p with
  | error e => rw [hr] at h; cases h
  | ok u =>
    rw [hr] at h
    simp only [bind, Except.bind, pure, Except.pure, Except.ok.injEq] at h
    subst h
    refine ⟨?_, ?_⟩
    · simp [ListsParams, updateDict, addParamNames, Dict.set, Dict.get?, Dict.keys, List.find?]
    · simp [AllListed, updateDict, addParamNames, Dict.set, Dict.get?, Dict.keys, List.find?]
      decide

private theorem params_pion (p n nuc o) (h : initPionDecay p n nuc = .ok o) :
    ListsParams o ["Epmin", "Epmax", "nEpd", "nh", "nuclear_enhancement", "useLUT", "hiEmodel"] ∧
      AllListed o ["Epmin", "Epmax", "nEpd", "nh", "nuclear_enhancement", "useLUT", "hiEmodel"] := by
  unfold initPionDecay initProton at h
  cases hr : initRadiative p with
  | error e => rw [hr] at h; cases h
  | ok u =>
    rw [hr] at h
    cases hv : validateScalar n .none (some [Dim.numDensity]) with
    | error e => rw [hv] at h; cases h
    | ok b =>
      rw [hv] at h
      simp only [bind, Except.bind, pure, Except.pure, Except.ok.injEq] at h
      subst h
      refine ⟨?_, ?_⟩
      · simp [ListsParams, updateDict, addParamNames, Dict.set, Dict.get?, Dict.keys, List.find?]
      · simp [AllListed, updateDict, addParamNames, Dict.set, Dict.get?, Dict.keys, List.find?]
        decide

private theorem params_kelner (p n e o) (h : initKelner p n e = .ok o) : AllListed o kelnerParamNames := by
  unfold initKelner at h
  cases hv : validateScalar n .none (some [Dim.numDensity]) with
  | error e => rw [hv] at h; cases h
  | ok b =>
    rw [hv] at h
    cases hv' : validateScalar e .positive (some [Dim.energy]) with
    | error e => rw [hv'] at h; cases h
    | ok b' =>
      rw [hv'] at h
      cases h
      simp [AllListed, kelnerParamNames, updateDict, Dict.keys]

/-- **C100 (parameters).**  Every attribute that a constructor sets is among the parameters of the object, of which its
memoisation key is made (C01–C04), or is the distribution, the list of parameters or a private attribute;
the attributes set by `PionDecayKelner06` are the parameters of the class or the distribution. -/
theorem C100_parameters :
    (∀ p B o, initSynchrotron p B = .ok o →
      ListsParams o ["Eemin", "Eemax", "nEed", "B"] ∧ AllListed o ["Eemin", "Eemax", "nEed", "B"]) ∧
    (∀ p s o, initInverseCompton p s = .ok o → ListsParams o ["Eemin", "Eemax", "nEed", "seed_photon_fields"] ∧
      AllListed o ["Eemin", "Eemax", "nEed", "seed_photon_fields"]) ∧
    (∀ p n o, initBremsstrahlung p n = .ok o →
      ListsParams o ["Eemin", "Eemax", "nEed", "n0", "weight_ee", "weight_ep"] ∧
      AllListed o ["Eemin", "Eemax", "nEed", "n0", "weight_ee", "weight_ep"]) ∧
    (∀ p n nuc o, initPionDecay p n nuc = .ok o →
      ListsParams o ["Epmin", "Epmax", "nEpd", "nh", "nuclear_enhancement", "useLUT", "hiEmodel"] ∧
      AllListed o ["Epmin", "Epmax", "nEpd", "nh", "nuclear_enhancement", "useLUT", "hiEmodel"]) ∧
    ∀ p n e o, initKelner p n e = .ok o → AllListed o kelnerParamNames :=
  ⟨params_sync, params_ic, params_brems, params_pion, params_kelner⟩

/-- **C100 (documented defaults), `PionDecayKelner06`.**  One proton per cm³, transition at 0.1 TeV. -/
theorem C100_defaults_kelner (p : DistnArg) (o : Dict String AttrVal) (h : initKelner p = .ok o) :
    IsQ o "nh" 1 uPerCm3 ∧ IsQ o "Etrans" 0.1 PhysUnit.TeV := by
  unfold initKelner at h
  rw [vs_none, if_pos (show IsQuantityOf Dim.numDensity defaultDensity from rfl)] at h
  have h2 : validateScalar defaultEtrans .positive (some [Dim.energy]) = .ok defaultEtrans := by
    unfold validateScalar validatePhysicalType defaultEtrans
    have h3 : ¬ (fin 0.1 : XR) < fin 0 := by
      show ¬ ((0.1 : ℝ) < 0)
      norm_num
    simp [PhysUnit.TeV, cmpScalar, cmpQty, bind, Except.bind, pure, Except.pure, Dim.energy, Dim.one, h3]
  rw [h2] at h
  cases h
  exact ⟨rfl, rfl⟩

/-- **C100 (the default field is in equipartition with the microwave background).**  B² / 8π for the default field
agrees within half a percent with `a T⁴` for the temperature of the default seed. -/
theorem C100_default_field (p : DistnArg) (o o' : Dict String AttrVal) (h : initSynchrotron p = .ok o)
    (h' : initInverseCompton p = .ok o') :
    ∃ B T U, IsQ o "B" B gauss ∧
      o'.get? "seed_photon_fields" = some (.seeds [("CMB", .thermal (.qty (fin T) kelvin) (.qty (fin U) ⟨1, Dim.pressure⟩)
        none)]) ∧ |B ^ 2 / (8 * Real.pi) - U| ≤ 0.005 * U := by
  have hB := (C100_defaults_synchrotron p o h).1
  unfold initInverseCompton initElectron at h'
  cases hr : initRadiative p with
  | error e => rw [hr] at h'; cases h'
  | ok u =>
    rw [hr] at h'
    cases h'
    refine ⟨3.24e-6, 2.72548, cAr * 2.72548 ^ (4 : ℝ), hB, ?_, ?_⟩
    · show some (AttrVal.seeds [("CMB", .thermal (.qty (fin 2.72548) kelvin) (arT4 (fin 2.72548) kelvin) none)]) = _
      unfold arT4 kelvin
      have : fin cAr * pow (fin 2.72548) (fin 4) = fin (cAr * 2.72548 ^ (4 : ℝ)) := by
        show fin cAr * powFin 2.72548 4 = _
        unfold powFin
        norm_num
      rw [this]
      norm_num
    · have hp := Real.pi_gt_d6
      have hp' := Real.pi_lt_d6
      have e4 : (2.72548 : ℝ) ^ (4 : ℝ) = 2.72548 ^ 4 := by
        rw [show (4 : ℝ) = ((4 : ℕ) : ℝ) by norm_num, Real.rpow_natCast]
      rw [e4]
      unfold cAr cSigma cC
      rw [abs_le]
      constructor
      · rw [← sub_nonneg]
        have : (3.24e-6 : ℝ) ^ 2 / (8 * 3.141593) ≤ 3.24e-6 ^ 2 / (8 * Real.pi) := by
          apply div_le_div_of_nonneg_left <;> nlinarith
        norm_num at this ⊢
        linarith
      · have : (3.24e-6 : ℝ) ^ 2 / (8 * Real.pi) ≤ 3.24e-6 ^ 2 / (8 * 3.141592) := by
          apply div_le_div_of_nonneg_left <;> nlinarith
        norm_num at this ⊢
        linarith

/-! ### An accepted distribution can be used -/

/-- A distribution with values in the unit of its amplitude (every analytic model of `naima.models`, C22), as the
constructors see it. -/
noncomputable def asArg (pd : PDist) (amp : ℝ) : DistnArg :=
  ⟨some (.qty (fin amp) pd.unit),
    .ok (.qarr [3] ([0.1, 1, 10].map (fun t => pd.f (t * PhysUnit.TeV.scale))) pd.unit)⟩

/-- A plain function without attributes. -/
noncomputable def asFunction (pd : PDist) : DistnArg := { asArg pd 0 with amplitude := none }

/-- **C100 (accepted means usable).**  A distribution whose values are in one unit is accepted, with or without
an amplitude in that unit, exactly when evaluating it on any particle energies succeeds in every class. -/
theorem C100_usable (pd : PDist) (amp : ℝ) :
    (GoodDistn (asArg pd amp) ↔ ∀ es, Accepted (nelecOf pd es)) ∧
    (GoodDistn (asFunction pd) ↔ ∀ es, Accepted (nelecOf pd es)) ∧
    (GoodDistn (asFunction pd) ↔ ∀ es, Accepted (protOf pd es)) := by
  have hg : ∀ u : PhysUnit, u.dim = Dim.diffEnergy →
      ((∀ es, Accepted (pd.valuesIn u es)) ↔ pd.unit.dim = Dim.diffEnergy) := by
    intro u hu
    unfold Accepted PDist.valuesIn
    rw [hu]
    by_cases h : pd.unit.dim = Dim.diffEnergy <;> simp [h]
  have h1 : GoodDistn (asArg pd amp) ↔ pd.unit.dim = Dim.diffEnergy := by
    unfold GoodDistn asArg IsQuantityOf
    simp
  have h2 : GoodDistn (asFunction pd) ↔ pd.unit.dim = Dim.diffEnergy := by
    unfold GoodDistn asFunction asArg IsQuantityOf
    simp
  have e1 : (∀ es, Accepted (nelecOf pd es)) ↔ pd.unit.dim = Dim.diffEnergy := by
    rw [← hg perMec2 rfl]
    constructor
    · intro h es
      have := h (es.map (· / cMec2))
      unfold Accepted nelecOf PDist.valuesIn at *
      by_cases hd : pd.unit.dim = perMec2.dim
      · simp [hd]
      · simp [hd] at this
    · intro h es
      exact h _
  have e2 : (∀ es, Accepted (protOf pd es)) ↔ pd.unit.dim = Dim.diffEnergy := by
    rw [← hg perGeV rfl]
    constructor
    · intro h es
      have := h (es.map (· / cMec2))
      unfold Accepted protOf PDist.valuesIn at *
      by_cases hd : pd.unit.dim = perGeV.dim
      · simp [hd]
      · simp [hd] at this
    · intro h es
      exact h _
  exact ⟨h1.trans e1.symm, h2.trans e1.symm, h2.trans e2.symm⟩

/-- **C100, false: a good amplitude hides a bad output.**  A distribution of one's own with an attribute
`amplitude` per unit energy is accepted although its values are plain areas, and every evaluation of its
electrons then fails. -/
theorem C100_false_amplitude_hides (f : ℝ → XR) :
    ∃ (p : DistnArg) (pd : PDist), pd.f = f ∧ p.output = (asFunction pd).output ∧ Accepted (initSynchrotron p) ∧
      ∀ es, nelecOf pd es = .error .unitConversionError := by
  refine ⟨⟨some (.qty (fin 1) perGeV), (asFunction ⟨⟨1, { len := 2 }⟩, f⟩).output⟩, ⟨⟨1, { len := 2 }⟩, f⟩, rfl, rfl,
    (C100_synchrotron _ _ []).2 ⟨Or.inl ⟨_, rfl, rfl⟩, rfl⟩, fun es => ?_⟩
  unfold nelecOf PDist.valuesIn perMec2
  rw [if_neg]
  show ¬ (({ len := 2 } : Dim) = Dim.diffEnergy)
  decide

/-- A distribution with a good amplitude exists, and the five classes accept it with their defaults. -/
theorem C100_example : ∃ p : DistnArg, GoodDistn p ∧ Accepted (initSynchrotron p) ∧
    Accepted (initInverseCompton p) ∧ Accepted (initBremsstrahlung p) ∧ Accepted (initPionDecay p) ∧
    Accepted (initKelner p) := by
  let p : DistnArg := ⟨some (.qty (fin 1e36) ⟨1e12, Dim.diffEnergy⟩), .error .typeError⟩
  have hp : GoodDistn p := Or.inl ⟨_, rfl, rfl⟩
  refine ⟨p, hp, (C100_synchrotron p _ []).2 ⟨hp, rfl⟩, (C100_inverse_compton p _ []).2 ⟨hp, ?_⟩,
    (C100_false_bremsstrahlung_density p _ []).2 hp, (C100_pion p _ _ []).2 ⟨hp, rfl⟩,
    (C100_false_kelner_distribution p p .cplx .cplx []).2⟩
  exact ⟨_, rfl⟩

end Naima.Props
