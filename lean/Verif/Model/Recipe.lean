import Verif.Model.ICModel
import Verif.Model.Populations
import Verif.Model.Sherpa
import Verif.Model.TableModel
import Verif.Model.LnProb

/-!
# The documented models (examples/absorbed_SynIC.py, examples/RXJ1713_SynIC.py)

The model function of the worked example on extragalactic sources: inverse Compton emission absorbed by the background
light plus synchrotron emission of one electron population, with the energy in the electrons as blob.
-/

namespace Naima

open XR

noncomputable section

/-- `u.uG` -/
def microgauss : PhysUnit := ⟨1e-6 * gauss.scale, gauss.dim⟩

/-- The electrons `BrokenPowerLaw(10 ** pars[0] / u.eV, 1 TeV, 10 ** pars[1] * u.TeV, pars[2], pars[3])`
(absorbed_SynIC.py:18-21, 29). -/
def recipeElectrons (p0 p1 a1 a2 : ℝ) : PDist :=
  BPL.toPDist ⟨fin (10 ^ p0), ⟨fin 1, PhysUnit.TeV⟩, ⟨fin (10 ^ p1), PhysUnit.TeV⟩, fin a1, fin a2⟩ perEV

/-- `InverseCompton(BPL, seed_photon_fields=["CMB"], Eemin=10 * u.GeV)` (absorbed_SynIC.py:32; defaults radiative.py:426-428). -/
def recipeIC : ElModel := ⟨⟨10, PhysUnit.GeV⟩, eemaxDefault, 100⟩

/-- `Synchrotron(BPL, B=B)` with `B = pars[4] * u.uG` (absorbed_SynIC.py:22, 33; defaults radiative.py:276-278). -/
def recipeSyn (B : ℝ) : SyncModel := ⟨⟨⟨1, PhysUnit.GeV⟩, eemaxDefault, 100⟩, ⟨B, microgauss⟩⟩

/-- The transmission at the energies of the data (absorbed_SynIC.py:25-26, 36): the redshift is given as a dimensionless Quantity. -/
def recipeTransmission (d : EblData) (I : Interp) (z : ℝ) (e : Qty (List ℝ)) : Except PyErr (List XR) := do
  let ebl ← eblInit d (.qty (fin z) unitOne)
  eblTransmission I ebl (.array (e.value.map fin) e.unit)

/-- `IC.flux(data, distance=1.0 * u.kpc)` (absorbed_SynIC.py:36-38). -/
def recipeICFlux (pd : PDist) (e : Qty (List ℝ)) : Except PyErr (Qty (List XR)) :=
  fluxOf (icModelSpectrum recipeIC (.list [.str "CMB"]) pd) e (.qty ⟨1, kpc⟩)

/-- `SYN.flux(data, distance=1.0 * u.kpc)` (absorbed_SynIC.py:38). -/
def recipeSynFlux (B : ℝ) (pd : PDist) (e : Qty (List ℝ)) : Except PyErr (Qty (List XR)) :=
  fluxOf ((recipeSyn B).spectrum pd) e (.qty ⟨1, kpc⟩)

/-- `ElectronEblAbsorbedSynIC(pars, data)` (absorbed_SynIC.py:16-43): the model and the blob (erg). `e`: the energies of
the data, which all three components read through `_validate_ene`. A vector shorter than six raises IndexError. The two
fluxes carry the same unit (1/(cm² s eV)), in which the sum is given. -/
def absorbedSynIC (d : EblData) (I : Interp) (pars : List ℝ) (e : Qty (List ℝ)) :
    Except PyErr (Qty (List XR) × XR) :=
  match pars with
  | p0 :: p1 :: a1 :: a2 :: B :: z :: _ => do
    let T ← recipeTransmission d I z e
    let F ← recipeICFlux (recipeElectrons p0 p1 a1 a2) e
    let G ← recipeSynFlux B (recipeElectrons p0 p1 a1 a2) e
    let W ← recipeIC.computeWe (recipeElectrons p0 p1 a1 a2) (some ⟨1, PhysUnit.TeV⟩) none
    return (⟨List.zipWith (fun x y => x + y) (List.zipWith (fun t f => t * f) T F.value) G.value, uFlux⟩, W)
  | _ => .error .indexError

/-! ### RXJ1713_SynIC.py -/

/-- `ExponentialCutoffPowerLaw(10 ** pars[0] / u.eV, 10 TeV, pars[1], 10 ** pars[2] * u.TeV)` (RXJ1713_SynIC.py:21-23, 27). -/
def rxjElectrons (p0 alpha p2 : ℝ) : PDist :=
  ECPL.toPDist ⟨fin (10 ^ p0), ⟨fin 10, PhysUnit.TeV⟩, fin alpha, ⟨fin (10 ^ p2), PhysUnit.TeV⟩, fin 1⟩ perEV

/-- `seed_photon_fields=["CMB", ["FIR", 26.5 K, 0.415 eV/cm3]]` (RXJ1713_SynIC.py:32-35). -/
def rxjSeeds : SeedsArg := .list [.str "CMB", .list3 "FIR" (.qty (fin 26.5) kelvin) (.qty (fin 0.415) eVcm3)]

/-- The inverse Compton model (RXJ1713_SynIC.py:30-37; defaults radiative.py:426-428). -/
def rxjIC : ElModel := ⟨⟨100, PhysUnit.GeV⟩, eemaxDefault, 100⟩

/-- `IC.flux(data, distance=1.0 * u.kpc)` (RXJ1713_SynIC.py:41). -/
def rxjICFlux (pd : PDist) (e : Qty (List ℝ)) : Except PyErr (Qty (List XR)) :=
  fluxOf (icModelSpectrum rxjIC rxjSeeds pd) e (.qty ⟨1, kpc⟩)

/-- `ElectronSynIC(pars, data)` (RXJ1713_SynIC.py:19-46): the model and the blob (erg); `SYN` and its flux as in
`absorbed_SynIC.py`. -/
def electronSynIC (pars : List ℝ) (e : Qty (List ℝ)) : Except PyErr (Qty (List XR) × XR) :=
  match pars with
  | p0 :: alpha :: p2 :: B :: _ => do
    let F ← rxjICFlux (rxjElectrons p0 alpha p2) e
    let G ← recipeSynFlux B (rxjElectrons p0 alpha p2) e
    let W ← rxjIC.computeWe (rxjElectrons p0 alpha p2) (some ⟨1, PhysUnit.TeV⟩) none
    return (⟨List.zipWith (fun x y => x + y) F.value G.value, uFlux⟩, W)
  | _ => .error .indexError

/-- `lnprior(pars)` (RXJ1713_SynIC.py:52-64). -/
def rxjPrior (pars : List ℝ) : Except PyErr XR :=
  match pars with
  | p0 :: alpha :: _ :: B :: _ =>
    .ok (uniformPrior (fin p0) (fin 0) pinf + uniformPrior (fin alpha) (fin (-1)) (fin 5) +
      uniformPrior (fin B) (fin 0) pinf)
  | _ => .error .indexError

/-- The model function as `lnprob` calls it (core.py:103-113): with the energies of the data, returning a tuple. -/
def rxjModel (pars : List ℝ) (data : VTable) : Except PyErr (ModelOut XR) :=
  (electronSynIC pars ⟨data.rows.map (·.energy), PhysUnit.erg⟩).map (fun r =>
    .iterable [.spec ⟨r.1.value.map (· * fin r.1.unit.scale), r.1.unit⟩, .other r.2])

/-- The log-probability the sampler sees (core.py:97-121) for `model=ElectronSynIC, prior=lnprior` (RXJ1713_SynIC.py:76-88). -/
def rxjLnprob (pars : List ℝ) (data : VTable) : Except PyErr (XR × List (Blob XR)) :=
  lnprob pars data rxjModel (some rxjPrior)

/-! ### RXJ1713_IC.py -/

/-- What the model function of the example returns beside the spectrum (RXJ1713_IC.py:40-49): electron energies in eV with the
electrons at them (per eV), and the energy in the electrons (erg). -/
inductive RxjBlob
  | electrons (eV : List ℝ) (n : List XR)
  | energy (W : XR)

/-- `ExponentialCutoffPowerLaw(pars[0] / u.eV, 10 TeV, pars[1], 10 ** pars[2] * u.TeV)` (RXJ1713_IC.py:18-23); `e` in eV
there (RXJ1713_IC.py:40-41), in erg inside the radiative model. -/
def rxjEcpl (A alpha p2 : ℝ) : ECPL :=
  ⟨fin A, ⟨fin 10, PhysUnit.TeV⟩, fin alpha, ⟨fin (10 ^ p2), PhysUnit.TeV⟩, fin 1⟩

/-- `np.logspace(11, 15, 100)` (RXJ1713_IC.py:40). -/
def rxjEnergies : List ℝ := logspace 11 15 100

/-- `ElectronIC(pars, data)` (RXJ1713_IC.py:16-49) as `lnprob` calls it. `.to(data["flux"].unit)` raises UnitConversionError
unless the data are differential fluxes. The radiative model is that of `RXJ1713_SynIC.py`. -/
def electronIC (pars : List ℝ) (data : VTable) : Except PyErr (ModelOut RxjBlob) :=
  match pars with
  | A :: alpha :: p2 :: _ => do
    let F ← rxjICFlux ((rxjEcpl A alpha p2).toPDist perEV) ⟨data.rows.map (·.energy), PhysUnit.erg⟩
    let F ← F.toArr data.fluxU
    let n ← rxjEnergies.mapM (fun x => (rxjEcpl A alpha p2).call ⟨fin x, PhysUnit.eV⟩)
    let W ← rxjIC.computeWe ((rxjEcpl A alpha p2).toPDist perEV) (some ⟨1, PhysUnit.TeV⟩) none
    return .iterable [.spec ⟨F.value.map (· * fin F.unit.scale), F.unit⟩, .other (.electrons rxjEnergies n), .other (.energy W)]
  | _ => .error .indexError

/-- `lnprior(pars)` (RXJ1713_IC.py:55-65). -/
def rxjICPrior (pars : List ℝ) : Except PyErr XR :=
  match pars with
  | A :: alpha :: _ => .ok (uniformPrior (fin A) (fin 0) pinf + uniformPrior (fin alpha) (fin (-1)) (fin 5))
  | _ => .error .indexError

/-- The log-probability the sampler sees (core.py:97-121) for `model=ElectronIC, prior=lnprior` (RXJ1713_IC.py:74-86). -/
def rxjICLnprob (pars : List ℝ) (data : VTable) : Except PyErr (XR × List (Blob RxjBlob)) :=
  lnprob pars data electronIC (some rxjICPrior)

end

end Naima
