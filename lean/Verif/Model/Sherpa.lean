import Verif.Model.ICModel
import Verif.Model.Synchrotron
import Verif.Model.Brems
import Verif.Model.Pion

/-!
# Sherpa models (src/naima/sherpa_models.py)

Not modelled here: Sherpa's `Parameter` limits (see Model/SherpaPars.lean), its model cache
(`modelCacher1d`) and the `verbose` printout.
-/

namespace Naima

open XR Classical

noncomputable section

/-- Sherpa gives energies in keV (sherpa_models.py:48-51). -/
def keV : PhysUnit := ⟨1e3 * cEV, Dim.energy⟩
/-- MeV -/
def MeV : PhysUnit := ⟨1e6 * cEV, Dim.energy⟩
/-- kpc in cm -/
def kpc : PhysUnit := ⟨3.0856775814913674e21, Dim.length⟩
/-- `1/(s cm2 keV)` (sherpa_models.py:176 etc.) -/
def perSCm2KeV : PhysUnit := ⟨1 / (1e3 * cEV), Dim.diffFlux⟩
/-- `1/eV` (sherpa_models.py:93) -/
def perEV : PhysUnit := ⟨1 / cEV, Dim.diffEnergy⟩

/-- The parameters shared by all Sherpa models (sherpa_models.py:73-86). -/
structure ShPars where
  index : ℝ
  ref : ℝ
  ampl : ℝ
  cutoff : ℝ
  beta : ℝ
  distance : ℝ

/-- The model and its own parameters (sherpa_models.py:105-310). -/
inductive ShKind
  | ic (TFIR uFIR TNIR uNIR : ℝ)
  | sync (B : ℝ)
  | brems (n0 wee wep : ℝ)
  | pion (nH : ℝ)

/-- The four model classes. -/
inductive ShClass
  | inverseCompton
  | synchrotron
  | bremsstrahlung
  | pionDecay

/-- The names of the parameters of a model in the order in which Sherpa passes their values
(sherpa_models.py:126-142, 193-206, 233-248, 289-302). -/
def ShClass.parNames : ShClass → List String
  | .inverseCompton => ["index", "ref", "ampl", "cutoff", "beta", "TFIR", "uFIR", "TNIR", "uNIR",
      "distance", "verbose"]
  | .synchrotron => ["index", "ref", "ampl", "cutoff", "beta", "B", "distance", "verbose"]
  | .bremsstrahlung => ["index", "ref", "ampl", "cutoff", "beta", "n0", "weight_ee", "weight_ep",
      "distance", "verbose"]
  | .pionDecay => ["index", "ref", "ampl", "cutoff", "beta", "nH", "distance", "verbose"]

/-- The tuple assignments at the start of `flux` (sherpa_models.py:147-159, 211, 253-264, 307) and
`p[:5]` in `_pdist` (sherpa_models.py:91); ValueError for another number of values. -/
def ShClass.unpack : ShClass → List ℝ → Except PyErr (ShKind × ShPars)
  | .inverseCompton, [index, ref, ampl, cutoff, beta, TFIR, uFIR, TNIR, uNIR, distance, _] =>
      .ok (.ic TFIR uFIR TNIR uNIR, ⟨index, ref, ampl, cutoff, beta, distance⟩)
  | .synchrotron, [index, ref, ampl, cutoff, beta, B, distance, _] =>
      .ok (.sync B, ⟨index, ref, ampl, cutoff, beta, distance⟩)
  | .bremsstrahlung, [index, ref, ampl, cutoff, beta, n0, wee, wep, distance, _] =>
      .ok (.brems n0 wee wep, ⟨index, ref, ampl, cutoff, beta, distance⟩)
  | .pionDecay, [index, ref, ampl, cutoff, beta, nH, distance, _] =>
      .ok (.pion nH, ⟨index, ref, ampl, cutoff, beta, distance⟩)
  | _, _ => .error .valueError

/-- `_mergex` (sherpa_models.py:14-25): the lower edges and the last upper edge. -/
def mergex (xlo xhi : List ℝ) : Except PyErr (List ℝ) :=
  match xhi.getLast? with
  | none => .error .indexError
  | some x => .ok (xlo ++ [x])

/-- `_pdist` (sherpa_models.py:88-102): a power law if the cutoff is exactly 0, otherwise an
exponential cutoff power law; the constructors check the energies. -/
def shPdist (p : ShPars) : Except PyErr PDist := do
  let _ ← validateScalar (.qty (fin p.ref) PhysUnit.TeV) .positive (some [Dim.energy])
  if p.cutoff = 0 then
    return PowerLaw.toPDist ⟨fin (p.ampl * 1e30), ⟨fin p.ref, PhysUnit.TeV⟩, fin p.index⟩ perEV
  else
    let _ ← validateScalar (.qty (fin p.cutoff) PhysUnit.TeV) .positive (some [Dim.energy])
    return ECPL.toPDist ⟨fin (p.ampl * 1e30), ⟨fin p.ref, PhysUnit.TeV⟩, fin p.index,
      ⟨fin p.cutoff, PhysUnit.TeV⟩, fin p.beta⟩ perEV

/-- `seedspec` (sherpa_models.py:161-166). -/
def shSeeds (TFIR uFIR TNIR uNIR : ℝ) : SeedsArg :=
  .list ([.str "CMB"] ++
    (if 0 < uFIR then [.list3 "FIR" (.qty (fin TFIR) kelvin) (.qty (fin uFIR) eVcm3)] else []) ++
    (if 0 < uNIR then [.list3 "NIR" (.qty (fin TNIR) kelvin) (.qty (fin uNIR) eVcm3)] else []))

/-- `1e9 * mec2` (radiative.py:277, 825) -/
def eemaxDefault : Qty ℝ := ⟨1e9 * cMec2, PhysUnit.erg⟩

/-- The differential luminosity of the radiative model built in `flux` (sherpa_models.py:168-174,
212, 265-270, 308), for energies in erg. `lut` is the table `PionDecay` reads by default; the
`Eed=100` passed to `InverseCompton` sets an attribute that nothing reads (`nEed` is 100 anyway). -/
def shSpectrum (lut : ℝ → ℝ → XR) (k : ShKind) (pd : PDist) (es : List ℝ) :
    Except PyErr (List XR) :=
  match k with
  | .ic TFIR uFIR TNIR uNIR =>
    icModelSpectrum ⟨⟨1, PhysUnit.GeV⟩, ⟨100, PhysUnit.TeV⟩, 100⟩ (shSeeds TFIR uFIR TNIR uNIR) pd es
  | .sync B => SyncModel.spectrum ⟨⟨⟨1, PhysUnit.GeV⟩, eemaxDefault, 100⟩, ⟨B, gauss⟩⟩ pd es
  | .brems n0 wee wep =>
    BremsModel.spectrum ⟨⟨⟨100, MeV⟩, eemaxDefault, 300⟩, ⟨n0, perCm3⟩, wee, wep⟩ pd es
  | .pion nH =>
    PionModel.spectrumLUT ⟨⟨⟨pM + pTth + 1e-4, PhysUnit.GeV⟩, ⟨1e4, PhysUnit.TeV⟩, 100⟩,
      ⟨nH, perCm3⟩, true, .pythia8⟩ pd lut es

/-- `flux(p, Eph)` with `Eph` in keV (sherpa_models.py:146-176, 210-214, 252-272, 306-310). -/
def shFlux (lut : ℝ → ℝ → XR) (k : ShKind) (p : ShPars) (xs : List ℝ) :
    Except PyErr (List XR) := do
  let pd ← shPdist p
  let F ← fluxOf (shSpectrum lut k pd) ⟨xs, keV⟩ (.qty ⟨p.distance, kpc⟩)
  let F ← F.toArr perSCm2KeV
  return F.value

/-- `calc(p, x, xhi)` (sherpa_models.py:44-67): for points the differential flux times the energy,
for bins the integral between consecutive merged edges; photons/(s cm²). -/
def shCalc (lut : ℝ → ℝ → XR) (k : ShKind) (p : ShPars) (x : List ℝ) (xhi : Option (List ℝ)) :
    Except PyErr (List XR) :=
  match xhi with
  | none => do
    let F ← shFlux lut k p x
    return List.zipWith (fun f e => f * fin e) F x
  | some xhi => do
    let xs ← mergex x xhi
    let F ← shFlux lut k p xs
    return trapzIntervals ((xs.map fin).zip F)

/-- `calc` as Sherpa calls it, with the values of the parameters in order. -/
def ShClass.calc (lut : ℝ → ℝ → XR) (c : ShClass) (p : List ℝ) (x : List ℝ) (xhi : Option (List ℝ)) :
    Except PyErr (List XR) := do
  let (k, p) ← c.unpack p
  shCalc lut k p x xhi

/-- `guess(dep, xlo[, xhi])` (sherpa_models.py:31-42): the new amplitude. -/
def shGuess (lut : ℝ → ℝ → XR) (k : ShKind) (p : ShPars) (dep : List XR) (xlo : List ℝ)
    (xhi : Option (List ℝ)) : Except PyErr XR := do
  let model ← shCalc lut k p xlo xhi
  return fin p.ampl * trapz dep (xlo.map fin) / trapz model (xlo.map fin)

end

end Naima
