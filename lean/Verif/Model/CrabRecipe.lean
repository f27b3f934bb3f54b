import Verif.Model.SSC
import Verif.Model.Recipe

/-!
# The documented model of the Crab nebula (examples/CrabNebula_SynSSC.py)

Electrons radiating by synchrotron emission and by scattering three thermal photon fields and their own synchrotron photons.
-/

namespace Naima

open XR

noncomputable section

/-- `u.PeV` -/
def PhysUnit.PeV : PhysUnit := ⟨1000 * PhysUnit.TeV.scale, Dim.energy⟩

/-- `u.pc` -/
def parsec : PhysUnit := ⟨kpc.scale / 1000, Dim.length⟩

/-- The electrons (CrabNebula_SynSSC.py:13-21); the amplitude `3.699e36` (per eV) is a parameter here. -/
def crabElectrons (A : ℝ) : PDist :=
  ECBPL.toPDist ⟨fin A, ⟨fin 1, PhysUnit.TeV⟩, ⟨fin 0.265, PhysUnit.TeV⟩, fin 1.5, fin 3.233, ⟨fin 1863, PhysUnit.TeV⟩, fin 2⟩
    perEV

/-- `Synchrotron(ECBPL, B=125 * u.uG, Eemax=50 * u.PeV, Eemin=0.1 * u.GeV)` (CrabNebula_SynSSC.py:25); the field (in μG) is a
parameter here. -/
def crabSyn (B : ℝ) : SyncModel := ⟨⟨⟨0.1, PhysUnit.GeV⟩, ⟨50, PhysUnit.PeV⟩, 100⟩, ⟨B, microgauss⟩⟩

/-- `Rpwn = 2.1 * u.pc` (CrabNebula_SynSSC.py:28). -/
def crabR : Qty ℝ := ⟨2.1, parsec⟩

/-- `Esy = np.logspace(-7, 9, 100) * u.eV` (CrabNebula_SynSSC.py:29). -/
def crabEsy : Qty (List ℝ) := ⟨logspace (-7) 9 100, PhysUnit.eV⟩

/-- The electron range of `IC` (CrabNebula_SynSSC.py:41-42). -/
def crabIC : ElModel := ⟨⟨0.1, PhysUnit.GeV⟩, ⟨50, PhysUnit.PeV⟩, 100⟩

/-- `["FIR", 70 * u.K, 0.5 * u.eV / u.cm**3]` (CrabNebula_SynSSC.py:37). -/
def crabFIR : SeedSpec := .list3 "FIR" (.qty (fin 70) kelvin) (.qty (fin 0.5) eVcm3)

/-- `["NIR", 5000 * u.K, 1 * u.eV / u.cm**3]` (CrabNebula_SynSSC.py:38). -/
def crabNIR : SeedSpec := .list3 "NIR" (.qty (fin 5000) kelvin) (.qty (fin 1) eVcm3)

/-- The spectrum of `IC` (CrabNebula_SynSSC.py:30-43): three thermal fields and the synchrotron photons. -/
def crabICSpectrum (A B : ℝ) (es : List ℝ) : Except PyErr (List XR) :=
  sscSpectrum crabIC [.str "CMB", crabFIR, crabNIR] (crabSyn B) (crabElectrons A) crabEsy crabR es

/-- `IC.sed(energy, D) + SYN.sed(energy, D)` (CrabNebula_SynSSC.py:54). The two carry the same unit, in which the sum is given. -/
def crabTotal (A B : ℝ) (e : Qty (List ℝ)) (D : DistArg) : Except PyErr (Qty (List XR)) := do
  let X ← sedOf (crabICSpectrum A B) e D
  let Y ← sedOf ((crabSyn B).spectrum (crabElectrons A)) e D
  return ⟨List.zipWith (fun x y => x + y) X.value Y.value, X.unit⟩

end

end Naima
