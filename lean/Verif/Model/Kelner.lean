import Verif.Model.Electron
import Verif.Model.Synchrotron
import Verif.Model.Sed

/-!
# PionDecayKelner06 (src/naima/radiative.py:1539-1767)

`scipy.integrate.quad` is a parameter: any function from an integrand and limits to a number. What is
assumed of it is said in each theorem.  Energies inside the integrands are in TeV.
-/

namespace Naima

open XR Classical

noncomputable section

/-- `quad(f, a, b)[0]`; `none` is the upper limit `np.inf`. -/
abbrev Quad := (ℝ → XR) → ℝ → Option ℝ → XR

/-- `heaviside` (radiative.py:1539-1540) -/
def kHeaviside (x : ℝ) : ℝ := ((SignType.sign x : ℝ) + 1) / 2

/-- `_particle_distribution` at an energy in TeV, in 1/TeV (radiative.py:1591-1592); the unit is
checked in `spectrum`. -/
def kDist (pd : PDist) (E : ℝ) : XR :=
  pd.f (E * PhysUnit.TeV.scale) * fin (pd.unit.scale / perTeV.scale)

/-- `B` (radiative.py:1608) -/
def kB (L : ℝ) : ℝ := 1.30 + 0.14 * L + 0.011 * L ^ 2
/-- `1 / beta` (radiative.py:1609) -/
def kBetaInv (L : ℝ) : ℝ := 1.79 + 0.11 * L + 0.008 * L ^ 2
/-- `1 / k` (radiative.py:1610) -/
def kKInv (L : ℝ) : ℝ := 0.801 + 0.049 * L + 0.014 * L ^ 2

/-- `_Fgamma` for a fraction `x > 0` of a proton energy `Ep > 0` (radiative.py:1594-1620). -/
def kFgamma (x Ep : ℝ) : XR :=
  let L := Real.log Ep
  let beta := fin 1 / fin (kBetaInv L)
  let k := fin 1 / fin (kKInv L)
  let xb := pow (fin x) beta
  let d := fin 1 + k * xb * (fin 1 - xb)
  let F1 := fin (kB L) * (XR.log (fin x) / fin x) * pow ((fin 1 - xb) / d) (fin 4)
  let F2 := fin 1 / XR.log (fin x) - (fin 4 * beta * xb) / (fin 1 - xb) -
    (fin 4 * k * beta * xb * (fin 1 - fin 2 * xb)) / d
  F1 * F2

/-- `_sigma_inel` for `Ep > 0` (radiative.py:1622-1644). -/
def kSigma (Ep : ℝ) : ℝ :=
  let L := Real.log Ep
  let s := 34.3 + 1.88 * L + 0.25 * L ^ 2
  let s := if Ep ≤ 0.1 then s * ((1 - (1.22e-3 / Ep) ^ 4) ^ 2 * kHeaviside (Ep - 1.22e-3)) else s
  s * 1e-27

/-- `_photon_integrand` for `0 < x` (radiative.py:1646-1658). -/
def kPhoton (pd : PDist) (eg x : ℝ) : XR :=
  fin (kSigma (eg / x)) * kDist pd (eg / x) * kFgamma x (eg / x) / fin x

/-- `_calc_specpp_hiE` in 1/(s TeV), `eg` in TeV (radiative.py:1660-1686). -/
def kHi (Q : Quad) (pd : PDist) (eg : ℝ) : XR := fin cC * Q (kPhoton pd eg) 0 (some 1)

/-- `_mp` in TeV (radiative.py:1691) -/
def kMp : ℝ := cMp * cC ^ 2 / PhysUnit.TeV.scale
/-- `_m_pi` in TeV (radiative.py:1692) -/
def kMpi : ℝ := 1.349766e-4

/-- `_delta_integrand` with `self.nhat = nhat` (radiative.py:1694-1702). -/
def kDelta (pd : PDist) (nhat : XR) (epi : ℝ) : XR :=
  let Ep0 := kMp + epi / 0.17
  let qpi := fin cC * (nhat / fin 0.17) * fin (kSigma Ep0) * kDist pd Ep0
  qpi / XR.sqrt (fin (epi ^ 2 - kMpi ^ 2))

/-- `_calc_specpp_loE` in 1/(s TeV), `eg` in TeV (radiative.py:1704-1717). -/
def kLo (Q : Quad) (pd : PDist) (nhat : XR) (eg : ℝ) : XR :=
  fin 2 * Q (kDelta pd nhat) (eg + kMpi ^ 2 / (4 * eg)) none

/-- `Wp` in erg (radiative.py:1719-1730). -/
def kWp (Q : Quad) (pd : PDist) : XR :=
  Q (fun x => fin x * kDist pd x) 1.22e-3 none * fin PhysUnit.TeV.scale

/-- `PionDecayKelner06` (radiative.py:1580-1589); both attributes are validated on construction:
`Etrans` is a positive energy, `nh` a number density. -/
structure KelnerModel where
  nh : Qty ℝ
  Etrans : Qty ℝ

/-- `nhat` for a request (radiative.py:1749-1755); energies in erg. -/
def KelnerModel.nhat (m : KelnerModel) (Q : Quad) (pd : PDist) (es : List ℝ) : XR :=
  if (∃ e ∈ es, e < m.Etrans.phys) ∧ (∃ e ∈ es, m.Etrans.phys ≤ e) then
    let et := m.Etrans.phys / PhysUnit.TeV.scale
    fin 1 * (kHi Q pd et / kLo Q pd (fin 1) et)
  else fin 1

/-- The loop body (radiative.py:1760-1763), in 1/(s TeV). -/
def KelnerModel.at (m : KelnerModel) (Q : Quad) (pd : PDist) (nhat : XR) (e : ℝ) : XR :=
  if m.Etrans.phys ≤ e then kHi Q pd (e / PhysUnit.TeV.scale)
  else kLo Q pd nhat (e / PhysUnit.TeV.scale)

/-- `_spectrum` (radiative.py:1732-1767) in 1/(s eV), for a request in erg of either shape: `len` of a
scalar Quantity is a TypeError. -/
def KelnerModel.spectrum (m : KelnerModel) (Q : Quad) (pd : PDist) :
    EneReq → Except PyErr (List XR)
  | .scalar _ => .error .typeError
  | .array es =>
    if es ≠ [] ∧ pd.unit.dim ≠ Dim.diffEnergy then .error .unitConversionError
    else .ok (es.map (fun e => fin m.nh.phys * (m.at Q pd (m.nhat Q pd es) e * fin 1e-12)))

end

end Naima
