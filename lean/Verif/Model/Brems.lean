import Verif.Model.Synchrotron
import Verif.Model.ICKernel

/-!
# Bremsstrahlung (src/naima/radiative.py:794-989)

Cross sections element-wise in the electron Lorentz factor `g` and the photon energy `eps` in mec2; the
numbers are cm²/mec2.
-/

namespace Naima

open XR Classical

noncomputable section

/-- `_sigma_1` (radiative.py:838-849). -/
def bremsSigma1 (g eps : ℝ) : XR :=
  let s1 := fin (4 * cR0 ^ 2 * cAlpha) / fin eps
  let s2 := fin 1 + (fin (1 / 3) - fin eps / fin g) * (fin 1 - fin eps / fin g)
  let s3 := if g < eps then fin 0 else XR.log (fin (2 * g * (g - eps)) / fin eps) - fin (1 / 2)
  s1 * s2 * s3

/-- `s1` of `_sigma_2` (radiative.py:860-864), photon energies up to 1/2. -/
def bremsSigma2lo (g eps : ℝ) : XR :=
  let s11 := fin (16 * (1 - eps + eps ^ 2)) * XR.log (fin g / fin eps)
  let s12 := fin (-1) / fin (eps ^ 2) + fin 3 / fin eps - fin 4 - fin (4 * eps) - fin (8 * eps ^ 2)
  let s13 := fin (-2 * (1 - 2 * eps)) * XR.log (fin (1 - 2 * eps))
  let s14 := fin 1 / fin (4 * eps ^ 3) - fin 1 / fin (2 * eps ^ 2) + fin 3 / fin eps - fin 2 +
    fin (4 * eps)
  s11 + s12 + s13 * s14

/-- `s2` of `_sigma_2` (radiative.py:866-869), photon energies above 1/2. -/
def bremsSigma2hi (g eps : ℝ) : XR :=
  let s22 := (fin 4 - fin 1 / fin eps + fin 1 / fin (4 * eps ^ 2)) * XR.log (fin (2 * g))
  let s23 := fin (-2) + fin 2 / fin eps - fin 5 / fin (8 * eps ^ 2)
  fin 2 / fin eps * (s22 + s23)

/-- `_sigma_2` (radiative.py:851-871). -/
def bremsSigma2 (g eps : ℝ) : XR :=
  fin (cR0 ^ 2 * cAlpha) / fin (3 * eps) *
    (if eps ≤ 0.5 then bremsSigma2lo g eps else bremsSigma2hi g eps) * heaviside (fin (g - eps))

/-- `_sigma_ee_rel` (radiative.py:873-880). -/
def bremsRel (g eps : ℝ) : XR :=
  let A := fin 1 - fin (8 / 3) * pow (fin (g - 1)) (fin 0.2) / fin (g + 1) *
    pow (fin eps / fin g) (fin (1 / 3))
  (bremsSigma1 g eps + bremsSigma2 g eps) * A

/-- `_F` (radiative.py:882-896). -/
def bremsF (x : XR) (g : ℝ) : XR :=
  let beta := XR.sqrt (fin 1 - pow (fin g) (fin (-2)))
  let B := fin (1 + 0.5 * (g ^ 2 - 1))
  let C := fin 10 * x * fin g * beta * (fin 2 + fin g * beta) / (fin 1 + x * x * fin (g ^ 2 - 1))
  let F1 := (fin 17 - fin 3 * (x * x) / ((fin 2 - x) * (fin 2 - x)) - C) * XR.sqrt (fin 1 - x)
  let F2 := fin 12 * (fin 2 - x) - fin 7 * (x * x) / (fin 2 - x) -
    fin 3 * (x * x * x * x) / ((fin 2 - x) * (fin 2 - x) * (fin 2 - x))
  let F3 := XR.log ((fin 1 + XR.sqrt (fin 1 - x)) / XR.sqrt x)
  B * F1 + F2 * F3

/-- `_sigma_ee_nonrel` (radiative.py:898-908). -/
def bremsNonrel (g eps : ℝ) : XR :=
  if eps ≥ 0.25 * (g ^ 2 - 1) ∨ g < 1 then fin 0
  else fin (4 * cR0 ^ 2 * cAlpha) / fin (15 * eps) * bremsF (fin (4 * eps) / fin (g ^ 2 - 1)) g

/-- `gam_trans`: 2 MeV in mec2 (radiative.py:914). -/
def gamTrans : ℝ := 2e-3 * PhysUnit.GeV.scale / cMec2

/-- `_sigma_ee` (radiative.py:910-928), before its conversion of units. -/
def bremsEe (g eps : ℝ) : XR := if g ≤ gamTrans then bremsNonrel g eps else bremsRel g eps

/-- `_sigma_ep` (radiative.py:930-938). -/
def bremsEp (g eps : ℝ) : XR := bremsSigma1 g eps

/-- The integral of `_emiss_ee`, `_emiss_ep` (radiative.py:947-953, 963-970): matrix
`vstack(nelec) * sigma` integrated along axis 0, times c; cm³/(s erg). -/
def bremsEmiss (sigma : ℝ → ℝ → XR) (gam : List ℝ) (nelec : List XR) (es : List ℝ) : List XR :=
  let rows := (gam.zip nelec).map (fun p => (fin p.1,
    es.map (fun e => p.2 * (sigma p.1 (e / cMec2) * fin (1 / cMec2)))))
  (trapzAxis0 es.length rows).map (fun s => fin cC * s)

/-- `Bremsstrahlung` (radiative.py:821-836). -/
structure BremsModel extends ElModel where
  n0 : Qty ℝ
  wee : ℝ
  wep : ℝ

/-- The unit of an emissivity, cm³/(s erg). -/
def uEmiss : PhysUnit := ⟨1, Dim.numDensity.inv.mul Dim.diffPower⟩

/-- `_emiss_ee` / `_emiss_ep` for energies in erg (radiative.py:940-971): with weight 0 the result is
`np.zeros_like(Eph)`, which for a Quantity has the unit of the photon energy. -/
def BremsModel.emiss (m : BremsModel) (pd : PDist) (w : ℝ) (sigma : ℝ → ℝ → XR) (es : List ℝ) :
    Except PyErr (Qty (List XR)) :=
  if w = 0 then .ok ⟨es.map (fun _ => fin 0), PhysUnit.erg⟩
  else do
    let gam ← m.toElModel.gam
    let nelec ← m.toElModel.nelec pd
    return ⟨bremsEmiss sigma gam nelec es, uEmiss⟩

/-- The sum of two quantities: the second is converted to the unit of the first. -/
def addQ (a b : Qty (List XR)) : Except PyErr (Qty (List XR)) :=
  if a.unit.dim = b.unit.dim then
    .ok ⟨List.zipWith (fun x y => x + y * fin (b.unit.scale / a.unit.scale)) a.value b.value, a.unit⟩
  else .error .unitConversionError

/-- `Bremsstrahlung._spectrum` (radiative.py:973-989) for energies in erg. -/
def BremsModel.spectrumQ (m : BremsModel) (pd : PDist) (es : List ℝ) : Except PyErr (Qty (List XR)) := do
  let ee ← m.emiss pd m.wee bremsEe es
  let ep ← m.emiss pd m.wep bremsEp es
  let tot ← addQ ⟨ee.value.map (fun x => fin m.wee * x), ee.unit⟩
    ⟨ep.value.map (fun x => fin m.wep * x), ep.unit⟩
  return ⟨tot.value.map (fun x => fin m.n0.value * x), m.n0.unit.mul tot.unit⟩

/-- The same converted to 1/(s eV), as `flux` does (radiative.py:102-111). -/
def BremsModel.spectrum (m : BremsModel) (pd : PDist) (es : List ℝ) : Except PyErr (List XR) := do
  let q ← m.spectrumQ pd es
  let q ← q.toArr uLum
  return q.value

end

end Naima
