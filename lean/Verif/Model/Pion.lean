import Verif.Model.Electron
import Verif.Model.Synchrotron

/-!
# PionDecay cross sections and spectrum (src/naima/radiative.py:1099-1536)

Element-wise in the proton kinetic energy `Tp` and the photon energy `Eg`, in GeV.
-/

namespace Naima

open XR Classical

noncomputable section

/-- `_m_p` in GeV (radiative.py:1211) -/
def pM : ℝ := cMp * cC ^ 2 / PhysUnit.GeV.scale
/-- `_m_pi` in GeV (radiative.py:1212) -/
def pMpi : ℝ := 0.1349766
/-- `_Tth` in GeV (radiative.py:1213) -/
def pTth : ℝ := 0.27966184

/-- The four high-energy models (radiative.py:1145-1147). Simplification: other strings, which lead to a
KeyError, are not represented. -/
inductive HiE
  | geant4 | pythia8 | sibyll | qgsjet
  deriving DecidableEq

/-- `_a` (radiative.py:1179-1183) -/
def HiE.a : HiE → ℝ × ℝ × ℝ × ℝ × ℝ
  | .geant4 => (0.728, 0.596, 0.491, 0.2503, 0.117)
  | .pythia8 => (0.652, 0.0016, 0.488, 0.1928, 0.483)
  | .sibyll => (5.436, 0.254, 0.072, 0.075, 0.166)
  | .qgsjet => (0.908, 0.0009, 6.089, 0.176, 0.448)

/-- `_Etrans` (radiative.py:1209) -/
def HiE.etrans : HiE → ℝ
  | .geant4 => 100
  | .pythia8 => 50
  | .sibyll => 100
  | .qgsjet => 100

/-- `_b` for a model (radiative.py:1200-1205) -/
def HiE.b : HiE → ℝ × ℝ × ℝ
  | .geant4 => (9.13, 0.35, 9.7e-3)
  | .pythia8 => (9.06, 0.3795, 0.01105)
  | .sibyll => (10.77, 0.412, 0.01264)
  | .qgsjet => (13.16, 0.4419, 0.01439)

/-- `x ** 2` -/
def xsq (a : XR) : XR := pow a (fin 2)

/-- `_sigma_inel` (radiative.py:1215-1233) -/
def sigmaInel (Tp : ℝ) : XR :=
  let L := XR.log (fin Tp / fin pTth)
  (fin 30.7 - fin 0.96 * L + fin 0.18 * xsq L) *
    pow (fin 1 - pow (fin pTth / fin Tp) (fin 1.9)) (fin 3) * fin 1e-27

/-- `Mres` (radiative.py:1242) -/
def pMres : ℝ := 1.1883
/-- `Gres` (radiative.py:1243) -/
def pGres : ℝ := 0.2264
/-- squared centre of mass energy (radiative.py:1244, 1329) -/
def pS (Tp : ℝ) : ℝ := 2 * pM * (Tp + 2 * pM)
/-- `gamma` (radiative.py:1245) -/
def pGamma : ℝ := Real.sqrt (pMres ^ 2 * (pMres ^ 2 + pGres ^ 2))
/-- `K` (radiative.py:1246-1247) -/
def pK : ℝ := Real.sqrt 8 * pMres * pGres * pGamma / (Real.pi * Real.sqrt (pMres ^ 2 + pGamma))

/-- `fBW` (radiative.py:1249-1250) -/
def pFBW (Tp : ℝ) : XR :=
  fin (pM * pK) / (xsq (xsq (XR.sqrt (fin (pS Tp)) - fin pM) - fin (pMres ^ 2)) +
    fin (pMres ^ 2 * pGres ^ 2))

/-- `mu` of the one-pion cross section (radiative.py:1252-1253) -/
def pMu1 (Tp : ℝ) : XR :=
  XR.sqrt (fin ((pS Tp - pMpi ^ 2 - 4 * pM ^ 2) ^ 2 - 16 * pMpi ^ 2 * pM ^ 2)) /
    (fin (2 * pMpi) * XR.sqrt (fin (pS Tp)))

/-- `_sigma_pi_loE` (radiative.py:1235-1266) -/
def sigmaPiLo (Tp : ℝ) : XR :=
  let mu := pMu1 Tp
  let sigma1 := fin 7.66e-3 * pow mu (fin 1.95) * (fin 1 + mu + pow mu (fin 5)) *
    pow (pFBW Tp) (fin 1.86)
  let sigma2 := if Tp < 0.56 then fin 0 else fin 5.7 / (fin 1 + XR.exp (fin (-9.3 * (Tp - 1.4))))
  (sigma1 + sigma2) * fin 1e-27

/-- `_sigma_pi_midE` (radiative.py:1268-1275) -/
def sigmaPiMid (Tp : ℝ) : XR :=
  let q := (Tp - pTth) / pM
  sigmaInel Tp * fin (-6e-3 + 0.237 * q - 0.023 * q ^ 2)

/-- `_sigma_pi_hiE` (radiative.py:1277-1286) -/
def sigmaPiHi (Tp : ℝ) (a : ℝ × ℝ × ℝ × ℝ × ℝ) : XR :=
  let (a0, a1, a2, a3, a4) := a
  let x := fin ((Tp - 3) / pM)
  let m1 := fin a0 * pow x (fin a3) * (fin 1 + XR.exp (fin (-a1) * pow x (fin a4)))
  let m2 := fin 1 - XR.exp (fin (-a2) * pow x (fin 0.25))
  sigmaInel Tp * (m1 * m2)

/-- `_sigma_pi` (radiative.py:1288-1304) -/
def sigmaPi (h : HiE) (Tp : ℝ) : XR :=
  if Tp < 2 then sigmaPiLo Tp
  else if Tp < 5 then sigmaPiMid Tp
  else if Tp < h.etrans then sigmaPiHi Tp HiE.geant4.a
  else sigmaPiHi Tp h.a

/-- `_b_params` for `Tp ≥ 1` (radiative.py:1306-1323); later assignments override earlier ones. -/
def bParams (h : HiE) (Tp : ℝ) : ℝ × ℝ × ℝ :=
  if Tp ≥ h.etrans then h.b
  else if Tp ≥ 5 then HiE.geant4.b
  else (9.53, 0.52, 0.054)

/-- `_calc_EpimaxLAB` (radiative.py:1325-1336) -/
def epimaxLAB (Tp : ℝ) : XR :=
  let rs := XR.sqrt (fin (pS Tp))
  let EpiCM := fin (pS Tp - 4 * pM ^ 2 + pMpi ^ 2) / (fin 2 * rs)
  let PpiCM := XR.sqrt (xsq EpiCM - fin (pMpi ^ 2))
  let gCM := fin (Tp + 2 * pM) / rs
  let betaCM := XR.sqrt (fin 1 - pow gCM (fin (-2)))
  gCM * (EpiCM + PpiCM * betaCM)

/-- `_calc_Egmax` (radiative.py:1338-1345) -/
def egmaxX (Tp : ℝ) : XR :=
  let g := epimaxLAB Tp / fin pMpi
  let beta := XR.sqrt (fin 1 - pow g (fin (-2)))
  fin (pMpi / 2) * g * (fin 1 + beta)

/-- `_Amax` (radiative.py:1347-1367) -/
def aMax (h : HiE) (Tp : ℝ) : XR :=
  if Tp < 1 then fin 5.9 * sigmaPi h Tp / epimaxLAB Tp
  else
    let (b1, b2, b3) := bParams h Tp
    let th := fin (Tp / pM)
    fin b1 * pow th (fin (-b2)) * XR.exp (fin b3 * xsq (XR.log th)) * sigmaPi h Tp / fin pM

/-- `_F_func` (radiative.py:1369-1384) -/
def fFunc (Tp Eg : ℝ) (lam al be ga : XR) : XR :=
  let Egmax := egmaxX Tp
  let Yg := fin Eg + fin (pMpi ^ 2) / fin (4 * Eg)
  let Ygmax := Egmax + fin (pMpi ^ 2) / (fin 4 * Egmax)
  let X0 := (Yg - fin pMpi) / (Ygmax - fin pMpi)
  let Xg := if fin 1 < X0 then fin 1 else X0
  let C := lam * fin pMpi / Ygmax
  pow (fin 1 - pow Xg al) be / pow (fin 1 + Xg / C) ga

/-- `_kappa` (radiative.py:1386-1388) -/
def pKappa (Tp : ℝ) : XR := fin 3.29 - pow (fin (Tp / pM)) (fin (-1.5)) / fin 5

/-- `_mu` (radiative.py:1390-1393) -/
def pMu (Tp : ℝ) : XR :=
  let q := (Tp - 1) / pM
  fin 1.25 * pow (fin q) (fin 1.25) * XR.exp (fin (-1.25 * q))

/-- `_nuclear_factor` (radiative.py:1455-1482) -/
def nuclearFactor (Tp : ℝ) : XR :=
  if pTth < Tp ∧ Tp < 1 then fin 1.9141
  else if pTth < Tp then
    let f := sigmaInel Tp / sigmaInel 1e3
    let f2 := if fin 1 < f then f else fin 1
    let G := fin 1 + XR.log f2
    fin 1.37 + fin ((0.29 + 0.1) * (10 * Real.pi * 1e-27)) * G / sigmaInel Tp
  else fin 0

/-! ### The shape function with its class-level tables (radiative.py:1184-1198, 1395-1438) -/

/-- A model parameter: a number or an array over the selected protons. -/
inductive Param
  | scalar (x : XR)
  | vec (l : List XR)

/-- One entry of `_F_mp`: a list of lambda, alpha, beta, gamma. -/
structure FParams where
  lam : Param
  al : Param
  be : Param
  ga : Param

/-- Keys of `_F_mp`. -/
inductive FKey
  | expData | geant4_0 | geant4_1 | geant4_2 | model (h : HiE)
  deriving DecidableEq

/-- The class attribute `_F_mp`, shared by all instances. -/
def FTable := FKey → FParams

/-- `_F_mp` when the class is created (radiative.py:1189-1197). -/
def fmpInit : FTable
  | .expData => ⟨.scalar (fin 1), .scalar (fin 1), .scalar nan, .scalar (fin 0)⟩
  | .geant4_0 => ⟨.scalar (fin 3), .scalar (fin 1), .scalar nan, .scalar nan⟩
  | .geant4_1 => ⟨.scalar (fin 3), .scalar (fin 1), .scalar nan, .scalar nan⟩
  | .geant4_2 => ⟨.scalar (fin 3), .scalar (fin 0.5), .scalar (fin 4.2), .scalar (fin 1)⟩
  | .model .geant4 => ⟨.scalar (fin 3), .scalar (fin 0.5), .scalar (fin 4.9), .scalar (fin 1)⟩
  | .model .pythia8 => ⟨.scalar (fin 3.5), .scalar (fin 0.5), .scalar (fin 4), .scalar (fin 1)⟩
  | .model .sibyll => ⟨.scalar (fin 3.55), .scalar (fin 0.5), .scalar (fin 3.6), .scalar (fin 1)⟩
  | .model .qgsjet => ⟨.scalar (fin 3.55), .scalar (fin 0.5), .scalar (fin 4.5), .scalar (fin 1)⟩

/-- Value of a parameter for the `i`-th selected proton (broadcasting); `nan` stands for the shape
error numpy would raise if the array is too short. -/
def Param.at (i : ℕ) : Param → XR
  | .scalar x => x
  | .vec l => l.getD i nan

/-- `_F_func(Tp[idx], Egamma, mp)` on the selected protons. -/
def fFuncVec (sel : List ℝ) (Eg : ℝ) (mp : FParams) : List XR :=
  sel.mapIdx (fun i Tp => fFunc Tp Eg (mp.lam.at i) (mp.al.at i) (mp.be.at i) (mp.ga.at i))

/-- `F[idx] = vals` with `idx = np.where(mask)`. -/
def scatter (mask : ℝ → Bool) : List ℝ → List XR → List XR → List XR
  | t :: ts, f :: fs, vals =>
    if mask t then
      match vals with
      | v :: vs => v :: scatter mask ts fs vs
      | [] => f :: scatter mask ts fs []
    else f :: scatter mask ts fs vals
  | _, fs, _ => fs

/-- One block of `_F` (e.g. radiative.py:1400-1406): if any proton is selected, fetch the list of
parameters, overwrite entries of it in place, and assign the values. -/
def fBlock (Tps : List ℝ) (Eg : ℝ) (mask : ℝ → Bool) (key : FKey) (upd : List ℝ → FParams → FParams)
    (st : FTable × List XR) : FTable × List XR :=
  let sel := Tps.filter mask
  if sel = [] then st
  else
    let mp := upd sel (st.1 key)
    (fun k => if k = key then mp else st.1 k, scatter mask Tps st.2 (fFuncVec sel Eg mp))

/-- `PionDecay._F(Tp, Egamma)` (radiative.py:1395-1438): new class table and result. -/
def fEval (h : HiE) (tbl : FTable) (Tps : List ℝ) (Eg : ℝ) : FTable × List XR :=
  let st := (tbl, Tps.map (fun _ => fin 0))
  let st := fBlock Tps Eg (fun t => decide (pTth ≤ t ∧ t ≤ 1)) .expData
    (fun sel mp => { mp with be := .vec (sel.map pKappa) }) st
  let st := fBlock Tps Eg (fun t => decide (1 < t ∧ t ≤ 4)) .geant4_0
    (fun sel mp => { mp with be := .vec (sel.map (fun t => pMu t + fin 2.45)),
                             ga := .vec (sel.map (fun t => pMu t + fin 1.45)) }) st
  let st := fBlock Tps Eg (fun t => decide (4 < t ∧ t ≤ 20)) .geant4_1
    (fun sel mp => { mp with be := .vec (sel.map (fun t => fin 1.5 * pMu t + fin 4.95)),
                             ga := .vec (sel.map (fun t => pMu t + fin 1.50)) }) st
  let st := fBlock Tps Eg (fun t => decide (20 < t ∧ t ≤ 100)) .geant4_2 (fun _ mp => mp) st
  fBlock Tps Eg (fun t => decide (h.etrans < t)) (.model h) (fun _ mp => mp) st

/-- `_diffsigma` on an array of proton energies in GeV (radiative.py:1440-1453): new class table and
result. -/
def diffsigma (h : HiE) (nuc : Bool) (tbl : FTable) (Eps : List ℝ) (Eg : ℝ) : FTable × List XR :=
  let Tps := Eps.map (· - pM)
  let r := fEval h tbl Tps Eg
  let ds := List.zipWith (fun t f => aMax h t * f) Tps r.2
  (r.1, if nuc then List.zipWith (fun t d => d * nuclearFactor t) Tps ds else ds)

/-! ### Spectrum (radiative.py:1495-1536) -/

/-- `PionDecay` (radiative.py:1155-1173): proton attributes, target density, options. -/
structure PionModel extends PrModel where
  nh : Qty ℝ
  nuc : Bool
  hiE : HiE

/-- 1/cm³ -/
def perCm3 : PhysUnit := ⟨1, Dim.numDensity⟩

/-- The loop over photon energies in GeV (radiative.py:1527-1530), threading the class table. -/
def pionLoop (m : PionModel) (ep : List ℝ) (j : List XR) : FTable → List ℝ → FTable × List XR
  | tbl, [] => (tbl, [])
  | tbl, eg :: egs =>
    let d := diffsigma m.hiE m.nuc tbl ep eg
    let v := trapz (List.zipWith (· * ·) d.2 j) (ep.map fin)
    let r := pionLoop m ep j d.1 egs
    (r.1, v :: r.2)

/-- `_spectrum` with the full calculation (useLUT False) for photon energies in erg; result in
1/(s eV), and the class table afterwards. The GeV-based result is multiplied by `nh * c`. -/
def PionModel.spectrum (m : PionModel) (pd : PDist) (tbl : FTable) (es : List ℝ) :
    Except PyErr (FTable × List XR) := do
  let ep ← m.toPrModel.Ep
  let j ← m.toPrModel.J pd
  let r := pionLoop m ep j tbl (es.map (· / PhysUnit.GeV.scale))
  -- `u.Quantity([])` is dimensionless, so the conversion at the end raises
  if es = [] then throw .unitConversionError
  let nh ← m.nh.toReal perCm3
  return (r.1, r.2.map (fun v => v * fin (nh * cC) * fin 1e-9))

/-- `_spectrum` for a request of either shape: a scalar `Quantity` cannot be iterated over
(radiative.py:1528), a TypeError. -/
def PionModel.spectrumReq (m : PionModel) (pd : PDist) (tbl : FTable) :
    EneReq → Except PyErr (FTable × List XR)
  | .array es => m.spectrum pd tbl es
  | .scalar _ => do
    let _ ← m.toPrModel.Ep
    let _ ← m.toPrModel.J pd
    .error .typeError

/-- The same with a tabulated cross section `lut Ep Eg` (radiative.py:1509-1519, 1786-1797). -/
def PionModel.spectrumLUT (m : PionModel) (pd : PDist) (lut : ℝ → ℝ → XR) (es : List ℝ) :
    Except PyErr (List XR) := do
  let ep ← m.toPrModel.Ep
  let j ← m.toPrModel.J pd
  let r := (es.map (· / PhysUnit.GeV.scale)).map (fun eg =>
    trapz (List.zipWith (· * ·) (ep.map (fun e => lut e eg)) j) (ep.map fin))
  if es = [] then throw .unitConversionError
  let nh ← m.nh.toReal perCm3
  return r.map (fun v => v * fin (nh * cC) * fin 1e-9)

end

end Naima
