import Mathlib.Analysis.SpecialFunctions.Pow.Real
import Mathlib.Analysis.SpecialFunctions.Trigonometric.Basic

/-!
# Gamma rays from p-p collisions: Kafexhiu, Aharonian, Taylor & Vila 2014 (PRD 90, 123014)

Over the real numbers, taking nothing from the model of the code. Energies in GeV, cross sections in cm²;
`m` is the proton mass.
-/

namespace Naima.Kafexhiu

noncomputable section

/-- mass of the neutral pion -/
def mπ : ℝ := 0.1349766
/-- threshold for production of one pion -/
def Tth : ℝ := 0.27966184
/-- millibarn in cm² -/
def mb : ℝ := 1e-27

/-- eq. 1: inelastic cross section -/
def σinel (T : ℝ) : ℝ :=
  (30.7 - 0.96 * Real.log (T / Tth) + 0.18 * Real.log (T / Tth) ^ 2) * (1 - (Tth / T) ^ (1.9 : ℝ)) ^ 3 * mb

/-- squared centre of mass energy -/
def s (m T : ℝ) : ℝ := 2 * m * (T + 2 * m)

/-- eq. 3 -/
def η (m T : ℝ) : ℝ :=
  Real.sqrt ((s m T - mπ ^ 2 - 4 * m ^ 2) ^ 2 - 16 * mπ ^ 2 * m ^ 2) / (2 * mπ * Real.sqrt (s m T))

/-- resonance mass and width -/
def Mres : ℝ := 1.1883
/-- width of the resonance -/
def Γres : ℝ := 0.2264

/-- eq. 4: the relativistic Breit-Wigner distribution -/
def fBW (m T : ℝ) : ℝ :=
  let γ := Real.sqrt (Mres ^ 2 * (Mres ^ 2 + Γres ^ 2))
  let K := Real.sqrt 8 * Mres * Γres * γ / (Real.pi * Real.sqrt (Mres ^ 2 + γ))
  m * K / (((Real.sqrt (s m T) - m) ^ 2 - Mres ^ 2) ^ 2 + Mres ^ 2 * Γres ^ 2)

/-- eq. 2: one pion -/
def σ1π (m T : ℝ) : ℝ :=
  7.66e-3 * mb * η m T ^ (1.95 : ℝ) * (1 + η m T + η m T ^ 5) * fBW m T ^ (1.86 : ℝ)

/-- eq. 5: two pions -/
def σ2π (T : ℝ) : ℝ := if T < 0.56 then 0 else 5.7 * mb / (1 + Real.exp (-9.3 * (T - 1.4)))

/-- eq. 6: pion multiplicity, 2-5 GeV -/
def nMid (m T : ℝ) : ℝ :=
  let Q := (T - Tth) / m;
  -6e-3 + 0.237 * Q - 0.023 * Q ^ 2

/-- The high-energy models. -/
inductive Model
  | geant4 | pythia8 | sibyll | qgsjet

/-- Table IV -/
def Model.a : Model → ℝ × ℝ × ℝ × ℝ × ℝ
  | .geant4 => (0.728, 0.596, 0.491, 0.2503, 0.117)
  | .pythia8 => (0.652, 0.0016, 0.488, 0.1928, 0.483)
  | .sibyll => (5.436, 0.254, 0.072, 0.075, 0.166)
  | .qgsjet => (0.908, 0.0009, 6.089, 0.176, 0.448)

/-- eq. 7: pion multiplicity above 5 GeV -/
def nHigh (m T : ℝ) : ℝ × ℝ × ℝ × ℝ × ℝ → ℝ
  | (a1, a2, a3, a4, a5) =>
    let ξ := (T - 3) / m
    a1 * ξ ^ a4 * (1 + Real.exp (-a2 * ξ ^ a5)) * (1 - Real.exp (-a3 * ξ ^ (1 / 4 : ℝ)))

/-- kinetic energy above which a model replaces Geant4 -/
def Model.T0 : Model → ℝ
  | .pythia8 => 50
  | _ => 100

/-- neutral pion production cross section -/
def σπ (M : Model) (m T : ℝ) : ℝ :=
  if T < 2 then σ1π m T + σ2π T
  else if T < 5 then σinel T * nMid m T
  else if T < M.T0 then σinel T * nHigh m T Model.geant4.a
  else σinel T * nHigh m T M.a

/-- eq. 10: maximum pion energy in the laboratory -/
def Eπmax (m T : ℝ) : ℝ :=
  let γ := (T + 2 * m) / Real.sqrt (s m T)
  let E := (s m T - 4 * m ^ 2 + mπ ^ 2) / (2 * Real.sqrt (s m T))
  γ * (E + Real.sqrt (E ^ 2 - mπ ^ 2) * Real.sqrt (1 - 1 / γ ^ 2))

/-- Table VII -/
def Model.b : Model → ℝ × ℝ × ℝ
  | .geant4 => (9.13, 0.35, 9.7e-3)
  | .pythia8 => (9.06, 0.3795, 0.01105)
  | .sibyll => (10.77, 0.412, 0.01264)
  | .qgsjet => (13.16, 0.4419, 0.01439)

/-- eq. 12: peak of the differential cross section -/
def Amax (M : Model) (m T : ℝ) : ℝ :=
  if T < 1 then 5.9 * σπ M m T / Eπmax m T
  else
    let b := if T < 5 then (9.53, 0.52, 0.054) else if T < M.T0 then Model.geant4.b else M.b
    b.1 * (T / m) ^ (-b.2.1) * Real.exp (b.2.2 * Real.log (T / m) ^ 2) * (σπ M m T / m)

/-- eqs. 14, 15 -/
def κ (m T : ℝ) : ℝ := 3.29 - (T / m) ^ (-3 / 2 : ℝ) / 5
/-- eq. 15 -/
def μ (m T : ℝ) : ℝ :=
  let q := (T - 1) / m
  5 / 4 * q ^ (5 / 4 : ℝ) * Real.exp (-(5 / 4) * q)

/-- Table V: λ, α, β, γ -/
def params (M : Model) (m T : ℝ) : ℝ × ℝ × ℝ × ℝ :=
  if M.T0 < T then
    match M with
    | .geant4 => (3, 1 / 2, 4.9, 1)
    | .pythia8 => (3.5, 1 / 2, 4, 1)
    | .sibyll => (3.55, 1 / 2, 3.6, 1)
    | .qgsjet => (3.55, 1 / 2, 4.5, 1)
  else if 20 < T then (3, 1 / 2, 4.2, 1)
  else if 4 < T then (3, 1, 3 / 2 * μ m T + 4.95, μ m T + 1.5)
  else if 1 < T then (3, 1, μ m T + 2.45, μ m T + 1.45)
  else (1, 1, κ m T, 0)

/-- eqs. 9, 11: shape of the photon spectrum, zero above the kinematic limit `X = 1` -/
def F (M : Model) (m T E : ℝ) : ℝ :=
  let (lam, α, β, γ) := params M m T
  let X := (E + mπ ^ 2 / (4 * E) - mπ) / (Eπmax m T - mπ)
  let C := lam * mπ / Eπmax m T
  if X < 1 then (1 - X ^ α) ^ β / (1 + X / C) ^ γ else 0

/-- eqs. 20-24: enhancement by nuclei -/
def nuclear (T : ℝ) : ℝ :=
  if T < 1 then 1.9141
  else 1.37 + 0.39 * (10 * Real.pi * mb) * (1 + Real.log (max 1 (σinel T / σinel 1000))) / σinel T

/-- the differential cross section, with or without nuclei -/
def dσ (M : Model) (nuclei : Bool) (m T E : ℝ) : ℝ :=
  Amax M m T * F M m T E * (if nuclei then nuclear T else 1)

end

end Naima.Kafexhiu
