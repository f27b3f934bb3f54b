import Verif.Model.Pion

/-!
# What the pion-decay shape function should be, proton by proton

Table V of Kafexhiu et al. 2014: the parameters (lambda, alpha, beta, gamma) at each proton energy, with no
state.
-/

namespace Naima.Spec

open Naima XR Classical

noncomputable section

/-- Parameters of the high-energy models. -/
def hiParams : HiE → XR × XR × XR × XR
  | .geant4 => (fin 3, fin 0.5, fin 4.9, fin 1)
  | .pythia8 => (fin 3.5, fin 0.5, fin 4, fin 1)
  | .sibyll => (fin 3.55, fin 0.5, fin 3.6, fin 1)
  | .qgsjet => (fin 3.55, fin 0.5, fin 4.5, fin 1)

/-- Parameters at kinetic energy `Tp` (above threshold). -/
def shapeParams (h : HiE) (Tp : ℝ) : XR × XR × XR × XR :=
  if h.etrans < Tp then hiParams h
  else if 20 < Tp then (fin 3, fin 0.5, fin 4.2, fin 1)
  else if 4 < Tp then (fin 3, fin 1, fin 1.5 * pMu Tp + fin 4.95, pMu Tp + fin 1.50)
  else if 1 < Tp then (fin 3, fin 1, pMu Tp + fin 2.45, pMu Tp + fin 1.45)
  else (fin 1, fin 1, pKappa Tp, fin 0)

/-- The shape function at one proton energy. -/
def shape (h : HiE) (Eg Tp : ℝ) : XR :=
  if Tp < pTth then fin 0
  else
    let p := shapeParams h Tp
    fFunc Tp Eg p.1 p.2.1 p.2.2.1 p.2.2.2

/-- The differential cross section at one proton energy (kinetic energy `Tp`). -/
def dsigma (h : HiE) (nuc : Bool) (Eg Tp : ℝ) : XR :=
  let d := aMax h Tp * shape h Eg Tp
  if nuc then d * nuclearFactor Tp else d

/-! ### Kinematics of `p p → p p π⁰`, `π⁰ → γγ` -/

/-- Maximum pion energy in the laboratory (eq. 10). -/
def epiMax (Tp : ℝ) : ℝ :=
  let g := (Tp + 2 * pM) / Real.sqrt (pS Tp)
  let E := (pS Tp - 4 * pM ^ 2 + pMpi ^ 2) / (2 * Real.sqrt (pS Tp))
  g * (E + Real.sqrt (E ^ 2 - pMpi ^ 2) * Real.sqrt (1 - 1 / g ^ 2))

/-- Maximum photon energy: the forward photon of the most energetic pion, `(E + p)/2`. -/
def egMax (Tp : ℝ) : ℝ := (epiMax Tp + Real.sqrt (epiMax Tp ^ 2 - pMpi ^ 2)) / 2

/-- Minimum photon energy: the backward photon; the product of the two is `(m_π/2)²`. -/
def egMin (Tp : ℝ) : ℝ := pMpi ^ 2 / (4 * egMax Tp)

end

end Naima.Spec
