import Verif.Model.Models
import Verif.Model.LnProb

/-!
# The documented functional fits (examples/model_examples.py:87-146)

Fits of a function of the photon energy, in the unit of the data, instead of a radiative model.
-/

namespace Naima

open XR

noncomputable section

/-- The numbers a functional model gives at the energies of the table, times the unit of the data: `ECPL(data)`, `LP(data)`
(model_examples.py:104, 129; `_validate_ene` takes the column "energy"). Spectra of `lnprob` carry their values in cgs. -/
def functionalSpectrum (call : Qty XR → Except PyErr XR) (data : VTable) : Except PyErr (ModelOut Unit) := do
  let v ← data.rows.mapM (fun r => call ⟨fin r.energy, PhysUnit.erg⟩)
  return .array ⟨v.map (fun x => x * fin data.fluxU.scale), data.fluxU⟩

/-- `ECPL(pars, data)` (model_examples.py:97-104). -/
def functionalECPL (pars : List ℝ) (data : VTable) : Except PyErr (ModelOut Unit) :=
  match pars with
  | A :: alpha :: p2 :: _ =>
    functionalSpectrum (ECPL.call ⟨fin A, ⟨fin 1, PhysUnit.TeV⟩, fin alpha, ⟨fin (10 ^ p2), PhysUnit.TeV⟩, fin 1⟩) data
  | _ => .error .indexError

/-- `LP(pars, data)` (model_examples.py:122-129). -/
def functionalLP (pars : List ℝ) (data : VTable) : Except PyErr (ModelOut Unit) :=
  match pars with
  | A :: alpha :: beta :: _ =>
    functionalSpectrum (LogParabola.call ⟨fin A, ⟨fin 1, PhysUnit.TeV⟩, fin alpha, fin beta⟩) data
  | _ => .error .indexError

/-- `ECPL_lnprior`, `LP_lnprior` (model_examples.py:107-111, 132-136; the same code). -/
def functionalPrior (pars : List ℝ) : Except PyErr XR :=
  match pars with
  | A :: alpha :: _ => .ok (uniformPrior (fin A) (fin 0) pinf + uniformPrior (fin alpha) (fin (-1)) (fin 5))
  | _ => .error .indexError

/-- What the sampler sees (core.py:97-121) with `model=ECPL, prior=ECPL_lnprior`. -/
def ecplLnprob (pars : List ℝ) (data : VTable) : Except PyErr (XR × List (Blob Unit)) :=
  lnprob pars data functionalECPL (some functionalPrior)

/-- What the sampler sees (core.py:97-121) with `model=LP, prior=LP_lnprior`. -/
def lpLnprob (pars : List ℝ) (data : VTable) : Except PyErr (XR × List (Blob Unit)) :=
  lnprob pars data functionalLP (some functionalPrior)

end

end Naima
