import Verif.Model.Interactive
import Verif.Model.LnProb
import Verif.Model.Blob

/-!
# What `InteractiveModelFitter` shows (src/naima/model_fitter.py:13-20, 57-178, 235-268)

Modelled: the curve (numbers handed to matplotlib) and the displayed log-likelihood, before rounding to
one decimal.  The parameters, sliders and flags are those of `Model/Interactive`.
-/

namespace Naima

open XR Classical

noncomputable section

/-- What the model function is called with: the dict `{"energy": energy, "flux": flux}` of
model_fitter.py:122 (energies in erg, unit of the fluxes; simplification: not the flux values), or the
validated table. -/
inductive FitterInput
  | dict (energies : List ℝ) (fluxU : PhysUnit)
  | table (d : VTable)

/-- The arguments of the constructor that matter here: validated data, `e_range` (two positive numbers and
their unit), `e_npoints`, `sed`. -/
structure FitterArgs where
  data : Option VTable
  eRange : Option (ℝ × ℝ × PhysUnit)
  npts : ℕ
  sed : Bool

/-- `energy`, in erg (model_fitter.py:88-106, 117-120); TypeError if `e_range` is not an energy. -/
def FitterArgs.energies (a : FitterArgs) : Except PyErr (List ℝ) :=
  match a.eRange with
  | some (lo, hi, u) =>
    if u.dim ≠ Dim.energy then .error .typeError
    else .ok ((logspace (Real.logb 10 lo) (Real.logb 10 hi) a.npts).map (· * u.scale))
  | none =>
    match a.data with
    | some d => .ok (d.rows.map (·.energy))
    | none => .ok ((logspace (-4) 2 a.npts).map (· * PhysUnit.TeV.scale))

/-- `e_unit` (model_fitter.py:103, 106, 115). -/
def FitterArgs.eUnit (a : FitterArgs) : PhysUnit :=
  match a.data, a.eRange with
  | some d, _ => d.energyU
  | none, some (_, _, u) => u
  | none, none => PhysUnit.TeV

/-- The unit of the fluxes sent to the model (model_fitter.py:109-112, 117-120). -/
def FitterArgs.fluxUnit (a : FitterArgs) : PhysUnit :=
  match a.data, a.eRange with
  | some d, none => d.fluxU
  | _, _ => if a.sed then ergPerSCm2 else perSTeVCm2

/-- `_process_model` (model_fitter.py:13-20); what has no unit raises AttributeError later.
Simplification: iterables are tuples or lists. -/
def processModel {β : Type} : ModelOut β → Except PyErr Spectrum
  | .array s => .ok s
  | .iterable [] => .error .indexError
  | .iterable (.spec s :: _) => .ok s
  | .iterable (_ :: _) => .error .attributeError

variable {β : Type}

/-- `_process_model(self.modelfn(pars, input))` -/
def callModel (modelfn : List ℝ → FitterInput → Except PyErr (ModelOut β)) (pars : List ℝ)
    (i : FitterInput) : Except PyErr Spectrum := (modelfn pars i).bind processModel

/-- The ordinates `(model * self.sedf).to(self.f_unit)` (model_fitter.py:172, 244), as numbers in
`f_unit`. -/
def fitterCurve (conv : PhysUnit × SedFactor) (es : List ℝ) (m : Spectrum) : Except PyErr (List XR) :=
  if m.vals.length ≠ es.length then .error .valueError
  else if m.unit.dim.mul conv.2.dim ≠ conv.1.dim then .error .unitConversionError
  else .ok (List.zipWith (fun v e => v * fin (conv.2.phys e) * fin (1 / conv.1.scale)) m.vals es)

/-- The log-likelihood of model_fitter.py:126-147, 245-255: the model already computed if its energies are
those of the data, otherwise evaluated again for the table. -/
def fitterLnL (modelfn : List ℝ → FitterInput → Except PyErr (ModelOut β)) (pars : List ℝ) (es : List ℝ)
    (m : Spectrum) (d : VTable) : Except PyErr XR :=
  if es = d.rows.map (·.energy) then lnprobmodel m d
  else (callModel modelfn pars (.table d)).bind (fun m' => lnprobmodel m' d)

/-- The window: parameters and sliders, the line, and the text. -/
structure FitterWindow where
  core : Fitter
  es : List ℝ
  conv : PhysUnit × SedFactor
  xs : List ℝ
  ys : List XR
  lnL : Option XR

/-- `__init__` (model_fitter.py:57-178). -/
def openFitter (modelfn : List ℝ → FitterInput → Except PyErr (ModelOut β)) (a : FitterArgs)
    (labels : List Label) (p0 : List ℝ) (auto : Bool) : Except PyErr FitterWindow := do
  let es ← a.energies
  let m ← callModel modelfn p0 (.dict es a.fluxUnit)
  let l ← match a.data with
    | none => Except.ok none
    | some d => (fitterLnL modelfn p0 es m d).map some
  let conv ← sedConversion m.unit a.sed
  let ys ← fitterCurve conv es m
  return { core := fitterInit labels p0 auto, es := es, conv := conv,
           xs := es.map (· / a.eUnit.scale), ys := ys, lnL := l }

/-- The drawing part of `update` (model_fitter.py:243-256): the new line and text, and whether it raised;
what was done before an exception stays. -/
def FitterWindow.draw (modelfn : List ℝ → FitterInput → Except PyErr (ModelOut β)) (a : FitterArgs)
    (w : FitterWindow) (pars : List ℝ) : FitterWindow × Bool :=
  match callModel modelfn pars (.dict w.es a.fluxUnit) with
  | .error _ => (w, true)
  | .ok m =>
    match fitterCurve w.conv w.es m with
    | .error _ => (w, true)
    | .ok ys =>
      match a.data with
      | none => ({ w with ys := ys }, false)
      | some d =>
        match fitterLnL modelfn pars w.es m d with
        | .error _ => ({ w with ys := ys }, true)
        | .ok l => ({ w with ys := ys, lnL := some l }, false)

/-- One event.  The parameters, sliders and flags follow `fitterStep`; the line and the text are redrawn
by `update`, which a slider calls if automatic updating is on and a fit if it converged.  Without data there is no
fit button (model_fitter.py:219-222). -/
def FitterWindow.step (modelfn : List ℝ → FitterInput → Except PyErr (ModelOut β)) (a : FitterArgs)
    (fit : List ℝ → Except PyErr (List ℝ × Bool)) (w : FitterWindow) (ev : FitterEvent) : FitterWindow :=
  let core := fitterStep fit (fun p => (w.draw modelfn a p).2) w.core ev
  match ev with
  | .move _ _ => if w.core.auto then { (w.draw modelfn a core.pars).1 with core := core } else { w with core := core }
  | .toggle => { w with core := core }
  | .update => { (w.draw modelfn a core.pars).1 with core := core }
  | .fit =>
    match a.data with
    | none => w
    | some _ =>
      match fit w.core.sliders with
      | .ok (_, true) => { (w.draw modelfn a core.pars).1 with core := core }
      | _ => { w with core := core }

/-- A history of events. -/
def FitterWindow.run (modelfn : List ℝ → FitterInput → Except PyErr (ModelOut β)) (a : FitterArgs)
    (fit : List ℝ → Except PyErr (List ℝ × Bool)) (w : FitterWindow) (evs : List FitterEvent) : FitterWindow :=
  evs.foldl (FitterWindow.step modelfn a fit) w

end

end Naima
