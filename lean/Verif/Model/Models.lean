import Verif.Base.Units

/-!
# `naima.models` analytic functions (src/naima/models.py:40-437)

`eval` functions are modelled on ideal IEEE numbers, element by element (numpy broadcasting); the
unit of the result is the unit of the amplitude, so `amplitude` is the bare value.  Memoisation of
`_calc` is off by default (models.py:76) and modelled in `Model/Memo`.
-/

namespace Naima

open XR Classical

noncomputable section

/-- `_validate_ene` (models.py:33-46) for a Quantity followed by `e.to("eV").value`
(e.g. models.py:97-99): not an energy → TypeError; otherwise the value in eV. -/
def validateEneEV (e : Qty XR) : Except PyErr XR :=
  if e.unit.dim = Dim.energy then e.toValue PhysUnit.eV else .error .typeError

/-- `PowerLaw.eval` (models.py:87-92). -/
def plEval (e amplitude e0 alpha : XR) : XR := amplitude * pow (e / e0) (-alpha)

/-- `ExponentialCutoffPowerLaw.eval` (models.py:156-161). -/
def ecplEval (e amplitude e0 alpha ecut beta : XR) : XR :=
  amplitude * pow (e / e0) (-alpha) * XR.exp (-(pow (e / ecut) beta))

/-- `BrokenPowerLaw.eval` (models.py:233-238). -/
def bplEval (e amplitude e0 ebreak alpha1 alpha2 : XR) : XR :=
  let K := if e < ebreak then fin 1 else pow (ebreak / e0) (alpha2 - alpha1)
  let alpha := if e < ebreak then alpha1 else alpha2
  amplitude * K * pow (e / e0) (-alpha)

/-- `ExponentialCutoffBrokenPowerLaw.eval` (models.py:329-335). -/
def ecbplEval (e amplitude e0 ebreak alpha1 alpha2 ecut beta : XR) : XR :=
  let K := if e < ebreak then fin 1 else pow (ebreak / e0) (alpha2 - alpha1)
  let alpha := if e < ebreak then alpha1 else alpha2
  let ee2 := e / ecut
  amplitude * K * pow (e / e0) (-alpha) * XR.exp (-(pow ee2 beta))

/-- `LogParabola.eval` (models.py:401-407). -/
def lpEval (e amplitude e0 alpha beta : XR) : XR :=
  let ee := e / e0
  let eeponent := -alpha - beta * log ee
  amplitude * pow ee eeponent

/-- `PowerLaw` instance (models.py:80-85); the constructor's checks are in `Model/Validator`. -/
structure PowerLaw where
  amplitude : XR
  e_0 : Qty XR
  alpha : XR

/-- `PowerLaw.__call__` and `_calc` (models.py:94-106). -/
def PowerLaw.call (m : PowerLaw) (e : Qty XR) : Except PyErr XR := do
  let ev ← validateEneEV e
  let e0 ← m.e_0.toValue PhysUnit.eV
  return plEval ev m.amplitude e0 m.alpha

/-- `ExponentialCutoffPowerLaw` instance (models.py:145-154). -/
structure ECPL where
  amplitude : XR
  e_0 : Qty XR
  alpha : XR
  e_cutoff : Qty XR
  beta : XR := fin 1

/-- `ExponentialCutoffPowerLaw.__call__` (models.py:163-177). -/
def ECPL.call (m : ECPL) (e : Qty XR) : Except PyErr XR := do
  let ev ← validateEneEV e
  let e0 ← m.e_0.toValue PhysUnit.eV
  let ec ← m.e_cutoff.toValue PhysUnit.eV
  return ecplEval ev m.amplitude e0 m.alpha ec m.beta

/-- `BrokenPowerLaw` instance (models.py:222-232). -/
structure BPL where
  amplitude : XR
  e_0 : Qty XR
  e_break : Qty XR
  alpha_1 : XR
  alpha_2 : XR

/-- `BrokenPowerLaw.__call__` (models.py:240-254). -/
def BPL.call (m : BPL) (e : Qty XR) : Except PyErr XR := do
  let ev ← validateEneEV e
  let e0 ← m.e_0.toValue PhysUnit.eV
  let eb ← m.e_break.toValue PhysUnit.eV
  return bplEval ev m.amplitude e0 eb m.alpha_1 m.alpha_2

/-- `ExponentialCutoffBrokenPowerLaw` instance (models.py:314-328). -/
structure ECBPL where
  amplitude : XR
  e_0 : Qty XR
  e_break : Qty XR
  alpha_1 : XR
  alpha_2 : XR
  e_cutoff : Qty XR
  beta : XR := fin 1

/-- `ExponentialCutoffBrokenPowerLaw.__call__` (models.py:337-354). -/
def ECBPL.call (m : ECBPL) (e : Qty XR) : Except PyErr XR := do
  let ev ← validateEneEV e
  let e0 ← m.e_0.toValue PhysUnit.eV
  let eb ← m.e_break.toValue PhysUnit.eV
  let ec ← m.e_cutoff.toValue PhysUnit.eV
  return ecbplEval ev m.amplitude e0 eb m.alpha_1 m.alpha_2 ec m.beta

/-- `LogParabola` instance (models.py:393-399). -/
structure LogParabola where
  amplitude : XR
  e_0 : Qty XR
  alpha : XR
  beta : XR

/-- `LogParabola.__call__` (models.py:409-423). -/
def LogParabola.call (m : LogParabola) (e : Qty XR) : Except PyErr XR := do
  let ev ← validateEneEV e
  let e0 ← m.e_0.toValue PhysUnit.eV
  return lpEval ev m.amplitude e0 m.alpha m.beta

end

end Naima
