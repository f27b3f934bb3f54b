import Verif.Model.Sherpa

/-!
# The parameters of the Sherpa models (src/naima/sherpa_models.py:73-86, 117-142, 190-206, 224-248, 287-302)

Sherpa itself is trusted: `Parameter(model, name, val, min, max, frozen)` has soft limits `±3.4028e38`
unless given, and `Parameter.set(val)` raises `ParameterErr` for a value below the minimum or above the
maximum (a NaN compares false with both and is stored).
-/

namespace Naima

open XR Classical

noncomputable section

/-- A Sherpa `Parameter`: name, default value, limits and whether a fit keeps it fixed. -/
structure ShParam where
  name : String
  val : ℝ
  min : ℝ
  max : ℝ
  frozen : Bool

/-- Sherpa's `hugeval`, the largest single-precision number -/
def shHuge : ℝ := 3.4028234663852886e38

/-- `index` (sherpa_models.py:76) -/
def shIndex : ShParam := ⟨"index", 2.1, -10, 10, false⟩
/-- `ref`, TeV (sherpa_models.py:77) -/
def shRef : ShParam := ⟨"ref", 60, 0, shHuge, true⟩
/-- `ampl`, 1e30/eV (sherpa_models.py:78-80) -/
def shAmpl : ShParam := ⟨"ampl", 100, 0, 1e60, false⟩
/-- `cutoff`, TeV (sherpa_models.py:81) -/
def shCutoff : ShParam := ⟨"cutoff", 0, 0, shHuge, true⟩
/-- `beta` (sherpa_models.py:82) -/
def shBeta : ShParam := ⟨"beta", 1, 0, 10, true⟩
/-- `distance`, kpc (sherpa_models.py:83-85) -/
def shDistance : ShParam := ⟨"distance", 1, 0, 1e6, true⟩
/-- `verbose` (sherpa_models.py:86) -/
def shVerbose : ShParam := ⟨"verbose", 0, 0, 1, true⟩

/-- The parameters registered by the constructor of each model, in order
(sherpa_models.py:117-142, 190-206, 224-248, 287-302). -/
def ShClass.pars : ShClass → List ShParam
  | .inverseCompton => [shIndex, shRef, shAmpl, shCutoff, shBeta,
      ⟨"TFIR", 30, 0, shHuge, true⟩, ⟨"uFIR", 0, 0, shHuge, true⟩,
      ⟨"TNIR", 3000, 0, shHuge, true⟩, ⟨"uNIR", 0, 0, shHuge, true⟩, shDistance, shVerbose]
  | .synchrotron => [shIndex, shRef, shAmpl, shCutoff, shBeta, ⟨"B", 1, 0, 10, true⟩, shDistance,
      shVerbose]
  | .bremsstrahlung => [shIndex, shRef, shAmpl, shCutoff, shBeta, ⟨"n0", 1, 0, 1e20, true⟩,
      ⟨"weight_ee", 1.088, 0, 10, true⟩, ⟨"weight_ep", 1.263, 0, 10, true⟩, shDistance, shVerbose]
  | .pionDecay => [shIndex, shRef, shAmpl, shCutoff, shBeta, ⟨"nH", 1, 0, shHuge, true⟩, shDistance,
      shVerbose]

/-- `Parameter.set(val)`: the value stored, or `ParameterErr` (Sherpa, trusted; here `userError 0`). -/
def ShParam.set (q : ShParam) (v : XR) : Except PyErr XR :=
  if v < fin q.min ∨ fin q.max < v then .error (.userError 0) else .ok v

/-- `guess(dep, xlo[, xhi])` (sherpa_models.py:31-42) of a model with the parameter values `p`: the
amplitude it stores. -/
def ShClass.guess (lut : ℝ → ℝ → XR) (c : ShClass) (p : List ℝ) (dep : List XR) (xlo : List ℝ)
    (xhi : Option (List ℝ)) : Except PyErr XR := do
  let (k, p) ← c.unpack p
  let a ← shGuess lut k p dep xlo xhi
  shAmpl.set a

end

end Naima
