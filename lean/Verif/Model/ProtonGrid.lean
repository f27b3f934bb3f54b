import Verif.Model.Electron

/-!
# The proton grid when the limits are not positive (src/naima/radiative.py:1002-1021)

`PrModel.Ep` has real energies only; here the grid may contain NaN, as numpy's does when a logarithm is NaN.
-/

namespace Naima

open XR Classical

noncomputable section

/-- `np.logspace(a, b, n)` of any floats. -/
def logspaceX (a b : XR) (n : ℕ) : List XR :=
  (List.range n).map (fun i : ℕ => pow (fin 10) (a + fin i * ((b - a) / fin ((n : ℝ) - 1))))

/-- `_Ep` in GeV (radiative.py:1002-1009), every float allowed. -/
def PrModel.EpX (m : PrModel) : Except PyErr (List XR) := do
  let lo ← inGeV m.Epmin
  let hi ← inGeV m.Epmax
  let k ← gridSize (fin m.nEpd) (decadesRatio m.Epmin m.Epmax)
  return logspaceX (log10 (fin lo)) (log10 (fin hi)) k

/-- A particle distribution called with any float: `atNaN` is the number it returns for NaN; infinite
energies, which do not occur on a grid, are given the same value. -/
def PDist.fX (pd : PDist) (atNaN : XR) : XR → XR
  | fin e => pd.f e
  | _ => atNaN

/-- `Wp` (radiative.py:1017-1021) in erg over such a grid. -/
def PrModel.WpX (m : PrModel) (pd : PDist) (atNaN : XR) : Except PyErr XR := do
  let ep ← m.EpX
  if pd.unit.dim = perGeV.dim then
    let j := ep.map (fun e => pd.fX atNaN (e * fin PhysUnit.GeV.scale) * fin (pd.unit.scale / perGeV.scale))
    return trapz (List.zipWith (fun e n => e * n) ep j) ep * fin PhysUnit.GeV.scale
  else throw .unitConversionError

end

end Naima
