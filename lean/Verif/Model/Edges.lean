import Verif.Base.Py
import Mathlib.Analysis.SpecialFunctions.Pow.Real
import Mathlib.Data.List.Sort

/-! # Energy bin edges: `utils._generate_energy_edges_single`, `utils.generate_energy_edges`

Energies are the values of the energy array in its own unit (the functions never change the unit);
they are finite and non-negative products are under the square root, hence `ℝ`. -/

namespace Naima

/-- utils.py:358-366 `_generate_energy_edges_single(ene)`: `(elo, ehi)`.
`ene[0]` on an empty array raises IndexError. Simplification: finite reals. -/
noncomputable def edgesSingle (ene : List ℝ) : Except PyErr (List ℝ × List ℝ) :=
  match ene with
  | [] => .error .indexError
  | e0 :: rest =>
    -- midene = np.sqrt(ene[1:] * ene[:-1])
    let midene := List.zipWith (fun a b => Real.sqrt (a * b)) rest (e0 :: rest)
    -- elo, ehi = zeros; elo[1:] = ene[1:] - midene; ehi[:-1] = midene - ene[:-1]
    let elo1 := List.zipWith (fun a m => a - m) rest midene
    let ehi1 := List.zipWith (fun m a => m - a) midene (e0 :: rest)
    -- elo[0] = ene[0] * (1 - ene[0] / (ene[0] + ehi[0])); ehi[0] is still 0 for one energy
    let elo := e0 * (1 - e0 / (e0 + ehi1.headD 0)) :: elo1
    -- ehi[-1] = elo[-1]
    let ehi := ehi1 ++ [elo.getLastD 0]
    .ok (elo, ehi)

/-- numpy boolean-mask selection `l[mask]` -/
def maskSel {α : Type} (mask : List Bool) (l : List α) : List α :=
  (mask.zip l).filterMap (fun p => if p.1 then some p.2 else none)

/-- numpy boolean-mask assignment `dst[mask] = vals` (as many values as set mask positions) -/
def maskSet {α : Type} : List Bool → List α → List α → List α
  | true :: ms, _ :: ds, v :: vs => v :: maskSet ms ds vs
  | false :: ms, d :: ds, vs => d :: maskSet ms ds vs
  | _, ds, _ => ds

/-- `np.unique`: sorted distinct values -/
def npUnique (l : List ℤ) : List ℤ := l.dedup.mergeSort (fun a b => decide (a ≤ b))

/-- `groups == g` -/
def maskOf (groups : List ℤ) (g : ℤ) : List Bool := groups.map (fun h => decide (h = g))

/-- One iteration of the loop utils.py:391-393. -/
noncomputable def edgesStep (ene : List ℝ) (groups : List ℤ) (acc : List ℝ × List ℝ) (g : ℤ) :
    Except PyErr (List ℝ × List ℝ) := do
  let e ← edgesSingle (maskSel (maskOf groups g) ene)
  pure (maskSet (maskOf groups g) acc.1 e.1, maskSet (maskOf groups g) acc.2 e.2)

/-- utils.py:369-395 `generate_energy_edges(ene, groups)`. -/
noncomputable def generateEnergyEdges (ene : List ℝ) (groups : Option (List ℤ)) :
    Except PyErr (List ℝ × List ℝ) :=
  match groups with
  | none => edgesSingle ene
  | some groups =>
    if ene.length ≠ groups.length then edgesSingle ene
    else (npUnique groups).foldlM (edgesStep ene groups)
      (List.replicate ene.length 0, List.replicate ene.length 0)

end Naima
