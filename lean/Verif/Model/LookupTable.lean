import Verif.Model.PionLUT

/-!
# `LookupTable` and `generate_lut_pp` (src/naima/radiative.py:1770-1841)

`scipy.interpolate.RectBivariateSpline` is a parameter: any function of the two coordinate arrays, the
values and a point. What is assumed of it is said in each theorem.  Simplification: energies are
positive, so that their decadic logarithms are numbers.
-/

namespace Naima

open XR Classical

noncomputable section

/-- `RectBivariateSpline(X, Y, z, kx=3, ky=3, s=0)(x, y)` at one point. -/
abbrev RectSpline := List ℝ → List ℝ → List (List XR) → ℝ → ℝ → XR

/-- The arrays of a table file: decadic logarithms of the coordinates and of the values (`lut[i][j]`). -/
structure LutFile where
  X : List ℝ
  Y : List ℝ
  lut : List (List XR)

/-- `10**lut` (radiative.py:1793) -/
def LutFile.z (f : LutFile) : List (List XR) := f.lut.map (·.map (fun v => pow (fin 10) v))

/-- `LookupTable.__init__` (radiative.py:1786-1794): scipy refuses coordinates that do not increase
strictly or are fewer than four, and values of another shape (all reported as a ValueError here). -/
def LutFile.load (f : LutFile) : Except PyErr Unit :=
  if f.X.Pairwise (· < ·) ∧ f.Y.Pairwise (· < ·) ∧ 4 ≤ f.X.length ∧ 4 ≤ f.Y.length ∧
      f.lut.length = f.X.length ∧ ∀ row ∈ f.lut, row.length = f.Y.length then .ok ()
  else .error .valueError

/-- The interpolated value at one point. -/
def LutFile.at (S : RectSpline) (f : LutFile) (x y : ℝ) : XR :=
  S f.X f.Y f.z (Real.logb 10 x) (Real.logb 10 y)

/-- `LookupTable.__call__(X, Y)` with an array `X` and a number `Y` (radiative.py:1796-1797): scipy
refuses an array that is not in ascending order. -/
def LutFile.call (S : RectSpline) (f : LutFile) (xs : List ℝ) (y : ℝ) : Except PyErr (List XR) :=
  if (xs.map (Real.logb 10)).Pairwise (· ≤ ·) then .ok (xs.map (fun x => f.at S x y))
  else .error .valueError

/-- `q.to("GeV").value` of an array -/
def inGeVs (q : Qty (List ℝ)) : Except PyErr (List ℝ) :=
  if q.unit.dim = Dim.energy then .ok (q.value.map (· * (q.unit.scale / PhysUnit.GeV.scale)))
  else .error .unitConversionError

/-- `generate_lut_pp` for one model (radiative.py:1812-1841, with `_calc_lut_pp`, 1800-1809): the name of
the file and its arrays. Each photon energy is computed by some worker process of the pool; `tbls j` is the
class table `_F_mp` of that process at that time. -/
def generateLut (base : String) (tbls : ℕ → FTable) (h : HiE) (nuc : Bool) (Ep Eg : Qty (List ℝ)) :
    Except PyErr (String × LutFile) := do
  let ep ← inGeVs Ep
  let eg ← inGeVs Eg
  let cols := eg.mapIdx (fun j e => (diffsigma h nuc (tbls j) ep e).2)
  return ((base ++ (if nuc then "NucEnh_" else "")) ++ h.name ++ ".npz",
    { X := ep.map (Real.logb 10)
      Y := eg.map (Real.logb 10)
      lut := (List.range ep.length).map (fun i => cols.map (fun c => log10 (c.getD i nan))) })

/-- The default proton energies of `generate_lut_pp` (radiative.py:1813). -/
def lutEpDefault : Qty (List ℝ) := ⟨logspace 0.085623713910610105 7 800, PhysUnit.GeV⟩
/-- The default photon energies (radiative.py:1814). -/
def lutEgDefault : Qty (List ℝ) := ⟨logspace (-5) 3 1024, PhysUnit.TeV⟩
/-- The default base name (radiative.py:1815). -/
def lutBase : String := "PionDecayKafexhiu14_LUT_"

end

end Naima
