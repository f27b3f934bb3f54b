import Verif.Base.Units
import Mathlib.Analysis.SpecialFunctions.Trigonometric.Basic

/-!
# Physical constants and array helpers (src/naima/radiative.py:34-40)

Values of `astropy.constants` (CODATA 2018) in cgs.  Most theorems depend only on the values
being positive; the comparisons with published prefactors (C70–C74) use the digits.
-/

namespace Naima

open XR Classical

noncomputable section

/-- `m_e` in g -/
def cMe : ℝ := 9.1093837015e-28
/-- `m_p` in g -/
def cMp : ℝ := 1.67262192369e-24
/-- `c` in cm/s -/
def cC : ℝ := 29979245800
/-- `e.gauss` in Fr (radiative.py:34) -/
def cE : ℝ := 4.803204712570263e-10
/-- `hbar` in erg s -/
def cHbar : ℝ := 1.0545718176461565e-27
/-- `sigma_sb` in erg / (cm² s K⁴) -/
def cSigma : ℝ := 5.6703744191844314e-5
/-- `alpha`, the fine-structure constant -/
def cAlpha : ℝ := 0.0072973525693
/-- `mec2` in erg (radiative.py:36) -/
def cMec2 : ℝ := cMe * cC ^ 2
/-- `ar = 4 sigma_sb / c` in erg / (cm³ K⁴) (radiative.py:39) -/
def cAr : ℝ := 4 * cSigma / cC
/-- `r0 = e² / mec2` in cm (radiative.py:40) -/
def cR0 : ℝ := cE ^ 2 / cMec2
/-- one eV in erg -/
def cEV : ℝ := 1.602176634e-12

/-- Python `int(x)`: truncation toward zero; NaN is a ValueError, an infinity an OverflowError. -/
def pyInt : XR → Except PyErr ℤ
  | fin x => .ok (if 0 ≤ x then ⌊x⌋ else ⌈x⌉)
  | nan => .error .valueError
  | _ => .error .overflowError

/-- `np.logspace(a, b, n)`: `10 ** (a + i (b - a) / (n - 1))`. -/
def logspace (a b : ℝ) (n : ℕ) : List ℝ :=
  (List.range n).map (fun i : ℕ => (10 : ℝ) ^ (a + i * ((b - a) / ((n : ℝ) - 1))))

/-- The number of grid points, `max(10, int(n * decades))` (radiative.py:152-154, 1008). -/
def gridSize (perDecade decades : XR) : Except PyErr ℕ := do
  let k ← pyInt (perDecade * decades)
  return (max 10 k).toNat

/-- `scipy.special.cbrt` -/
def cbrt : XR → XR
  | nan => nan
  | ninf => ninf
  | pinf => pinf
  | fin x => fin (if 0 ≤ x then x ^ ((1 : ℝ) / 3) else -(-x) ^ ((1 : ℝ) / 3))

/-- an unsigned dimensionless literal `x ** 2.0` -/
def sq (a : XR) : XR := pow a (fin 2)

end

end Naima
