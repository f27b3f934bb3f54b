import Verif.Model.TableModel

/-!
# What is assumed of scipy's cubic spline, and which redshift is the closest

The spline is not part of the repository.  The theorems use only these facts about the not-a-knot
cubic spline through at least four points with finite ordinates and strictly increasing abscissae.
-/

namespace Naima.Spec

open Naima XR

noncomputable section

/-- Finite points as spline nodes. -/
def asNodes (pts : List (ℝ × ℝ)) : List (XR × XR) := pts.map (fun p => (fin p.1, fin p.2))

/-- The abscissa lies within the table. -/
def Within (pts : List (ℝ × ℝ)) (x : ℝ) : Prop := (∃ p ∈ pts, p.1 ≤ x) ∧ ∃ p ∈ pts, x ≤ p.1

/-- Facts about `make_interp_spline(x, y, k=3)` used by the theorems: it passes through the
points, it is finite between them, and points that lie on a cubic polynomial are interpolated by that
polynomial. -/
structure CubicSpline (I : Interp) : Prop where
  node : ∀ pts : List (ℝ × ℝ), 4 ≤ pts.length → pts.Pairwise (fun p q => p.1 < q.1) →
    ∀ p ∈ pts, I (asNodes pts) (fin p.1) = fin p.2
  finite : ∀ pts : List (ℝ × ℝ), 4 ≤ pts.length → pts.Pairwise (fun p q => p.1 < q.1) →
    ∀ x, Within pts x → ∃ y, I (asNodes pts) (fin x) = fin y
  cubic : ∀ pts : List (ℝ × ℝ), 4 ≤ pts.length → pts.Pairwise (fun p q => p.1 < q.1) →
    ∀ a b c d : ℝ, (∀ p ∈ pts, p.2 = a + b * p.1 + c * p.1 ^ 2 + d * p.1 ^ 3) →
    ∀ x, Within pts x → I (asNodes pts) (fin x) = fin (a + b * x + c * x ^ 2 + d * x ^ 3)

/-- Column `n` of the optical-depth file is tabulated for redshift `0.01 (n - 1)`. -/
def columnRedshift (n : ℕ) : ℝ := 0.01 * ((n : ℝ) - 1)

/-- Column `n` is the one whose redshift is closest to `z` (the lower one of two equally close). -/
def IsClosestColumn (z : ℝ) (n : ℕ) : Prop :=
  (2 ≤ n ∧ n ≤ 400) ∧
  ∀ k, 2 ≤ k → k ≤ 400 → |columnRedshift n - z| ≤ |columnRedshift k - z| ∧
    (k < n → |columnRedshift n - z| < |columnRedshift k - z|)

/-- What the optical-depth file looks like (checked on `tau_dominguez11.npz`: 500 rows from
0.001 to 100 TeV, columns col2 … col400). -/
structure EblFile (d : EblData) : Prop where
  rows : 4 ≤ d.energy.length
  sorted : d.energy.Pairwise (· < ·)
  first : d.energy.head? = some 0.001
  last : d.energy.getLast? = some 100
  cols : ∀ n, 2 ≤ n → n ≤ 400 → (d.col n).length = d.energy.length

end

end Naima.Spec
