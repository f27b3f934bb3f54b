import Mathlib.Analysis.SpecialFunctions.Pow.Real

/-! # Vocabulary for the particle-grid and energy-content properties -/

namespace Naima

/-- `l` is a logarithmic grid from exactly `lo` to exactly `hi`: at least ten points, strictly
increasing, each point a fixed multiple of the one before. -/
structure LogGrid (l : List ℝ) (lo hi : ℝ) : Prop where
  ten : 10 ≤ l.length
  first : l.head? = some lo
  last : l.getLast? = some hi
  increasing : l.Pairwise (· < ·)
  geometric : ∃ q : ℝ, 1 < q ∧ ∀ i a b, l[i]? = some a → l[i + 1]? = some b → b = q * a

end Naima
