import Verif.Model.Acceptance

/-! # C131: positions a sampler may be at -/

namespace Naima.Spec

open Naima XR

/-- A position with a log-probability that is not minus infinity: it has non-zero probability. -/
def Possible (post : List ℝ → Except PyErr XR) (q : List ℝ) : Prop :=
  ∃ x, post q = .ok x ∧ x ≠ ninf

/-- A prior that forbids every value of parameter number `j` outside `[lo, hi]`. -/
def Limits (prior : List XR → Except PyErr XR) (j : Nat) (lo hi : ℝ) : Prop :=
  ∀ (pars : List XR) (v : ℝ), pars[j]? = some (fin v) → ¬ (lo ≤ v ∧ v ≤ hi) → prior pars = .ok ninf

/-- The position of walker number `i` in an ensemble. -/
def positionOf (e : WalkerState) (i : Nat) : Option (List ℝ) := (e.1[i]?).map Walker.coords

end Naima.Spec
