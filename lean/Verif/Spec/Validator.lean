import Verif.Model.Validator

/-! # What the argument validators are meant to accept -/

namespace Naima.Spec

open Naima

/-- The real number `x` lies in the domain: "positive" means not negative, "strictly-positive"
means above zero, a range is closed. Range ends may be infinite. -/
def InDomain (d : Domain) (x : ℝ) : Prop :=
  match d with
  | .positive => 0 ≤ x
  | .strictlyPositive => 0 < x
  | .negative => x ≤ 0
  | .strictlyNegative => x < 0
  | .range lo hi => (lo ≤ XR.fin x) ∧ (XR.fin x ≤ hi)
  | .none | .other => True

/-- A number is acceptable where no physical type is required. -/
def NoType (pt : Option (List Dim)) : Prop := pt = none

end Naima.Spec
