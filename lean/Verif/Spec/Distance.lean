import Verif.Model.DistKey

/-! # How numbers are written, and the answer for a distance, for C130 -/

namespace Naima

open XR Classical

/-- What is assumed of the way numbers and units are written: decimals are rounded to the nearest, different decimals are
written differently, with and without exponent, and so are the floats and the units of the distances among `D`; numbers
contain no blank and no bracket. -/
structure Writes (D : Set (Qty ℝ)) (t : NumText) (uname : PhysUnit → PyStr) : Prop where
  near : ∀ x, |(t.rnd x : ℝ) - x| ≤ 1 / 2
  fixed_inj : Function.Injective t.fixed
  sci_inj : Function.Injective t.sci
  notation_differs : ∀ a b, t.fixed a ≠ t.sci b
  full_inj : ∀ d ∈ D, ∀ d' ∈ D, t.full d.value = t.full d'.value → d.value = d'.value
  uname_inj : ∀ d ∈ D, ∀ d' ∈ D, uname d.unit = uname d'.unit → d.unit = d'.unit
  fixed_blank : ∀ a, ' ' ∉ t.fixed a
  sci_blank : ∀ a, ' ' ∉ t.sci a
  full_blank : ∀ x, ' ' ∉ t.full x
  full_bracket : ∀ x, '(' ∉ t.full x
  full_some : ∀ x, t.full x ≠ []

/-- The distances of an operation are among `D`, positive, and lengths. -/
def DistOp.Good (D : Set (Qty ℝ)) : DistOp → Prop
  | .flux => True
  | .fluxAt d => d ∈ D ∧ 0 < d.value ∧ d.unit.dim = Dim.length
  | .sedAt d => d ∈ D ∧ 0 < d.value ∧ d.unit.dim = Dim.length

/-- The answer without a cache. -/
noncomputable def DistOp.exact (spectrum : List ℝ → Except PyErr (List XR)) (e : Qty (List ℝ)) : DistOp → Except PyErr (Qty (List XR))
  | .flux => fluxOf spectrum e (.qty ⟨1, kpc⟩)
  | .fluxAt d => fluxOf spectrum e (.qty d)
  | .sedAt d => sedOf spectrum e (.qty d)

end Naima
