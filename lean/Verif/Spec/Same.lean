import Verif.Model.ICSeed
import Verif.Model.Electron
import Verif.Model.Synchrotron

/-!
# The same physical input in other units

Independent of the calculations: when two quantities, arrays of quantities, particle distributions
or seed photon fields denote the same physical thing.
-/

namespace Naima

open XR

/-- The same scalar in two proper units of the same dimension: the size in cgs is the same. -/
structure SameQty (q q' : Qty ℝ) : Prop where
  dim : q.unit.dim = q'.unit.dim
  proper : 0 < q.unit.scale
  proper' : 0 < q'.unit.scale
  size : q.value * q.unit.scale = q'.value * q'.unit.scale

/-- The same array. -/
structure SameArray (q q' : Qty (List ℝ)) : Prop where
  dim : q.unit.dim = q'.unit.dim
  proper : 0 < q.unit.scale
  proper' : 0 < q'.unit.scale
  size : q.value.map (· * q.unit.scale) = q'.value.map (· * q'.unit.scale)

/-- Two particle distributions that give the same number of particles per energy at every energy,
in units that may differ. -/
structure SameDist (p p' : PDist) : Prop where
  dim : p.unit.dim = p'.unit.dim
  proper : 0 < p.unit.scale
  proper' : 0 < p'.unit.scale
  size : ∀ e, p.f e * fin p.unit.scale = p'.f e * fin p'.unit.scale

/-- The same optional argument. -/
inductive SameOpt : Option (Qty ℝ) → Option (Qty ℝ) → Prop
  | none : SameOpt none none
  | some {q q'} : SameQty q q' → SameOpt (some q) (some q')

/-- The same distance. -/
inductive SameDistance : DistArg → DistArg → Prop
  | num (x) : SameDistance (.num x) (.num x)
  | qty {d d'} : SameQty d d' → SameDistance (.qty d) (.qty d')

/-- The same Python value: quantities may be in other units. -/
inductive SameVal : PyVal → PyVal → Prop
  | num (x) : SameVal (.num x) (.num x)
  | cplx : SameVal .cplx .cplx
  | arr (s d) : SameVal (.arr s d) (.arr s d)
  | seq (s d) : SameVal (.seq s d) (.seq s d)
  | qty {x x' : ℝ} {u u' : PhysUnit} : SameQty ⟨x, u⟩ ⟨x', u'⟩ →
      SameVal (.qty (fin x) u) (.qty (fin x') u')
  | qarr (s) {d d' : List ℝ} {u u' : PhysUnit} : SameArray ⟨d, u⟩ ⟨d', u'⟩ →
      SameVal (.qarr s (d.map fin) u) (.qarr s (d'.map fin) u')

/-- The same entry of the `seed_photon_fields` argument. -/
inductive SameSeed : SeedSpec → SeedSpec → Prop
  | str (s) : SameSeed (.str s) (.str s)
  | list3 (n) {T T' v v'} : SameVal T T' → SameVal v v' → SameSeed (.list3 n T v) (.list3 n T' v')
  | list4 (n) {T T' v v' a a'} : SameVal T T' → SameVal v v' → SameVal a a' →
      SameSeed (.list4 n T v a) (.list4 n T' v' a')
  | listN : SameSeed .listN .listN
  | other : SameSeed .other .other

/-- The same `seed_photon_fields` argument. -/
inductive SameSeeds : SeedsArg → SeedsArg → Prop
  | list {l l'} : List.Forall₂ SameSeed l l' → SameSeeds (.list l) (.list l')
  | str (s) : SameSeeds (.str s) (.str s)
  | other : SameSeeds .other .other

end Naima
