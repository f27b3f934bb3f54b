import Verif.Model.Guess

/-! # What the normalisation guess should do -/

namespace Naima.Spec

open Naima

/-- A label denotes a normalisation: apart from letter case it begins with `norm`, `ampl`, `we` or
`wp`, possibly after `log(` or `log10(`. -/
def DenotesNorm (l : Label) : Prop :=
  ∃ pre ∈ [[], "log(".toList, "log10(".toList],
    ∃ name ∈ ["norm".toList, "ampl".toList, "we".toList, "wp".toList],
      (pre ++ name) <+: l.map Char.toLower

/-- Trapezoidal `∫ E f(E) dE`, `f` the differential spectrum (an SED divided by `E²`). -/
noncomputable def energyFlux (isSed : Prop) [Decidable isSed] : List ℝ → List ℝ → ℝ
  | v :: v' :: vs, E :: E' :: Es =>
      (E' - E) * ((E * (if isSed then v / E ^ 2 else v) + E' * (if isSed then v' / E' ^ 2 else v')) / 2)
        + energyFlux isSed (v' :: vs) (E' :: Es)
  | _, _ => 0

end Naima.Spec
