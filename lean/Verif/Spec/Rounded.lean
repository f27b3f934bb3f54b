import Verif.Model.Rounded
import Mathlib.Analysis.SpecialFunctions.Integrals.Basic

/-! # C132: the integral `trapz_loglog` stands for -/

namespace Naima.Spec

open Naima

noncomputable section

/-- Index of the power law through two samples. -/
def localIndex (p q : ℝ × ℝ) : ℝ := Real.log (q.2 / p.2) / Real.log (q.1 / p.1)

/-- Integral of the power law through two samples `(x, y)`; zero if one of them is zero. -/
def powerLawIntegral (p q : ℝ × ℝ) : ℝ :=
  if p.2 = 0 ∨ q.2 = 0 then 0 else ∫ t in p.1..q.1, p.2 * (t / p.1) ^ localIndex p q

/-- Integral of the function joining the samples by power laws. -/
def joinedIntegral : List (ℝ × ℝ) → ℝ
  | p :: q :: rest => powerLawIntegral p q + joinedIntegral (q :: rest)
  | _ => 0

/-- Positive increasing abscissae, ordinates not negative. -/
def Samples : List (ℝ × ℝ) → Prop
  | p :: q :: rest => (0 < p.1 ∧ p.1 < q.1 ∧ 0 ≤ p.2 ∧ 0 ≤ q.2) ∧ Samples (q :: rest)
  | _ => True

/-- A condition on every bin whose two samples are positive. -/
def EveryBin (P : ℝ × ℝ → ℝ × ℝ → Prop) : List (ℝ × ℝ) → Prop
  | p :: q :: rest => (0 < p.2 → 0 < q.2 → P p q) ∧ EveryBin P (q :: rest)
  | _ => True

/-- How strongly a bin amplifies rounding errors: steep spectra, narrow or very wide bins, and an index
close to -1. -/
def amplification (p q : ℝ × ℝ) : ℝ :=
  let b := localIndex p q
  let L := Real.log (q.1 / p.1)
  (1 + |b|) * (1 + L) * (1 + 1 / L) * (1 + 1 / |b + 1|)

end

end Naima.Spec
