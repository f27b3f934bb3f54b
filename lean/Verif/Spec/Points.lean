import Verif.Spec.DataTable
import Mathlib.Analysis.SpecialFunctions.Log.Basic

/-! # The measurements contained in input tables, independent of layout -/

namespace Naima.Spec

open Naima

/-- A measurement at one energy: differential flux (or differential luminosity) and its errors in
cgs units, and whether it is an upper limit. -/
structure Measured where
  energy : ℝ
  /-- emitted at the source (per time) rather than received (per time and area) -/
  luminosity : Bool
  flux : ℝ
  errLo : ℝ
  errHi : ℝ
  ul : Bool

/-- What one row of a table says.  An SED value `E² F(E)` states the differential flux `F(E)`. -/
noncomputable def measured (t : InTable) (r : RawRow) : Measured :=
  let E := phys t.energyU r.energy
  let toDiff : ℝ := match t.fluxU with
    | some u => if IsSed u.dim then 1 / E ^ 2 else 1
    | none => 1
  { energy := E
    luminosity := match t.fluxU with
      | some u => decide (LumLike u.dim)
      | none => false
    flux := (if flag t r ∧ t.fluxUlU ≠ none then phys t.fluxUlU r.fluxUl
             else phys t.fluxU r.flux) * toDiff
    errLo := (if t.fluxErrorU ≠ none then phys t.fluxErrorU r.fluxError
              else phys t.fluxErrorLoU r.fluxErrorLo) * toDiff
    errHi := (if t.fluxErrorU ≠ none then phys t.fluxErrorU r.fluxError
              else phys t.fluxErrorHiU r.fluxErrorHi) * toDiff
    ul := flag t r }

/-- All measurements of a list of tables. -/
noncomputable def measurements (ts : List InTable) : List Measured :=
  ts.flatMap fun t => t.rows.map (measured t)

/-- The confidence level stated by a table (0.9 if none is). -/
noncomputable def confidence (t : InTable) : XR :=
  match t.cl with
  | some (.num x) => x
  | _ => XR.fin 0.9

/-- All measurements, each with the confidence level of its table. -/
noncomputable def levelled (ts : List InTable) : List (Measured × XR) :=
  ts.flatMap fun t => t.rows.map fun r => (measured t r, confidence t)

/-- The term of one measurement in the log-likelihood of the differential spectrum `F`: gaussian, with
the upper error if the model is above; a violated upper limit counts `ln(1 - c)`. -/
noncomputable def pointLnL (c : ℝ) (F : ℝ → ℝ) (p : Measured) : ℝ :=
  let m := F p.energy
  if p.ul then (if p.flux < m then Real.log (1 - c) else 0)
  else -(1 / 2) * ((m - p.flux) / (if p.flux < m then p.errHi else p.errLo)) ^ 2

end Naima.Spec
