import Verif.Model.DataTable

/-! # What a validated data table should contain -/

namespace Naima.Spec

open Naima

/-- physical size of a value in a column with the given unit -/
noncomputable def phys (u : Option PhysUnit) (x : ℝ) : ℝ :=
  match u with
  | some u => x * u.scale
  | none => x

/-- a physical type of SED kind -/
def IsSed (d : Dim) : Prop := d = Dim.flux ∨ d = Dim.power

/-- fluxes at the observer -/
def FluxLike (d : Dim) : Prop := d = Dim.flux ∨ d = Dim.diffFlux
/-- luminosities -/
def LumLike (d : Dim) : Prop := d = Dim.power ∨ d = Dim.diffPower

instance (d : Dim) : Decidable (IsSed d) := by unfold IsSed; infer_instance
instance (d : Dim) : Decidable (FluxLike d) := by unfold FluxLike; infer_instance
instance (d : Dim) : Decidable (LumLike d) := by unfold LumLike; infer_instance

/-- The column is present and has physical type `p`. -/
def HasType (c : Option PhysUnit) (p : Dim → Prop) : Prop := ∃ u, c = some u ∧ p u.dim

/-- meaning of the upper-limit flag of a row -/
def flag (t : InTable) (r : RawRow) : Bool :=
  match t.ulType with
  | none => false
  | some .str => r.ulStr = "True"
  | some _ => r.ulInt ≠ 0

/-- factor turning the flux of this table at energy `E` into SED (`sed`) or differential flux -/
noncomputable def factor (t : InTable) (sed : Bool) (E : ℝ) : ℝ :=
  match t.fluxU with
  | none => 1
  | some u => if sed ∧ ¬ IsSed u.dim then E ^ 2 else if ¬ sed ∧ IsSed u.dim then 1 / E ^ 2 else 1

/-- The row a raw row of table number `g` must become; `e` are its bin half-widths. -/
noncomputable def row (t : InTable) (g : ℤ) (sed : Bool) (r : RawRow) (e : ℝ × ℝ) : Row :=
  let E := phys t.energyU r.energy
  let K := factor t sed E
  { energy := E
    flux := (if flag t r ∧ t.fluxUlU ≠ none then phys t.fluxUlU r.fluxUl
             else phys t.fluxU r.flux) * K
    fluxErrorLo := (if t.fluxErrorU ≠ none then phys t.fluxErrorU r.fluxError
                    else phys t.fluxErrorLoU r.fluxErrorLo) * K
    fluxErrorHi := (if t.fluxErrorU ≠ none then phys t.fluxErrorU r.fluxError
                    else phys t.fluxErrorHiU r.fluxErrorHi) * K
    group := if t.hasGroup then r.group else g
    energyErrorLo := e.1
    energyErrorHi := e.2
    ul := flag t r
    cl := match t.cl with
      | some (.num x) => x
      | _ => XR.fin 0.9 }

/-- Are the bin widths given by columns of the table (rather than generated)? -/
def GivenWidths (t : InTable) : Prop :=
  t.energyWidthU ≠ none ∨ t.energyErrorU ≠ none ∨
  (t.energyErrorLoU ≠ none ∧ t.energyErrorHiU ≠ none) ∨ (t.energyLoU ≠ none ∧ t.energyHiU ≠ none)

/-- Bin half-widths read from the columns of a row, in the documented order of preference. -/
noncomputable def givenWidths (t : InTable) (r : RawRow) : ℝ × ℝ :=
  if t.energyWidthU ≠ none then
    (phys t.energyWidthU r.energyWidth / 2, phys t.energyWidthU r.energyWidth / 2)
  else if t.energyErrorU ≠ none then
    (phys t.energyErrorU r.energyError, phys t.energyErrorU r.energyError)
  else if t.energyErrorLoU ≠ none ∧ t.energyErrorHiU ≠ none then
    (phys t.energyErrorLoU r.energyErrorLo, phys t.energyErrorHiU r.energyErrorHi)
  else (phys t.energyU r.energy - phys t.energyLoU r.energyLo,
        phys t.energyHiU r.energyHi - phys t.energyU r.energy)

/-- `es` are the bin half-widths of the table: read from its columns or, failing that, generated
from the energies group by group. -/
def Widths (t : InTable) (g : ℤ) (es : List (ℝ × ℝ)) : Prop :=
  (GivenWidths t → es = t.rows.map (givenWidths t)) ∧
  (¬ GivenWidths t → ∃ lo hi,
    generateEnergyEdges (t.rows.map (·.energy))
      (some (t.rows.map (fun r => if t.hasGroup then r.group else g))) = .ok (lo, hi) ∧
    es = (lo.zip hi).map (fun p => (phys t.energyU p.1, phys t.energyU p.2)))

/-- What a single table must have to be accepted. -/
structure Valid (t : InTable) : Prop where
  energy : HasType t.energyU (· = Dim.energy)
  flux : HasType t.fluxU (fun d => FluxLike d ∨ LumLike d)
  errors : HasType t.fluxErrorU (fun d => FluxLike d ∨ LumLike d) ∨
    (t.fluxErrorU = none ∧ HasType t.fluxErrorLoU (fun d => FluxLike d ∨ LumLike d) ∧
      HasType t.fluxErrorHiU (fun d => FluxLike d ∨ LumLike d))
  widths : HasType t.energyWidthU (· = Dim.energy) ∨
    (t.energyWidthU = none ∧ (HasType t.energyErrorU (· = Dim.energy) ∨
      (t.energyErrorU = none ∧
        ((HasType t.energyErrorLoU (· = Dim.energy) ∧ HasType t.energyErrorHiU (· = Dim.energy)) ∨
        (¬ (t.energyErrorLoU ≠ none ∧ t.energyErrorHiU ≠ none) ∧
          ((HasType t.energyLoU (· = Dim.energy) ∧ HasType t.energyHiU (· = Dim.energy)) ∨
          ¬ (t.energyLoU ≠ none ∧ t.energyHiU ≠ none)))))))
  ul : t.ulType = none ∨ t.ulType = some .int ∨ t.ulType = some .bool ∨
    (t.ulType = some .str ∧ ∀ r ∈ t.rows, r.ulStr = "True" ∨ r.ulStr = "False")
  fluxUl : ∀ u, t.fluxUlU = some u → HasType t.fluxU (· = u.dim)
  cl : ∀ v, t.cl = some v → ∃ x, v = .num x

end Naima.Spec
