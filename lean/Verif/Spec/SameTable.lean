import Verif.Model.DataTable
import Verif.Model.LnProb

/-!
# The same data table in other units

Independent of validation: when two tables list the same measurements, each column in any unit of its kind.
-/

namespace Naima

/-- A column is absent from both tables, or present in both in proper units of one dimension. -/
inductive SameColumn : Option PhysUnit → Option PhysUnit → Prop
  | absent : SameColumn none none
  | present {u u' : PhysUnit} : u.dim = u'.dim → 0 < u.scale → 0 < u'.scale → SameColumn (some u) (some u')

/-- Two entries of a column (if present) denote the same size. -/
def SameCell (u u' : Option PhysUnit) (x x' : ℝ) : Prop :=
  ∀ a b, u = some a → u' = some b → x * a.scale = x' * b.scale

/-- The same measurement. -/
structure SameRow (t t' : InTable) (r r' : RawRow) : Prop where
  energy : SameCell t.energyU t'.energyU r.energy r'.energy
  flux : SameCell t.fluxU t'.fluxU r.flux r'.flux
  fluxError : SameCell t.fluxErrorU t'.fluxErrorU r.fluxError r'.fluxError
  fluxErrorLo : SameCell t.fluxErrorLoU t'.fluxErrorLoU r.fluxErrorLo r'.fluxErrorLo
  fluxErrorHi : SameCell t.fluxErrorHiU t'.fluxErrorHiU r.fluxErrorHi r'.fluxErrorHi
  group : r.group = r'.group
  energyWidth : SameCell t.energyWidthU t'.energyWidthU r.energyWidth r'.energyWidth
  energyError : SameCell t.energyErrorU t'.energyErrorU r.energyError r'.energyError
  energyErrorLo : SameCell t.energyErrorLoU t'.energyErrorLoU r.energyErrorLo r'.energyErrorLo
  energyErrorHi : SameCell t.energyErrorHiU t'.energyErrorHiU r.energyErrorHi r'.energyErrorHi
  energyLo : SameCell t.energyLoU t'.energyLoU r.energyLo r'.energyLo
  energyHi : SameCell t.energyHiU t'.energyHiU r.energyHi r'.energyHi
  ulInt : r.ulInt = r'.ulInt
  ulStr : r.ulStr = r'.ulStr
  fluxUl : SameCell t.fluxUlU t'.fluxUlU r.fluxUl r'.fluxUl

/-- The same table. -/
structure SameTable (t t' : InTable) : Prop where
  energyU : SameColumn t.energyU t'.energyU
  fluxU : SameColumn t.fluxU t'.fluxU
  fluxErrorU : SameColumn t.fluxErrorU t'.fluxErrorU
  fluxErrorLoU : SameColumn t.fluxErrorLoU t'.fluxErrorLoU
  fluxErrorHiU : SameColumn t.fluxErrorHiU t'.fluxErrorHiU
  hasGroup : t.hasGroup = t'.hasGroup
  energyWidthU : SameColumn t.energyWidthU t'.energyWidthU
  energyErrorU : SameColumn t.energyErrorU t'.energyErrorU
  energyErrorLoU : SameColumn t.energyErrorLoU t'.energyErrorLoU
  energyErrorHiU : SameColumn t.energyErrorHiU t'.energyErrorHiU
  energyLoU : SameColumn t.energyLoU t'.energyLoU
  energyHiU : SameColumn t.energyHiU t'.energyHiU
  ulType : t.ulType = t'.ulType
  fluxUlU : SameColumn t.fluxUlU t'.fluxUlU
  cl : t.cl = t'.cl
  rows : List.Forall₂ (SameRow t t') t.rows t'.rows

/-- Two validated tables with the same content: the same sizes in every row, columns of the same dimension.
(A row of a validated table lists sizes in cgs.) -/
structure SameValid (v v' : VTable) : Prop where
  rows : v.rows = v'.rows
  energyU : v.energyU.dim = v'.energyU.dim
  fluxU : v.fluxU.dim = v'.fluxU.dim
  fluxErrorLoU : v.fluxErrorLoU.dim = v'.fluxErrorLoU.dim
  fluxErrorHiU : v.fluxErrorHiU.dim = v'.fluxErrorHiU.dim
  energyErrorLoU : v.energyErrorLoU.dim = v'.energyErrorLoU.dim
  energyErrorHiU : v.energyErrorHiU.dim = v'.energyErrorHiU.dim

/-- A model function that looks at the data physically: for the same content it returns the same thing, spectra
being compared by size and dimension. -/
inductive SameBlobOut {β : Type} : Blob β → Blob β → Prop
  | spec {s s' : Spectrum} : s.vals = s'.vals → s.unit.dim = s'.unit.dim → SameBlobOut (.spec s) (.spec s')
  | nan : SameBlobOut .nan .nan
  | other (b) : SameBlobOut (.other b) (.other b)

/-- The same output of a model function. -/
inductive SameOut {β : Type} : ModelOut β → ModelOut β → Prop
  | array {s s' : Spectrum} : s.vals = s'.vals → s.unit.dim = s'.unit.dim → SameOut (.array s) (.array s')
  | iterable {l l' : List (Blob β)} : List.Forall₂ SameBlobOut l l' → SameOut (.iterable l) (.iterable l')

end Naima
