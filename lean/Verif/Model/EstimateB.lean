import Verif.Model.DataTable
import Verif.Model.Trapz

/-! # `utils.estimate_B` (src/naima/utils.py:484-542) -/

namespace Naima

open XR Classical

noncomputable section

/-- `trapz_loglog(t["flux"] * t["energy"], t["energy"])` (utils.py:533-534): the number, in the
unit `flux unit * energy unit ** 2`.  The rows of a validated table hold physical sizes, so the
column values are sizes divided by the unit. -/
def tableLum (v : VTable) : XR :=
  trapzLL (v.rows.map fun r =>
    (fin (r.energy / v.energyU.scale),
      fin (r.flux / v.fluxU.scale) * fin (r.energy / v.energyU.scale)))

/-- The unit of `tableLum`. -/
def tableLumUnit (v : VTable) : PhysUnit := (v.fluxU.mul v.energyU).mul v.energyU

/-- The factor `.decompose()` (utils.py:538) applies to a number in unit `a/b`: the size of the unit
in SI base units (units are kept here by their cgs size: 1 cm = 0.01 m, 1 g = 0.001 kg). -/
def decomposeFactor (a b : PhysUnit) : ℝ :=
  a.scale / b.scale * (0.01 : ℝ) ^ (a.dim.len - b.dim.len) * (0.001 : ℝ) ^ (a.dim.mass - b.dim.mass)

/-- erg/cm³ -/
def ergPerCm3 : PhysUnit := ⟨1, Dim.pressure⟩

/-- `estimate_B(xray_table, vhe_table, photon_energy_density)` (utils.py:530-542): value in µG. -/
def estimateB (sort : List Row → List Row) (xray vhe : List InTable) (uph : Qty ℝ) :
    Except PyErr XR := do
  let x ← validateDataTable sort xray (some false)
  let v ← validateDataTable sort vhe (some false)
  let u ← uph.toReal ergPerCm3
  let ratio := tableLum x / tableLum v * fin (decomposeFactor (tableLumUnit x) (tableLumUnit v))
  return XR.sqrt (ratio * fin 8 * fin Real.pi * fin u) * fin 1000000

end

end Naima
