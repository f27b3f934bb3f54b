import Verif.Base.XR
import Verif.Base.Py

/-!
# Units and quantities (the part of `astropy.units` the code relies on)

A unit is a positive scale (its size in cgs base units) and a vector of integer dimension
exponents.  astropy identifies the physical type of a unit by its dimensions, so physical types
are modelled as dimension vectors.
-/

namespace Naima

/-- Exponents of length, mass, time, temperature, electric current and plane angle. -/
structure Dim where
  len : ℤ := 0
  mass : ℤ := 0
  time : ℤ := 0
  temp : ℤ := 0
  cur : ℤ := 0
  ang : ℤ := 0
  deriving DecidableEq, Repr

namespace Dim
/-- dimension of a product -/
def mul (a b : Dim) : Dim :=
  ⟨a.len + b.len, a.mass + b.mass, a.time + b.time, a.temp + b.temp, a.cur + b.cur, a.ang + b.ang⟩
/-- dimension of an inverse -/
def inv (a : Dim) : Dim := ⟨-a.len, -a.mass, -a.time, -a.temp, -a.cur, -a.ang⟩
/-- dimension of a quotient -/
def div (a b : Dim) : Dim := mul a (inv b)

/-- "dimensionless" -/
def one : Dim := {}
/-- "length" -/
def length : Dim := { len := 1 }
/-- "energy": M L² T⁻² -/
def energy : Dim := { mass := 1, len := 2, time := -2 }
/-- "power": M L² T⁻³ -/
def power : Dim := { mass := 1, len := 2, time := -3 }
/-- "energy flux" / "irradiance", registered as "flux" in core.py:24 -/
def flux : Dim := { mass := 1, time := -3 }
/-- "differential flux" 1/(s cm² erg) (core.py:25) -/
def diffFlux : Dim := { mass := -1, len := -4, time := 1 }
/-- "differential power" 1/(s erg) (core.py:26) -/
def diffPower : Dim := { mass := -1, len := -2, time := 1 }
/-- "differential energy" 1/TeV (core.py:27) -/
def diffEnergy : Dim := { mass := -1, len := -2, time := 2 }
/-- "number density" 1/cm³ (core.py:28) -/
def numDensity : Dim := { len := -3 }
/-- "differential number density" 1/(eV cm³) (core.py:29) -/
def diffNumDensity : Dim := { mass := -1, len := -5, time := 2 }
/-- "pressure" = energy density -/
def pressure : Dim := { mass := 1, len := -1, time := -2 }
/-- "temperature" -/
def temperature : Dim := { temp := 1 }
/-- "angle" -/
def angle : Dim := { ang := 1 }
/-- "magnetic flux density": kg s⁻² A⁻¹ -/
def magFluxDensity : Dim := { mass := 1, time := -2, cur := -1 }
end Dim

/-- A physical unit. -/
structure PhysUnit where
  /-- size in cgs base units -/
  scale : ℝ
  dim : Dim

namespace PhysUnit
/-- product of units -/
noncomputable def mul (a b : PhysUnit) : PhysUnit := ⟨a.scale * b.scale, a.dim.mul b.dim⟩
/-- A unit is proper when its size is positive. -/
def Proper (u : PhysUnit) : Prop := 0 < u.scale

/-- erg -/
noncomputable def erg : PhysUnit := ⟨1, Dim.energy⟩
/-- eV in erg (CODATA 2018, exact) -/
noncomputable def eV : PhysUnit := ⟨1.602176634e-12, Dim.energy⟩
/-- TeV -/
noncomputable def TeV : PhysUnit := ⟨1.602176634, Dim.energy⟩
/-- GeV -/
noncomputable def GeV : PhysUnit := ⟨1.602176634e-3, Dim.energy⟩
/-- cm -/
noncomputable def cm : PhysUnit := ⟨1, Dim.length⟩
end PhysUnit

/-- A value with a unit (`astropy.units.Quantity`). -/
structure Qty (α : Type) where
  value : α
  unit : PhysUnit

/-- `q.to(u).value` for a float quantity: UnitConversionError if the dimensions differ. -/
noncomputable def Qty.toValue (q : Qty XR) (u : PhysUnit) : Except PyErr XR :=
  if q.unit.dim = u.dim then .ok (q.value * XR.fin (q.unit.scale / u.scale))
  else .error .unitConversionError

/-- `q.to(u).value` for a real-valued quantity. -/
noncomputable def Qty.toReal (q : Qty ℝ) (u : PhysUnit) : Except PyErr ℝ :=
  if q.unit.dim = u.dim then .ok (q.value * (q.unit.scale / u.scale))
  else .error .unitConversionError

/-- `q.to(u)` for a real-valued quantity. -/
noncomputable def Qty.to (q : Qty ℝ) (u : PhysUnit) : Except PyErr (Qty ℝ) :=
  if q.unit.dim = u.dim then .ok ⟨q.value * (q.unit.scale / u.scale), u⟩
  else .error .unitConversionError

/-- The physical size denoted by a finite quantity, in cgs base units. -/
noncomputable def Qty.phys (q : Qty ℝ) : ℝ := q.value * q.unit.scale

end Naima

namespace Naima

/-- A finite quantity seen as an ideal IEEE quantity. -/
def Qty.lift (q : Qty ℝ) : Qty XR := ⟨XR.fin q.value, q.unit⟩

/-- `q` is a positive energy in some energy unit. -/
structure Qty.PosEnergy (q : Qty ℝ) : Prop where
  isEnergy : q.unit.dim = Dim.energy
  proper : 0 < q.unit.scale
  pos : 0 < q.value

theorem Qty.PosEnergy.phys_pos {q : Qty ℝ} (h : q.PosEnergy) : 0 < q.phys :=
  mul_pos h.pos h.proper

end Naima
