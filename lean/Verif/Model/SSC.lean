import Verif.Model.ICModel

/-!
# Synchrotron self Compton (docs/radiative.rst, "Synchroton Self Compton"; examples/CrabNebula_SynSSC.py:26-46)

The documented recipe that feeds the result of one radiative model to another: the synchrotron
luminosity (`flux` with `distance=0`) becomes the photon density of a seed field.
-/

namespace Naima

open XR Classical

noncomputable section

/-- `astropy.constants.c`: 299792458 m/s. -/
def lightSpeed : Qty ℝ := ⟨299792458, ⟨100, { len := 1, time := -1 }⟩⟩

/-- The recipe's photon densities (CrabNebula_SynSSC.py:29-32; docs/radiative.rst):
`Lsy = SYN.flux(Esy, distance=0 * u.cm)` and `phn_sy = Lsy / (4 * np.pi * R ** 2 * c) * 2.24`: the numbers are
divided and multiplied, the unit is the quotient of the units. -/
def sscDensity (syn : SyncModel) (pd : PDist) (Esy : Qty (List ℝ)) (R : Qty ℝ) :
    Except PyErr (Qty (List XR)) := do
  let L ← fluxOf (syn.spectrum pd) Esy (.qty ⟨0, PhysUnit.cm⟩)
  return ⟨L.value.map (fun l => l / fin (4 * Real.pi * R.value ^ 2 * lightSpeed.value) * fin 2.24),
    ⟨L.unit.scale / (R.unit.scale ^ 2 * lightSpeed.unit.scale),
      L.unit.dim.div ((R.unit.dim.mul R.unit.dim).mul lightSpeed.unit.dim)⟩⟩

/-- The entry `["SSC", Esy, phn_sy]` of the list of seed fields (CrabNebula_SynSSC.py:40). -/
def sscSeed (Esy : Qty (List ℝ)) (n : Qty (List XR)) : SeedSpec :=
  .list3 "SSC" (.qarr [Esy.value.length] (Esy.value.map fin) Esy.unit) (.qarr [n.value.length] n.value n.unit)

/-- `InverseCompton(pd, seed_photon_fields=others + [["SSC", Esy, phn_sy]])` and its spectrum
(CrabNebula_SynSSC.py:34-46). -/
def sscSpectrum (m : ElModel) (others : List SeedSpec) (syn : SyncModel) (pd : PDist) (Esy : Qty (List ℝ))
    (R : Qty ℝ) (es : List ℝ) : Except PyErr (List XR) := do
  let n ← sscDensity syn pd Esy R
  icModelSpectrum m (.list (others ++ [sscSeed Esy n])) pd es

end

end Naima
