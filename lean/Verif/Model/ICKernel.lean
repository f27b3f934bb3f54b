import Verif.Model.ICSeed
import Verif.Model.Synchrotron

/-!
# Inverse Compton kernels and spectrum (src/naima/radiative.py:345-367, 547-710)

Element-wise on (photon energy, electron energy); a matrix has one row per photon energy.
-/

namespace Naima

open XR Classical

noncomputable section

/-- `np.pi ** 2 / 6` -/
def pi26 : ℝ := Real.pi ^ 2 / 6

/-- The interpolation factor `1 / (a x**alpha / (1 + b x**beta) + 1)` (radiative.py:352-353,
365-366). -/
def gInterp (x : XR) (alpha a beta b : ℝ) : XR :=
  let tmp := fin 1 + fin b * pow x (fin beta)
  fin 1 / (fin a * pow x (fin alpha) / tmp + fin 1)

/-- `G12` (radiative.py:345-354). -/
def G12 (x : XR) (alpha a beta b : ℝ) : XR :=
  (fin pi26 + x) * XR.exp (-x) * gInterp x alpha a beta b

/-- `G34` (radiative.py:357-367). -/
def G34 (x : XR) (alpha a beta b c : ℝ) : XR :=
  let tmp := (fin 1 + fin c * x) / (fin 1 + fin (pi26 * c) * x)
  fin pi26 * tmp * XR.exp (-x) * gInterp x alpha a beta b

/-- `Ktomec2` (radiative.py:557, 589) -/
def Ktomec2 : ℝ := 1.6863699549e-10

/-- `cross_section` of both thermal kernels before masking (radiative.py:562-572, 594-605): `t` is the
temperature in mec2 units, `x` the scaled energy, `h` and `h'` the two `G` factors at `x`. -/
def planckCross (g t : ℝ) (z h h' : XR) : XR :=
  let cross := pow z (fin 2) / (fin 2 * (fin 1 - z)) * h + h'
  let tmp := pow (fin t / fin g) (fin 2) * fin 2.6318735743809104e16
  tmp * cross

/-- One element of `_iso_ic_on_planck` (radiative.py:547-574). `g` and `eg` in units of mec2,
`T` in K. -/
def isoPlanck (g T eg : ℝ) : XR :=
  let t := T * Ktomec2
  let z := fin eg / fin g
  let x := z / (fin 1 - z) / fin (4 * g * t)
  let cross := planckCross g t z (G34 x 0.606 0.443 1.481 0.540 0.319)
    (G34 x 0.461 0.726 1.457 0.382 6.620)
  if eg < g ∧ 1 < g then cross else fin 0

/-- One element of `_ani_ic_on_planck` (radiative.py:576-607); `theta` in rad. -/
def aniPlanck (g T eg theta : ℝ) : XR :=
  let t := T * Ktomec2
  let z := fin eg / fin g
  let ttheta := 2 * g * t * (1 - Real.cos theta)
  let x := z / (fin 1 - z) / fin ttheta
  let cross := planckCross g t z (G12 x 0.857 0.153 1.840 0.254) (G12 x 0.691 1.330 1.668 0.534)
  if eg < g ∧ 1 < g then cross else fin 0

/-- `np.sign` -/
def xsign : XR → XR
  | nan => nan
  | ninf => fin (-1)
  | pinf => fin 1
  | fin x => fin (if x < 0 then -1 else if 0 < x then 1 else 0)

/-- `heaviside` (radiative.py:1539-1540): one half at zero. -/
def heaviside (x : XR) : XR := (xsign x + fin 1) / fin 2

/-- `gamint[np.isnan(gamint)] = 0.0` -/
def nanToZero : XR → XR
  | nan => fin 0
  | a => a

/-- `q` and `fic` of the monochromatic kernel (radiative.py:628-633). -/
def monoQ (b g eg : ℝ) : XR := (fin eg / fin g) / (fin b * (fin 1 - fin eg / fin g))

/-- radiative.py:629-633 -/
def monoFic (b : ℝ) (qq : XR) : XR :=
  fin 2 * qq * XR.log qq + (fin 1 + fin 2 * qq) * (fin 1 - qq) +
    fin (1 / 2) * pow (fin b * qq) (fin 2) * (fin 1 - qq) / (fin 1 + fin b * qq)

/-- One element of `gamint` for a seed photon energy `e0` (all energies in mec2), radiative.py:628-636,
before the photon density. -/
def monoGamint (g e0 eg : ℝ) : XR :=
  let b := 4 * e0 * g
  let qq := monoQ b g eg
  nanToZero (monoFic b qq * heaviside (fin 1 - qq) * heaviside (qq - fin (1 / (4 * g ^ 2))))

/-- `(3/4) sigt c / electron_energy**2` (radiative.py:650-653) -/
def monoPref (g : ℝ) : XR := fin (3 / 4 * 6.652458734983284e-25 * 29979245800) / fin (g ^ 2)

/-- `_iso_ic_on_monochromatic` at one photon and electron energy (radiative.py:609-655).  Seed energies
in mec2; the densities are numbers in `1/(mec2 cm³)` for several energies, in `mec2/cm³` for one. -/
def monoKernel (g eg : ℝ) (seeds : List ℝ) (phn : List XR) : XR :=
  let gamint :=
    match seeds, phn with
    | [e0], [n] => monoGamint g e0 eg * (n / fin (e0 ^ 2))
    | _, _ => trapz (List.zipWith (fun e0 n => monoGamint g e0 eg * n / fin e0) seeds phn)
        (seeds.map fin)
  gamint * monoPref g

/-- A processed seed field with the units taken out: temperature in K, energy density in erg/cm³,
angle in rad; photon energies in mec2 and densities in the unit the kernel expects. -/
inductive SeedNum
  | thermal (T u : ℝ) (theta : Option ℝ)
  | array (energies : List ℝ) (dens : List XR) (theta : Option ℝ)

/-- `uf` (radiative.py:667, 676): energy density over the blackbody density. -/
def SeedNum.uf : SeedNum → XR
  | .thermal T u _ => fin u / fin (cAr * T ^ 4)
  | .array _ _ _ => fin 1

/-- The kernel selected in `_calc_specic` (radiative.py:665-682).  The angle of a non-thermal field is
not used. -/
def SeedNum.kernel : SeedNum → ℝ → ℝ → XR
  | .thermal T _ none, g, eg => isoPlanck g T eg
  | .thermal T _ (some theta), g, eg => aniPlanck g T eg theta
  | .array es ds _, g, eg => monoKernel g eg es ds

/-- `_calc_specic` in 1/(s eV) (radiative.py:657-687, 708): rows of `gamint` by photon energy, times
`nelec`, integrated over `gam`; `lum = uf * Eph * integral`, divided by the photon energy. -/
def calcSpecic (gam : List ℝ) (nelec : List XR) (s : SeedNum) (es : List ℝ) : List XR :=
  let gamint : List (List XR) := es.map (fun e => gam.map (fun g => s.kernel g (e / cMec2)))
  let integ := gamint.map (fun row => trapz (List.zipWith (· * ·) nelec row) (gam.map fin))
  List.zipWith (fun e i => s.uf * fin (e / cMec2) * i / fin e * fin cEV) es integ

/-- `np.sum(u.Quantity(self.specic), axis=0)` (radiative.py:710); without any seed the sum is a bare
0.0, which cannot be converted to a spectrum. -/
def sumSpecic : List (List XR) → Except PyErr (List XR)
  | [] => .error .unitConversionError
  | a :: rest => .ok (rest.foldl (List.zipWith (· + ·)) a)

/-- `InverseCompton._spectrum` on an array of energies in erg (radiative.py:689-710). -/
def icSpectrum (m : ElModel) (seeds : List SeedNum) (pd : PDist) (es : List ℝ) :
    Except PyErr (List XR) := do
  match seeds with
  | [] => .error .unitConversionError
  | _ => do
    let gam ← m.gam
    let nelec ← m.nelec pd
    sumSpecic (seeds.map (fun s => calcSpecic gam nelec s es))

/-- What happens to a zero-dimensional request in the kernel of a field: `np.vstack` of a scalar is a
TypeError (radiative.py:560), `gamma_energy[:, None]` an IndexError (radiative.py:592, 622). -/
def SeedNum.scalarErr : SeedNum → PyErr
  | .thermal _ _ none => .typeError
  | .thermal _ _ (some _) => .indexError
  | .array _ _ _ => .indexError

/-- `InverseCompton._spectrum` for a request of either shape (radiative.py:657-710). -/
def icSpectrumReq (m : ElModel) (seeds : List SeedNum) (pd : PDist) : EneReq → Except PyErr (List XR)
  | .array es => icSpectrum m seeds pd es
  | .scalar _ =>
    match seeds with
    | [] => .error .unitConversionError
    | s :: _ => do
      let _ ← m.gam
      .error s.scalarErr

end

end Naima
