import Verif.Props.C14_Synchrotron

/-! # C70: the synchrotron spectrum is the documented emissivity, and its field scaling

The specification below is in ordinary real numbers and takes nothing from the model of the code. -/

namespace Naima.Props

open Naima XR Classical

/-! ### Specification (Aharonian, Kelner & Prosekin 2010, eq. D7; docs of `Synchrotron`) -/

/-- The angle-averaged synchrotron function of AKP10, eq. D7. -/
noncomputable def gAKP (x : ℝ) : ℝ :=
  1.808 * x ^ ((1 : ℝ) / 3) / Real.sqrt (1 + 3.4 * x ^ ((2 : ℝ) / 3)) *
    ((1 + 2.210 * x ^ ((2 : ℝ) / 3) + 0.347 * x ^ ((4 : ℝ) / 3)) /
     (1 + 1.353 * x ^ ((2 : ℝ) / 3) + 0.217 * x ^ ((4 : ℝ) / 3))) * Real.exp (-x)

/-- Critical photon energy `3 e ħ B γ² / (2 m c)`; `q`, `m` charge and mass of the electron. -/
noncomputable def critEnergy (q m c hbar B γ : ℝ) : ℝ := 3 / 2 * (q * hbar / (m * c)) * B * γ ^ 2

/-- Photons per unit time and photon energy from one electron:
`√3/(2π) · e³B / (m c² ħ E) · G(E/Ec)`. -/
noncomputable def syncEmission (q m c hbar B γ E : ℝ) : ℝ :=
  Real.sqrt 3 / (2 * Real.pi) * (q ^ 3 * B) / (m * c ^ 2 * hbar * E) *
    gAKP (E / critEnergy q m c hbar B γ)

/-! ### The code against the specification -/

theorem zip_self_map {α : Type} (l : List α) : l.zip l = l.map (fun a => (a, a)) := by
  induction l with
  | nil => rfl
  | cons a l ih => simp [ih]

theorem Gtilde_eq (x : ℝ) (hx : 0 < x) : Gtilde (fin x) = fin (gAKP x) := by
  set c : ℝ := x ^ ((1 : ℝ) / 3) with hc
  have hc0 : 0 < c := Real.rpow_pos_of_pos hx _
  have e2 : x ^ ((2 : ℝ) / 3) = c ^ 2 := by
    rw [hc, ← Real.rpow_natCast, ← Real.rpow_mul hx.le]; norm_num
  have e4 : x ^ ((4 : ℝ) / 3) = c ^ 4 := by
    rw [hc, ← Real.rpow_natCast, ← Real.rpow_mul hx.le]; norm_num
  have hsq : sq (fin c) = fin (c ^ 2) := by
    unfold sq; rw [pow_fin _ _ hc0]; norm_cast
  have hp4 : XR.pow (fin c) (fin 4) = fin (c ^ 4) := by
    rw [pow_fin _ _ hc0]; norm_cast
  have hcb : cbrt (fin x) = fin c := by simp [cbrt, hx.le, hc]
  unfold Gtilde gAKP
  rw [e2, e4, ← hc]
  simp only [hcb, hsq, hp4, mul_fin, add_fin, neg_fin, exp_fin]
  have h1 : (0 : ℝ) < 1 + 3.4 * c ^ 2 := by positivity
  rw [sqrt_fin _ h1.le, div_fin _ _ (Real.sqrt_pos.2 h1).ne', div_fin _ _ (by positivity)]
  simp only [mul_fin]

theorem syncKernel_eq (b g e : ℝ) (hb : 0 < b) (hg : 0 < g) (he : 0 < e) :
    syncKernel b g e = fin (syncEmission cE cMe cC cHbar b g e) := by
  have := cE_pos; have := cHbar_pos; have := cMe_pos; have := cC_pos
  have hp := syncEc_pos b g hb hg
  have hq : syncEc b g = critEnergy cE cMe cC cHbar b g := by
    unfold syncEc critEnergy; field_simp
  unfold syncKernel syncCS1
  rw [div_fin e _ hp.ne', Gtilde_eq _ (div_pos he hp), hq, div_fin _ _ (by positivity), mul_fin]
  unfold syncEmission
  congr 1
  field_simp

/-- **C70 (documented formula).** For every electron distribution, every field `B > 0` in any unit,
every range and photon energies `> 0`: the spectrum at photon energy `E` is the log-log integral
over the Lorentz factor grid of (electrons per unit Lorentz factor) × (emission of one electron,
AKP10), in 1/(s eV). The electrons are those of the distribution at `γ mc²`, converted to `1/(mc²)`. -/
theorem C70_documented (m : SyncModel) (pd : PDist) (hu : pd.unit.dim = Dim.diffEnergy)
    (hlo : m.Eemin.PosEnergy) (hhi : m.Eemax.PosEnergy) (hle : m.Eemin.phys ≤ m.Eemax.phys)
    (hB : m.B.unit.dim = Dim.magFluxDensity) (hBp : 0 < m.B.phys) (es : List ℝ)
    (hes : ∀ e ∈ es, 0 < e) :
    ∃ gam, m.toElModel.gam = .ok gam ∧ (∀ g ∈ gam, 0 < g) ∧
      m.spectrum pd es = .ok (es.map (fun e =>
        trapzLL (gam.map (fun g => (fin g, pd.f (g * (cMe * cC ^ 2)) * fin (pd.unit.scale * (cMe * cC ^ 2))
          * fin (syncEmission cE cMe cC cHbar (m.B.phys / 0.1) g e)))) * fin cEV)) := by
  obtain ⟨gam, hg, hgp, -⟩ := gamGrid_facts m.nEed m.Eemin m.Eemax hlo hhi hle
  have hg : m.toElModel.gam = .ok gam := hg
  refine ⟨gam, hg, hgp, ?_⟩
  have hb : m.B.toReal gauss = .ok (m.B.phys / 0.1) := by
    unfold Qty.toReal
    rw [if_pos (by rw [hB]; rfl), phys_ratio]; rfl
  rw [m.spectrum_eq, hb, hg, nelec_eq m.toElModel pd hu gam hg]
  simp only [bind, Except.bind, pure, Except.pure]
  congr 1
  apply List.map_congr_left
  intro e he
  unfold syncAt
  congr 2
  rw [List.map_map, List.zip_map_right, zip_self_map]
  simp only [List.map_map]
  apply List.map_congr_left
  intro g hgm
  simp only [Function.comp_apply, Prod.map, id_eq]
  rw [syncKernel_eq _ _ _ (by positivity) (hgp g hgm) (hes e he)]
  have : pd.unit.scale / perMec2.scale = pd.unit.scale * (cMe * cC ^ 2) := by
    simp only [perMec2, cMec2, one_div, div_inv_eq_mul]
  rw [this]; rfl

/-- **C70 (field scaling).** Multiplying the field and all photon energies by the same `k > 0` leaves
every value of the spectrum exactly as it was: for all distributions (also non-finite ones), ranges
and fields `B > 0`. -/
theorem C70_field_scaling (m m' : SyncModel) (pd : PDist) (k : ℝ) (hk : 0 < k)
    (hm : m'.toElModel = m.toElModel) (hu : pd.unit.dim = Dim.diffEnergy)
    (hlo : m.Eemin.PosEnergy) (hhi : m.Eemax.PosEnergy) (hle : m.Eemin.phys ≤ m.Eemax.phys)
    (hB : m.B.unit.dim = Dim.magFluxDensity) (hB' : m'.B.unit.dim = Dim.magFluxDensity)
    (hBp : 0 < m.B.phys) (hBk : m'.B.phys = k * m.B.phys) (es : List ℝ) (hes : ∀ e ∈ es, 0 < e) :
    m'.spectrum pd (es.map (k * ·)) = m.spectrum pd es := by
  obtain ⟨gam, hg, hgp, h⟩ := C70_documented m pd hu hlo hhi hle hB hBp es hes
  obtain ⟨gam', hg', -, h'⟩ := C70_documented m' pd hu (hm ▸ hlo) (hm ▸ hhi) (hm ▸ hle) hB'
    (by rw [hBk]; positivity) (es.map (k * ·))
    (by intro e he; obtain ⟨x, hx, rfl⟩ := List.mem_map.1 he; exact mul_pos hk (hes x hx))
  rw [hm, hg] at hg'
  injection hg' with hg'
  subst hg'
  rw [h, h', List.map_map]
  congr 1
  apply List.map_congr_left
  intro e he
  simp only [Function.comp_apply]
  congr 2
  apply List.map_congr_left
  intro g hgm
  have := cE_pos; have := cHbar_pos; have := cMe_pos; have := cC_pos; have := hgp g hgm
  have := hes e he
  congr 3
  rw [hBk]
  have h1 : k * e / critEnergy cE cMe cC cHbar (k * m.B.phys / 0.1) g =
      e / critEnergy cE cMe cC cHbar (m.B.phys / 0.1) g := by
    unfold critEnergy; field_simp
  unfold syncEmission
  rw [h1]
  congr 1
  field_simp

/-- **C70 (unit of the field).** Only the physical size of `B` matters: the same field in tesla, gauss
or microgauss gives the same spectrum, for all inputs. -/
theorem C70_field_unit (m m' : SyncModel) (pd : PDist) (hm : m'.toElModel = m.toElModel)
    (hB : m'.B.unit.dim = m.B.unit.dim) (hp : m'.B.phys = m.B.phys) (es : List ℝ) :
    m'.spectrum pd es = m.spectrum pd es := by
  have : m'.B.toReal gauss = m.B.toReal gauss := by
    unfold Qty.toReal
    rw [hB, phys_ratio, phys_ratio, hp]
  rw [m'.spectrum_eq, m.spectrum_eq, this, hm]

/-- **C70 (exponential cutoff).** Above the critical energy of an electron its emission is
exponentially suppressed: at most `1.808·1.7·x^(1/3)·e^(-x)` times the prefactor, `x = E/Ec`; and it is
never more than `1.808·1.7·x^(1/3)` times the prefactor below. -/
theorem C70_cutoff (x : ℝ) (hx : 0 < x) :
    ∃ r, Gtilde (fin x) = fin r ∧ 0 < r ∧
      r ≤ 1.808 * 1.7 * x ^ ((1 : ℝ) / 3) * Real.exp (-x) := by
  refine ⟨_, Gtilde_eq x hx, ?_⟩
  have h1 : 0 < x ^ ((1 : ℝ) / 3) := Real.rpow_pos_of_pos hx _
  have h2 : 0 < x ^ ((2 : ℝ) / 3) := Real.rpow_pos_of_pos hx _
  have h4 : 0 < x ^ ((4 : ℝ) / 3) := Real.rpow_pos_of_pos hx _
  have hs : (1:ℝ) ≤ Real.sqrt (1 + 3.4 * x ^ ((2 : ℝ) / 3)) := by
    rw [Real.one_le_sqrt]; linarith [mul_pos (by norm_num : (0:ℝ) < 3.4) h2]
  unfold gAKP
  refine ⟨by positivity, ?_⟩
  have hr : (1 + 2.210 * x ^ ((2 : ℝ) / 3) + 0.347 * x ^ ((4 : ℝ) / 3)) /
     (1 + 1.353 * x ^ ((2 : ℝ) / 3) + 0.217 * x ^ ((4 : ℝ) / 3)) ≤ 1.7 := by
    rw [div_le_iff₀ (by positivity)]; nlinarith
  have hq : 1.808 * x ^ ((1 : ℝ) / 3) / Real.sqrt (1 + 3.4 * x ^ ((2 : ℝ) / 3)) ≤
      1.808 * x ^ ((1 : ℝ) / 3) := div_le_self (by positivity) hs
  apply mul_le_mul_of_nonneg_right _ (Real.exp_pos _).le
  calc _ ≤ 1.808 * x ^ ((1 : ℝ) / 3) * 1.7 := by
        apply mul_le_mul hq hr (by positivity) (by positivity)
    _ = _ := by ring

/-- The hypotheses are met by 3.24 µG, the default range and doubled field and energies. -/
example : ∃ (m m' : SyncModel), m'.toElModel = m.toElModel ∧ m.Eemin.PosEnergy ∧ m.Eemax.PosEnergy ∧
    m.Eemin.phys ≤ m.Eemax.phys ∧ m.B.unit.dim = Dim.magFluxDensity ∧
    m'.B.unit.dim = Dim.magFluxDensity ∧ 0 < m.B.phys ∧ m'.B.phys = 2 * m.B.phys := by
  refine ⟨⟨⟨⟨1, PhysUnit.GeV⟩, ⟨510, PhysUnit.TeV⟩, 100⟩, ⟨3.24e-6, gauss⟩⟩,
    ⟨⟨⟨1, PhysUnit.GeV⟩, ⟨510, PhysUnit.TeV⟩, 100⟩, ⟨6.48e-6, gauss⟩⟩, rfl,
    ⟨rfl, GeV_pos, by norm_num⟩, ⟨rfl, by simp only [PhysUnit.TeV]; norm_num, by norm_num⟩, ?_, rfl,
    rfl, ?_, ?_⟩
  · simp only [Qty.phys, PhysUnit.GeV, PhysUnit.TeV]; norm_num
  · simp only [Qty.phys, gauss]; norm_num
  · simp only [Qty.phys, gauss]; norm_num

end Naima.Props
