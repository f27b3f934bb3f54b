import Verif.Props.C15_ICKernel
import Verif.Props.C70_SyncFormula

/-! # C71: the inverse Compton spectrum is the documented one, with its normalisation

Energies of electrons and seed photons in electron rest masses, photon energies `E` of the request in
erg. The kernels are those of `Verif/Spec/ICKernel.lean`. -/

namespace Naima.Props

open Naima XR Classical

/-! ### Specification -/

/-- Rate of scattered photons per unit time and photon energy (in 1/(s mc²)) from one electron of
Lorentz factor `γ > 1` in a blackbody of temperature `T` K, isotropic or seen under an angle. -/
noncomputable def thermalRate (T : ℝ) (θ : Option ℝ) (γ ε : ℝ) : ℝ :=
  if ε < γ ∧ 1 < γ then
    match θ with
    | none => Spec.isoThermal γ (1.6863699549e-10 * T) ε
    | some θ => Spec.aniThermal γ (1.6863699549e-10 * T) ε θ
  else 0

/-- Step function, one half at the step. -/
noncomputable def step (x : ℝ) : ℝ := if x < 0 then 0 else if 0 < x then 1 else 1 / 2

/-- Thomson cross section in cm². -/
noncomputable def sigmaT : ℝ := 6.652458734983284e-25

/-- The same from one electron and seed photons of one energy `ε₀`, of number density 1/cm³: eq. 22 of
Aharonian & Atoyan with its kinematic limits `1/4γ² ≤ q ≤ 1`. -/
noncomputable def monoRate (γ ε₀ ε : ℝ) : ℝ :=
  if ε < γ then 3 / 4 * sigmaT * cC / γ ^ 2 / ε₀ *
    (Spec.isoMono γ ε₀ ε * step (1 - Spec.kinQ γ ε₀ ε) * step (Spec.kinQ γ ε₀ ε - 1 / (4 * γ ^ 2)))
  else 0

/-- Electrons per unit Lorentz factor: the distribution at `γ mc²` in units of `1/(mc²)`. -/
noncomputable def electrons (pd : PDist) (γ : ℝ) : XR :=
  pd.f (γ * (cMe * cC ^ 2)) * fin (pd.unit.scale * (cMe * cC ^ 2))

/-! ### Proof -/

theorem fin_sandwich (a e k : ℝ) (he : 0 < e) (hk : 0 < k) (I : XR) :
    fin a * I / fin e * fin k = fin (a / e * k) * I := by
  have h0 : (0:ℝ) < 1 / e := by positivity
  have hd : ∀ x : XR, x / fin e = fin (1 / e) * x := by
    intro x
    cases x with
    | fin x => rw [div_fin _ _ he.ne', mul_fin, fin_inj]; ring
    | nan => rfl
    | pinf => rw [scale_pinf _ h0]; show XR.div _ _ = _; simp [XR.div, he.le]
    | ninf => rw [scale_ninf _ h0]; show XR.div _ _ = _; simp [XR.div, he.le]
  rw [hd, mul_comm' _ (fin k), ← scale_mul k hk, mul_fin, ← scale_mul _ (by positivity), mul_fin]
  congr 2
  ring

theorem ic_icAt (gam : List ℝ) (N K : ℝ → XR) (s : SeedNum) (e : ℝ) (uf : ℝ) (he : 0 < e)
    (huf : s.uf = fin uf) (hK : ∀ g ∈ gam, s.kernel g (e / cMec2) = K g) :
    icAt gam (gam.map N) s e =
      fin (uf * cEV / (cMe * cC ^ 2)) * trapzLL (gam.map (fun g => (fin g, N g * K g))) := by
  unfold icAt
  have := cMec2_pos
  rw [huf, mul_fin, fin_sandwich _ _ _ he cEV_pos]
  congr 1
  · rw [fin_inj]; unfold cMec2 at *; field_simp
  · unfold trapz
    congr 1
    rw [List.zipWith_map, List.zipWith_self]
    have : ∀ (l : List ℝ) (f h : ℝ → XR), (l.map f).zip (l.map h) = l.map (fun g => (f g, h g)) := by
      intro l f h
      induction l with
      | nil => rfl
      | cons a l ih => simp [ih]
    rw [this]
    apply List.map_congr_left
    intro g hg
    rw [hK g hg]

theorem ic_single (m : ElModel) (pd : PDist) (hu : pd.unit.dim = Dim.diffEnergy)
    (hlo : m.Eemin.PosEnergy) (hhi : m.Eemax.PosEnergy) (hle : m.Eemin.phys ≤ m.Eemax.phys)
    (s : SeedNum) (uf : ℝ) (huf : s.uf = fin uf) (K : ℝ → ℝ → XR) (es : List ℝ)
    (hes : ∀ e ∈ es, 0 < e)
    (hK : ∀ g e, 0 < g → 0 < e → s.kernel g (e / cMec2) = K g e) :
    ∃ gam, m.gam = .ok gam ∧ (∀ g ∈ gam, 0 < g) ∧
      icSpectrum m [s] pd es = .ok (es.map (fun e => fin (uf * cEV / (cMe * cC ^ 2)) *
        trapzLL (gam.map (fun g => (fin g, electrons pd g * K g e))))) := by
  obtain ⟨gam, hg, hgp, -⟩ := gamGrid_facts m.nEed m.Eemin m.Eemax hlo hhi hle
  have hg : m.gam = .ok gam := hg
  refine ⟨gam, hg, hgp, ?_⟩
  rw [icSpectrum_eq, hg, nelec_eq m pd hu gam hg]
  simp only [bind, Except.bind, pure, Except.pure]
  congr 1
  apply List.map_congr_left
  intro e he
  have hN : (gam.map (· * cMec2)).map (fun e => pd.f e * XR.fin (pd.unit.scale / perMec2.scale)) =
      gam.map (electrons pd) := by
    rw [List.map_map]
    apply List.map_congr_left
    intro g _
    have : pd.unit.scale / perMec2.scale = pd.unit.scale * (cMe * cC ^ 2) := by
      simp only [perMec2, cMec2, one_div, div_inv_eq_mul]
    simp only [Function.comp_apply, electrons, this]
    rfl
  rw [hN]
  simp only [icTotal, List.foldl_nil]
  exact ic_icAt gam _ (fun g => K g e) s e uf (hes e he) huf (fun g h => hK g e (hgp g h) (hes e he))

/-- **C71 (thermal fields).** For all electrons, ranges, temperatures `T > 0`, energy densities, angles
other than 0 and photon energies `> 0`: the spectrum at `E` is (energy density over that of a
blackbody) times the log-log integral of electrons × published rate at `E/mc²`, in 1/(s eV). -/
theorem C71_thermal (m : ElModel) (pd : PDist) (hu : pd.unit.dim = Dim.diffEnergy)
    (hlo : m.Eemin.PosEnergy) (hhi : m.Eemax.PosEnergy) (hle : m.Eemin.phys ≤ m.Eemax.phys)
    (T dens : ℝ) (θ : Option ℝ) (hT : 0 < T) (hθ : ∀ x, θ = some x → Real.cos x ≠ 1)
    (es : List ℝ) (hes : ∀ e ∈ es, 0 < e) :
    ∃ gam, m.gam = .ok gam ∧ (∀ g ∈ gam, 0 < g) ∧
      icSpectrum m [.thermal T dens θ] pd es = .ok (es.map (fun E =>
        fin (dens / (4 * cSigma / cC * T ^ 4) * cEV / (cMe * cC ^ 2)) *
          trapzLL (gam.map (fun g => (fin g,
            electrons pd g * fin (thermalRate T θ g (E / (cMe * cC ^ 2)))))))) := by
  have hA := cAr_pos
  apply ic_single m pd hu hlo hhi hle (.thermal T dens θ) _ _
    (fun g E => fin (thermalRate T θ g (E / (cMe * cC ^ 2)))) es hes
  · intro g e hg he
    have heg : 0 < e / cMec2 := div_pos he cMec2_pos
    show _ = fin (thermalRate T θ g (e / cMec2))
    generalize e / cMec2 = ε at heg
    unfold thermalRate
    cases θ with
    | none =>
      obtain ⟨h1, h2⟩ := C15_isotropic g T ε hT heg
      simp only [SeedNum.kernel]
      split
      · rename_i h; exact (h2 h.1 h.2).1
      · rename_i h; apply h1; by_contra h'; push Not at h'; exact h h'
    | some θ =>
      obtain ⟨h1, h2⟩ := C15_anisotropic_partial g T ε θ hT heg (hθ θ rfl)
      simp only [SeedNum.kernel]
      split
      · rename_i h; exact (h2 h.1 h.2).1
      · rename_i h; apply h1; by_contra h'; push Not at h'; exact h h'
  · simp only [SeedNum.uf]
    rw [div_fin _ _ (by positivity)]
    rfl

theorem heaviside_step (x : ℝ) : heaviside (fin x) = fin (step x) := by
  unfold heaviside step xsign
  simp only [add_fin]
  rw [div_fin _ _ (by norm_num), fin_inj]
  split
  · norm_num
  · split <;> norm_num

theorem isoMono_code (g e0 eg : ℝ) (he0 : 0 < e0) (heg : 0 < eg) (hlt : eg < g) :
    monoGamint g e0 eg = fin (Spec.isoMono g e0 eg * step (1 - Spec.kinQ g e0 eg) *
      step (Spec.kinQ g e0 eg - 1 / (4 * g ^ 2))) := by
  have hg : 0 < g := by linarith
  have hw1 : eg / g < 1 := by rwa [div_lt_one hg]
  have h1 : 0 < 1 - eg / g := by linarith
  have hq : Spec.kinQ g e0 eg = eg / g / (4 * e0 * g * (1 - eg / g)) := by
    unfold Spec.kinQ
    have : g - eg ≠ 0 := by intro h; linarith
    have h2 : 1 - eg / g = (g - eg) / g := by field_simp
    rw [h2]
    field_simp
  have hqp : 0 < Spec.kinQ g e0 eg := by rw [hq]; positivity
  have hQ : monoQ (4 * e0 * g) g eg = fin (Spec.kinQ g e0 eg) := by
    unfold monoQ
    rw [div_fin _ _ hg.ne', sub_fin, mul_fin, div_fin _ _ (by positivity), hq]
  have hF : monoFic (4 * e0 * g) (fin (Spec.kinQ g e0 eg)) = fin (Spec.isoMono g e0 eg) := by
    unfold monoFic Spec.isoMono
    generalize Spec.kinQ g e0 eg = q at hqp
    have h2 : 0 < 1 + 4 * e0 * g * q := by positivity
    simp only [log_fin _ hqp, mul_fin, add_fin, sub_fin,
      pow_fin _ _ (by positivity : 0 < 4 * e0 * g * q), div_fin _ _ h2.ne', fin_inj]
    have e2 : (4 * e0 * g * q) ^ (2 : ℝ) = (4 * e0 * g * q) ^ 2 := by
      rw [show (2 : ℝ) = ((2 : ℕ) : ℝ) by norm_num, Real.rpow_natCast]
    rw [e2]
    field_simp
  unfold monoGamint
  simp only [hQ, hF, sub_fin, heaviside_step, mul_fin, nanToZero]

theorem monoKernel_one (g eg e0 d : ℝ) (hg : 0 < g) (he0 : 0 < e0) (heg : 0 < eg) :
    monoKernel g eg [e0] [fin d] = fin (d / e0 * monoRate g e0 eg) := by
  unfold monoKernel monoPref monoRate
  simp only
  rw [div_fin _ _ (by positivity), div_fin _ _ (by positivity)]
  rcases lt_or_ge eg g with h | h
  · rw [isoMono_code g e0 eg he0 heg h, if_pos h, mul_fin, mul_fin, fin_inj]
    unfold sigmaT cC
    field_simp
  · rw [monoGamint_zero g e0 eg hg he0 h, if_neg (by linarith), mul_fin, mul_fin, fin_inj]
    simp

/-- **C71 (monochromatic field).** Seed photons of one energy `ε₀` (in mc²) with energy density `d` (in
mc²/cm³), that is number density `d/ε₀`: the spectrum is the integral of electrons × number density ×
Aharonian & Atoyan's rate. -/
theorem C71_monochromatic (m : ElModel) (pd : PDist) (hu : pd.unit.dim = Dim.diffEnergy)
    (hlo : m.Eemin.PosEnergy) (hhi : m.Eemax.PosEnergy) (hle : m.Eemin.phys ≤ m.Eemax.phys)
    (ε₀ d : ℝ) (h0 : 0 < ε₀) (θ : Option ℝ) (es : List ℝ) (hes : ∀ e ∈ es, 0 < e) :
    ∃ gam, m.gam = .ok gam ∧ (∀ g ∈ gam, 0 < g) ∧
      icSpectrum m [.array [ε₀] [fin d] θ] pd es = .ok (es.map (fun E =>
        fin (cEV / (cMe * cC ^ 2)) * trapzLL (gam.map (fun g => (fin g,
            electrons pd g * fin (d / ε₀ * monoRate g ε₀ (E / (cMe * cC ^ 2)))))))) := by
  obtain ⟨gam, h1, h2, h3⟩ := ic_single m pd hu hlo hhi hle (.array [ε₀] [fin d] θ) 1 rfl
    (fun g E => fin (d / ε₀ * monoRate g ε₀ (E / (cMe * cC ^ 2)))) es hes (by
      intro g e hg he
      exact monoKernel_one g (e / cMec2) ε₀ d hg h0 (div_pos he cMec2_pos))
  refine ⟨gam, h1, h2, ?_⟩
  rw [h3]
  simp only [one_mul]

theorem zip_map_map {α β γ : Type} (l : List α) (f : α → β) (h : α → γ) :
    (l.map f).zip (l.map h) = l.map (fun g => (f g, h g)) := by
  induction l with
  | nil => rfl
  | cons a l ih => simp [ih]

theorem monoKernel_many (g ε : ℝ) (l : List (ℝ × ℝ)) (hg : 0 < g) (heg : 0 < ε) (h2 : 2 ≤ l.length)
    (h0 : ∀ p ∈ l, 0 < p.1) :
    monoKernel g ε (l.map (·.1)) (l.map (fun p => fin p.2)) =
      trapzLL (l.map (fun p => (fin p.1, fin (p.2 * monoRate g p.1 ε)))) := by
  have hk : monoKernel g ε (l.map (·.1)) (l.map (fun p => fin p.2)) =
      trapz (List.zipWith (fun e0 n => monoGamint g e0 ε * n / fin e0) (l.map (·.1))
        (l.map (fun p => fin p.2))) ((l.map (·.1)).map fin) * monoPref g := by
    match l, h2 with
    | a :: b :: rest, _ => rfl
  have hp : 0 < 3 / 4 * sigmaT * cC / g ^ 2 := by
    have := cC_pos; unfold sigmaT; positivity
  have hpre : monoPref g = fin (3 / 4 * sigmaT * cC / g ^ 2) := by
    unfold monoPref
    rw [div_fin _ _ (by positivity), fin_inj]; unfold sigmaT cC; ring
  rw [hk, hpre, mul_comm', ← trapz_scale_y _ hp]
  unfold trapz
  congr 1
  rw [List.zipWith_map, List.zipWith_self, List.map_map, List.map_map, zip_map_map]
  apply List.map_congr_left
  intro p hpm
  have hp0 := h0 p hpm
  simp only [Function.comp_apply, Prod.mk.injEq, true_and]
  unfold monoRate
  rcases lt_or_ge ε g with h | h
  · rw [isoMono_code g p.1 ε hp0 heg h, if_pos h, mul_fin, div_fin _ _ hp0.ne', mul_fin, fin_inj]
    field_simp
  · rw [monoGamint_zero g p.1 ε hg hp0 h, if_neg (by linarith), mul_fin, div_fin _ _ hp0.ne',
      mul_fin, fin_inj]
    simp

/-- **C71 (photon spectrum).** Seed photons given as two or more energies (in mc², positive) with
differential densities (in 1/(mc² cm³)): the rate of one electron is the log-log integral over the
seed photon energies of density × Aharonian & Atoyan's rate. -/
theorem C71_spectral (m : ElModel) (pd : PDist) (hu : pd.unit.dim = Dim.diffEnergy)
    (hlo : m.Eemin.PosEnergy) (hhi : m.Eemax.PosEnergy) (hle : m.Eemin.phys ≤ m.Eemax.phys)
    (field : List (ℝ × ℝ)) (h2 : 2 ≤ field.length) (h0 : ∀ p ∈ field, 0 < p.1) (θ : Option ℝ)
    (es : List ℝ) (hes : ∀ e ∈ es, 0 < e) :
    ∃ gam, m.gam = .ok gam ∧ (∀ g ∈ gam, 0 < g) ∧
      icSpectrum m [.array (field.map (·.1)) (field.map (fun p => fin p.2)) θ] pd es =
        .ok (es.map (fun E =>
        fin (cEV / (cMe * cC ^ 2)) * trapzLL (gam.map (fun g => (fin g,
            electrons pd g * trapzLL (field.map (fun p => (fin p.1,
              fin (p.2 * monoRate g p.1 (E / (cMe * cC ^ 2))))))))))) := by
  obtain ⟨gam, h1, hgp, h3⟩ := ic_single m pd hu hlo hhi hle
    (.array (field.map (·.1)) (field.map (fun p => fin p.2)) θ) 1 rfl
    (fun g E => trapzLL (field.map (fun p => (fin p.1,
              fin (p.2 * monoRate g p.1 (E / (cMe * cC ^ 2))))))) es hes (by
      intro g e hg he
      have heg : 0 < e / cMec2 := div_pos he cMec2_pos
      show monoKernel g (e / cMec2) _ _ = trapzLL (field.map (fun p => (fin p.1,
              fin (p.2 * monoRate g p.1 (e / cMec2)))))
      generalize e / cMec2 = ε at heg
      exact monoKernel_many g ε field hg heg h2 h0)
  refine ⟨gam, h1, hgp, ?_⟩
  rw [h3]
  simp only [one_mul]

/-! ### Hypotheses are met -/

example := C71_thermal exEl exPd rfl exEl_lo exEl_hi exEl_lt.le 2.7 4e-13 (some 1) (by norm_num)
  (by rintro x h; cases h; exact cos_one_ne) exEs exEs_pos

example := C71_monochromatic exEl exPd rfl exEl_lo exEl_hi exEl_lt.le 1e-12 3 (by norm_num) (some 1)
  exEs exEs_pos

example := C71_spectral exEl exPd rfl exEl_lo exEl_hi exEl_lt.le [(1e-12, 3), (2e-12, 1)] (by simp)
  (by simp; norm_num) none exEs exEs_pos

end Naima.Props
