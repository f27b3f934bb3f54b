import Verif.Props.C83_Arrays
import Verif.Props.C22_C24_Models
import Verif.Model.ICModel
import Mathlib.MeasureTheory.Integral.IntegralEqImproper
import Mathlib.Analysis.SpecialFunctions.ImproperIntegrals

/-! # C103: the shape of synchrotron spectra -/

namespace Naima.Props

open Naima XR Classical Topology
open Filter (Tendsto atTop)

/-! ### Specification -/

/-- Coefficient of `E^(-2/3)` in the emission of one electron of Lorentz factor `γ` far below its critical
energy: `√3/(2π) · e³B/(m c² ħ) · 1.808 / Ec^(1/3)`. -/
noncomputable def lowCoefficient (B γ : ℝ) : ℝ :=
  Real.sqrt 3 / (2 * Real.pi) * (cE ^ 3 * B) / (cMe * cC ^ 2 * cHbar) * 1.808 *
    (critEnergy cE cMe cC cHbar B γ) ^ (-(1 : ℝ) / 3)

/-! ### Proofs -/

theorem gAKP_bounds (x : ℝ) (hx : 0 < x) :
    1.808 * x ^ ((1 : ℝ) / 3) * Real.exp (-x) / Real.sqrt (1 + 3.4 * x ^ ((2 : ℝ) / 3)) ≤ gAKP x ∧
      gAKP x ≤ 1.808 * x ^ ((1 : ℝ) / 3) * Real.exp (-x) := by
  have h1 : 0 < x ^ ((1:ℝ) / 3) := Real.rpow_pos_of_pos hx _
  have h2 : 0 < x ^ ((2:ℝ) / 3) := Real.rpow_pos_of_pos hx _
  have e4 : x ^ ((4 : ℝ) / 3) = (x ^ ((2:ℝ) / 3)) ^ 2 := by
    rw [← Real.rpow_natCast, ← Real.rpow_mul hx.le]; norm_num
  unfold gAKP
  rw [e4]
  set y := x ^ ((2:ℝ) / 3) with hy
  have hs : 0 < Real.sqrt (1 + 3.4 * y) := Real.sqrt_pos.2 (by positivity)
  have hexp := Real.exp_pos (-x)
  have hD : 0 < 1 + 1.353 * y + 0.217 * y ^ 2 := by positivity
  have hlow : 1 ≤ (1 + 2.210 * y + 0.347 * y ^ 2) / (1 + 1.353 * y + 0.217 * y ^ 2) := by
    rw [one_le_div hD]; nlinarith
  have hup : (1 + 2.210 * y + 0.347 * y ^ 2) / (1 + 1.353 * y + 0.217 * y ^ 2) ≤ Real.sqrt (1 + 3.4 * y) := by
    apply Real.le_sqrt_of_sq_le
    rw [div_pow, div_le_iff₀ (by positivity)]
    have : 0 ≤ y ^ 3 := by positivity
    have : 0 ≤ y ^ 4 := by positivity
    have : 0 ≤ y ^ 5 := by positivity
    nlinarith
  constructor
  · calc _ = 1.808 * x ^ ((1 : ℝ) / 3) / Real.sqrt (1 + 3.4 * y) * 1 * Real.exp (-x) := by ring
      _ ≤ _ := by
        apply mul_le_mul_of_nonneg_right _ hexp.le
        exact mul_le_mul_of_nonneg_left hlow (by positivity)
  · apply mul_le_mul_of_nonneg_right _ hexp.le
    calc _ ≤ 1.808 * x ^ ((1 : ℝ) / 3) / Real.sqrt (1 + 3.4 * y) * Real.sqrt (1 + 3.4 * y) :=
          mul_le_mul_of_nonneg_left hup (by positivity)
      _ = _ := by field_simp

theorem critEnergy_pos (B γ : ℝ) (hB : 0 < B) (hγ : 0 < γ) : 0 < critEnergy cE cMe cC cHbar B γ := by
  have := cE_pos; have := cHbar_pos; have := cMe_pos; have := cC_pos
  unfold critEnergy; positivity

theorem critEnergy_mono (B γ γ' : ℝ) (hB : 0 < B) (hγ : 0 < γ) (h : γ ≤ γ') :
    critEnergy cE cMe cC cHbar B γ ≤ critEnergy cE cMe cC cHbar B γ' := by
  have := cE_pos; have := cHbar_pos; have := cMe_pos; have := cC_pos
  unfold critEnergy
  exact mul_le_mul_of_nonneg_left (pow_le_pow_left₀ hγ.le h 2) (by positivity)

theorem lowCoefficient_pos (B γ : ℝ) (hB : 0 < B) (hγ : 0 < γ) : 0 < lowCoefficient B γ := by
  have := cE_pos; have := cHbar_pos; have := cMe_pos; have := cC_pos
  have := Real.rpow_pos_of_pos (critEnergy_pos B γ hB hγ) (-(1:ℝ) / 3)
  have := Real.pi_pos
  unfold lowCoefficient; positivity

/-- emission of one electron against its asymptote -/
theorem syncEmission_bounds (B γ e : ℝ) (hB : 0 < B) (hγ : 0 < γ) (he : 0 < e) :
    lowCoefficient B γ * (e ^ (-(2:ℝ) / 3) * Real.exp (-(e / critEnergy cE cMe cC cHbar B γ)) /
        Real.sqrt (1 + 3.4 * (e / critEnergy cE cMe cC cHbar B γ) ^ ((2 : ℝ) / 3))) ≤
        syncEmission cE cMe cC cHbar B γ e ∧
      syncEmission cE cMe cC cHbar B γ e ≤
        lowCoefficient B γ * (e ^ (-(2:ℝ) / 3) * Real.exp (-(e / critEnergy cE cMe cC cHbar B γ))) := by
  have := cE_pos; have := cHbar_pos; have := cMe_pos; have := cC_pos; have := Real.pi_pos
  have hc := critEnergy_pos B γ hB hγ
  obtain ⟨b1, b2⟩ := gAKP_bounds (e / critEnergy cE cMe cC cHbar B γ) (div_pos he hc)
  unfold syncEmission lowCoefficient
  set k := critEnergy cE cMe cC cHbar B γ with hk
  have e1 : (e / k) ^ ((1:ℝ) / 3) = e * e ^ (-(2:ℝ) / 3) * k ^ (-(1:ℝ) / 3) := by
    rw [Real.div_rpow he.le hc.le, div_eq_mul_inv, ← Real.rpow_neg hc.le]
    rw [show e * e ^ (-(2:ℝ) / 3) = e ^ ((1:ℝ) / 3) by
      rw [← Real.rpow_one_add' he.le (by norm_num)]; norm_num]
    rw [neg_div]
  rw [e1] at b1 b2
  have hpre : 0 ≤ Real.sqrt 3 / (2 * Real.pi) * (cE ^ 3 * B) / (cMe * cC ^ 2 * cHbar * e) := by positivity
  constructor
  · refine le_trans (le_of_eq ?_) (mul_le_mul_of_nonneg_left b1 hpre)
    field_simp
  · refine le_trans (mul_le_mul_of_nonneg_left b2 hpre) (le_of_eq ?_)
    field_simp

theorem binSum_rbin_scale (c : ℝ) (hc : 0 < c) (l : List ℝ) (y : ℝ → ℝ) (hx : ∀ x ∈ l, 0 < x)
    (hs : l.Pairwise (· ≤ ·)) (hy : ∀ x ∈ l, 0 ≤ y x) :
    binSum rbin (l.map (fun x => (x, c * y x))) = c * binSum rbin (l.map (fun x => (x, y x))) := by
  have key : ∀ z : ℝ → ℝ, (∀ x ∈ l, 0 ≤ z x) →
      trapzLL (l.map (fun x => (fin x, fin (z x)))) = fin (binSum rbin (l.map (fun x => (x, z x)))) := by
    intro z hz
    have e := trapzLL_rbin (l.map (fun x => (x, z x)))
      (by intro p hp; obtain ⟨x, hxm, rfl⟩ := List.mem_map.1 hp; exact hx x hxm)
      (by intro p hp; obtain ⟨x, hxm, rfl⟩ := List.mem_map.1 hp; exact hz x hxm)
      (by simpa [List.map_map, Function.comp_def] using hs)
    rw [← e]
    simp only [List.map_map, Function.comp_def]
  have a := key (fun x => c * y x) (fun x hxm => mul_nonneg hc.le (hy x hxm))
  have b := key y hy
  have s := trapzLL_scale_y c hc (l.map (fun x => (fin x, fin (y x))))
  simp only [List.map_map, Function.comp_def, mul_fin] at s
  rw [b, mul_fin] at s
  rw [s, fin_inj] at a
  exact a.symm

theorem lowCoefficient_continuousOn (B a b : ℝ) (hB : 0 < B) (ha : 0 < a) :
    ContinuousOn (fun E => lowCoefficient B (E / (cMe * cC ^ 2))) (Set.Icc a b) := by
  have hm := cMec2_pos
  unfold lowCoefficient
  apply ContinuousOn.mul continuousOn_const
  apply ContinuousOn.rpow_const
  · unfold critEnergy
    exact continuousOn_const.mul ((continuousOn_id.div_const _).pow 2)
  · intro t ht
    exact Or.inl (critEnergy_pos B _ hB (div_pos (ha.trans_le ht.1) hm)).ne'

/-- **C103 (slope at low energies and cutoff).** For every electron distribution, field, range and number of grid
points there is one number `A` — positive if there are electrons at every energy of the range, and tending, as the
grid is refined, to the electrons' total low-energy coefficient — such that at every photon energy `E` the spectrum
is at most `A E^(-2/3) exp(-E/Ec(Emax))`, and at least `A E^(-2/3)` times a factor that depends on `E/Ec(Emin)` only
and is one at `E = 0`; both up to the rounding of the local indices, a factor `(Emax/Emin)^(2e-10)`. -/
theorem C103_slope_and_cutoff (m : SyncModel) (pd : PDist) (hu : pd.unit.dim = Dim.diffEnergy)
    (hus : 0 < pd.unit.scale) (hlo : m.Eemin.PosEnergy) (hhi : m.Eemax.PosEnergy)
    (hlt : m.Eemin.phys < m.Eemax.phys) (hB : m.B.unit.dim = Dim.magFluxDensity) (hBp : 0 < m.B.phys)
    (p : ℝ → ℝ) (hp : ∀ E ∈ Set.Icc m.Eemin.phys m.Eemax.phys, pd.f E = fin (p E))
    (hs : Spectrum p m.Eemin.phys m.Eemax.phys) :
    ∃ A : ℝ → ℝ, (∀ n, 0 ≤ A n) ∧ ((∀ E ∈ Set.Icc m.Eemin.phys m.Eemax.phys, 0 < p E) → ∀ n, 0 < A n) ∧
      Tendsto A atTop (𝓝 ((∫ E in m.Eemin.phys..m.Eemax.phys,
        p E * pd.unit.scale * lowCoefficient (m.B.phys / 0.1) (E / (cMe * cC ^ 2))) * cEV)) ∧
      ∀ n e, 0 < e → ∃ S, ({ m with nEed := n } : SyncModel).spectrum pd [e] = .ok [fin S] ∧
        A n * (e ^ (-(2:ℝ) / 3) *
            Real.exp (-(e / critEnergy cE cMe cC cHbar (m.B.phys / 0.1) (m.Eemin.phys / (cMe * cC ^ 2)))) /
          Real.sqrt (1 + 3.4 *
            (e / critEnergy cE cMe cC cHbar (m.B.phys / 0.1) (m.Eemin.phys / (cMe * cC ^ 2))) ^ ((2 : ℝ) / 3))) ≤
          (m.Eemax.phys / m.Eemin.phys) ^ (2e-10 : ℝ) * S ∧
        S ≤ (m.Eemax.phys / m.Eemin.phys) ^ (2e-10 : ℝ) * (A n * (e ^ (-(2:ℝ) / 3) *
            Real.exp (-(e / critEnergy cE cMe cC cHbar (m.B.phys / 0.1) (m.Eemax.phys / (cMe * cC ^ 2)))))) := by
  have hm := cMec2_pos
  have hmm : cMe * cC ^ 2 = cMec2 := rfl
  have hev := cEV_pos
  simp only [hmm]
  set B := m.B.phys / 0.1 with hBdef
  have hB0 : 0 < B := by rw [hBdef]; positivity
  have hsc : Spectrum (fun _ => pd.unit.scale) m.Eemin.phys m.Eemax.phys :=
    Spectrum.of_continuous (fun _ _ => hus.le) continuousOn_const
  have hpos : ∀ E ∈ Set.Icc m.Eemin.phys m.Eemax.phys, 0 < E / cMec2 := fun E hE =>
    div_pos (hlo.phys_pos.trans_le hE.1) hm
  have hF : Spectrum (fun E => p E * pd.unit.scale * lowCoefficient B (E / cMec2)) m.Eemin.phys m.Eemax.phys :=
    (hs.mul hsc).mul (Spectrum.of_continuous (fun E hE => (lowCoefficient_pos B _ hB0 (hpos E hE)).le)
      (lowCoefficient_continuousOn B _ _ hB0 hlo.phys_pos))
  obtain ⟨W, w1, w2⟩ := electron_limit m.Eemin m.Eemax hlo hhi hlt _ hF
  have hgrid : ∀ n : ℝ, ∃ gam, gamGrid n m.Eemin m.Eemax = .ok gam ∧ (∀ g ∈ gam, 0 < g) ∧
      gam.Pairwise (· < ·) ∧ 2 ≤ gam.length := by
    intro n
    obtain ⟨gam, hg, hl⟩ := gamGrid_logGrid n m.Eemin m.Eemax hlo hhi hlt
    obtain ⟨gam', hg', hp', -⟩ := gamGrid_facts n m.Eemin m.Eemax hlo hhi hlt.le
    rw [hg] at hg'; injection hg' with hg'
    exact ⟨gam, hg, hg' ▸ hp', hl.increasing, by linarith [hl.ten]⟩
  choose G hG hGp hGs hGl using hgrid
  have hmem := fun n => gam_mem n m.Eemin m.Eemax hlo hhi hlt.le (G n) (hG n)
  have hG1 : ∀ n, ∀ x ∈ (G n).map (· * cMec2), x ∈ Set.Icc m.Eemin.phys m.Eemax.phys := fun n =>
    (grid_scaled _ _ _ hm (G n) ((hGs n).imp le_of_lt) (hmem n)).1
  have hG2 : ∀ n, ((G n).map (· * cMec2)).Pairwise (· ≤ ·) := fun n =>
    (grid_scaled _ _ _ hm (G n) ((hGs n).imp le_of_lt) (hmem n)).2
  have key : ∀ (n : ℝ) (y : ℝ → ℝ), (∀ E ∈ Set.Icc m.Eemin.phys m.Eemax.phys, 0 ≤ y E) →
      trapzLL ((G n).map (fun g => (fin (g * cMec2), fin (y (g * cMec2))))) =
        fin (binSum rbin (((G n).map (· * cMec2)).map (fun x => (x, y x)))) := by
    intro n y hy
    rw [← trapz_gamma cMec2 hm, trapz_binSum cMec2 hm (G n) (hGp n) ((hGs n).imp le_of_lt)]
    intro g hg
    exact hy _ (hmem n g hg)
  have hW : ∀ n, W n = binSum rbin (((G n).map (· * cMec2)).map
      (fun x => (x, p x * pd.unit.scale * lowCoefficient B (x / cMec2)))) := by
    intro n
    have := w1 n _ (hG n)
    rw [key n (fun E => p E * pd.unit.scale * lowCoefficient B (E / cMec2)) hF.nonneg, fin_inj] at this
    exact this.symm
  have hW0 : ∀ n, 0 ≤ W n := fun n => by
    rw [hW]
    exact binSum_nonneg _ _ hlo.phys_pos _ (hG1 n) (hG2 n) _ (fun x hx => hF.nonneg x (hG1 n x hx))
  refine ⟨fun n => W n * cEV, fun n => mul_nonneg (hW0 n) hev.le, fun h n => ?_, w2.mul_const _, fun n e he => ?_⟩
  · refine mul_pos ?_ hev
    obtain ⟨r, hr, er⟩ := Naima.trapzLL_pos ((G n).map (fun g => (g * cMec2, p (g * cMec2) * pd.unit.scale *
        lowCoefficient B (g * cMec2 / cMec2))))
      (by intro q hq; obtain ⟨g, hg, rfl⟩ := List.mem_map.1 hq; exact mul_pos (hGp n g hg) hm)
      (by
        intro q hq; obtain ⟨g, hg, rfl⟩ := List.mem_map.1 hq
        have h3 := hmem n g hg
        exact mul_pos (mul_pos (h _ h3) hus) (lowCoefficient_pos B _ hB0 (hpos _ h3)))
      (by simpa [List.map_map, Function.comp_def] using hG2 n)
      (by
        have h2 := hGl n
        have hi := hGs n
        generalize G n = L at h2 hi
        match L, h2 with
        | a :: b :: rest, _ =>
          simp only [List.pairwise_cons] at hi
          refine ⟨_, List.mem_map_of_mem (List.mem_cons_self (a := a)), _,
            List.mem_map_of_mem (List.mem_cons_of_mem a (List.mem_cons_self (a := b))), ?_⟩
          exact mul_lt_mul_of_pos_right (hi.1 b (by simp)) hm)
    have e2 := w1 n _ (hG n)
    rw [List.map_map] at er
    have e3 : fin r = fin (W n) := er.symm.trans e2
    rw [fin_inj] at e3
    rw [← e3]; exact hr
  · set Y : ℝ → ℝ := fun E => p E * pd.unit.scale * syncEmission cE cMe cC cHbar B (E / cMec2) e with hY
    have hps := fun E hE => mul_nonneg (hs.nonneg E hE) hus.le
    have hsync : ∀ E ∈ Set.Icc m.Eemin.phys m.Eemax.phys, 0 ≤ Y E := fun E hE =>
      mul_nonneg (hps E hE) ((sync_kernel_spectrum m.Eemin.phys m.Eemax.phys B e hlo.phys_pos hB0 he).nonneg E hE)
    refine ⟨binSum rbin (((G n).map (· * cMec2)).map (fun x => (x, Y x))) * cEV, ?_, ?_, ?_⟩
    · obtain ⟨gam, hg, -, h⟩ := C70_documented { m with nEed := n } pd hu hlo hhi hlt.le hB hBp [e] (by simpa using he)
      have hg2 : gam = G n := by
        have : gamGrid n m.Eemin m.Eemax = .ok gam := hg
        rw [hG n] at this; injection this with this; exact this.symm
      subst hg2
      rw [h]
      simp only [List.map_cons, List.map_nil, hmm]
      rw [← mul_fin _ cEV, ← key n Y hsync, ← trapz_gamma cMec2 hm Y]
      congr 4
      apply List.map_congr_left
      intro g hgm
      have e2 : g * cMec2 / cMec2 = g := by field_simp
      rw [hp _ (hmem n g hgm), mul_fin, mul_fin, hY]
      simp only [e2]
      congr 2
      ring
    · set c := e ^ (-(2:ℝ) / 3) * Real.exp (-(e / critEnergy cE cMe cC cHbar B (m.Eemin.phys / cMec2))) /
          Real.sqrt (1 + 3.4 *
            (e / critEnergy cE cMe cC cHbar B (m.Eemin.phys / cMec2)) ^ ((2 : ℝ) / 3)) with hcdef
      have hk := critEnergy_pos B _ hB0 (div_pos hlo.phys_pos hm)
      have hq : 0 < (e / critEnergy cE cMe cC cHbar B (m.Eemin.phys / cMec2)) ^ ((2 : ℝ) / 3) :=
        Real.rpow_pos_of_pos (div_pos he hk) _
      have hc : 0 < c := by
        have := Real.rpow_pos_of_pos he (-(2:ℝ) / 3)
        have : 0 < Real.sqrt (1 + 3.4 *
            (e / critEnergy cE cMe cC cHbar B (m.Eemin.phys / cMec2)) ^ ((2 : ℝ) / 3)) :=
          Real.sqrt_pos.2 (by positivity)
        rw [hcdef]; positivity
      have h1 := binSum_mono _ _ hlo.phys_pos _ (hG1 n) (hG2 n)
        (fun x => c * (p x * pd.unit.scale * lowCoefficient B (x / cMec2))) Y
        (fun x hx => mul_nonneg hc.le (hF.nonneg x (hG1 n x hx)))
        (fun x hx => by
          have hxm := hG1 n x hx
          have b := (syncEmission_bounds B (x / cMec2) e hB0 (hpos x hxm) he).1
          have mono := critEnergy_mono B _ _ hB0 (div_pos hlo.phys_pos hm)
            (div_le_div_of_nonneg_right hxm.1 hm.le)
          have hkx := critEnergy_pos B _ hB0 (hpos x hxm)
          have hr : e / critEnergy cE cMe cC cHbar B (x / cMec2) ≤
              e / critEnergy cE cMe cC cHbar B (m.Eemin.phys / cMec2) := div_le_div_of_nonneg_left he.le hk mono
          have hcx : c ≤ e ^ (-(2:ℝ) / 3) * Real.exp (-(e / critEnergy cE cMe cC cHbar B (x / cMec2))) /
              Real.sqrt (1 + 3.4 * (e / critEnergy cE cMe cC cHbar B (x / cMec2)) ^ ((2 : ℝ) / 3)) := by
            have hq' : 0 < (e / critEnergy cE cMe cC cHbar B (x / cMec2)) ^ ((2 : ℝ) / 3) :=
              Real.rpow_pos_of_pos (div_pos he hkx) _
            have := Real.rpow_pos_of_pos he (-(2:ℝ) / 3)
            rw [hcdef]
            apply div_le_div₀ (by positivity)
            · exact mul_le_mul_of_nonneg_left (Real.exp_le_exp.2 (by linarith)) this.le
            · exact Real.sqrt_pos.2 (by positivity)
            · apply Real.sqrt_le_sqrt
              have := Real.rpow_le_rpow (div_pos he hkx).le hr (by norm_num : (0:ℝ) ≤ 2 / 3)
              linarith
          calc _ = p x * pd.unit.scale * (lowCoefficient B (x / cMec2) * c) := by ring
            _ ≤ _ := mul_le_mul_of_nonneg_left ((mul_le_mul_of_nonneg_left hcx
                (lowCoefficient_pos B _ hB0 (hpos x hxm)).le).trans b) (hps x hxm))
      rw [binSum_rbin_scale c hc _ _ (fun x hx => hlo.phys_pos.trans_le (hG1 n x hx).1) (hG2 n)
        (fun x hx => hF.nonneg x (hG1 n x hx)), ← hW n] at h1
      have := mul_le_mul_of_nonneg_right h1 hev.le
      calc _ = c * W n * cEV := by ring
        _ ≤ _ := this
        _ = _ := by ring
    · set c := e ^ (-(2:ℝ) / 3) * Real.exp (-(e / critEnergy cE cMe cC cHbar B (m.Eemax.phys / cMec2))) with hcdef
      have hc : 0 < c := by
        have := Real.rpow_pos_of_pos he (-(2:ℝ) / 3)
        rw [hcdef]; positivity
      have h1 := binSum_mono _ _ hlo.phys_pos _ (hG1 n) (hG2 n) Y
        (fun x => c * (p x * pd.unit.scale * lowCoefficient B (x / cMec2)))
        (fun x hx => hsync x (hG1 n x hx))
        (fun x hx => by
          have hxm := hG1 n x hx
          have b := (syncEmission_bounds B (x / cMec2) e hB0 (hpos x hxm) he).2
          have mono := critEnergy_mono B _ _ hB0 (hpos x hxm)
            (div_le_div_of_nonneg_right hxm.2 hm.le)
          have hkx := critEnergy_pos B _ hB0 (hpos x hxm)
          have hr : e / critEnergy cE cMe cC cHbar B (m.Eemax.phys / cMec2) ≤
              e / critEnergy cE cMe cC cHbar B (x / cMec2) := div_le_div_of_nonneg_left he.le hkx mono
          have hcx : e ^ (-(2:ℝ) / 3) * Real.exp (-(e / critEnergy cE cMe cC cHbar B (x / cMec2))) ≤ c :=
            mul_le_mul_of_nonneg_left (Real.exp_le_exp.2 (by linarith)) (Real.rpow_pos_of_pos he _).le
          calc _ ≤ p x * pd.unit.scale * (lowCoefficient B (x / cMec2) * c) :=
                mul_le_mul_of_nonneg_left (b.trans (mul_le_mul_of_nonneg_left hcx
                  (lowCoefficient_pos B _ hB0 (hpos x hxm)).le)) (hps x hxm)
            _ = _ := by ring)
      rw [binSum_rbin_scale c hc _ _ (fun x hx => hlo.phys_pos.trans_le (hG1 n x hx).1) (hG2 n)
        (fun x hx => hF.nonneg x (hG1 n x hx)), ← hW n] at h1
      have := mul_le_mul_of_nonneg_right h1 hev.le
      calc _ ≤ _ := this
        _ = _ := by ring

/-! ### Power laws -/

/-- electrons of index `α` and their emission at photon energy `k/E²` critical energies -/
noncomputable def plShape (α k E : ℝ) : ℝ := E ^ (-α) * gAKP (k / E ^ 2)

theorem gAKP_pos (x : ℝ) (hx : 0 < x) : 0 < gAKP x := by
  unfold gAKP
  have h1 : 0 < x ^ ((1:ℝ) / 3) := Real.rpow_pos_of_pos hx _
  have h2 : 0 < x ^ ((2:ℝ) / 3) := Real.rpow_pos_of_pos hx _
  have h4 : 0 < x ^ ((4:ℝ) / 3) := Real.rpow_pos_of_pos hx _
  have : 0 < Real.sqrt (1 + 3.4 * x ^ ((2 : ℝ) / 3)) := Real.sqrt_pos.2 (by positivity)
  positivity

theorem plShape_pos (α k E : ℝ) (hk : 0 < k) (hE : 0 < E) : 0 < plShape α k E :=
  mul_pos (Real.rpow_pos_of_pos hE _) (gAKP_pos _ (by positivity))

theorem plShape_measurable (α k : ℝ) : Measurable (plShape α k) := by
  unfold plShape gAKP
  fun_prop

theorem plShape_le (α k E : ℝ) (hk : 0 < k) (hE : 0 < E) :
    plShape α k E ≤ 1.808 * k ^ ((1:ℝ) / 3) * (E ^ (-α - 2 / 3) * Real.exp (-(k / E ^ 2))) := by
  have hb := (gAKP_bounds (k / E ^ 2) (by positivity)).2
  have e1 : (k / E ^ 2) ^ ((1:ℝ) / 3) = k ^ ((1:ℝ) / 3) * E ^ (-(2:ℝ) / 3) := by
    rw [Real.div_rpow hk.le (by positivity), div_eq_mul_inv, ← Real.rpow_neg (by positivity),
      ← Real.rpow_natCast, ← Real.rpow_mul hE.le]
    norm_num
  rw [e1] at hb
  have hp := Real.rpow_pos_of_pos hE (-α)
  have e2 : E ^ (-α - 2 / 3) = E ^ (-α) * E ^ (-(2:ℝ) / 3) := by
    rw [← Real.rpow_add hE]; congr 1; ring
  unfold plShape
  refine (mul_le_mul_of_nonneg_left hb hp.le).trans (le_of_eq ?_)
  rw [e2]; ring

theorem plShape_integrable (α k : ℝ) (hα : 1 / 3 < α) (hk : 0 < k) :
    MeasureTheory.IntegrableOn (plShape α k) (Set.Ioi 0) := by
  have hk3 : 0 < k ^ ((1:ℝ) / 3) := Real.rpow_pos_of_pos hk _
  have h2 : MeasureTheory.IntegrableOn (plShape α k) (Set.Ioi 1) := by
    have hi : MeasureTheory.IntegrableOn (fun E : ℝ => 1.808 * k ^ ((1:ℝ) / 3) * E ^ (-α - 2 / 3)) (Set.Ioi 1) :=
      (integrableOn_Ioi_rpow_of_lt (by linarith) one_pos).const_mul _
    apply MeasureTheory.Integrable.mono' hi (plShape_measurable α k).aestronglyMeasurable
    filter_upwards [MeasureTheory.ae_restrict_mem measurableSet_Ioi] with E hE
    have hE0 : 0 < E := one_pos.trans hE
    rw [Real.norm_of_nonneg (plShape_pos α k E hk hE0).le]
    refine (plShape_le α k E hk hE0).trans ?_
    apply mul_le_mul_of_nonneg_left _ (by positivity)
    have : Real.exp (-(k / E ^ 2)) ≤ 1 := Real.exp_le_one_iff.2 (by have := div_pos hk (pow_pos hE0 2); linarith)
    calc _ ≤ E ^ (-α - 2 / 3) * 1 := mul_le_mul_of_nonneg_left this (Real.rpow_pos_of_pos hE0 _).le
      _ = _ := mul_one _
  have h1 : MeasureTheory.IntegrableOn (plShape α k) (Set.Ioc 0 1) := by
    obtain ⟨N, hN⟩ := exists_nat_ge ((α + 2 / 3) / 2)
    refine MeasureTheory.Measure.integrableOn_of_bounded (M := 1.808 * k ^ ((1:ℝ) / 3) * (N.factorial / k ^ N))
      (by simp) (plShape_measurable α k).aestronglyMeasurable ?_
    filter_upwards [MeasureTheory.ae_restrict_mem measurableSet_Ioc] with E hE
    have hE0 : 0 < E := hE.1
    rw [Real.norm_of_nonneg (plShape_pos α k E hk hE0).le]
    refine (plShape_le α k E hk hE0).trans ?_
    apply mul_le_mul_of_nonneg_left _ (by positivity)
    have hx : 0 < k / E ^ 2 := by positivity
    have he : Real.exp (-(k / E ^ 2)) ≤ N.factorial / (k / E ^ 2) ^ N := by
      rw [Real.exp_neg, ← one_div, div_le_div_iff₀ (Real.exp_pos _) (by positivity), one_mul]
      have := Real.pow_div_factorial_le_exp _ hx.le N
      rwa [div_le_iff₀ (by positivity), mul_comm] at this
    have hpw : E ^ (-α - 2 / 3) * E ^ (2 * N) ≤ 1 := by
      rw [← Real.rpow_natCast E (2 * N), ← Real.rpow_add hE0]
      apply Real.rpow_le_one hE0.le hE.2
      push_cast
      linarith
    calc _ ≤ E ^ (-α - 2 / 3) * (N.factorial / (k / E ^ 2) ^ N) :=
          mul_le_mul_of_nonneg_left he (Real.rpow_pos_of_pos hE0 _).le
      _ = E ^ (-α - 2 / 3) * E ^ (2 * N) * (N.factorial / k ^ N) := by
          rw [div_pow, ← pow_mul]; field_simp
      _ ≤ 1 * (N.factorial / k ^ N) := mul_le_mul_of_nonneg_right hpw (by positivity)
      _ = _ := one_mul _
  rw [← Set.Ioc_union_Ioi_eq_Ioi (zero_le_one' ℝ)]
  exact h1.union h2

theorem plShape_integral_pos (α k : ℝ) (hα : 1 / 3 < α) (hk : 0 < k) : 0 < ∫ E in Set.Ioi 0, plShape α k E := by
  rw [MeasureTheory.setIntegral_pos_iff_support_of_nonneg_ae _ (plShape_integrable α k hα hk)]
  · have : Set.Ioi 0 ⊆ Function.support (plShape α k) := fun E hE => (plShape_pos α k E hk hE).ne'
    rw [Set.inter_eq_right.2 this]
    simp
  · filter_upwards [MeasureTheory.ae_restrict_mem measurableSet_Ioi] with E hE
    exact (plShape_pos α k E hk hE).le

theorem plShape_scaling (α k e : ℝ) (hk : 0 < k) (he : 0 < e) :
    ∫ E in Set.Ioi 0, plShape α (k * e) E = e ^ ((1 - α) / 2) * ∫ E in Set.Ioi 0, plShape α k E := by
  set r := Real.sqrt e with hr
  have hr0 : 0 < r := Real.sqrt_pos.2 he
  have hr2 : r ^ 2 = e := Real.sq_sqrt he.le
  have h := MeasureTheory.integral_comp_mul_left_Ioi (plShape α (k * e)) 0 hr0
  rw [mul_zero, smul_eq_mul] at h
  have hpt : ∫ x in Set.Ioi 0, plShape α (k * e) (r * x) = r ^ (-α) * ∫ x in Set.Ioi 0, plShape α k x := by
    rw [← MeasureTheory.integral_const_mul]
    apply MeasureTheory.setIntegral_congr_fun measurableSet_Ioi
    intro x hx
    have hx0 : (0:ℝ) < x := hx
    simp only [plShape]
    rw [Real.mul_rpow hr0.le hx0.le, mul_pow, hr2]
    have : k * e / (e * x ^ 2) = k / x ^ 2 := by field_simp
    rw [this]; ring
  rw [hpt] at h
  have h3 : ∫ E in Set.Ioi 0, plShape α (k * e) E = r * (r ^ (-α) * ∫ x in Set.Ioi 0, plShape α k x) := by
    rw [h]; field_simp
  rw [h3, ← mul_assoc]
  congr 1
  have h4 : r * r ^ (-α) = r ^ (1 + -α) := by rw [Real.rpow_add hr0, Real.rpow_one]
  rw [h4, hr, Real.sqrt_eq_rpow, ← Real.rpow_mul he.le]
  congr 1; ring

/-- ranges that grow to all energies -/
theorem range_limit (f : ℝ → ℝ) (hf : MeasureTheory.IntegrableOn f (Set.Ioi 0)) (δ : ℝ) (hδ : 0 < δ) :
    ∃ a₀ > 0, ∃ b₀ > 0, ∀ a b, 0 < a → a < a₀ → b₀ < b → a ≤ b →
      |(∫ E in a..b, f E) - ∫ E in Set.Ioi 0, f E| < δ := by
  let l : Filter (ℝ × ℝ) := 𝓝[>] 0 ×ˢ atTop
  have c1 : MeasureTheory.AECover (MeasureTheory.volume.restrict (Set.Ioi (0:ℝ))) l (fun i => Set.Ioi i.1) := by
    apply MeasureTheory.aecover_Ioi_of_Ioi
    exact Filter.tendsto_fst.mono_right nhdsWithin_le_nhds
  have c2 : MeasureTheory.AECover (MeasureTheory.volume.restrict (Set.Ioi (0:ℝ))) l (fun i => Set.Iic i.2) :=
    MeasureTheory.aecover_Iic Filter.tendsto_snd
  have h := (c1.inter c2).integral_tendsto_of_countably_generated hf
  rw [Metric.tendsto_nhds] at h
  have h := h δ hδ
  rw [Filter.eventually_prod_iff] at h
  obtain ⟨P, hP, Q, hQ, h⟩ := h
  rw [eventually_nhdsWithin_iff, Metric.eventually_nhds_iff] at hP
  obtain ⟨a₀, ha₀, hP⟩ := hP
  obtain ⟨b₀, hQ⟩ := Filter.eventually_atTop.1 hQ
  refine ⟨a₀, ha₀, max b₀ 1, by positivity, fun a b ha ha1 hb hab => ?_⟩
  have k := h (hP (by rw [Real.dist_eq, sub_zero, abs_of_pos ha]; exact ha1) ha) (hQ b ((le_max_left _ _).trans hb.le))
  rw [Real.dist_eq] at k
  convert k using 3
  rw [intervalIntegral.integral_of_le hab, MeasureTheory.Measure.restrict_restrict (measurableSet_Ioi.inter measurableSet_Iic)]
  congr 2
  ext x
  simp only [Set.mem_Ioc, Set.mem_inter_iff, Set.mem_Ioi, Set.mem_Iic]
  constructor
  · rintro ⟨h1, h2⟩; exact ⟨⟨h1, h2⟩, ha.trans h1⟩
  · rintro ⟨⟨h1, h2⟩, -⟩; exact ⟨h1, h2⟩

/-- **C103 (photon index).** Electrons with a power-law distribution of index `α > 1/3` in a field `B`: as the
range of electron energies is widened and the grid is refined, the spectrum at every photon energy `E` comes
arbitrarily close to `C (B/E)^((α+1)/2)`, with `C > 0` the same in all fields and at all photon energies. -/
theorem C103_photon_index (pd : PDist) (hu : pd.unit.dim = Dim.diffEnergy) (hus : 0 < pd.unit.scale)
    (K E₀ α : ℝ) (hK : 0 < K) (hE₀ : 0 < E₀) (hα : 1 / 3 < α)
    (hpd : ∀ E > 0, pd.f E = fin (K * (E / E₀) ^ (-α))) :
    ∃ C > 0, ∀ B > 0, ∀ e > 0, ∀ δ > 0, ∃ a₀ > 0, ∃ b₀ > 0, ∀ m : SyncModel,
      m.B.unit.dim = Dim.magFluxDensity → m.B.phys = B → m.Eemin.PosEnergy → m.Eemax.PosEnergy →
      m.Eemin.phys < m.Eemax.phys → m.Eemin.phys < a₀ → b₀ < m.Eemax.phys →
      ∀ᶠ n in atTop, ∃ S, ({ m with nEed := n } : SyncModel).spectrum pd [e] = .ok [fin S] ∧
        |S - C * (B / e) ^ ((α + 1) / 2)| < δ := by
  have := cE_pos; have := cHbar_pos; have := cMe_pos; have := cC_pos; have := Real.pi_pos
  have hev := cEV_pos
  have hE₀α : 0 < E₀ ^ α := Real.rpow_pos_of_pos hE₀ _
  set c₁ := cEV * (K * E₀ ^ α * pd.unit.scale *
    (Real.sqrt 3 / (2 * Real.pi) * (cE ^ 3 / 0.1) / (cMe * cC ^ 2 * cHbar))) with hc₁
  have hc1 : 0 < c₁ := by rw [hc₁]; positivity
  set k₁ := (3 / 2 * (cE * cHbar / (cMe * cC)) / 0.1 / (cMe * cC ^ 2) ^ 2)⁻¹ with hk₁
  have hk1 : 0 < k₁ := by rw [hk₁]; positivity
  refine ⟨c₁ * ∫ E in Set.Ioi 0, plShape α k₁ E, mul_pos hc1 (plShape_integral_pos α k₁ hα hk1),
    fun B hB e he δ hδ => ?_⟩
  set c₀ := c₁ * B with hc₀
  have hc : 0 < c₀ := by rw [hc₀]; positivity
  set k := k₁ * B⁻¹ with hk
  have hk0 : 0 < k := by rw [hk]; positivity
  obtain ⟨a₀, ha₀, b₀, hb₀, hr⟩ := range_limit _ (plShape_integrable α (k * e) hα (mul_pos hk0 he))
    (δ / 2 / (c₀ / e)) (by positivity)
  refine ⟨a₀, ha₀, b₀, hb₀, fun m mB mBp hlo hhi hlt h1 h2 => ?_⟩
  have hpos : ∀ E ∈ Set.Icc m.Eemin.phys m.Eemax.phys, 0 < E := fun E hE => hlo.phys_pos.trans_le hE.1
  have hs : Spectrum (fun E => K * (E / E₀) ^ (-α)) m.Eemin.phys m.Eemax.phys := by
    apply Spectrum.of_continuous
    · intro E hE
      have := Real.rpow_pos_of_pos (div_pos (hpos E hE) hE₀) (-α)
      positivity
    · apply ContinuousOn.mul continuousOn_const
      apply ContinuousOn.rpow_const (continuousOn_id.div_const _)
      intro E hE
      exact Or.inl (div_pos (hpos E hE) hE₀).ne'
  obtain ⟨L, hL, hT⟩ := C83_synchrotron m pd hu hus hlo hhi hlt mB (by rw [mBp]; exact hB) _
    (fun E hE => hpd E (hpos E hE)) hs [e] (by simpa using he)
  have hT := hT e (by simp)
  have hI : (∫ E in m.Eemin.phys..m.Eemax.phys, K * (E / E₀) ^ (-α) * pd.unit.scale *
      syncEmission cE cMe cC cHbar (m.B.phys / 0.1) (E / (cMe * cC ^ 2)) e) * cEV =
      c₀ / e * ∫ E in m.Eemin.phys..m.Eemax.phys, plShape α (k * e) E := by
    rw [mul_comm, ← intervalIntegral.integral_const_mul, ← intervalIntegral.integral_const_mul, mBp]
    apply intervalIntegral.integral_congr
    intro E hE
    rw [Set.uIcc_of_le hlt.le] at hE
    have hE0 := hpos E hE
    have hx : e / critEnergy cE cMe cC cHbar (B / 0.1) (E / (cMe * cC ^ 2)) = k * e / E ^ 2 := by
      unfold critEnergy; rw [hk, hk₁]; field_simp
    simp only [syncEmission, plShape]
    rw [hx, Real.div_rpow hE0.le hE₀.le, Real.rpow_neg hE₀.le α, hc₀, hc₁]
    field_simp
  rw [hI] at hT
  rw [Metric.tendsto_nhds] at hT
  filter_upwards [hT (δ / 2) (by positivity)] with n hn
  refine ⟨L n e, by simpa using hL n, ?_⟩
  rw [Real.dist_eq] at hn
  have hr' := hr m.Eemin.phys m.Eemax.phys hlo.phys_pos h1 h2 hlt.le
  rw [plShape_scaling α k e hk0 he] at hr'
  have hce : 0 < c₀ / e := by positivity
  rw [lt_div_iff₀ hce, ← abs_of_pos hce, ← abs_mul] at hr'
  have hfin : (e ^ ((1 - α) / 2) * ∫ E in Set.Ioi 0, plShape α k E) * (c₀ / e) =
      c₁ * (∫ E in Set.Ioi 0, plShape α k₁ E) * (B / e) ^ ((α + 1) / 2) := by
    rw [hk, plShape_scaling α k₁ B⁻¹ hk1 (by positivity), hc₀]
    have h1 : e ^ ((1 - α) / 2) = (e ^ ((α + 1) / 2))⁻¹ * e := by
      rw [← Real.rpow_neg he.le, ← Real.rpow_add_one he.ne']; congr 1; ring
    have h2 : B⁻¹ ^ ((1 - α) / 2) = B ^ ((α + 1) / 2) * B⁻¹ := by
      rw [Real.inv_rpow hB.le, ← Real.rpow_neg hB.le, ← div_eq_mul_inv, ← Real.rpow_sub_one hB.ne']; congr 1; ring
    rw [h1, h2, Real.div_rpow hB.le he.le]
    field_simp
  rw [sub_mul, hfin] at hr'
  calc _ = |(L n e - c₀ / e * ∫ E in m.Eemin.phys..m.Eemax.phys, plShape α (k * e) E) +
        ((∫ E in m.Eemin.phys..m.Eemax.phys, plShape α (k * e) E) * (c₀ / e) -
          c₁ * (∫ E in Set.Ioi 0, plShape α k₁ E) * (B / e) ^ ((α + 1) / 2))| := by congr 1; ring
    _ ≤ _ := abs_add_le _ _
    _ < δ / 2 + δ / 2 := add_lt_add hn hr'
    _ = δ := by ring

/-- The distribution of `C103_photon_index` is that of a `PowerLaw` instance, in whatever units. -/
theorem powerLaw_pdist (A α : ℝ) (e0 : Qty ℝ) (h0 : e0.PosEnergy) (u : PhysUnit) (E : ℝ) (hE : 0 < E) :
    (PowerLaw.toPDist ⟨fin A, e0.lift, fin α⟩ u).f E = fin (A * (E / e0.phys) ^ (-α)) := by
  have e1 := C22_power_law A α ⟨E, PhysUnit.erg⟩ e0 ⟨rfl, by simp [PhysUnit.erg], hE⟩ h0
  have e2 : (⟨E, PhysUnit.erg⟩ : Qty ℝ).phys = E := by simp [Qty.phys, PhysUnit.erg]
  rw [e2] at e1
  show (match PowerLaw.call ⟨fin A, e0.lift, fin α⟩ (⟨E, PhysUnit.erg⟩ : Qty ℝ).lift with
    | .ok v => v
    | .error _ => nan) = _
  rw [e1]
  rfl

/-! ### The hypotheses are met -/

/-- Electrons of index 2.2: the photon index is 1.6. -/
example : ∃ C > 0, ∀ B > 0, ∀ e > 0, ∀ δ > 0, ∃ a₀ > 0, ∃ b₀ > 0, ∀ m : SyncModel,
      m.B.unit.dim = Dim.magFluxDensity → m.B.phys = B → m.Eemin.PosEnergy → m.Eemax.PosEnergy →
      m.Eemin.phys < m.Eemax.phys → m.Eemin.phys < a₀ → b₀ < m.Eemax.phys →
      ∀ᶠ n in atTop, ∃ S, ({ m with nEed := n } : SyncModel).spectrum
        (PowerLaw.toPDist ⟨fin 1e33, (⟨1, PhysUnit.TeV⟩ : Qty ℝ).lift, fin 2.2⟩ ⟨1 / cEV, Dim.diffEnergy⟩) [e] =
          .ok [fin S] ∧ |S - C * (B / e) ^ (((2.2 : ℝ) + 1) / 2)| < δ := by
  have := cEV_pos
  have h0 : (⟨1, PhysUnit.TeV⟩ : Qty ℝ).PosEnergy := ⟨rfl, by simp [PhysUnit.TeV]; positivity, by norm_num⟩
  exact C103_photon_index (PowerLaw.toPDist ⟨fin 1e33, (⟨1, PhysUnit.TeV⟩ : Qty ℝ).lift, fin 2.2⟩
    ⟨1 / cEV, Dim.diffEnergy⟩) rfl (by simp only [PowerLaw.toPDist]; positivity) 1e33 _ 2.2 (by norm_num) h0.phys_pos
    (by norm_num) (fun E hE => powerLaw_pdist 1e33 2.2 _ h0 _ E hE)

/-- Models with the required range exist: from 1 GeV to 510 TeV in 3.24 µG. -/
example : ∃ m : SyncModel, m.B.unit.dim = Dim.magFluxDensity ∧ 0 < m.B.phys ∧ m.Eemin.PosEnergy ∧
    m.Eemax.PosEnergy ∧ m.Eemin.phys < m.Eemax.phys := by
  refine ⟨⟨⟨⟨1, PhysUnit.GeV⟩, ⟨510, PhysUnit.TeV⟩, 100⟩, ⟨3.24e-6, gauss⟩⟩, rfl, ?_,
    ⟨rfl, GeV_pos, by norm_num⟩, ⟨rfl, by simp only [PhysUnit.TeV]; norm_num, by norm_num⟩, ?_⟩
  · simp only [Qty.phys, gauss]; norm_num
  · simp only [Qty.phys, PhysUnit.GeV, PhysUnit.TeV]; norm_num

end Naima.Props
