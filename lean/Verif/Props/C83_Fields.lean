import Verif.Props.C83_Convergence

/-! # C83, continued: line photon fields and sums of fields -/

namespace Naima.Props

open Naima XR Classical Topology
open Filter (Tendsto atTop)

/-! ### Specification -/

/-- A photon field: a blackbody diluted to an energy density `u` (erg/cm³), isotropic or seen under an
angle; or photons of one energy `ε₀` (in mc²) of energy density `d` (in mc²/cm³). -/
inductive PhotonField
  | thermal (T u : ℝ) (θ : Option ℝ)
  | line (ε₀ d : ℝ)

/-- Temperatures above zero, angles other than zero, energies above zero, densities not below zero. -/
def PhotonField.Proper : PhotonField → Prop
  | .thermal T _ θ => 0 < T ∧ ∀ x, θ = some x → Real.cos x ≠ 1
  | .line ε₀ d => 0 < ε₀ ∧ 0 ≤ d

/-- Photons of energy `ε` (in mc²) scattered by an electron of Lorentz factor `γ`, per unit time and energy:
published rates of Khangulyan et al. and of Aharonian & Atoyan. -/
noncomputable def PhotonField.rate : PhotonField → ℝ → ℝ → ℝ
  | .thermal T u θ, γ, ε => u / (4 * cSigma / cC * T ^ 4) * thermalRate T θ γ ε
  | .line ε₀ d, γ, ε => d / ε₀ * monoRate γ ε₀ ε

/-- The field as the model holds it. -/
noncomputable def PhotonField.seed : PhotonField → SeedNum
  | .thermal T u θ => .thermal T u θ
  | .line ε₀ d => .array [ε₀] [fin d] none

/-! ### Proofs -/

theorem kin_unique (ε₀ ε x y : ℝ) (h0 : 0 < ε₀) (hε : 0 < ε) (hx : ε < x) (hy : ε < y)
    (e : Spec.kinQ x ε₀ ε = 1) (e' : Spec.kinQ y ε₀ ε = 1) : x = y := by
  unfold Spec.kinQ at e e'
  have hx0 : 0 < x := hε.trans hx
  have hy0 : 0 < y := hε.trans hy
  have h1 : 0 < x - ε := by linarith
  have h2 : 0 < y - ε := by linarith
  rw [div_eq_one_iff_eq (by positivity)] at e e'
  rw [e'] at e
  have h3 : (x - y) * (x + y - ε) = 0 := by
    have : ε₀ * ((x - y) * (x + y - ε)) = 0 := by nlinarith
    rcases mul_eq_zero.1 this with h | h
    · linarith
    · exact h
  rcases mul_eq_zero.1 h3 with h | h
  · linarith
  · linarith

theorem kin_unique' (ε₀ ε x y : ℝ) (h0 : 0 < ε₀) (hε : 0 < ε) (hx : ε < x) (hy : ε < y)
    (e : Spec.kinQ x ε₀ ε = 1 / (4 * x ^ 2)) (e' : Spec.kinQ y ε₀ ε = 1 / (4 * y ^ 2)) : x = y := by
  unfold Spec.kinQ at e e'
  have hx0 : 0 < x := hε.trans hx
  have hy0 : 0 < y := hε.trans hy
  have h1 : 0 < x - ε := by linarith
  have h2 : 0 < y - ε := by linarith
  rw [div_eq_div_iff (by positivity) (by positivity)] at e e'
  have e1 : ε * x = ε₀ * (x - ε) := by
    have : x * (4 * (ε * x)) = x * (4 * (ε₀ * (x - ε))) := by nlinarith
    have := mul_left_cancel₀ hx0.ne' this
    linarith
  have e2 : ε * y = ε₀ * (y - ε) := by
    have : y * (4 * (ε * y)) = y * (4 * (ε₀ * (y - ε))) := by nlinarith
    have := mul_left_cancel₀ hy0.ne' this
    linarith
  have h3 : (x - y) * (ε₀ - ε) = 0 := by linarith
  rcases mul_eq_zero.1 h3 with h | h
  · linarith
  · have : ε₀ = ε := by linarith
    rw [this] at e1
    nlinarith

theorem step_continuousAt {f : ℝ → ℝ} {t : ℝ} (hf : ContinuousAt f t) (h : f t ≠ 0) :
    ContinuousAt (fun s => step (f s)) t := by
  rcases lt_or_gt_of_ne h with h | h
  · apply (continuousAt_const (y := (0:ℝ))).congr
    filter_upwards [hf.eventually (Iio_mem_nhds h)] with s hs
    unfold step; rw [if_pos (show f s < 0 from hs)]
  · apply (continuousAt_const (y := (1:ℝ))).congr
    filter_upwards [hf.eventually (Ioi_mem_nhds h)] with s hs
    have hs : 0 < f s := hs
    unfold step; rw [if_neg (by linarith), if_pos hs]

theorem step_mem (x : ℝ) : 0 ≤ step x ∧ step x ≤ 1 := by
  unfold step; split <;> [norm_num; (split <;> norm_num)]

theorem step_neg (x : ℝ) (h : x < 0) : step x = 0 := by unfold step; rw [if_pos h]

theorem kinQ_pos (γ ε₀ ε : ℝ) (h0 : 0 < ε₀) (hε : 0 < ε) (h : ε < γ) : 0 < Spec.kinQ γ ε₀ ε := by
  unfold Spec.kinQ
  have : 0 < γ := hε.trans h
  have : 0 < γ - ε := by linarith
  positivity

theorem isoMono_step_nonneg (γ ε₀ ε : ℝ) (h0 : 0 < ε₀) (hε : 0 < ε) (h : ε < γ) :
    0 ≤ Spec.isoMono γ ε₀ ε * step (1 - Spec.kinQ γ ε₀ ε) * step (Spec.kinQ γ ε₀ ε - 1 / (4 * γ ^ 2)) := by
  have h1 := monoGamint_NN γ ε₀ ε (hε.trans h) h0 hε h
  rw [isoMono_code γ ε₀ ε h0 hε h] at h1
  obtain ⟨r, h3, h2⟩ := h1
  rw [fin_inj] at h2
  rw [h2]; exact h3

theorem isoMono_step_le (γ ε₀ ε b : ℝ) (h0 : 0 < ε₀) (hε : 0 < ε) (h : ε < γ) (hb : γ ≤ b) :
    Spec.isoMono γ ε₀ ε * step (1 - Spec.kinQ γ ε₀ ε) * step (Spec.kinQ γ ε₀ ε - 1 / (4 * γ ^ 2)) ≤
      3 + (4 * ε₀ * b) ^ 2 := by
  have hq := kinQ_pos γ ε₀ ε h0 hε h
  have hγ : 0 < γ := hε.trans h
  obtain ⟨s1, s2⟩ := step_mem (1 - Spec.kinQ γ ε₀ ε)
  obtain ⟨t1, t2⟩ := step_mem (Spec.kinQ γ ε₀ ε - 1 / (4 * γ ^ 2))
  have hM : (0:ℝ) ≤ 3 + (4 * ε₀ * b) ^ 2 := by positivity
  by_cases hq1 : Spec.kinQ γ ε₀ ε ≤ 1
  · have hI : Spec.isoMono γ ε₀ ε ≤ 3 + (4 * ε₀ * b) ^ 2 := by
      unfold Spec.isoMono
      simp only
      set q := Spec.kinQ γ ε₀ ε
      set G := 4 * ε₀ * γ with hG
      have hG0 : 0 < G := by positivity
      have hGb : G ≤ 4 * ε₀ * b := by rw [hG]; gcongr
      have l1 : 2 * q * Real.log q ≤ 0 := mul_nonpos_of_nonneg_of_nonpos (by positivity) (Real.log_nonpos hq.le hq1)
      have l2 : (1 + 2 * q) * (1 - q) ≤ 3 := by nlinarith
      have l3 : (G * q) ^ 2 * (1 - q) / (2 * (1 + G * q)) ≤ (4 * ε₀ * b) ^ 2 := by
        have hGq : 0 < G * q := by positivity
        rw [div_le_iff₀ (by positivity)]
        have : (G * q) ^ 2 ≤ (4 * ε₀ * b) ^ 2 := by
          apply pow_le_pow_left₀ hGq.le
          nlinarith
        have h5 : (G * q) ^ 2 * (1 - q) ≤ (4 * ε₀ * b) ^ 2 * 1 := mul_le_mul this (by linarith) (by linarith) (by positivity)
        have h6 : (4 * ε₀ * b) ^ 2 * 1 ≤ (4 * ε₀ * b) ^ 2 * (2 * (1 + G * q)) :=
          mul_le_mul_of_nonneg_left (by linarith) (by positivity)
        linarith
      linarith
    have h1 : Spec.isoMono γ ε₀ ε * step (1 - Spec.kinQ γ ε₀ ε) ≤ (3 + (4 * ε₀ * b) ^ 2) * 1 :=
      (mul_le_mul_of_nonneg_right hI s1).trans (mul_le_mul_of_nonneg_left s2 hM)
    calc _ ≤ (3 + (4 * ε₀ * b) ^ 2) * 1 * step (Spec.kinQ γ ε₀ ε - 1 / (4 * γ ^ 2)) := mul_le_mul_of_nonneg_right h1 t1
      _ ≤ (3 + (4 * ε₀ * b) ^ 2) * 1 * 1 := mul_le_mul_of_nonneg_left t2 (by linarith)
      _ = _ := by ring
  · rw [step_neg (1 - Spec.kinQ γ ε₀ ε) (by linarith)]
    simpa using hM

theorem monoRate_spectrum (ε₀ ε a b : ℝ) (h0 : 0 < ε₀) (hε : 0 < ε) (ha : 0 < a) :
    Spectrum (fun γ => monoRate γ ε₀ ε) a b := by
  have hσ : (0:ℝ) ≤ 3 / 4 * sigmaT * cC := by unfold sigmaT cC; norm_num
  refine ⟨?_, ⟨3 / 4 * sigmaT * cC / a ^ 2 / ε₀ * (3 + (4 * ε₀ * b) ^ 2), ?_⟩, ?_⟩
  · intro γ hγ
    unfold monoRate
    split
    · rename_i h
      exact mul_nonneg (by positivity) (isoMono_step_nonneg γ ε₀ ε h0 hε h)
    · exact le_rfl
  · intro γ hγ
    unfold monoRate
    split
    · rename_i h
      have hb0 : 0 < b := ha.trans_le (hγ.1.trans hγ.2)
      refine mul_le_mul ?_ (isoMono_step_le γ ε₀ ε b h0 hε h hγ.2) (isoMono_step_nonneg γ ε₀ ε h0 hε h) (by positivity)
      have := hγ.1
      gcongr
    · positivity
  · have f1 : Set.Finite {γ | ε < γ ∧ Spec.kinQ γ ε₀ ε = 1} :=
      Set.Subsingleton.finite (fun x hx y hy => kin_unique ε₀ ε x y h0 hε hx.1 hy.1 hx.2 hy.2)
    have f2 : Set.Finite {γ | ε < γ ∧ Spec.kinQ γ ε₀ ε = 1 / (4 * γ ^ 2)} :=
      Set.Subsingleton.finite (fun x hx y hy => kin_unique' ε₀ ε x y h0 hε hx.1 hy.1 hx.2 hy.2)
    refine ⟨f1.toFinset ∪ f2.toFinset ∪ {ε}, ?_⟩
    intro γ hγ
    have hne : γ ≠ ε := fun h => hγ.2 (by simp [h])
    apply ContinuousAt.continuousWithinAt
    rcases lt_or_gt_of_ne hne with h | h
    · apply (continuousAt_const (y := (0:ℝ))).congr
      filter_upwards [Iio_mem_nhds h] with s hs
      unfold monoRate; rw [if_neg (not_lt.2 (le_of_lt hs))]
    · have hγ0 : 0 < γ := hε.trans h
      have n1 : Spec.kinQ γ ε₀ ε ≠ 1 := fun e => hγ.2 (by simp [h, e])
      have n2 : Spec.kinQ γ ε₀ ε ≠ 1 / (4 * γ ^ 2) := fun e => hγ.2 (by
        simp only [Finset.coe_union, Set.Finite.coe_toFinset]
        exact Or.inl (Or.inr ⟨h, e⟩))
      have hd : 0 < γ - ε := by linarith
      have hq := kinQ_pos γ ε₀ ε h0 hε h
      have cq : ContinuousAt (fun γ => Spec.kinQ γ ε₀ ε) γ := by
        unfold Spec.kinQ
        apply ContinuousAt.div continuousAt_const (by fun_prop)
        positivity
      have cI : ContinuousAt (fun γ => Spec.isoMono γ ε₀ ε) γ := by
        unfold Spec.isoMono
        simp only
        apply ContinuousAt.add
        · apply ContinuousAt.add
          · exact (continuousAt_const.mul cq).mul (cq.log hq.ne')
          · fun_prop
        · apply ContinuousAt.div
          · fun_prop
          · fun_prop
          · positivity
      have c1' : ContinuousAt (fun γ => 1 - Spec.kinQ γ ε₀ ε) γ := continuousAt_const.sub cq
      have c1 := step_continuousAt c1' (by intro h; exact n1 (by linarith))
      have c2' : ContinuousAt (fun γ => Spec.kinQ γ ε₀ ε - 1 / (4 * γ ^ 2)) γ :=
        cq.sub (continuousAt_const.div (by fun_prop) (by positivity))
      have c2 := step_continuousAt c2' (by intro h; exact n2 (by linarith))
      have c3 : ContinuousAt (fun γ : ℝ => 3 / 4 * sigmaT * cC / γ ^ 2 / ε₀) γ :=
        (continuousAt_const.div (by fun_prop) (by positivity)).div_const _
      apply (c3.mul ((cI.mul c1).mul c2)).congr
      filter_upwards [Ioi_mem_nhds h] with s hs
      unfold monoRate; rw [if_pos (show ε < s from hs)]; rfl

/-- one field, one photon energy -/
theorem field_limit (m : ElModel) (pd : PDist) (hu : pd.unit.dim = Dim.diffEnergy)
    (hus : 0 < pd.unit.scale) (hlo : m.Eemin.PosEnergy) (hhi : m.Eemax.PosEnergy)
    (hlt : m.Eemin.phys < m.Eemax.phys) (f : PhotonField) (hf : f.Proper)
    (p : ℝ → ℝ) (hp : ∀ E ∈ Set.Icc m.Eemin.phys m.Eemax.phys, pd.f E = fin (p E))
    (hs : Spectrum p m.Eemin.phys m.Eemax.phys) (e : ℝ) (he : 0 < e) :
    ∃ L : ℝ → ℝ, (∀ n, icSpectrum { m with nEed := n } [f.seed] pd [e] = .ok [fin (L n)]) ∧
      Tendsto L atTop (𝓝 (cEV / (cMe * cC ^ 2) * ∫ E in m.Eemin.phys..m.Eemax.phys,
          p E * pd.unit.scale * f.rate (E / (cMe * cC ^ 2)) (e / (cMe * cC ^ 2)))) := by
  have hm := cMec2_pos
  have hsc : Spectrum (fun _ => pd.unit.scale) m.Eemin.phys m.Eemax.phys :=
    Spectrum.of_continuous (fun _ _ => hus.le) continuousOn_const
  cases f with
  | thermal T u θ =>
    obtain ⟨L, h1, h2⟩ := C83_inverse_compton m pd hu hus hlo hhi hlt T u θ hf.1 hf.2 p hp hs [e] (by simpa using he)
    refine ⟨fun n => L n e, h1, ?_⟩
    have := h2 e (by simp)
    convert this using 2
    rw [← intervalIntegral.integral_const_mul, ← intervalIntegral.integral_const_mul]
    congr 1
    funext E
    simp only [PhotonField.rate]
    ring
  | line ε₀ d =>
    obtain ⟨h0, hd⟩ := hf
    have hdc : Spectrum (fun _ : ℝ => d / ε₀) m.Eemin.phys m.Eemax.phys :=
      Spectrum.of_continuous (fun _ _ => by positivity) continuousOn_const
    obtain ⟨W, w1, w2⟩ := electron_limit m.Eemin m.Eemax hlo hhi hlt _
        ((hs.mul hsc).mul (hdc.mul (Spectrum.comp_div (c := cMe * cC ^ 2) hm
          (monoRate_spectrum ε₀ (e / (cMe * cC ^ 2)) _ _ h0 (div_pos he hm) (div_pos hlo.phys_pos hm)))))
    refine ⟨fun n => cEV / (cMe * cC ^ 2) * W n, fun n => ?_, w2.const_mul _⟩
    obtain ⟨gam, hg, -, h⟩ := C71_monochromatic { m with nEed := n } pd hu hlo hhi hlt.le ε₀ d h0 none [e]
      (by simpa using he)
    have hmem := gam_mem n m.Eemin m.Eemax hlo hhi hlt.le gam hg
    show icSpectrum _ [.array [ε₀] [fin d] none] pd [e] = _
    rw [h]
    simp only [List.map_cons, List.map_nil]
    rw [← mul_fin _ (W n), ← w1 n gam hg, ← trapz_gamma cMec2 hm (fun E => p E * pd.unit.scale *
      (d / ε₀ * monoRate (E / (cMe * cC ^ 2)) ε₀ (e / (cMe * cC ^ 2))))]
    congr 4
    apply List.map_congr_left
    intro g hgm
    have e2 : g * cMec2 / (cMe * cC ^ 2) = g := by
      show g * cMec2 / cMec2 = g; field_simp
    rw [e2]
    show (fin g, pd.f (g * cMec2) * fin (pd.unit.scale * cMec2) * _) = _
    rw [hp _ (hmem g hgm), mul_fin, mul_fin]
    congr 2
    ring

theorem foldl_fin_add (gam : List ℝ) (N : List XR) (e : ℝ) (rest : List PhotonField) (v : PhotonField → ℝ)
    (hv : ∀ f ∈ rest, icAt gam N f.seed e = fin (v f)) (x : ℝ) :
    (rest.map PhotonField.seed).foldl (fun acc t => acc + icAt gam N t e) (fin x) = fin (x + (rest.map v).sum) := by
  induction rest generalizing x with
  | nil => simp
  | cons s rest ih =>
    rw [List.map_cons, List.foldl_cons, hv s (by simp), add_fin, ih (fun t ht => hv t (by simp [ht]))]
    simp only [List.map_cons, List.sum_cons]
    congr 1; ring

/-- **C83 (any photon fields).** For every electron distribution and range and every non-empty list of
photon fields, thermal (isotropic or seen under an angle) and lines in any combination: as the number of grid
points per decade grows, the spectrum at every photon energy tends to the sum over the fields of the integral
over electron energy of (electrons per unit energy) × (published rate), in 1/(s eV). -/
theorem C83_photon_fields (m : ElModel) (pd : PDist) (hu : pd.unit.dim = Dim.diffEnergy)
    (hus : 0 < pd.unit.scale) (hlo : m.Eemin.PosEnergy) (hhi : m.Eemax.PosEnergy)
    (hlt : m.Eemin.phys < m.Eemax.phys) (fs : List PhotonField) (hne : fs ≠ []) (hf : ∀ f ∈ fs, f.Proper)
    (p : ℝ → ℝ) (hp : ∀ E ∈ Set.Icc m.Eemin.phys m.Eemax.phys, pd.f E = fin (p E))
    (hs : Spectrum p m.Eemin.phys m.Eemax.phys) (es : List ℝ) (hes : ∀ e ∈ es, 0 < e) :
    ∃ L : ℝ → ℝ → ℝ, (∀ n, icSpectrum { m with nEed := n } (fs.map PhotonField.seed) pd es =
        .ok (es.map (fun e => fin (L n e)))) ∧
      ∀ e ∈ es, Tendsto (fun n => L n e) atTop (𝓝 (fs.map (fun f => cEV / (cMe * cC ^ 2) *
        ∫ E in m.Eemin.phys..m.Eemax.phys,
          p E * pd.unit.scale * f.rate (E / (cMe * cC ^ 2)) (e / (cMe * cC ^ 2)))).sum) := by
  have key : ∀ (f : PhotonField) (e : ℝ), ∃ L : ℝ → ℝ, f ∈ fs → 0 < e →
      (∀ n, icSpectrum { m with nEed := n } [f.seed] pd [e] = .ok [fin (L n)]) ∧
      Tendsto L atTop (𝓝 (cEV / (cMe * cC ^ 2) * ∫ E in m.Eemin.phys..m.Eemax.phys,
          p E * pd.unit.scale * f.rate (E / (cMe * cC ^ 2)) (e / (cMe * cC ^ 2)))) := by
    intro f e
    by_cases h : f ∈ fs ∧ 0 < e
    · obtain ⟨L, hL⟩ := field_limit m pd hu hus hlo hhi hlt f (hf f h.1) p hp hs e h.2
      exact ⟨L, fun _ _ => hL⟩
    · exact ⟨fun _ => 0, fun h1 h2 => absurd ⟨h1, h2⟩ h⟩
  choose V hV using key
  refine ⟨fun n e => (fs.map (fun f => V f e n)).sum, fun n => ?_, fun e he => ?_⟩
  · obtain ⟨gam, hg, -, -⟩ := gamGrid_facts n m.Eemin m.Eemax hlo hhi hlt.le
    have hg : ({ m with nEed := n } : ElModel).gam = .ok gam := hg
    have hat : ∀ f ∈ fs, ∀ e, 0 < e → icAt gam ((gam.map (· * cMec2)).map
        (fun e => pd.f e * XR.fin (pd.unit.scale / perMec2.scale))) f.seed e = fin (V f e n) := by
      intro f hfm e he
      have h1 := (hV f e hfm he).1 n
      rw [icSpectrum_eq, hg, nelec_eq _ pd hu gam hg] at h1
      simp only [bind, Except.bind, pure, Except.pure, List.map_cons, List.map_nil, icTotal, List.foldl_nil,
        Except.ok.injEq, List.cons.injEq, and_true] at h1
      exact h1
    cases fs with
    | nil => exact absurd rfl hne
    | cons f rest =>
      rw [List.map_cons, icSpectrum_eq, hg, nelec_eq _ pd hu gam hg]
      simp only [bind, Except.bind, pure, Except.pure]
      congr 1
      apply List.map_congr_left
      intro e he
      unfold icTotal
      rw [hat f (by simp) e (hes e he), foldl_fin_add gam _ e rest (fun f => V f e n)
        (fun t ht => hat t (by simp [ht]) e (hes e he))]
      simp
  · exact tendsto_list_sum fs (fun f hfm => (hV f e hfm (hes e he)).2)

/-! ### The hypotheses are met -/

/-- The cosmic microwave background, starlight seen under 90 degrees and a line at 10⁻⁶ mc². -/
example : ∀ f ∈ [PhotonField.thermal 2.725 4e-13 none, .thermal 3000 1e-12 (some (Real.pi / 2)), .line 1e-6 1e-7],
    f.Proper := by
  intro f hf
  simp only [List.mem_cons, List.not_mem_nil, or_false] at hf
  rcases hf with rfl | rfl | rfl
  · exact ⟨by norm_num, fun x h => by cases h⟩
  · refine ⟨by norm_num, fun x h => ?_⟩
    injection h with h
    rw [← h, Real.cos_pi_div_two]; norm_num
  · exact ⟨by norm_num, by norm_num⟩

/-- A line really scatters: at `γ = 1000`, `ε₀ = 10⁻³` photons of one rest mass are within the limits. -/
example : Spec.kinQ 1000 1e-3 1 < 1 ∧ 1 / (4 * (1000:ℝ) ^ 2) < Spec.kinQ 1000 1e-3 1 := by
  unfold Spec.kinQ; norm_num

end Naima.Props
