import Verif.Props.C83_Fields
import Verif.Props.C84_C85_Order
import Mathlib.MeasureTheory.Integral.IntervalIntegral.DerivIntegrable
import Mathlib.MeasureTheory.Integral.DominatedConvergence

/-! # C83, continued: photon fields given as arrays -/

namespace Naima.Props

open Naima XR Classical Topology
open Filter (Tendsto atTop)

theorem weight_mem_Ioo (x1 x2 t : ℝ) (h1 : 0 < x1) (h12 : x1 < x2) (ht : t ∈ Set.Ioo x1 x2) :
    0 < Real.log (t / x1) / Real.log (x2 / x1) ∧ Real.log (t / x1) / Real.log (x2 / x1) < 1 := by
  have hr : 0 < Real.log (x2 / x1) := Real.log_pos (by rwa [one_lt_div h1])
  have ht0 : 0 < t := h1.trans ht.1
  constructor
  · exact div_pos (Real.log_pos (by rw [one_lt_div h1]; exact ht.1)) hr
  · rw [div_lt_one hr]
    exact Real.log_lt_log (div_pos ht0 h1) (div_lt_div_of_pos_right ht.2 h1)

/-- a bin is the integral of the interpolating power law, zero samples included -/
theorem gbin_eq (x1 x2 y1 y2 : ℝ) (h1 : 0 < x1) (h12 : x1 < x2) :
    gbin x1 x2 y1 y2 = ∫ t in x1..x2, geo x1 x2 y1 y2 t := by
  unfold gbin
  split
  · rename_i h
    symm
    have : (∫ t in x1..x2, geo x1 x2 y1 y2 t) = ∫ _ in x1..x2, (0 : ℝ) := by
      apply intervalIntegral.integral_congr_ae
      have hne : ∀ᵐ t ∂(MeasureTheory.volume : MeasureTheory.Measure ℝ), t ≠ x2 := by
        simp [MeasureTheory.ae_iff]
      filter_upwards [hne] with t ht hm
      rw [Set.uIoc_of_le h12.le] at hm
      obtain ⟨w0, w1⟩ := weight_mem_Ioo x1 x2 t h1 h12 ⟨hm.1, lt_of_le_of_ne hm.2 ht⟩
      unfold geo
      rcases h with h | h
      · rw [h, Real.zero_rpow (by linarith), zero_mul]
      · rw [h, Real.zero_rpow w0.ne', mul_zero]
    rw [this]; simp
  · rfl

/-- bins depend continuously on the samples, down to zero -/
theorem gbin_continuousOn (x1 x2 : ℝ) (h1 : 0 < x1) (h12 : x1 ≤ x2) :
    ContinuousOn (fun y : ℝ × ℝ => gbin x1 x2 y.1 y.2) {y | 0 ≤ y.1 ∧ 0 ≤ y.2} := by
  rcases eq_or_lt_of_le h12 with h | hlt
  · subst h
    have : (fun y : ℝ × ℝ => gbin x1 x1 y.1 y.2) = fun _ => 0 := by
      funext y; unfold gbin; simp
    rw [this]; exact continuousOn_const
  simp only [gbin_eq x1 x2 _ _ h1 hlt]
  intro y hy
  obtain ⟨hy1, hy2⟩ := hy
  set M := max (y.1 + 1) (y.2 + 1) with hM
  have hM0 : 0 < M := lt_max_of_lt_left (by linarith)
  have hnear : ∀ᶠ z in 𝓝[{y : ℝ × ℝ | 0 ≤ y.1 ∧ 0 ≤ y.2}] y, (0 ≤ z.1 ∧ 0 ≤ z.2) ∧ z.1 ≤ M ∧ z.2 ≤ M := by
    refine Filter.Eventually.and self_mem_nhdsWithin ?_
    apply Filter.Eventually.filter_mono nhdsWithin_le_nhds
    have c1 : ∀ᶠ z in 𝓝 y, z.1 < M := continuousAt_fst.eventually_lt continuousAt_const
      (lt_of_lt_of_le (by linarith : y.1 < y.1 + 1) (le_max_left _ _))
    have c2 : ∀ᶠ z in 𝓝 y, z.2 < M := continuousAt_snd.eventually_lt continuousAt_const
      (lt_of_lt_of_le (by linarith : y.2 < y.2 + 1) (le_max_right _ _))
    filter_upwards [c1, c2] with z a b using ⟨a.le, b.le⟩
  apply intervalIntegral.tendsto_integral_filter_of_dominated_convergence (fun _ => M)
  · filter_upwards with z
    apply Measurable.aestronglyMeasurable
    unfold geo
    fun_prop
  · filter_upwards [hnear] with z hz
    filter_upwards with t ht
    rw [Set.uIoc_of_le hlt.le] at ht
    obtain ⟨w0, w1⟩ := weight_mem x1 x2 t h1 hlt ⟨ht.1.le, ht.2⟩
    rw [Real.norm_of_nonneg (geo_nonneg _ _ _ _ _ hz.1.1 hz.1.2)]
    unfold geo
    calc _ ≤ M ^ (1 - Real.log (t / x1) / Real.log (x2 / x1)) * M ^ (Real.log (t / x1) / Real.log (x2 / x1)) :=
          mul_le_mul (Real.rpow_le_rpow hz.1.1 hz.2.1 (by linarith)) (Real.rpow_le_rpow hz.1.2 hz.2.2 w0)
            (Real.rpow_nonneg hz.1.2 _) (by positivity)
      _ = M := by rw [← Real.rpow_add hM0]; simp
  · exact intervalIntegrable_const
  · have hne : ∀ᵐ t ∂(MeasureTheory.volume : MeasureTheory.Measure ℝ), t ≠ x2 := by
      simp [MeasureTheory.ae_iff]
    filter_upwards [hne] with t ht hm
    rw [Set.uIoc_of_le hlt.le] at hm
    obtain ⟨w0, w1⟩ := weight_mem_Ioo x1 x2 t h1 hlt ⟨hm.1, lt_of_le_of_ne hm.2 ht⟩
    unfold geo
    apply Tendsto.mono_left _ nhdsWithin_le_nhds
    apply Tendsto.mul
    · exact (Real.continuousAt_rpow_const _ _ (Or.inr (by linarith))).tendsto.comp continuousAt_fst
    · exact (Real.continuousAt_rpow_const _ _ (Or.inr w0.le)).tendsto.comp continuousAt_snd

theorem Spectrum.gbin {f g : ℝ → ℝ} {a b : ℝ} (hf : Spectrum f a b) (hg : Spectrum g a b) (x1 x2 : ℝ)
    (h1 : 0 < x1) (h12 : x1 ≤ x2) : Spectrum (fun t => Naima.gbin x1 x2 (f t) (g t)) a b := by
  obtain ⟨M, hM⟩ := hf.bounded
  obtain ⟨N, hN⟩ := hg.bounded
  obtain ⟨S, hS⟩ := hf.continuous
  obtain ⟨T, hT⟩ := hg.continuous
  refine ⟨fun t ht => gbin_nonneg _ _ _ _ h12 (hf.nonneg t ht) (hg.nonneg t ht), ⟨max M N * (x2 - x1), fun t ht => ?_⟩,
    ⟨S ∪ T, ?_⟩⟩
  · refine (gbin_between x1 x2 _ _ h1 h12 (hf.nonneg t ht) (hg.nonneg t ht)).2.trans ?_
    exact mul_le_mul_of_nonneg_right (max_le_max (hM t ht) (hN t ht)) (by linarith)
  · have cf : ContinuousOn f (Set.Icc a b \ (S ∪ T : Finset ℝ)) := by
      apply hS.mono; intro t ht; exact ⟨ht.1, fun h => ht.2 (by simp [show t ∈ S from h])⟩
    have cg : ContinuousOn g (Set.Icc a b \ (S ∪ T : Finset ℝ)) := by
      apply hT.mono; intro t ht; exact ⟨ht.1, fun h => ht.2 (by simp [show t ∈ T from h])⟩
    exact (gbin_continuousOn x1 x2 h1 h12).comp (cf.prodMk cg)
      (fun t ht => ⟨hf.nonneg t ht.1, hg.nonneg t ht.1⟩)

theorem Spectrum.zero (a b : ℝ) : Spectrum (fun _ => 0) a b :=
  Spectrum.of_continuous (fun _ _ => le_rfl) continuousOn_const

/-- sums over the bins of a fixed array, of samples that depend on a parameter -/
theorem Spectrum.binSum {α : Type} (l : List α) (x : α → ℝ) (f : α → ℝ → ℝ) (a b : ℝ)
    (hx : ∀ p ∈ l, 0 < x p) (hs : (l.map x).Pairwise (· ≤ ·)) (hf : ∀ p ∈ l, Spectrum (f p) a b) :
    Spectrum (fun t => Naima.binSum Naima.gbin (l.map (fun p => (x p, f p t)))) a b := by
  induction l with
  | nil => simpa [Naima.binSum] using Spectrum.zero a b
  | cons p l ih =>
    cases l with
    | nil => simpa [Naima.binSum] using Spectrum.zero a b
    | cons q l =>
      have h2 := ih (fun r hr => hx r (by simp [hr])) (List.Pairwise.of_cons (by simpa using hs))
        (fun r hr => hf r (by simp [hr]))
      have hpq : x p ≤ x q := by
        simp only [List.map_cons, List.pairwise_cons] at hs
        exact hs.1 (x q) (by simp)
      have h1 := Spectrum.gbin (hf p (by simp)) (hf q (by simp)) (x p) (x q) (hx p (by simp)) hpq
      simp only [List.map_cons, Naima.binSum] at h2 ⊢
      exact h1.add h2

/-- The power laws through consecutive samples of an array of photons (energies in mc², densities per mc² and
cm³) times the rate of Aharonian & Atoyan, integrated between the samples: photons of energy `ε` scattered by an
electron of Lorentz factor `γ`, per unit time and energy. -/
noncomputable def arrayRate (γ ε : ℝ) : List (ℝ × ℝ) → ℝ
  | p :: q :: rest => (∫ t in p.1..q.1, (p.2 * monoRate γ p.1 ε) ^ (1 - Real.log (t / p.1) / Real.log (q.1 / p.1)) *
      (q.2 * monoRate γ q.1 ε) ^ (Real.log (t / p.1) / Real.log (q.1 / p.1))) + arrayRate γ ε (q :: rest)
  | _ => 0

theorem arrayRate_eq (γ ε : ℝ) (l : List (ℝ × ℝ)) (h0 : ∀ p ∈ l, 0 < p.1) (hs : (l.map (·.1)).Pairwise (· < ·)) :
    arrayRate γ ε l = binSum gbin (l.map (fun p => (p.1, p.2 * monoRate γ p.1 ε))) := by
  induction l with
  | nil => rfl
  | cons p l ih =>
    cases l with
    | nil => rfl
    | cons q l =>
      have h2 := ih (fun r hr => h0 r (by simp [hr])) (List.Pairwise.of_cons (by simpa using hs))
      have hpq : p.1 < q.1 := by
        simp only [List.map_cons, List.pairwise_cons] at hs
        exact hs.1 (q.1) (by simp)
      simp only [List.map_cons, binSum, arrayRate] at h2 ⊢
      rw [h2, gbin_eq _ _ _ _ (h0 p (by simp)) hpq]
      rfl

/-- sums over the electron grid of samples close to those of a spectrum -/
theorem electron_squeeze (lo hi : Qty ℝ) (hlo : lo.PosEnergy) (hhi : hi.PosEnergy) (hlt : lo.phys < hi.phys)
    (F Y : ℝ → ℝ) (hF : Spectrum F lo.phys hi.phys) (a : ℝ) (ha : 0 < a)
    (hY0 : ∀ E ∈ Set.Icc lo.phys hi.phys, 0 ≤ Y E)
    (hY1 : ∀ E ∈ Set.Icc lo.phys hi.phys, a⁻¹ * F E ≤ Y E)
    (hY2 : ∀ E ∈ Set.Icc lo.phys hi.phys, Y E ≤ a * F E) :
    ∃ V : ℝ → ℝ, (∀ n gam, gamGrid n lo hi = .ok gam →
        trapzLL (gam.map (fun g => (fin (g * cMec2), fin (Y (g * cMec2))))) = fin (V n)) ∧
      ∀ η > 0, ∀ᶠ n in atTop,
        ((hi.phys / lo.phys) ^ (2e-10 : ℝ))⁻¹ * a⁻¹ * (∫ E in lo.phys..hi.phys, F E) - η ≤ V n ∧
        V n ≤ (hi.phys / lo.phys) ^ (2e-10 : ℝ) * a * (∫ E in lo.phys..hi.phys, F E) + η := by
  have hm := cMec2_pos
  have hR : 0 < (hi.phys / lo.phys) ^ (2e-10 : ℝ) := Real.rpow_pos_of_pos (div_pos hhi.phys_pos hlo.phys_pos) _
  set R := (hi.phys / lo.phys) ^ (2e-10 : ℝ) with hRdef
  have hconst : ∀ c : ℝ, 0 ≤ c → Spectrum (fun E => c * F E) lo.phys hi.phys := fun c hc =>
    (Spectrum.of_continuous (fun _ _ => hc) continuousOn_const).mul hF
  obtain ⟨W1, u1, u2⟩ := electron_limit lo hi hlo hhi hlt _ (hconst a⁻¹ (by positivity))
  obtain ⟨W2, v1, v2⟩ := electron_limit lo hi hlo hhi hlt _ (hconst a ha.le)
  rw [intervalIntegral.integral_const_mul] at u2 v2
  have hgrid : ∀ n : ℝ, ∃ gam, gamGrid n lo hi = .ok gam ∧ (∀ x ∈ gam.map (· * cMec2), x ∈ Set.Icc lo.phys hi.phys) ∧
      (gam.map (· * cMec2)).Pairwise (· ≤ ·) := by
    intro n
    obtain ⟨gam, hg, -, hgs⟩ := gamGrid_facts n lo hi hlo hhi hlt.le
    have hmem := gam_mem n lo hi hlo hhi hlt.le gam hg
    obtain ⟨g1, g2⟩ := grid_scaled _ _ _ hm gam hgs hmem
    exact ⟨gam, hg, g1, g2⟩
  choose G hG hG1 hG2 using hgrid
  have key : ∀ (n : ℝ) (y : ℝ → ℝ), (∀ E ∈ Set.Icc lo.phys hi.phys, 0 ≤ y E) →
      trapzLL ((G n).map (fun g => (fin (g * cMec2), fin (y (g * cMec2))))) =
        fin (binSum rbin (((G n).map (· * cMec2)).map (fun x => (x, y x)))) := by
    intro n y hy
    have e := trapzLL_rbin (((G n).map (· * cMec2)).map (fun x => (x, y x)))
      (by intro p hp; obtain ⟨x, hx, rfl⟩ := List.mem_map.1 hp; exact hlo.phys_pos.trans_le (hG1 n x hx).1)
      (by intro p hp; obtain ⟨x, hx, rfl⟩ := List.mem_map.1 hp; exact hy x (hG1 n x hx))
      (by simpa [List.map_map, Function.comp_def] using hG2 n)
    rw [← e]
    simp only [List.map_map, Function.comp_def]
  refine ⟨fun n => binSum rbin (((G n).map (· * cMec2)).map (fun x => (x, Y x))), fun n gam hg => ?_, fun η hη => ?_⟩
  · rw [hG n] at hg
    injection hg with hg
    rw [← hg]
    exact key n Y hY0
  · have hw1 : ∀ n, W1 n ≤ R * binSum rbin (((G n).map (· * cMec2)).map (fun x => (x, Y x))) := by
      intro n
      have e := u1 n _ (hG n)
      rw [key n (fun E => a⁻¹ * F E) (fun E hE => mul_nonneg (by positivity) (hF.nonneg E hE)), fin_inj] at e
      rw [← e]
      exact binSum_mono lo.phys hi.phys hlo.phys_pos _ (hG1 n) (hG2 n) (fun x => a⁻¹ * F x) Y
        (fun x hx => mul_nonneg (by positivity) (hF.nonneg x (hG1 n x hx))) (fun x hx => hY1 x (hG1 n x hx))
    have hw2 : ∀ n, binSum rbin (((G n).map (· * cMec2)).map (fun x => (x, Y x))) ≤ R * W2 n := by
      intro n
      have e := v1 n _ (hG n)
      rw [key n (fun E => a * F E) (fun E hE => mul_nonneg ha.le (hF.nonneg E hE)), fin_inj] at e
      rw [← e]
      exact binSum_mono lo.phys hi.phys hlo.phys_pos _ (hG1 n) (hG2 n) Y (fun x => a * F x)
        (fun x hx => hY0 x (hG1 n x hx)) (fun x hx => hY2 x (hG1 n x hx))
    have e1 := u2.const_mul R⁻¹
    have e2 := v2.const_mul R
    have f1 := e1.eventually_const_lt (show R⁻¹ * (a⁻¹ * ∫ E in lo.phys..hi.phys, F E) - η <
      R⁻¹ * (a⁻¹ * ∫ E in lo.phys..hi.phys, F E) by linarith)
    have f2 := e2.eventually_lt_const (show R * (a * ∫ E in lo.phys..hi.phys, F E) <
      R * (a * ∫ E in lo.phys..hi.phys, F E) + η by linarith)
    filter_upwards [f1, f2] with n k1 k2
    have l1 : R⁻¹ * W1 n ≤ binSum rbin (((G n).map (· * cMec2)).map (fun x => (x, Y x))) := by
      rw [inv_mul_le_iff₀ hR]; exact hw1 n
    constructor
    · rw [mul_assoc]; linarith
    · rw [mul_assoc]; linarith [hw2 n]

/-- computed and exact integrals over the photons of an array -/
theorem array_near (field : List (ℝ × ℝ)) (εmin εmax : ℝ) (hmin : 0 < εmin)
    (hr : ∀ p ∈ field, p.1 ∈ Set.Icc εmin εmax) (hs : (field.map (·.1)).Pairwise (· ≤ ·)) (y : ℝ × ℝ → ℝ)
    (hy : ∀ p ∈ field, 0 ≤ y p) :
    ((εmax / εmin) ^ (1e-10 : ℝ))⁻¹ * binSum gbin (field.map (fun p => (p.1, y p))) ≤
        binSum rbin (field.map (fun p => (p.1, y p))) ∧
      binSum rbin (field.map (fun p => (p.1, y p))) ≤
        (εmax / εmin) ^ (1e-10 : ℝ) * binSum gbin (field.map (fun p => (p.1, y p))) := by
  have hadj := adj_ratio εmin εmax hmin (field.map (·.1)) (by
    intro x hx; obtain ⟨p, hp, rfl⟩ := List.mem_map.1 hx; exact hr p hp) hs
  cases field with
  | nil => simp [binSum]
  | cons p0 field =>
  have hA : 0 < (εmax / εmin) ^ (1e-10 : ℝ) :=
    Real.rpow_pos_of_pos (div_pos (hmin.trans_le ((hr p0 (by simp)).1.trans (hr p0 (by simp)).2)) hmin) _
  constructor
  · rw [inv_mul_le_iff₀ hA]
    apply binSum_le gbin rbin _ (p0 :: field) (fun p => p.1) y y _ hadj
    rintro a ha b hb ⟨h1, h2, h3⟩
    have k := (rbin_near a.1 b.1 (y a) (y b) h1 h2 (hy a ha) (hy b hb)).1
    have hq : 0 < b.1 / a.1 := div_pos (h1.trans_le h2) h1
    rw [Real.rpow_neg hq.le, inv_mul_le_iff₀ (by positivity)] at k
    refine k.trans (mul_le_mul_of_nonneg_right (Real.rpow_le_rpow hq.le h3 (by norm_num)) ?_)
    have k1 := (rbin_near a.1 b.1 (y a) (y b) h1 h2 (hy a ha) (hy b hb)).1
    exact le_trans (mul_nonneg (by positivity) (gbin_nonneg _ _ _ _ h2 (hy a ha) (hy b hb))) k1
  · apply binSum_le rbin gbin _ (p0 :: field) (fun p => p.1) y y _ hadj
    rintro a ha b hb ⟨h1, h2, h3⟩
    have k := (rbin_near a.1 b.1 (y a) (y b) h1 h2 (hy a ha) (hy b hb)).2
    have hq : 0 < b.1 / a.1 := div_pos (h1.trans_le h2) h1
    exact k.trans (mul_le_mul_of_nonneg_right (Real.rpow_le_rpow hq.le h3 (by norm_num))
      (gbin_nonneg _ _ _ _ h2 (hy a ha) (hy b hb)))

/-- **C83 (photon fields given as arrays).** For every electron distribution and range and every photon field
given as two or more ascending energies with densities: as the number of grid points per decade grows, the
spectrum at every photon energy comes, to any precision and up to the rounding of the local indices (a factor
(ε_max/ε_min)^(10⁻¹⁰)·(E_max/E_min)^(2·10⁻¹⁰), under 1.00000002 for forty decades in total), to the integral over
electron energy of (electrons per unit energy) × (density × published rate, integrated over the photons of the
array with power laws between its samples), in 1/(s eV). -/
theorem C83_photon_array (m : ElModel) (pd : PDist) (hu : pd.unit.dim = Dim.diffEnergy)
    (hus : 0 < pd.unit.scale) (hlo : m.Eemin.PosEnergy) (hhi : m.Eemax.PosEnergy)
    (hlt : m.Eemin.phys < m.Eemax.phys) (field : List (ℝ × ℝ)) (h2 : 2 ≤ field.length)
    (hs : (field.map (·.1)).Pairwise (· < ·)) (εmin εmax : ℝ) (hmin : 0 < εmin)
    (hr : ∀ q ∈ field, q.1 ∈ Set.Icc εmin εmax ∧ 0 ≤ q.2) (θ : Option ℝ)
    (p : ℝ → ℝ) (hp : ∀ E ∈ Set.Icc m.Eemin.phys m.Eemax.phys, pd.f E = fin (p E))
    (hsp : Spectrum p m.Eemin.phys m.Eemax.phys) (e : ℝ) (he : 0 < e) :
    ∃ L : ℝ → ℝ, (∀ n, icSpectrum { m with nEed := n }
        [.array (field.map (·.1)) (field.map (fun q => fin q.2)) θ] pd [e] = .ok [fin (L n)]) ∧
      ∀ η > 0, ∀ᶠ n in atTop,
        ((m.Eemax.phys / m.Eemin.phys) ^ (2e-10 : ℝ) * (εmax / εmin) ^ (1e-10 : ℝ))⁻¹ *
            (cEV / (cMe * cC ^ 2) * ∫ E in m.Eemin.phys..m.Eemax.phys,
              p E * pd.unit.scale * arrayRate (E / (cMe * cC ^ 2)) (e / (cMe * cC ^ 2)) field) - η ≤ L n ∧
        L n ≤ (m.Eemax.phys / m.Eemin.phys) ^ (2e-10 : ℝ) * (εmax / εmin) ^ (1e-10 : ℝ) *
            (cEV / (cMe * cC ^ 2) * ∫ E in m.Eemin.phys..m.Eemax.phys,
              p E * pd.unit.scale * arrayRate (E / (cMe * cC ^ 2)) (e / (cMe * cC ^ 2)) field) + η := by
  have hm := cMec2_pos
  have hmm : cMe * cC ^ 2 = cMec2 := rfl
  have hev := cEV_pos
  simp only [hmm]
  have hle : (field.map (·.1)).Pairwise (· ≤ ·) := hs.imp le_of_lt
  have h0 : ∀ q ∈ field, 0 < q.1 := fun q hq => hmin.trans_le (hr q hq).1.1
  have hne : field ≠ [] := by rintro rfl; simp at h2
  have hA : 0 < (εmax / εmin) ^ (1e-10 : ℝ) := by
    obtain ⟨q, hq⟩ := List.exists_mem_of_ne_nil _ hne
    exact Real.rpow_pos_of_pos (div_pos (hmin.trans_le ((hr q hq).1.1.trans (hr q hq).1.2)) hmin) _
  set A := (εmax / εmin) ^ (1e-10 : ℝ) with hAdef
  set ε := e / cMec2 with hε
  have hε0 : 0 < ε := div_pos he hm
  have hrate : ∀ q ∈ field, Spectrum (fun E => q.2 * monoRate (E / cMec2) q.1 ε) m.Eemin.phys m.Eemax.phys :=
    fun q hq => (Spectrum.of_continuous (fun _ _ => (hr q hq).2) continuousOn_const).mul
      (Spectrum.comp_div hm (monoRate_spectrum q.1 ε _ _ (h0 q hq) hε0 (div_pos hlo.phys_pos hm)))
  have hsc : Spectrum (fun _ => pd.unit.scale) m.Eemin.phys m.Eemax.phys :=
    Spectrum.of_continuous (fun _ _ => hus.le) continuousOn_const
  have hsum := Spectrum.binSum field (fun q => q.1) (fun q E => q.2 * monoRate (E / cMec2) q.1 ε)
    m.Eemin.phys m.Eemax.phys h0 hle hrate
  have hF : Spectrum (fun E => p E * pd.unit.scale * arrayRate (E / cMec2) ε field) m.Eemin.phys m.Eemax.phys := by
    simp only [arrayRate_eq _ ε field h0 hs]
    exact (hsp.mul hsc).mul hsum
  have hin : ∀ E ∈ Set.Icc m.Eemin.phys m.Eemax.phys, ∀ q ∈ field, 0 ≤ q.2 * monoRate (E / cMec2) q.1 ε :=
    fun E hE q hq => (hrate q hq).nonneg E hE
  have hnear := fun E (hE : E ∈ Set.Icc m.Eemin.phys m.Eemax.phys) =>
    array_near field εmin εmax hmin (fun q hq => (hr q hq).1) hle (fun q => q.2 * monoRate (E / cMec2) q.1 ε) (hin E hE)
  set RB : ℝ → ℝ := fun E => binSum rbin (field.map (fun q => (q.1, q.2 * monoRate (E / cMec2) q.1 ε))) with hRB
  have hpn := fun E hE => mul_nonneg (hsp.nonneg E hE) hus.le
  obtain ⟨V, w1, w2⟩ := electron_squeeze m.Eemin m.Eemax hlo hhi hlt _ (fun E => p E * pd.unit.scale * RB E) hF A hA
    (fun E hE => mul_nonneg (hpn E hE) (le_trans (mul_nonneg (by positivity) (hsum.nonneg E hE)) (hnear E hE).1))
    (fun E hE => by
      have := mul_le_mul_of_nonneg_left (hnear E hE).1 (hpn E hE)
      rw [← arrayRate_eq _ ε field h0 hs] at this
      calc _ = p E * pd.unit.scale * (A⁻¹ * arrayRate (E / cMec2) ε field) := by ring
        _ ≤ _ := this)
    (fun E hE => by
      have := mul_le_mul_of_nonneg_left (hnear E hE).2 (hpn E hE)
      rw [← arrayRate_eq _ ε field h0 hs] at this
      calc _ ≤ p E * pd.unit.scale * (A * arrayRate (E / cMec2) ε field) := this
        _ = _ := by ring)
  refine ⟨fun n => cEV / cMec2 * V n, fun n => ?_, fun η hη => ?_⟩
  · obtain ⟨gam, hg, -, h⟩ := C71_spectral { m with nEed := n } pd hu hlo hhi hlt.le field h2 h0 θ [e]
      (by simpa using he)
    have hmem := gam_mem n m.Eemin m.Eemax hlo hhi hlt.le gam hg
    rw [h]
    simp only [List.map_cons, List.map_nil, hmm]
    rw [← mul_fin _ (V n), ← w1 n gam hg, ← trapz_gamma cMec2 hm (fun E => p E * pd.unit.scale * RB E)]
    congr 4
    apply List.map_congr_left
    intro g hgm
    have e2 : g * cMec2 / cMec2 = g := by field_simp
    have hi := hin _ (hmem g hgm)
    rw [e2] at hi
    have e3 := trapzLL_rbin (field.map (fun q => (q.1, q.2 * monoRate g q.1 ε)))
      (by intro x hx; obtain ⟨q, hq, rfl⟩ := List.mem_map.1 hx; exact h0 q hq)
      (by intro x hx; obtain ⟨q, hq, rfl⟩ := List.mem_map.1 hx; exact hi q hq)
      (by simpa [List.map_map, Function.comp_def] using hle)
    rw [List.map_map] at e3
    simp only [Function.comp_def] at e3
    rw [e3]
    show (fin g, pd.f (g * cMec2) * fin (pd.unit.scale * cMec2) * _) = _
    rw [hp _ (hmem g hgm), mul_fin, mul_fin, hRB]
    simp only [e2]
    congr 2
    ring
  · have hc : 0 < cEV / cMec2 := by positivity
    filter_upwards [w2 (η / (cEV / cMec2)) (by positivity)] with n hn
    obtain ⟨k1, k2⟩ := hn
    have j1 := mul_le_mul_of_nonneg_left k1 hc.le
    have j2 := mul_le_mul_of_nonneg_left k2 hc.le
    rw [mul_sub, mul_div_cancel₀ _ hc.ne'] at j1
    rw [mul_add, mul_div_cancel₀ _ hc.ne'] at j2
    constructor
    · refine le_trans (le_of_eq ?_) j1
      rw [mul_inv]; ring
    · refine le_trans j2 (le_of_eq ?_)
      ring

/-! ### The hypotheses are met -/

/-- Three energies, from 10⁻⁹ to 10⁻⁷ mc². -/
example : 2 ≤ [((1e-9 : ℝ), (1 : ℝ)), (1e-8, 3), (1e-7, 0)].length ∧
    ([((1e-9 : ℝ), (1 : ℝ)), (1e-8, 3), (1e-7, 0)].map (·.1)).Pairwise (· < ·) ∧
    ∀ q ∈ [((1e-9 : ℝ), (1 : ℝ)), (1e-8, 3), (1e-7, 0)], q.1 ∈ Set.Icc (1e-9 : ℝ) 1e-7 ∧ 0 ≤ q.2 := by
  refine ⟨by simp, ?_, ?_⟩
  · norm_num
  · intro q hq
    simp only [List.mem_cons, List.not_mem_nil, or_false] at hq
    rcases hq with rfl | rfl | rfl <;> norm_num

end Naima.Props
