import Verif.Proof.PowerLimit
import Verif.Props.C83_Arrays

/-! # The log-log integral of a table of samples of a computed spectrum -/

namespace Naima.Props

open Naima XR Classical Topology MeasureTheory
open Filter (Tendsto atTop)

/-- a factor close to one bounds the change of a bin of ratio at most 2 -/
theorem rbin_mono_two : ∃ R : ℝ, 0 < R ∧ R ≤ 1.00001 ∧ ∀ x1 x2 y1 y2 z1 z2 : ℝ, 0 < x1 → x1 ≤ x2 → x2 / x1 ≤ 2 →
    0 ≤ y1 → 0 ≤ y2 → y1 ≤ z1 → y2 ≤ z2 → rbin x1 x2 y1 y2 ≤ R * rbin x1 x2 z1 z2 := by
  refine ⟨(2:ℝ) ^ (2e-10 : ℝ), Real.rpow_pos_of_pos (by norm_num) _, ?_, fun x1 x2 y1 y2 z1 z2 a b c d e f g =>
    rbin_mono 2 x1 x2 y1 y2 z1 z2 a b c d e f g⟩
  rw [Real.rpow_def_of_pos (by norm_num)]
  have h1 : Real.log 2 ≤ 1 := by linarith [Real.log_two_lt_d9]
  have h2 : Real.log 2 * 2e-10 ≤ 1e-6 := by nlinarith
  refine (Real.exp_le_exp.2 h2).trans ?_
  have h3 := Real.add_one_le_exp (-(1e-6:ℝ))
  have h4 : Real.exp (1e-6:ℝ) * Real.exp (-(1e-6:ℝ)) = 1 := by
    rw [← Real.exp_add]; simp
  have h5 := Real.exp_pos (1e-6:ℝ)
  have h6 : Real.exp (1e-6:ℝ) * (1 - 1e-6) ≤ 1 := by
    rw [← h4]
    apply mul_le_mul_of_nonneg_left _ h5.le
    linarith
  nlinarith

/-- the integral over all energies is approached by integrals over finite ranges -/
theorem wide_range (f : ℝ → ℝ) (hf : IntegrableOn f (Set.Ioi 0)) (h0 : ∀ e > 0, 0 ≤ f e) (ε : ℝ) (hε : 0 < ε) :
    ∃ lo₀ > 0, ∃ hi₀, lo₀ < hi₀ ∧ ∀ lo hi, 0 < lo → lo ≤ lo₀ → hi₀ ≤ hi →
      (∫ e in Set.Ioi 0, f e) - ε ≤ ∫ e in lo..hi, f e ∧ ∫ e in lo..hi, f e ≤ ∫ e in Set.Ioi 0, f e := by
  have hU : ⋃ n : ℕ, Set.Ioc (1 / ((n:ℝ) + 2)) ((n:ℝ) + 2) = Set.Ioi 0 := by
    ext x
    simp only [Set.mem_iUnion, Set.mem_Ioc, Set.mem_Ioi]
    constructor
    · rintro ⟨n, h1, -⟩
      exact lt_trans (by positivity) h1
    · intro hx
      obtain ⟨n, hn⟩ := exists_nat_gt (max x (1 / x))
      have h1 := (le_max_left x (1 / x)).trans_lt hn
      have h2 := (le_max_right x (1 / x)).trans_lt hn
      refine ⟨n, ?_, by linarith⟩
      rw [div_lt_iff₀ hx] at h2
      rw [div_lt_iff₀ (by positivity)]
      nlinarith
  have hmono : _root_.Monotone fun n : ℕ => Set.Ioc (1 / ((n:ℝ) + 2)) ((n:ℝ) + 2) := by
    intro m n hmn
    have : (m:ℝ) ≤ n := by exact_mod_cast hmn
    apply Set.Ioc_subset_Ioc
    · gcongr
    · linarith
  have ht := tendsto_setIntegral_of_monotone (μ := volume) (f := f) (fun n => measurableSet_Ioc) hmono (by rw [hU]; exact hf)
  rw [hU] at ht
  have hev := ht.eventually (lt_mem_nhds (show (∫ e in Set.Ioi 0, f e) - ε < ∫ e in Set.Ioi 0, f e by linarith))
  obtain ⟨n, hn⟩ := hev.exists
  have hn2 : (1:ℝ) < (n:ℝ) + 2 := by have : (0:ℝ) ≤ n := Nat.cast_nonneg n; linarith
  have hlt : 1 / ((n:ℝ) + 2) < (n:ℝ) + 2 := by
    rw [div_lt_iff₀ (by linarith)]; nlinarith
  refine ⟨1 / ((n:ℝ) + 2), by positivity, (n:ℝ) + 2, hlt, ?_⟩
  intro lo hi hlo h1 h2
  have hle : lo ≤ hi := h1.trans (hlt.le.trans h2)
  rw [intervalIntegral.integral_of_le hle]
  have hsub : Set.Ioc lo hi ⊆ Set.Ioi 0 := fun x hx => hlo.trans hx.1
  have hae : ∀ s : Set ℝ, MeasurableSet s → s ⊆ Set.Ioi 0 → 0 ≤ᵐ[volume.restrict s] f := by
    intro s hs h
    filter_upwards [ae_restrict_mem hs] with x hx using h0 x (h hx)
  constructor
  · refine hn.le.trans ?_
    exact setIntegral_mono_set (hf.mono_set hsub) (hae _ measurableSet_Ioc hsub)
      (Set.Ioc_subset_Ioc h1 h2).eventuallyLE
  · exact setIntegral_mono_set hf (hae _ measurableSet_Ioi subset_rfl) hsub.eventuallyLE

/-- **Tables.** `f` is non-negative, integrable over all energies, and within a factor 1.00001 of a function that is
continuous but for finitely many points. Then the log-log sum over a table of samples of `f` is as close as one likes to
the integral over all energies, up to a factor 1.0001, if the table covers a wide enough range with small enough steps. -/
theorem table_limit (f g : ℝ → ℝ) (hf : IntegrableOn f (Set.Ioi 0)) (h0 : ∀ e > 0, 0 ≤ f e)
    (h1 : ∀ e > 0, g e ≤ 1.00001 * f e) (h2 : ∀ e > 0, f e ≤ 1.00001 * g e)
    (hg : ∀ lo hi, 0 < lo → lo ≤ hi → Spectrum g lo hi) (ε : ℝ) (hε : 0 < ε) :
    ∃ lo₀ > 0, ∃ hi₀, lo₀ < hi₀ ∧ ∀ lo hi, 0 < lo → lo ≤ lo₀ → hi₀ ≤ hi → ∃ δ > 0, ∀ l : List ℝ,
      l.head? = some lo → l.getLast? = some hi → (∀ x ∈ l, x ∈ Set.Icc lo hi) → Adj (fun x y => x ≤ y ∧ y - x ≤ δ) l →
      0.9999 * (∫ e in Set.Ioi 0, f e) - ε ≤ binSum rbin (l.map (fun x => (x, f x))) ∧
      binSum rbin (l.map (fun x => (x, f x))) ≤ 1.0001 * (∫ e in Set.Ioi 0, f e) + ε := by
  obtain ⟨lo₀, hlo₀, hi₀, hlh, hw⟩ := wide_range f hf h0 (ε / 4) (by positivity)
  refine ⟨lo₀, hlo₀, hi₀, hlh, fun lo hi hl h3 h4 => ?_⟩
  have hle : lo ≤ hi := h3.trans (hlh.le.trans h4)
  obtain ⟨w1, w2⟩ := hw lo hi hl h3 h4
  set I := ∫ e in Set.Ioi 0, f e with hI
  have hI0 : 0 ≤ I := setIntegral_nonneg measurableSet_Ioi (fun e he => h0 e he)
  have hfi : IntervalIntegrable f volume lo hi :=
    (intervalIntegrable_iff_integrableOn_Ioc_of_le hle).2 (hf.mono_set (fun x hx => hl.trans hx.1))
  have hgi := (hg lo hi hl hle).integrable hle
  have g1 : ∫ e in lo..hi, g e ≤ 1.00001 * ∫ e in lo..hi, f e := by
    rw [← intervalIntegral.integral_const_mul]
    exact intervalIntegral.integral_mono_on hle hgi (hfi.const_mul _) (fun e he => h1 e (hl.trans_le he.1))
  have g2 : ∫ e in lo..hi, f e ≤ 1.00001 * ∫ e in lo..hi, g e := by
    rw [← intervalIntegral.integral_const_mul]
    exact intervalIntegral.integral_mono_on hle hfi (hgi.const_mul _) (fun e he => h2 e (hl.trans_le he.1))
  have hup : Spectrum (fun e => 1.00001 * g e) lo hi :=
    (Spectrum.of_continuous (p := fun _ => (1.00001:ℝ)) (fun _ _ => by norm_num) continuousOn_const).mul (hg lo hi hl hle)
  have hdn : Spectrum (fun e => (1 / 1.00001) * g e) lo hi :=
    (Spectrum.of_continuous (p := fun _ => (1 / 1.00001:ℝ)) (fun _ _ => by norm_num) continuousOn_const).mul (hg lo hi hl hle)
  obtain ⟨M, hM⟩ := hup.bounded
  obtain ⟨S, hS⟩ := hup.continuous
  obtain ⟨M', hM'⟩ := hdn.bounded
  obtain ⟨S', hS'⟩ := hdn.continuous
  obtain ⟨δ₁, hδ₁, c1⟩ := binSum_converges _ lo hi M hl hle S hS hup.nonneg hM (ε / 4) (by positivity)
  obtain ⟨δ₂, hδ₂, c2⟩ := binSum_converges _ lo hi M' hl hle S' hS' hdn.nonneg hM' (ε / 4) (by positivity)
  refine ⟨min lo (min δ₁ δ₂), by positivity, ?_⟩
  intro l e1 e2 hmem hadj
  have d1 := c1 l e1 e2 hmem (hadj.imp (fun x y h => ⟨h.1, h.2.trans ((min_le_right _ _).trans (min_le_left _ _))⟩))
  have d2 := c2 l e1 e2 hmem (hadj.imp (fun x y h => ⟨h.1, h.2.trans ((min_le_right _ _).trans (min_le_right _ _))⟩))
  rw [intervalIntegral.integral_const_mul, abs_lt] at d1 d2
  obtain ⟨R, hR0, hR, hRm⟩ := rbin_mono_two
  have hbin : ∀ y z : ℝ → ℝ, (∀ e > 0, 0 ≤ y e) → (∀ e > 0, y e ≤ z e) →
      binSum rbin (l.map (fun x => (x, y x))) ≤ R * binSum rbin (l.map (fun x => (x, z x))) := by
    intro y z hy hz
    apply binSum_le rbin rbin _ l id y z (fun x y => x ≤ y ∧ y - x ≤ min lo (min δ₁ δ₂)) (by simpa using hadj)
    intro a ha b hb hab
    have ha0 : 0 < a := hl.trans_le (hmem a ha).1
    have hb0 : 0 < b := hl.trans_le (hmem b hb).1
    refine hRm a b _ _ _ _ ha0 hab.1 ?_ (hy a ha0) (hy b hb0) (hz a ha0) (hz b hb0)
    rw [div_le_iff₀ ha0]
    have : b - a ≤ lo := hab.2.trans (min_le_left _ _)
    have := (hmem a ha).1
    linarith
  have b1 := hbin f (fun e => 1.00001 * g e) h0 h2
  have b2 := hbin (fun e => (1 / 1.00001) * g e) f
    (fun e he => by
      have := h2 e he
      have := h0 e he
      norm_num at *
      linarith)
    (fun e he => by
      have := h1 e he
      norm_num at *
      linarith)
  have hpos : ∀ z : ℝ → ℝ, (∀ e > 0, 0 ≤ z e) → 0 ≤ binSum rbin (l.map (fun x => (x, z x))) := by
    intro z hz
    have hz := hbin (fun _ => 0) z (fun _ _ => le_rfl) hz
    have e0 : ∀ l : List ℝ, binSum rbin (l.map (fun x => (x, (0:ℝ)))) = 0 := by
      intro l
      induction l with
      | nil => rfl
      | cons a l ih =>
        cases l with
        | nil => rfl
        | cons b l =>
          simp only [List.map_cons, binSum] at ih ⊢
          rw [ih]; simp [rbin]
    rw [e0] at hz
    by_contra hc
    push Not at hc
    nlinarith
  have p1 := hpos f h0
  have p2 := hpos (fun e => 1.00001 * g e) (fun e he => (h0 e he).trans (h2 e he))

  clear hbin hpos hRm c1 c2 hS hS' hM hM' hadj hmem
  generalize binSum rbin (l.map (fun x => (x, f x))) = Sf at *
  generalize binSum rbin (l.map (fun x => (x, 1.00001 * g x))) = Su at *
  generalize binSum rbin (l.map (fun x => (x, 1 / 1.00001 * g x))) = Sd at *
  generalize (∫ e in lo..hi, g e) = J at *
  generalize (∫ e in lo..hi, f e) = F at *
  have q1 : Sf ≤ 1.00001 * Su := b1.trans (mul_le_mul_of_nonneg_right hR p2)
  have q2 : Sd ≤ 1.00001 * Sf := b2.trans (mul_le_mul_of_nonneg_right hR p1)
  obtain ⟨-, d1⟩ := d1
  obtain ⟨d2, -⟩ := d2
  clear_value I
  clear hup hdn h0 h1 h2 hg hw hf hfi hgi hI
  norm_num at *
  constructor
  · linarith
  · linarith

/-! ### Computed spectra -/

theorem rbin_gbin_two (x1 x2 y1 y2 : ℝ) (h1 : 0 < x1) (h12 : x1 ≤ x2) (h2 : x2 / x1 ≤ 2) (hy1 : 0 ≤ y1) (hy2 : 0 ≤ y2) :
    rbin x1 x2 y1 y2 ≤ 1.00001 * gbin x1 x2 y1 y2 ∧ gbin x1 x2 y1 y2 ≤ 1.00001 * rbin x1 x2 y1 y2 := by
  have hr0 : 0 < x2 / x1 := div_pos (h1.trans_le h12) h1
  obtain ⟨n1, n2⟩ := rbin_near x1 x2 y1 y2 h1 h12 hy1 hy2
  have hg := gbin_nonneg x1 x2 y1 y2 h12 hy1 hy2
  rw [Real.rpow_neg hr0.le] at n1
  have hp : 0 < (x2 / x1) ^ (1e-10 : ℝ) := Real.rpow_pos_of_pos hr0 _
  have hq : (x2 / x1) ^ (1e-10 : ℝ) ≤ 1.00001 := by
    rw [Real.rpow_def_of_pos hr0]
    have a1 : Real.log (x2 / x1) ≤ 1 := (Real.log_le_log hr0 h2).trans (by linarith [Real.log_two_lt_d9])
    have a2 : Real.log (x2 / x1) * 1e-10 ≤ 1e-6 := by nlinarith
    refine (Real.exp_le_exp.2 a2).trans ?_
    have h3 := Real.add_one_le_exp (-(1e-6:ℝ))
    have h4 : Real.exp (1e-6:ℝ) * Real.exp (-(1e-6:ℝ)) = 1 := by
      rw [← Real.exp_add]; simp
    have h5 := Real.exp_pos (1e-6:ℝ)
    have h6 : Real.exp (1e-6:ℝ) * (1 - 1e-6) ≤ 1 := by
      rw [← h4]
      apply mul_le_mul_of_nonneg_left _ h5.le
      linarith
    nlinarith
  generalize (x2 / x1) ^ (1e-10 : ℝ) = R at *
  rw [inv_mul_le_iff₀ hp] at n1
  have hrb : 0 ≤ rbin x1 x2 y1 y2 := by
    by_contra hc
    push Not at hc
    nlinarith
  exact ⟨n2.trans (mul_le_mul_of_nonneg_right hq hg), n1.trans (mul_le_mul_of_nonneg_right hq hrb)⟩

/-- for a large enough number of points, neighbours in the electron grid differ by less than a factor 2 -/
theorem electron_steps (lo hi : Qty ℝ) (hlo : lo.PosEnergy) (hhi : hi.PosEnergy) (hlt : lo.phys < hi.phys) :
    ∃ n₀ : ℝ, ∀ n ≥ n₀, ∀ gam, gamGrid n lo hi = .ok gam →
      Adj (fun x y => x ≤ y ∧ y / x ≤ 2) (gam.map (· * cMec2)) := by
  have hm := cMec2_pos
  set la := Real.logb 10 (lo.phys / cMec2) with hla
  set lb := Real.logb 10 (hi.phys / cMec2) with hlb
  have hab : la < lb := Real.logb_lt_logb (by norm_num) (div_pos hlo.phys_pos hm) (div_lt_div_of_pos_right hlt hm)
  have hev := (mesh_tendsto (lb - la) 1 (gridK (lb - la)) (gridK_tendsto _ (by linarith))).eventually
    (gt_mem_nhds (show (0:ℝ) < 1 by norm_num))
  obtain ⟨n₀, hn₀⟩ := Filter.eventually_atTop.1 hev
  refine ⟨n₀, fun n hn gam hg => ?_⟩
  rw [gamGrid_eq n lo hi hlo hhi] at hg
  injection hg with hg
  have hg : logspace la lb (gridK (lb - la) n) = gam := hg
  rw [← hg]
  have h2 := hn₀ n hn
  apply Adj_of_get
  intro i a b ha hb
  rw [List.getElem?_map, Option.map_eq_some_iff] at ha hb
  obtain ⟨x, hx, rfl⟩ := ha
  obtain ⟨y, hy, rfl⟩ := hb
  obtain ⟨s1, -, s3⟩ := logspace_step la lb _ hab.le (gridK_ten _ n) i x y hx hy
  have hx0 : 0 < x := logspace_pos _ _ _ x (List.mem_of_getElem? hx)
  refine ⟨mul_le_mul_of_nonneg_right s1 hm.le, ?_⟩
  rw [div_le_iff₀ (mul_pos hx0 hm)]
  have : y ≤ 2 * x := by rw [s3]; nlinarith
  nlinarith

/-- a computed energy flux is within a factor 1.00001 of a function that is continuous but for finitely many points -/
theorem smooth_spectrum (l : List ℝ) (hl : ∀ x ∈ l, 0 < x) (hs : l.Pairwise (· ≤ ·))
    (hadj : Adj (fun x y => x ≤ y ∧ y / x ≤ 2) l) (c : ℝ) (hc : 0 ≤ c) (N : ℝ → ℝ) (K : ℝ → ℝ → ℝ)
    (hN : ∀ x ∈ l, 0 ≤ N x) (hK : ∀ x ∈ l, ∀ lo hi, 0 < lo → lo ≤ hi → Spectrum (K x) lo hi) :
    ∃ g : ℝ → ℝ, (∀ e > 0, g e ≤ 1.00001 * (e * (c * binSum rbin (l.map (fun x => (x, N x * K x e)))))) ∧
      (∀ e > 0, e * (c * binSum rbin (l.map (fun x => (x, N x * K x e)))) ≤ 1.00001 * g e) ∧
      (∀ lo hi, 0 < lo → lo ≤ hi → Spectrum g lo hi) := by
  have hnn : ∀ x ∈ l, ∀ e > 0, 0 ≤ N x * K x e := fun x hx e he =>
    mul_nonneg (hN x hx) ((hK x hx e e he le_rfl).nonneg e ⟨le_rfl, le_rfl⟩)
  refine ⟨fun e => e * (c * binSum gbin (l.map (fun x => (x, N x * K x e)))), fun e he => ?_, fun e he => ?_, fun lo hi h0 hle => ?_⟩
  · have h := binSum_le gbin rbin 1.00001 l id (fun x => N x * K x e) (fun x => N x * K x e)
      (fun x y => x ≤ y ∧ y / x ≤ 2) (by simpa using hadj)
      (fun a ha b hb hab => (rbin_gbin_two a b _ _ (hl a ha) hab.1 hab.2 (hnn a ha e he) (hnn b hb e he)).2)
    simp only [id] at h
    have h2 := mul_le_mul_of_nonneg_left h (mul_nonneg (le_of_lt he) hc)
    calc _ = e * c * binSum gbin (l.map (fun x => (x, N x * K x e))) := by ring
      _ ≤ _ := h2
      _ = _ := by ring
  · have h := binSum_le rbin gbin 1.00001 l id (fun x => N x * K x e) (fun x => N x * K x e)
      (fun x y => x ≤ y ∧ y / x ≤ 2) (by simpa using hadj)
      (fun a ha b hb hab => (rbin_gbin_two a b _ _ (hl a ha) hab.1 hab.2 (hnn a ha e he) (hnn b hb e he)).1)
    simp only [id] at h
    have h2 := mul_le_mul_of_nonneg_left h (mul_nonneg (le_of_lt he) hc)
    calc _ = e * c * binSum rbin (l.map (fun x => (x, N x * K x e))) := by ring
      _ ≤ _ := h2
      _ = _ := by ring
  · have h1 : Spectrum (fun e => binSum gbin (l.map (fun x => (x, N x * K x e)))) lo hi :=
      Spectrum.binSum l id (fun x e => N x * K x e) lo hi hl (by simpa using hs) (fun x hx =>
        (Spectrum.of_continuous (p := fun _ => N x) (fun _ _ => hN x hx) continuousOn_const).mul (hK x hx lo hi h0 hle))
    exact (Spectrum.of_continuous (p := fun e => e) (fun t ht => h0.le.trans ht.1) continuousOn_id).mul
      ((Spectrum.of_continuous (p := fun _ => c) (fun _ _ => hc) continuousOn_const).mul h1)

end Naima.Props
