import Verif.Proof.GridLimit
import Mathlib.Analysis.Convex.Deriv

/-! Error of the log-log trapezoid rule for functions of bounded curvature -/

namespace Naima

open XR

/-- the logarithm of a function of the logarithm -/
noncomputable def logLog (f : ℝ → ℝ) (s : ℝ) : ℝ := Real.log (f (Real.exp s))

theorem logLog_log (f : ℝ → ℝ) (t : ℝ) (ht : 0 < t) : logLog f (Real.log t) = Real.log (f t) := by
  unfold logLog; rw [Real.exp_log ht]

/-- the chord in the log-log plane -/
theorem log_geo (x1 x2 y1 y2 t : ℝ) (hy1 : 0 < y1) (hy2 : 0 < y2) :
    Real.log (geo x1 x2 y1 y2 t) = (1 - Real.log (t / x1) / Real.log (x2 / x1)) * Real.log y1 +
      Real.log (t / x1) / Real.log (x2 / x1) * Real.log y2 := by
  unfold geo
  rw [Real.log_mul (Real.rpow_pos_of_pos hy1 _).ne' (Real.rpow_pos_of_pos hy2 _).ne', Real.log_rpow hy1,
    Real.log_rpow hy2]

theorem log_weight (x1 x2 t : ℝ) (h1 : 0 < x1) (h12 : x1 < x2) (ht : 0 < t) :
    Real.log t = (1 - Real.log (t / x1) / Real.log (x2 / x1)) * Real.log x1 +
      Real.log (t / x1) / Real.log (x2 / x1) * Real.log x2 := by
  have hr : 0 < Real.log (x2 / x1) := Real.log_pos (by rwa [one_lt_div h1])
  rw [Real.log_div (h1.trans h12).ne' h1.ne'] at hr ⊢
  rw [Real.log_div ht.ne' h1.ne']
  field_simp
  ring

theorem quarter (s : ℝ) : s * (1 - s) ≤ 1 / 4 := by nlinarith [sq_nonneg (s - 1 / 2)]

/-- the function lies at most `exp (K h² / 8)` above the chord -/
theorem le_geo (f : ℝ → ℝ) (x1 x2 K h t : ℝ) (h1 : 0 < x1) (h12 : x1 < x2) (hK : 0 ≤ K)
    (hh : Real.log x2 - Real.log x1 ≤ h) (hf : ∀ t ∈ Set.Icc x1 x2, 0 < f t)
    (hc : ConvexOn ℝ (Set.Icc (Real.log x1) (Real.log x2)) (fun s => logLog f s + K / 2 * s ^ 2))
    (ht : t ∈ Set.Icc x1 x2) : f t ≤ Real.exp (K * h ^ 2 / 8) * geo x1 x2 (f x1) (f x2) t := by
  have h2 := h1.trans h12
  have ht0 := h1.trans_le ht.1
  have m1 : x1 ∈ Set.Icc x1 x2 := ⟨le_rfl, h12.le⟩
  have m2 : x2 ∈ Set.Icc x1 x2 := ⟨h12.le, le_rfl⟩
  have hl : Real.log x1 ≤ Real.log x2 := Real.log_le_log h1 h12.le
  obtain ⟨w0, w1⟩ := weight_mem x1 x2 t h1 h12 ht
  have hw := log_weight x1 x2 t h1 h12 ht0
  have hg := log_geo x1 x2 (f x1) (f x2) t (hf _ m1) (hf _ m2)
  set w := Real.log (t / x1) / Real.log (x2 / x1) with hwd
  have key := hc.2 (⟨le_rfl, hl⟩ : Real.log x1 ∈ Set.Icc (Real.log x1) (Real.log x2))
    (⟨hl, le_rfl⟩ : Real.log x2 ∈ Set.Icc (Real.log x1) (Real.log x2)) (by linarith : 0 ≤ 1 - w) w0 (by ring)
  simp only [smul_eq_mul] at key
  rw [← hw, logLog_log f t ht0, logLog_log f x1 h1, logLog_log f x2 h2] at key
  have hgp : 0 < geo x1 x2 (f x1) (f x2) t := by
    have := hf _ m1; have := hf _ m2; unfold geo; positivity
  rw [← Real.log_le_log_iff (hf t ht) (by positivity), Real.log_mul (Real.exp_pos _).ne' hgp.ne', Real.log_exp, hg]
  have e : (1 - w) * Real.log x1 ^ 2 + w * Real.log x2 ^ 2 - Real.log t ^ 2 =
      w * (1 - w) * (Real.log x2 - Real.log x1) ^ 2 := by rw [hw]; ring
  have hq := quarter w
  have hsq : (Real.log x2 - Real.log x1) ^ 2 ≤ h ^ 2 := by
    apply pow_le_pow_left₀ (by linarith) hh
  have hb : w * (1 - w) * (Real.log x2 - Real.log x1) ^ 2 ≤ 1 / 4 * h ^ 2 :=
    mul_le_mul hq hsq (by positivity) (by norm_num)
  have : K / 2 * ((1 - w) * Real.log x1 ^ 2 + w * Real.log x2 ^ 2 - Real.log t ^ 2) ≤ K / 2 * (1 / 4 * h ^ 2) := by
    rw [e]; exact mul_le_mul_of_nonneg_left hb (by positivity)
  nlinarith

/-- the chord lies at most `exp (K h² / 8)` above the function -/
theorem geo_le (f : ℝ → ℝ) (x1 x2 K h t : ℝ) (h1 : 0 < x1) (h12 : x1 < x2) (hK : 0 ≤ K)
    (hh : Real.log x2 - Real.log x1 ≤ h) (hf : ∀ t ∈ Set.Icc x1 x2, 0 < f t)
    (hc : ConcaveOn ℝ (Set.Icc (Real.log x1) (Real.log x2)) (fun s => logLog f s - K / 2 * s ^ 2))
    (ht : t ∈ Set.Icc x1 x2) : geo x1 x2 (f x1) (f x2) t ≤ Real.exp (K * h ^ 2 / 8) * f t := by
  have h2 := h1.trans h12
  have ht0 := h1.trans_le ht.1
  have m1 : x1 ∈ Set.Icc x1 x2 := ⟨le_rfl, h12.le⟩
  have m2 : x2 ∈ Set.Icc x1 x2 := ⟨h12.le, le_rfl⟩
  have hl : Real.log x1 ≤ Real.log x2 := Real.log_le_log h1 h12.le
  obtain ⟨w0, w1⟩ := weight_mem x1 x2 t h1 h12 ht
  have hw := log_weight x1 x2 t h1 h12 ht0
  have hg := log_geo x1 x2 (f x1) (f x2) t (hf _ m1) (hf _ m2)
  set w := Real.log (t / x1) / Real.log (x2 / x1) with hwd
  have key := hc.2 (⟨le_rfl, hl⟩ : Real.log x1 ∈ Set.Icc (Real.log x1) (Real.log x2))
    (⟨hl, le_rfl⟩ : Real.log x2 ∈ Set.Icc (Real.log x1) (Real.log x2)) (by linarith : 0 ≤ 1 - w) w0 (by ring)
  simp only [smul_eq_mul] at key
  rw [← hw, logLog_log f t ht0, logLog_log f x1 h1, logLog_log f x2 h2] at key
  have hgp : 0 < geo x1 x2 (f x1) (f x2) t := by
    have := hf _ m1; have := hf _ m2; unfold geo; positivity
  rw [← Real.log_le_log_iff hgp (mul_pos (Real.exp_pos _) (hf t ht)), Real.log_mul (Real.exp_pos _).ne' (hf t ht).ne',
    Real.log_exp, hg]
  have e : (1 - w) * Real.log x1 ^ 2 + w * Real.log x2 ^ 2 - Real.log t ^ 2 =
      w * (1 - w) * (Real.log x2 - Real.log x1) ^ 2 := by rw [hw]; ring
  have hq := quarter w
  have hsq : (Real.log x2 - Real.log x1) ^ 2 ≤ h ^ 2 := by
    apply pow_le_pow_left₀ (by linarith) hh
  have hb : w * (1 - w) * (Real.log x2 - Real.log x1) ^ 2 ≤ 1 / 4 * h ^ 2 :=
    mul_le_mul hq hsq (by positivity) (by norm_num)
  have : K / 2 * ((1 - w) * Real.log x1 ^ 2 + w * Real.log x2 ^ 2 - Real.log t ^ 2) ≤ K / 2 * (1 / 4 * h ^ 2) := by
    rw [e]; exact mul_le_mul_of_nonneg_left hb (by positivity)
  nlinarith

theorem ratio_exp (x1 x2 h : ℝ) (h1 : 0 < x1) (h12 : x1 ≤ x2) (hh : Real.log x2 - Real.log x1 ≤ h) :
    (x2 / x1) ^ (1e-10 : ℝ) ≤ Real.exp (1e-10 * h) := by
  have h2 := h1.trans_le h12
  rw [Real.rpow_def_of_pos (div_pos h2 h1), Real.log_div h2.ne' h1.ne', mul_comm]
  exact Real.exp_le_exp.2 (mul_le_mul_of_nonneg_left hh (by norm_num))

/-- one bin from above -/
theorem rbin_le_integral (f : ℝ → ℝ) (x1 x2 K h : ℝ) (h1 : 0 < x1) (h12 : x1 ≤ x2) (hK : 0 ≤ K)
    (hh : Real.log x2 - Real.log x1 ≤ h) (hf : ∀ t ∈ Set.Icc x1 x2, 0 < f t)
    (hcont : ContinuousOn f (Set.Icc x1 x2))
    (hc : ConcaveOn ℝ (Set.Icc (Real.log x1) (Real.log x2)) (fun s => logLog f s - K / 2 * s ^ 2)) :
    rbin x1 x2 (f x1) (f x2) ≤ Real.exp (K * h ^ 2 / 8 + 1e-10 * h) * ∫ t in x1..x2, f t := by
  rcases eq_or_lt_of_le h12 with e | hlt
  · subst e; simp [rbin]
  have p1 := hf x1 ⟨le_rfl, h12⟩
  have p2 := hf x2 ⟨h12, le_rfl⟩
  have i1 : IntervalIntegrable f MeasureTheory.volume x1 x2 := by
    apply ContinuousOn.intervalIntegrable; rwa [Set.uIcc_of_le h12]
  have hg : gbin x1 x2 (f x1) (f x2) ≤ Real.exp (K * h ^ 2 / 8) * ∫ t in x1..x2, f t := by
    unfold gbin
    rw [if_neg (by push Not; exact ⟨p1.ne', p2.ne'⟩), ← intervalIntegral.integral_const_mul]
    exact intervalIntegral.integral_mono_on h12 (geo_integrable _ _ _ _ h1 h12 p1 p2) (i1.const_mul _)
      (fun t ht => geo_le f x1 x2 K h t h1 hlt hK hh hf hc ht)
  have hI : 0 ≤ ∫ t in x1..x2, f t := intervalIntegral.integral_nonneg h12 (fun t ht => (hf t ht).le)
  calc rbin x1 x2 (f x1) (f x2) ≤ (x2 / x1) ^ (1e-10 : ℝ) * gbin x1 x2 (f x1) (f x2) :=
        (rbin_near x1 x2 _ _ h1 h12 p1.le p2.le).2
    _ ≤ Real.exp (1e-10 * h) * (Real.exp (K * h ^ 2 / 8) * ∫ t in x1..x2, f t) :=
        mul_le_mul (ratio_exp x1 x2 h h1 h12 hh) hg (gbin_nonneg _ _ _ _ h12 p1.le p2.le) (Real.exp_pos _).le
    _ = _ := by rw [Real.exp_add]; ring

/-- one bin from below -/
theorem integral_le_rbin (f : ℝ → ℝ) (x1 x2 K h : ℝ) (h1 : 0 < x1) (h12 : x1 ≤ x2) (hK : 0 ≤ K)
    (hh : Real.log x2 - Real.log x1 ≤ h) (hf : ∀ t ∈ Set.Icc x1 x2, 0 < f t)
    (hcont : ContinuousOn f (Set.Icc x1 x2))
    (hc : ConvexOn ℝ (Set.Icc (Real.log x1) (Real.log x2)) (fun s => logLog f s + K / 2 * s ^ 2)) :
    ∫ t in x1..x2, f t ≤ Real.exp (K * h ^ 2 / 8 + 1e-10 * h) * rbin x1 x2 (f x1) (f x2) := by
  rcases eq_or_lt_of_le h12 with e | hlt
  · subst e; simp [rbin]
  have p1 := hf x1 ⟨le_rfl, h12⟩
  have p2 := hf x2 ⟨h12, le_rfl⟩
  have i1 : IntervalIntegrable f MeasureTheory.volume x1 x2 := by
    apply ContinuousOn.intervalIntegrable; rwa [Set.uIcc_of_le h12]
  have hg : ∫ t in x1..x2, f t ≤ Real.exp (K * h ^ 2 / 8) * gbin x1 x2 (f x1) (f x2) := by
    unfold gbin
    rw [if_neg (by push Not; exact ⟨p1.ne', p2.ne'⟩), ← intervalIntegral.integral_const_mul]
    exact intervalIntegral.integral_mono_on h12 i1 ((geo_integrable _ _ _ _ h1 h12 p1 p2).const_mul _)
      (fun t ht => le_geo f x1 x2 K h t h1 hlt hK hh hf hc ht)
  have hr0 : 0 < x2 / x1 := div_pos (h1.trans_le h12) h1
  have hn := (rbin_near x1 x2 (f x1) (f x2) h1 h12 p1.le p2.le).1
  rw [Real.rpow_neg hr0.le, inv_mul_le_iff₀ (by positivity)] at hn
  have hr : 0 ≤ rbin x1 x2 (f x1) (f x2) := by
    have := gbin_nonneg x1 x2 (f x1) (f x2) h12 p1.le p2.le
    by_contra hneg
    push Not at hneg
    have : (x2 / x1) ^ (1e-10 : ℝ) * rbin x1 x2 (f x1) (f x2) < 0 := mul_neg_of_pos_of_neg (by positivity) hneg
    linarith
  calc ∫ t in x1..x2, f t ≤ Real.exp (K * h ^ 2 / 8) * gbin x1 x2 (f x1) (f x2) := hg
    _ ≤ Real.exp (K * h ^ 2 / 8) * (Real.exp (1e-10 * h) * rbin x1 x2 (f x1) (f x2)) := by
        apply mul_le_mul_of_nonneg_left _ (Real.exp_pos _).le
        exact hn.trans (mul_le_mul_of_nonneg_right (ratio_exp x1 x2 h h1 h12 hh) hr)
    _ = _ := by rw [Real.exp_add]; ring

/-- sums of bins against the integral, from the first to the last abscissa -/
theorem binSum_cmp (f : ℝ → ℝ) (c : ℝ) (x0 : ℝ) (l : List ℝ) (b : ℝ) (hb : (x0 :: l).getLast? = some b)
    (hadj : Adj (fun x y => IntervalIntegrable f MeasureTheory.volume x y) (x0 :: l)) :
    IntervalIntegrable f MeasureTheory.volume x0 b ∧
    (Adj (fun x y => rbin x y (f x) (f y) ≤ c * ∫ t in x..y, f t) (x0 :: l) →
      binSum rbin ((x0 :: l).map (fun x => (x, f x))) ≤ c * ∫ t in x0..b, f t) ∧
    (Adj (fun x y => ∫ t in x..y, f t ≤ c * rbin x y (f x) (f y)) (x0 :: l) →
      ∫ t in x0..b, f t ≤ c * binSum rbin ((x0 :: l).map (fun x => (x, f x)))) := by
  induction l generalizing x0 with
  | nil =>
    simp at hb
    subst hb
    simp [binSum]
  | cons x1 l ih =>
    obtain ⟨a1, a2⟩ := hadj
    rw [List.getLast?_cons_cons] at hb
    obtain ⟨i1, i2, i3⟩ := ih x1 hb a2
    have e := intervalIntegral.integral_add_adjacent_intervals a1 i1
    refine ⟨a1.trans i1, ?_, ?_⟩
    · rintro ⟨b1, b2⟩
      have := i2 b2
      simp only [List.map_cons, binSum] at this ⊢
      rw [← e, mul_add]
      linarith
    · rintro ⟨b1, b2⟩
      have := i3 b2
      simp only [List.map_cons, binSum] at this ⊢
      rw [← e, mul_add]
      linarith

/-- the sum over a logarithmic grid as a sum of bins -/
theorem grid_bins (c a b : ℝ) (hm : 0 < c) (ha : 0 < a) (hlt : a < b) (F : ℝ → ℝ)
    (hF : ∀ t ∈ Set.Icc a b, 0 < F t) (k : ℕ) (hk : 10 ≤ k) :
    ∃ l : List ℝ, trapzLL ((logspace (Real.logb 10 (a / c)) (Real.logb 10 (b / c)) k).map
          (fun g => (fin (g * c), fin (F (g * c))))) = fin (binSum rbin ((a :: l).map (fun x => (x, F x)))) ∧
      Adj (fun x y => x ∈ Set.Icc a b ∧ y ∈ Set.Icc a b ∧ x ≤ y ∧
        Real.log y - Real.log x ≤ Real.log (b / a) / (k - 1)) (a :: l) ∧
      (a :: l).getLast? = some b := by
  have hb0 : 0 < b := ha.trans hlt
  set la := Real.logb 10 (a / c) with hla
  set lb := Real.logb 10 (b / c) with hlb
  have ea : (10 : ℝ) ^ la * c = a := by
    rw [hla, ten_rpow_logb _ (div_pos ha hm)]; field_simp
  have eb : (10 : ℝ) ^ lb * c = b := by
    rw [hlb, ten_rpow_logb _ (div_pos hb0 hm)]; field_simp
  have hab : la < lb := Real.logb_lt_logb (by norm_num) (div_pos ha hm) (div_lt_div_of_pos_right hlt hm)
  have hmem : ∀ x ∈ logspace la lb k, x * c ∈ Set.Icc a b := by
    intro x hx
    obtain ⟨a1, a2⟩ := logspace_mem la lb _ hab.le x hx
    rw [← ea, ← eb]
    exact ⟨mul_le_mul_of_nonneg_right a1 hm.le, mul_le_mul_of_nonneg_right a2 hm.le⟩
  have hW : trapzLL ((logspace la lb k).map (fun g => (fin (g * c), fin (F (g * c))))) =
      fin (binSum rbin (((logspace la lb k).map (· * c)).map (fun x => (x, F x)))) := by
    rw [← trapzLL_rbin]
    · simp only [List.map_map]; rfl
    · intro p hp
      simp only [List.map_map, List.mem_map, Function.comp_apply] at hp
      obtain ⟨x, hx, rfl⟩ := hp
      exact lt_of_lt_of_le ha (hmem x hx).1
    · intro p hp
      simp only [List.map_map, List.mem_map, Function.comp_apply] at hp
      obtain ⟨x, hx, rfl⟩ := hp
      exact (hF _ (hmem x hx)).le
    · simp only [List.map_map]
      rw [List.pairwise_map]
      exact (logspace_pairwise la lb _ hab.le).imp (fun h => mul_le_mul_of_nonneg_right h hm.le)
  have lg := logspace_logGrid la lb k hab hk
  have hstep : Adj (fun x y => x ∈ Set.Icc a b ∧ y ∈ Set.Icc a b ∧ x ≤ y ∧
      Real.log y - Real.log x ≤ Real.log (b / a) / (k - 1)) ((logspace la lb k).map (· * c)) := by
    apply Adj_of_get
    intro i x y hx hy
    rw [List.getElem?_map, Option.map_eq_some_iff] at hx hy
    obtain ⟨x, hx, rfl⟩ := hx
    obtain ⟨y, hy, rfl⟩ := hy
    obtain ⟨s1, -, s3⟩ := logspace_step la lb k hab.le hk i x y hx hy
    have mx := hmem x (List.mem_of_getElem? hx)
    have my := hmem y (List.mem_of_getElem? hy)
    refine ⟨mx, my, mul_le_mul_of_nonneg_right s1 hm.le, ?_⟩
    have hx0 : 0 < x := by
      have := ha.trans_le mx.1
      exact (mul_pos_iff_of_pos_right hm).1 this
    rw [s3, Real.log_mul (by positivity) hm.ne', Real.log_mul hx0.ne' (by positivity), Real.log_mul hx0.ne' hm.ne',
      Real.log_rpow (by norm_num)]
    have hd : (lb - la) * Real.log 10 = Real.log (b / a) := by
      rw [hla, hlb, ← Real.logb_div (div_pos hb0 hm).ne' (div_pos ha hm).ne',
        div_div_div_cancel_right₀ hm.ne', Real.logb]
      have : Real.log 10 ≠ 0 := Real.log_ne_zero_of_pos_of_ne_one (by norm_num) (by norm_num)
      field_simp
    rw [← hd]
    apply le_of_eq
    ring
  have hfirst : ((logspace la lb k).map (· * c)).head? = some a := by
    rw [List.head?_map, lg.first]; simp [ea]
  have hlast : ((logspace la lb k).map (· * c)).getLast? = some b := by
    rw [List.getLast?_map, lg.last]; simp [eb]
  rw [hW]
  generalize (logspace la lb k).map (· * c) = l at hstep hfirst hlast ⊢
  cases l with
  | nil => simp at hfirst
  | cons x0 l =>
    simp at hfirst
    subst hfirst
    exact ⟨l, rfl, hstep, hlast⟩

/-- **Accuracy on a logarithmic grid.** -/
theorem grid_accuracy (c a b : ℝ) (hm : 0 < c) (ha : 0 < a) (hlt : a < b) (F : ℝ → ℝ)
    (hF : ∀ t ∈ Set.Icc a b, 0 < F t) (hcont : ContinuousOn F (Set.Icc a b)) (K : ℝ) (hK : 0 ≤ K) (k : ℕ)
    (hk : 10 ≤ k) :
    ∃ W : ℝ, trapzLL ((logspace (Real.logb 10 (a / c)) (Real.logb 10 (b / c)) k).map
          (fun g => (fin (g * c), fin (F (g * c))))) = fin W ∧
      (ConcaveOn ℝ (Set.Icc (Real.log a) (Real.log b)) (fun s => logLog F s - K / 2 * s ^ 2) →
        W ≤ Real.exp (K * (Real.log (b / a) / (k - 1)) ^ 2 / 8 + 1e-10 * (Real.log (b / a) / (k - 1))) *
          ∫ E in a..b, F E) ∧
      (ConvexOn ℝ (Set.Icc (Real.log a) (Real.log b)) (fun s => logLog F s + K / 2 * s ^ 2) →
        ∫ E in a..b, F E ≤
          Real.exp (K * (Real.log (b / a) / (k - 1)) ^ 2 / 8 + 1e-10 * (Real.log (b / a) / (k - 1))) * W) := by
  obtain ⟨l, hW, hstep, hlast⟩ := grid_bins c a b hm ha hlt F hF k hk
  refine ⟨_, hW, ?_⟩
  obtain ⟨-, r1, r2⟩ := binSum_cmp F (Real.exp (K * (Real.log (b / a) / (k - 1)) ^ 2 / 8 +
    1e-10 * (Real.log (b / a) / (k - 1)))) a l b hlast (hstep.imp (by
      rintro x y ⟨mx, my, hxy, -⟩
      apply ContinuousOn.intervalIntegrable
      rw [Set.uIcc_of_le hxy]
      exact hcont.mono (Set.Icc_subset_Icc mx.1 my.2)))
  refine ⟨fun h => r1 (hstep.imp ?_), fun h => r2 (hstep.imp ?_)⟩
  · rintro x y ⟨mx, my, hxy, hh⟩
    have sub := Set.Icc_subset_Icc mx.1 my.2
    have hx0 := ha.trans_le mx.1
    exact rbin_le_integral F x y K _ hx0 hxy hK hh (fun t ht => hF t (sub ht)) (hcont.mono sub)
      (h.subset (Set.Icc_subset_Icc (Real.log_le_log ha mx.1) (Real.log_le_log (hx0.trans_le hxy) my.2))
        (convex_Icc _ _))
  · rintro x y ⟨mx, my, hxy, hh⟩
    have sub := Set.Icc_subset_Icc mx.1 my.2
    have hx0 := ha.trans_le mx.1
    exact integral_le_rbin F x y K _ hx0 hxy hK hh (fun t ht => hF t (sub ht)) (hcont.mono sub)
      (h.subset (Set.Icc_subset_Icc (Real.log_le_log ha mx.1) (Real.log_le_log (hx0.trans_le hxy) my.2))
        (convex_Icc _ _))

/-- sums of bins with an allowance that adds up -/
theorem binSum_allow (f Φ : ℝ → ℝ) (c : ℝ) (x0 : ℝ) (l : List ℝ) (b : ℝ) (hb : (x0 :: l).getLast? = some b)
    (hadj : Adj (fun x y => IntervalIntegrable f MeasureTheory.volume x y ∧
      ∫ t in x..y, f t ≤ c * rbin x y (f x) (f y) + (Φ y - Φ x)) (x0 :: l)) :
    IntervalIntegrable f MeasureTheory.volume x0 b ∧
    ∫ t in x0..b, f t ≤ c * binSum rbin ((x0 :: l).map (fun x => (x, f x))) + (Φ b - Φ x0) := by
  induction l generalizing x0 with
  | nil =>
    simp at hb
    subst hb
    simp [binSum]
  | cons x1 l ih =>
    obtain ⟨⟨a1, a3⟩, a2⟩ := hadj
    rw [List.getLast?_cons_cons] at hb
    obtain ⟨i1, i2⟩ := ih x1 hb a2
    have e := intervalIntegral.integral_add_adjacent_intervals a1 i1
    refine ⟨a1.trans i1, ?_⟩
    simp only [List.map_cons, binSum] at i2 ⊢
    rw [← e, mul_add]
    linarith

/-- **Accuracy on a logarithmic grid when the curvature is bounded above `c0` only.** What is missed is at most the
integral up to one step above `c0`. -/
theorem grid_accuracy_split (c a b : ℝ) (hm : 0 < c) (ha : 0 < a) (hlt : a < b) (F : ℝ → ℝ)
    (hF : ∀ t ∈ Set.Icc a b, 0 < F t) (hcont : ContinuousOn F (Set.Icc a b)) (K : ℝ) (hK : 0 ≤ K) (k : ℕ)
    (hk : 10 ≤ k) (c0 : ℝ) (h0 : a ≤ c0)
    (h1 : c0 * Real.exp (Real.log (b / a) / (k - 1)) ≤ b)
    (hcv : ConvexOn ℝ (Set.Icc (Real.log c0) (Real.log b)) (fun s => logLog F s + K / 2 * s ^ 2)) :
    ∃ W : ℝ, trapzLL ((logspace (Real.logb 10 (a / c)) (Real.logb 10 (b / c)) k).map
          (fun g => (fin (g * c), fin (F (g * c))))) = fin W ∧
      ∫ E in a..b, F E ≤
          Real.exp (K * (Real.log (b / a) / (k - 1)) ^ 2 / 8 + 1e-10 * (Real.log (b / a) / (k - 1))) * W +
          ∫ E in a..c0 * Real.exp (Real.log (b / a) / (k - 1)), F E := by
  obtain ⟨l, hW, hstep, hlast⟩ := grid_bins c a b hm ha hlt F hF k hk
  refine ⟨_, hW, ?_⟩
  set h := Real.log (b / a) / (k - 1) with hh
  have hk1 : (0 : ℝ) < (k : ℝ) - 1 := by
    have : (10 : ℝ) ≤ k := by exact_mod_cast hk
    linarith
  have hh0 : 0 ≤ h := div_nonneg (Real.log_nonneg (by rw [one_le_div ha]; exact hlt.le)) hk1.le
  have hc0 : 0 < c0 := ha.trans_le h0
  set c1 := c0 * Real.exp h with hc1
  have hc01 : c0 ≤ c1 := by
    rw [hc1]; exact le_mul_of_one_le_right hc0.le (Real.one_le_exp hh0)
  have hint : ∀ x y, a ≤ x → x ≤ y → y ≤ b → IntervalIntegrable F MeasureTheory.volume x y := by
    intro x y hx hxy hy
    apply ContinuousOn.intervalIntegrable
    rw [Set.uIcc_of_le hxy]
    exact hcont.mono (Set.Icc_subset_Icc hx hy)
  have hnn : ∀ x y, a ≤ x → x ≤ y → y ≤ b → 0 ≤ ∫ t in x..y, F t := fun x y hx hxy hy =>
    intervalIntegral.integral_nonneg hxy fun t ht => (hF t ⟨hx.trans ht.1, ht.2.trans hy⟩).le
  have hsub : ∀ x y, a ≤ x → x ≤ y → y ≤ b → (∫ t in a..y, F t) - ∫ t in a..x, F t = ∫ t in x..y, F t := by
    intro x y hx hxy hy
    have := intervalIntegral.integral_add_adjacent_intervals (hint a x le_rfl hx (hxy.trans hy)) (hint x y hx hxy hy)
    linarith
  obtain ⟨-, r⟩ := binSum_allow F (fun y => ∫ t in a..min y c1, F t)
    (Real.exp (K * h ^ 2 / 8 + 1e-10 * h)) a l b hlast (hstep.imp (by
      rintro x y ⟨mx, my, hxy, hs⟩
      have hx0 := ha.trans_le mx.1
      have hy0 := hx0.trans_le hxy
      have sub := Set.Icc_subset_Icc mx.1 my.2
      refine ⟨hint x y mx.1 hxy my.2, ?_⟩
      have hrb : 0 ≤ rbin x y (F x) (F y) := by
        have hn := (rbin_near x y (F x) (F y) hx0 hxy (hF x mx).le (hF y my).le).1
        exact le_trans (mul_nonneg (Real.rpow_nonneg (div_pos hy0 hx0).le _)
          (gbin_nonneg _ _ _ _ hxy (hF x mx).le (hF y my).le)) hn
      by_cases hx : c0 ≤ x
      · have i1 := integral_le_rbin F x y K h hx0 hxy hK hs (fun t ht => hF t (sub ht)) (hcont.mono sub)
          (hcv.subset (Set.Icc_subset_Icc (Real.log_le_log hc0 hx) (Real.log_le_log hy0 my.2)) (convex_Icc _ _))
        have i2 := hsub (min x c1) (min y c1) (le_min mx.1 (h0.trans hc01)) (min_le_min_right _ hxy)
          ((min_le_left _ _).trans my.2)
        have i3 := hnn (min x c1) (min y c1) (le_min mx.1 (h0.trans hc01)) (min_le_min_right _ hxy)
          ((min_le_left _ _).trans my.2)
        linarith
      · push Not at hx
        have hy : y ≤ c1 := by
          have : Real.log y ≤ Real.log c1 := by
            rw [hc1, Real.log_mul hc0.ne' (Real.exp_pos _).ne', Real.log_exp]
            have := Real.log_le_log hx0 hx.le
            linarith
          exact (Real.log_le_log_iff hy0 (hc0.trans_le hc01)).1 this
        have i2 := hsub x y mx.1 hxy my.2
        rw [min_eq_left hy, min_eq_left (hxy.trans hy)]
        have := mul_nonneg (Real.exp_pos (K * h ^ 2 / 8 + 1e-10 * h)).le hrb
        linarith))
  have e1 : min a c1 = a := min_eq_left (h0.trans hc01)
  have e2 : min b c1 = c1 := min_eq_right h1
  simp only [e1, e2, intervalIntegral.integral_same, sub_zero] at r
  exact r

/-- The part of an integral below `c1` is small if the function is much larger at twice the argument. -/
theorem tail_small (F : ℝ → ℝ) (a b c1 δ : ℝ) (ha : 0 < a) (hac : a ≤ c1) (hcb : 2 * c1 ≤ b) (hδ : 0 ≤ δ)
    (hF : ∀ t ∈ Set.Icc a b, 0 < F t) (hcont : ContinuousOn F (Set.Icc a b))
    (hd : ∀ t ∈ Set.Icc a c1, F t ≤ δ * F (2 * t)) :
    ∫ E in a..c1, F E ≤ δ / 2 * ∫ E in a..b, F E := by
  have hint : ∀ x y, a ≤ x → x ≤ y → y ≤ b → IntervalIntegrable F MeasureTheory.volume x y := by
    intro x y hx hxy hy
    apply ContinuousOn.intervalIntegrable
    rw [Set.uIcc_of_le hxy]
    exact hcont.mono (Set.Icc_subset_Icc hx hy)
  have hc1 : c1 ≤ b := by linarith
  have hc2 : ContinuousOn (fun t => F (2 * t)) (Set.Icc a c1) :=
    hcont.comp (by fun_prop) (fun t ht => ⟨by linarith [ht.1], by linarith [ht.2]⟩)
  have i2 : IntervalIntegrable (fun t => F (2 * t)) MeasureTheory.volume a c1 := by
    apply ContinuousOn.intervalIntegrable
    rwa [Set.uIcc_of_le hac]
  have e1 : ∫ E in a..c1, F E ≤ ∫ E in a..c1, δ * F (2 * E) :=
    intervalIntegral.integral_mono_on hac (hint a c1 le_rfl hac hc1) (i2.const_mul δ) hd
  have e2 : ∫ E in a..c1, δ * F (2 * E) = δ / 2 * ∫ E in 2 * a..2 * c1, F E := by
    rw [intervalIntegral.integral_const_mul, intervalIntegral.integral_comp_mul_left (f := F) (by norm_num)]
    simp only [smul_eq_mul]
    ring
  have e3 : ∫ E in 2 * a..2 * c1, F E ≤ ∫ E in a..b, F E := by
    apply intervalIntegral.integral_mono_interval (by linarith) (by linarith) hcb
    · filter_upwards [MeasureTheory.ae_restrict_mem measurableSet_Ioc] with t ht
      exact (hF t ⟨ht.1.le, ht.2⟩).le
    · exact hint a b le_rfl (by linarith) le_rfl
  rw [e2] at e1
  exact e1.trans (mul_le_mul_of_nonneg_left e3 (by positivity))

end Naima
