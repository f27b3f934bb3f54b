import Verif.Model.Trapz
import Verif.Proof.XR
import Mathlib.Analysis.SpecialFunctions.Integrals.Basic

namespace Naima

open XR

/-- the real-number value of a bin -/
noncomputable def realBin (x1 x2 y1 y2 : ℝ) : ℝ :=
  if 1e-10 < |Real.logb 10 (y2 / y1) / Real.logb 10 (x2 / x1) + 1| then
    (y1 * (x2 * (x2 / x1) ^ (Real.logb 10 (y2 / y1) / Real.logb 10 (x2 / x1)) - x1)) /
      (Real.logb 10 (y2 / y1) / Real.logb 10 (x2 / x1) + 1)
  else x1 * y1 * Real.log (x2 / x1)

theorem logb_ratio_ne (x1 x2 : ℝ) (h1 : 0 < x1) (h2 : 0 < x2) (hne : x1 ≠ x2) :
    Real.logb 10 (x2 / x1) ≠ 0 := by
  have hpos : 0 < x2 / x1 := div_pos h2 h1
  have hn1 : x2 / x1 ≠ 1 := by
    intro h; rw [div_eq_one_iff_eq h1.ne'] at h; exact hne h.symm
  exact Real.logb_ne_zero_of_pos_of_ne_one (by norm_num) hpos hn1

theorem trapzBin_fin (x1 x2 y1 y2 : ℝ) (h1 : 0 < x1) (h2 : 0 < x2) (hne : x1 ≠ x2)
    (hy1 : y1 ≠ 0) (hy : 0 < y2 / y1) :
    trapzBin (fin x1) (fin x2) (fin y1) (fin y2) = fin (realBin x1 x2 y1 y2) := by
  have hy2 : y2 ≠ 0 := by rintro rfl; simp at hy
  have hr : 0 < x2 / x1 := div_pos h2 h1
  have hl := logb_ratio_ne x1 x2 h1 h2 hne
  unfold trapzBin
  rw [if_neg (by simp [hy1, hy2, hne])]
  unfold trapzRaw trapzIndex realBin
  simp only [div_fin _ _ hy1, div_fin _ _ h1.ne', log10_fin _ hy, log10_fin _ hr,
    div_fin _ _ hl, add_fin, abs_fin, lt_fin, pow_fin _ _ hr, mul_fin, sub_fin, log_fin _ hr]
  split_ifs with h
  · rw [div_fin]
    intro h0
    rw [h0] at h; norm_num at h
  · rfl

theorem trapzBin_zero (x1 x2 y1 y2 : XR) (h : eqv y1 (fin 0) ∨ eqv y2 (fin 0) ∨ eqv x1 x2) :
    trapzBin x1 x2 y1 y2 = fin 0 := by
  unfold trapzBin; rw [if_pos h]

/-- A bin of a power law is integrated exactly. -/
theorem realBin_eq_powerlaw (x1 x2 y1 y2 : ℝ) (h1 : 0 < x1) (h2 : 0 < x2)
    (b : ℝ) (hb : b = Real.logb 10 (y2 / y1) / Real.logb 10 (x2 / x1))
    (hgood : b = -1 ∨ 1e-10 < |b + 1|) :
    realBin x1 x2 y1 y2 = ∫ t in x1..x2, y1 * (t / x1) ^ b := by
  have hr : 0 < x2 / x1 := div_pos h2 h1
  have h0 : (0 : ℝ) ∉ Set.uIcc x1 x2 := by
    intro h; rcases Set.mem_uIcc.1 h with h | h <;> linarith [h.1]
  unfold realBin
  rw [← hb]
  have hint : ∫ t in x1..x2, y1 * (t / x1) ^ b = y1 / x1 ^ b * ∫ t in x1..x2, t ^ b := by
    rw [← intervalIntegral.integral_const_mul]
    apply intervalIntegral.integral_congr
    intro t ht
    have htpos : 0 < t := by
      rcases Set.mem_uIcc.1 ht with h | h <;> linarith [h.1]
    simp only []
    rw [Real.div_rpow htpos.le h1.le]
    ring
  rw [hint]
  rcases hgood with hb1 | hb1
  · subst hb1
    rw [if_neg (by norm_num)]
    have : ∫ t in x1..x2, t ^ (-1 : ℝ) = Real.log (x2 / x1) := by
      rw [← integral_inv h0]
      apply intervalIntegral.integral_congr
      intro t ht
      simp only []
      exact Real.rpow_neg_one t
    rw [this, Real.rpow_neg_one]
    field_simp
  · rw [if_pos hb1]
    have hbne : b + 1 ≠ 0 := by intro h; rw [h] at hb1; norm_num at hb1
    rw [integral_rpow (Or.inr ⟨by intro h; apply hbne; rw [h]; ring, h0⟩)]
    rw [Real.div_rpow h2.le h1.le, Real.rpow_add_one h2.ne', Real.rpow_add_one h1.ne']
    have hx1b : x1 ^ b ≠ 0 := (Real.rpow_pos_of_pos h1 b).ne'
    field_simp

theorem realBin_pos (x1 x2 y1 y2 : ℝ) (h1 : 0 < x1) (h12 : x1 < x2) (hy1 : 0 < y1) :
    0 < realBin x1 x2 y1 y2 := by
  have h2 : 0 < x2 := h1.trans h12
  have hr : 1 < x2 / x1 := by rwa [one_lt_div h1]
  have hr0 : 0 < x2 / x1 := by linarith
  unfold realBin
  set b := Real.logb 10 (y2 / y1) / Real.logb 10 (x2 / x1)
  split_ifs with h
  · have hbne : b + 1 ≠ 0 := by intro h'; rw [h'] at h; norm_num at h
    have e : x2 * (x2 / x1) ^ b - x1 = x1 * ((x2 / x1) ^ (b + 1) - 1) := by
      rw [Real.rpow_add_one hr0.ne']; field_simp
    rw [e]
    rcases lt_or_gt_of_ne hbne with hb | hb
    · have : (x2 / x1) ^ (b + 1) < 1 := Real.rpow_lt_one_of_one_lt_of_neg hr hb
      apply div_pos_of_neg_of_neg _ hb
      apply mul_neg_of_pos_of_neg hy1
      apply mul_neg_of_pos_of_neg h1
      linarith
    · have : 1 < (x2 / x1) ^ (b + 1) := Real.one_lt_rpow hr hb
      apply div_pos _ hb
      apply mul_pos hy1 (mul_pos h1 _)
      linarith
  · exact mul_pos (mul_pos h1 hy1) (Real.log_pos hr)

/-- non-negative finite samples at positive non-decreasing abscissae give a non-negative bin -/
theorem trapzBin_nonneg (x1 x2 y1 y2 : ℝ) (h1 : 0 < x1) (h12 : x1 ≤ x2) (hy1 : 0 ≤ y1)
    (hy2 : 0 ≤ y2) :
    ∃ r : ℝ, 0 ≤ r ∧ trapzBin (fin x1) (fin x2) (fin y1) (fin y2) = fin r ∧
      (x1 < x2 → 0 < y1 → 0 < y2 → 0 < r) := by
  by_cases hz : y1 = 0 ∨ y2 = 0 ∨ x1 = x2
  · refine ⟨0, le_refl _, trapzBin_zero _ _ _ _ (by simpa using hz), ?_⟩
    intro a b c
    rcases hz with h | h | h
    · exact absurd h b.ne'
    · exact absurd h c.ne'
    · exact absurd h a.ne
  · push Not at hz
    obtain ⟨a, b, c⟩ := hz
    have y1p : 0 < y1 := lt_of_le_of_ne hy1 (Ne.symm a)
    have y2p : 0 < y2 := lt_of_le_of_ne hy2 (Ne.symm b)
    have hlt : x1 < x2 := lt_of_le_of_ne h12 c
    have hp := realBin_pos x1 x2 y1 y2 h1 hlt y1p
    exact ⟨_, hp.le, trapzBin_fin _ _ _ _ h1 (h1.trans hlt) c a (div_pos y2p y1p), fun _ _ _ => hp⟩

theorem trapzBin_scale_y (c : ℝ) (hc : 0 < c) (x1 x2 y1 y2 : XR) :
    trapzBin x1 x2 (fin c * y1) (fin c * y2) = fin c * trapzBin x1 x2 y1 y2 := by
  unfold trapzBin
  have e1 := scale_eqv_zero c hc y1
  have e2 := scale_eqv_zero c hc y2
  by_cases h : eqv y1 (fin 0) ∨ eqv y2 (fin 0) ∨ eqv x1 x2
  · rw [if_pos h, if_pos (by rwa [e1, e2])]; simp
  · rw [if_neg h, if_neg (by rwa [e1, e2])]
    unfold trapzRaw trapzIndex
    rw [scale_ratio c hc]
    dsimp only
    split_ifs with h2
    · rw [scale_mul c hc, scale_div c hc]
    · rw [mul_comm' x1 (fin c * y1), scale_mul c hc, scale_mul c hc, mul_comm' x1 y1]

theorem trapzBin_scale_x (c : ℝ) (hc : 0 < c) (x1 x2 y1 y2 : XR) :
    trapzBin (fin c * x1) (fin c * x2) y1 y2 = fin c * trapzBin x1 x2 y1 y2 := by
  unfold trapzBin
  have e1 := scale_eqv c hc x1 x2
  by_cases h : eqv y1 (fin 0) ∨ eqv y2 (fin 0) ∨ eqv x1 x2
  · rw [if_pos h, if_pos (by rwa [e1])]; simp
  · rw [if_neg h, if_neg (by rwa [e1])]
    unfold trapzRaw trapzIndex
    rw [scale_ratio c hc]
    dsimp only
    split_ifs with h2
    · rw [scale_mul c hc, ← scale_sub c hc, mul_comm' y1, scale_mul c hc, scale_div c hc,
        mul_comm' _ y1]
    · rw [scale_mul c hc, scale_mul c hc]

theorem trapzIntervals_scale_y (c : ℝ) (hc : 0 < c) (pts : List (XR × XR)) :
    trapzIntervals (pts.map (fun p => (p.1, fin c * p.2))) =
      (trapzIntervals pts).map (fun a => fin c * a) := by
  induction pts with
  | nil => simp [trapzIntervals]
  | cons p rest ih =>
    cases rest with
    | nil => simp [trapzIntervals]
    | cons q rest =>
      simp only [List.map_cons, trapzIntervals] at ih ⊢
      rw [ih, trapzBin_scale_y c hc]

theorem trapzIntervals_scale_x (c : ℝ) (hc : 0 < c) (pts : List (XR × XR)) :
    trapzIntervals (pts.map (fun p => (fin c * p.1, p.2))) =
      (trapzIntervals pts).map (fun a => fin c * a) := by
  induction pts with
  | nil => simp [trapzIntervals]
  | cons p rest ih =>
    cases rest with
    | nil => simp [trapzIntervals]
    | cons q rest =>
      simp only [List.map_cons, trapzIntervals] at ih ⊢
      rw [ih, trapzBin_scale_x c hc]

theorem trapzLL_scale_y (c : ℝ) (hc : 0 < c) (pts : List (XR × XR)) :
    trapzLL (pts.map (fun p => (p.1, fin c * p.2))) = fin c * trapzLL pts := by
  unfold trapzLL; rw [trapzIntervals_scale_y c hc, scale_sum c hc]

theorem trapzLL_scale_x (c : ℝ) (hc : 0 < c) (pts : List (XR × XR)) :
    trapzLL (pts.map (fun p => (fin c * p.1, p.2))) = fin c * trapzLL pts := by
  unfold trapzLL; rw [trapzIntervals_scale_x c hc, scale_sum c hc]

theorem trapzIntervals_split (l m : List (XR × XR)) (p : XR × XR) :
    trapzIntervals (l ++ p :: m) = trapzIntervals (l ++ [p]) ++ trapzIntervals (p :: m) := by
  induction l with
  | nil => simp [trapzIntervals]
  | cons a l ih =>
    cases l with
    | nil => simp [trapzIntervals]
    | cons b l =>
      simp only [List.cons_append, trapzIntervals] at ih ⊢
      rw [ih]

theorem trapzIntervals_length (pts : List (XR × XR)) :
    (trapzIntervals pts).length = pts.length - 1 := by
  induction pts with
  | nil => simp [trapzIntervals]
  | cons p rest ih =>
    cases rest with
    | nil => simp [trapzIntervals]
    | cons q rest => simp [trapzIntervals, ih]

theorem trapzIntervals_get (pts : List (XR × XR)) (i : Nat) (p q : XR × XR)
    (hp : pts[i]? = some p) (hq : pts[i + 1]? = some q) :
    (trapzIntervals pts)[i]? = some (trapzBin p.1 q.1 p.2 q.2) := by
  induction pts generalizing i with
  | nil => simp at hp
  | cons a rest ih =>
    cases rest with
    | nil => cases i <;> simp at hq
    | cons b rest =>
      cases i with
      | zero => simp at hp hq; subst hp hq; simp [trapzIntervals]
      | succ i =>
        simp only [List.getElem?_cons_succ] at hp hq
        simp only [trapzIntervals, List.getElem?_cons_succ]
        exact ih i hp hq

/-- non-negativity of the whole integral, for finite samples given as real pairs -/
theorem trapzLL_nonneg (pts : List (ℝ × ℝ)) (hx : ∀ p ∈ pts, 0 < p.1) (hy : ∀ p ∈ pts, 0 ≤ p.2)
    (hs : (pts.map (·.1)).Pairwise (· ≤ ·)) :
    ∃ r : ℝ, 0 ≤ r ∧ trapzLL (pts.map (fun p => (fin p.1, fin p.2))) = fin r := by
  induction pts with
  | nil => exact ⟨0, le_refl _, by simp [trapzLL, trapzIntervals]⟩
  | cons p rest ih =>
    cases rest with
    | nil => exact ⟨0, le_refl _, by simp [trapzLL, trapzIntervals]⟩
    | cons q rest =>
      obtain ⟨r, hr, e⟩ := ih (fun a ha => hx a (by simp [ha])) (fun a ha => hy a (by simp [ha]))
        (List.Pairwise.of_cons (by simpa using hs))
      have hpq : p.1 ≤ q.1 := by
        simp only [List.map_cons, List.pairwise_cons] at hs
        exact hs.1 q.1 (by simp)
      obtain ⟨s, hs0, e2, _⟩ := trapzBin_nonneg p.1 q.1 p.2 q.2 (hx p (by simp)) hpq
        (hy p (by simp)) (hy q (by simp))
      refine ⟨s + r, by linarith, ?_⟩
      unfold trapzLL at e ⊢
      simp only [List.map_cons, trapzIntervals, sum_cons] at e ⊢
      rw [e, e2, add_fin]

/-- the integral of positive samples over a non-empty range is positive -/
theorem trapzLL_pos (pts : List (ℝ × ℝ)) (hx : ∀ p ∈ pts, 0 < p.1) (hy : ∀ p ∈ pts, 0 < p.2)
    (hs : (pts.map (·.1)).Pairwise (· ≤ ·)) (hr : ∃ p ∈ pts, ∃ q ∈ pts, p.1 < q.1) :
    ∃ r : ℝ, 0 < r ∧ trapzLL (pts.map (fun p => (fin p.1, fin p.2))) = fin r := by
  induction pts with
  | nil => simp at hr
  | cons p rest ih =>
    cases rest with
    | nil => simp at hr
    | cons q rest =>
      have hs' : ((q :: rest).map (·.1)).Pairwise (· ≤ ·) := List.Pairwise.of_cons (by simpa using hs)
      simp only [List.map_cons, List.pairwise_cons] at hs
      have hpq : p.1 ≤ q.1 := hs.1 q.1 (by simp)
      obtain ⟨s, hs0, e2, hpos⟩ := trapzBin_nonneg p.1 q.1 p.2 q.2 (hx p (by simp)) hpq
        (hy p (by simp)).le (hy q (by simp)).le
      by_cases hlt : p.1 < q.1
      · obtain ⟨r, hr, e⟩ := trapzLL_nonneg (q :: rest) (fun a ha => hx a (by simp [ha]))
          (fun a ha => (hy a (by simp [ha])).le) hs'
        refine ⟨s + r, by have := hpos hlt (hy p (by simp)) (hy q (by simp)); linarith, ?_⟩
        unfold trapzLL at e ⊢
        simp only [List.map_cons, trapzIntervals, sum_cons] at e ⊢
        rw [e, e2, add_fin]
      · have heq : p.1 = q.1 := le_antisymm hpq (not_lt.1 hlt)
        obtain ⟨r, hr0, e⟩ := ih (fun a ha => hx a (by simp [ha])) (fun a ha => hy a (by simp [ha])) hs'
          (by
            obtain ⟨a, ha, b, hb, hab⟩ := hr
            have key : ∀ c ∈ p :: q :: rest, ∃ d ∈ q :: rest, d.1 = c.1 := by
              intro c hc
              rcases List.mem_cons.1 hc with rfl | hc
              · exact ⟨q, by simp, heq.symm⟩
              · exact ⟨c, hc, rfl⟩
            obtain ⟨a', ha', ea⟩ := key a ha
            obtain ⟨b', hb', eb⟩ := key b hb
            exact ⟨a', ha', b', hb', by rw [ea, eb]; exact hab⟩)
        refine ⟨s + r, by linarith, ?_⟩
        unfold trapzLL at e ⊢
        simp only [List.map_cons, trapzIntervals, sum_cons] at e ⊢
        rw [e, e2, add_fin]

end Naima
