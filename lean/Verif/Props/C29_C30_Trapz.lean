import Verif.Model.Trapz
import Verif.Proof.Trapz

/-! # C29, C30: log-log quadrature -/

namespace Naima.Props

open Naima XR

/-- **C29.** On a strictly increasing positive grid `x0 :: rest` the quadrature of the samples
`A x^p` is the exact integral `∫ A t^p dt` from the first to the last grid point, for every real
`A` and every `p` with `p = -1` or `|p + 1| > 1e-10`. -/
theorem C29_exact_on_power_laws (A p x0 : ℝ) (rest : List ℝ) (hx0 : 0 < x0)
    (hs : (x0 :: rest).Pairwise (· < ·)) (hp : p = -1 ∨ 1e-10 < |p + 1|) :
    trapz ((x0 :: rest).map (fun x => fin (A * x ^ p))) ((x0 :: rest).map fin)
      = fin (∫ t in x0..(x0 :: rest).getLast (by simp), A * t ^ p) := by
  have hz : ∀ l : List ℝ, (l.map fin).zip (l.map (fun x => fin (A * x ^ p)))
      = l.map (fun x => (fin x, fin (A * x ^ p))) := by
    intro l; induction l with
    | nil => rfl
    | cons a l ih => simp [ih]
  unfold trapz
  rw [hz]
  induction rest generalizing x0 with
  | nil => simp [trapzLL, trapzIntervals]
  | cons x1 rest ih =>
    have hlt : x0 < x1 := (List.pairwise_cons.1 hs).1 x1 (by simp)
    have hx1 : 0 < x1 := hx0.trans hlt
    have ih' := ih x1 hx1 (List.pairwise_cons.1 hs).2
    unfold trapzLL at ih' ⊢
    simp only [List.map_cons, trapzIntervals, sum_cons] at ih' ⊢
    rw [ih']
    have hpow0 : 0 < x0 ^ p := Real.rpow_pos_of_pos hx0 p
    have hpow1 : 0 < x1 ^ p := Real.rpow_pos_of_pos hx1 p
    have hbin : trapzBin (fin x0) (fin x1) (fin (A * x0 ^ p)) (fin (A * x1 ^ p))
        = fin (∫ t in x0..x1, A * t ^ p) := by
      by_cases hA : A = 0
      · subst hA
        rw [trapzBin_zero _ _ _ _ (by simp)]
        simp
      · have hratio : A * x1 ^ p / (A * x0 ^ p) = (x1 / x0) ^ p := by
          rw [mul_div_mul_left _ _ hA, Real.div_rpow hx1.le hx0.le]
        have hr : 0 < x1 / x0 := div_pos hx1 hx0
        have hb : p = Real.logb 10 (A * x1 ^ p / (A * x0 ^ p)) / Real.logb 10 (x1 / x0) := by
          rw [hratio, Real.logb_rpow_eq_mul_logb_of_pos hr,
            mul_div_assoc, div_self (logb_ratio_ne x0 x1 hx0 hx1 hlt.ne), mul_one]
        rw [trapzBin_fin _ _ _ _ hx0 hx1 hlt.ne (mul_ne_zero hA hpow0.ne')
          (by rw [hratio]; exact Real.rpow_pos_of_pos hr p)]
        rw [realBin_eq_powerlaw _ _ _ _ hx0 hx1 p hb hp]
        congr 1
        apply intervalIntegral.integral_congr
        intro t ht
        have htpos : 0 < t := by
          rcases Set.mem_uIcc.1 ht with h | h <;> linarith [h.1]
        simp only []
        rw [Real.div_rpow htpos.le hx0.le]
        field_simp
    rw [hbin, add_fin]
    congr 1
    rw [List.getLast_cons (List.cons_ne_nil x1 rest)]
    set z := (x1 :: rest).getLast (List.cons_ne_nil x1 rest) with hzdef
    have hzpos : 0 < z := by
      have hm : z ∈ x1 :: rest := List.getLast_mem _
      rcases List.mem_cons.1 hm with h | h
      · rw [h]; exact hx1
      · exact hx1.trans ((List.pairwise_cons.1 (List.pairwise_cons.1 hs).2).1 z h)
    have hii : ∀ a b : ℝ, 0 < a → 0 < b →
        IntervalIntegrable (fun t : ℝ => A * t ^ p) MeasureTheory.volume a b := by
      intro a b ha hb
      apply ContinuousOn.intervalIntegrable
      apply ContinuousOn.mul continuousOn_const
      apply ContinuousOn.rpow_const continuousOn_id
      intro t ht
      left
      rcases Set.mem_uIcc.1 ht with h | h
      · exact (lt_of_lt_of_le ha h.1).ne'
      · exact (lt_of_lt_of_le hb h.1).ne'
    exact intervalIntegral.integral_add_adjacent_intervals (hii _ _ hx0 hx1) (hii _ _ hx1 hzpos)

/-- **C29 (any samples).** For arbitrary positive samples each bin is the exact integral of the
power law through its two end points, whenever the local index is -1 or differs from -1 by more
than 1e-10. -/
theorem C29_bin_is_local_power_law (x1 x2 y1 y2 b : ℝ) (h1 : 0 < x1) (h12 : x1 < x2)
    (hy1 : 0 < y1) (hy2 : 0 < y2) (hb : y2 = y1 * (x2 / x1) ^ b)
    (hgood : b = -1 ∨ 1e-10 < |b + 1|) :
    trapz [fin y1, fin y2] [fin x1, fin x2] = fin (∫ t in x1..x2, y1 * (t / x1) ^ b) := by
  have h2 := h1.trans h12
  have hr : 0 < x2 / x1 := div_pos h2 h1
  have hidx : b = Real.logb 10 (y2 / y1) / Real.logb 10 (x2 / x1) := by
    rw [hb, mul_comm y1, mul_div_assoc, div_self hy1.ne', mul_one,
      Real.logb_rpow_eq_mul_logb_of_pos hr, mul_div_assoc,
      div_self (logb_ratio_ne x1 x2 h1 h2 h12.ne), mul_one]
  simp only [trapz, trapzLL, List.zip_cons_cons, List.zip_nil_right, trapzIntervals, sum_cons,
    sum_nil, add_zero']
  rw [trapzBin_fin _ _ _ _ h1 h2 h12.ne hy1.ne' (div_pos hy2 hy1),
    realBin_eq_powerlaw _ _ _ _ h1 h2 b hidx hgood]

/-- Non-vacuity of C29: the exponents -1, 0 and -2 on the grid 1, 2, 4 meet the hypotheses. -/
example : ([1, 2, 4] : List ℝ).Pairwise (· < ·) ∧ (0 : ℝ) < 1 ∧
    ((-1 : ℝ) = -1 ∨ (1e-10 : ℝ) < |(-1 : ℝ) + 1|) ∧ ((-2 : ℝ) = -1 ∨ (1e-10 : ℝ) < |(-2 : ℝ) + 1|) := by
  refine ⟨?_, by norm_num, by norm_num, Or.inr (by norm_num)⟩
  simp only [List.pairwise_cons]
  norm_num

/-- **C30 (intervals).** The integral is the sum of one contribution per pair of neighbouring
samples, and the i-th contribution depends only on samples i and i+1. -/
theorem C30_intervals (pts : List (XR × XR)) :
    trapzLL pts = XR.sum (trapzIntervals pts) ∧ (trapzIntervals pts).length = pts.length - 1 ∧
    ∀ i p q, pts[i]? = some p → pts[i + 1]? = some q →
      (trapzIntervals pts)[i]? = some (trapzLL [p, q]) := by
  refine ⟨rfl, trapzIntervals_length pts, ?_⟩
  intro i p q hp hq
  rw [trapzIntervals_get pts i p q hp hq]
  simp [trapzLL, trapzIntervals, add_zero']

/-- **C30 (additivity).** The integral splits at any grid point, whatever the sample values are
(including NaN and infinities). -/
theorem C30_splits (l m : List (XR × XR)) (p : XR × XR) :
    trapzLL (l ++ p :: m) = trapzLL (l ++ [p]) + trapzLL (p :: m) := by
  unfold trapzLL
  rw [trapzIntervals_split, XR.sum_append]

/-- **C30 (homogeneity in y).** Multiplying all samples by `c > 0` multiplies the integral by `c`,
whatever the sample values are. -/
theorem C30_scales_with_y (c : ℝ) (hc : 0 < c) (pts : List (XR × XR)) :
    trapzLL (pts.map (fun p => (p.1, fin c * p.2))) = fin c * trapzLL pts :=
  trapzLL_scale_y c hc pts

/-- **C30 (homogeneity in x).** Multiplying all abscissae by `c > 0` (a change of unit) multiplies
the integral by `c`. -/
theorem C30_scales_with_x (c : ℝ) (hc : 0 < c) (pts : List (XR × XR)) :
    trapzLL (pts.map (fun p => (fin c * p.1, p.2))) = fin c * trapzLL pts :=
  trapzLL_scale_x c hc pts

/-- **C30 (non-negativity and finiteness).** Finite non-negative samples on a positive
non-decreasing grid — zeros and repeated abscissae included — give a finite non-negative
integral. -/
theorem C30_nonneg (pts : List (ℝ × ℝ)) (hx : ∀ p ∈ pts, 0 < p.1) (hy : ∀ p ∈ pts, 0 ≤ p.2)
    (hs : (pts.map (·.1)).Pairwise (· ≤ ·)) :
    ∃ r : ℝ, 0 ≤ r ∧ trapzLL (pts.map (fun p => (fin p.1, fin p.2))) = fin r :=
  trapzLL_nonneg pts hx hy hs

/-- **C30 (strict positivity).** A bin of positive width with positive samples contributes a
strictly positive amount. -/
theorem C30_positive_bin (x1 x2 y1 y2 : ℝ) (h1 : 0 < x1) (h12 : x1 < x2) (hy1 : 0 < y1)
    (hy2 : 0 < y2) : ∃ r : ℝ, 0 < r ∧ trapzLL [(fin x1, fin y1), (fin x2, fin y2)] = fin r := by
  obtain ⟨r, _, e, hp⟩ := trapzBin_nonneg x1 x2 y1 y2 h1 h12.le hy1.le hy2.le
  exact ⟨r, hp h12 hy1 hy2, by simp [trapzLL, trapzIntervals, e]⟩

/-- **C30 (zero-safety).** A bin with a zero sample at either end, or with zero width, contributes
exactly 0, whatever the other sample is. -/
theorem C30_zero_safe (x1 x2 y1 y2 : XR)
    (h : y1 = fin 0 ∨ y2 = fin 0 ∨ (∃ x : ℝ, x1 = fin x ∧ x2 = fin x)) :
    trapzLL [(x1, y1), (x2, y2)] = fin 0 := by
  have : trapzBin x1 x2 y1 y2 = fin 0 := by
    apply trapzBin_zero
    rcases h with rfl | rfl | ⟨x, rfl, rfl⟩ <;> simp
  simp [trapzLL, trapzIntervals, this]

/-- Non-vacuity of C30: without the mask the zero-sample bin is not a number, so the mask matters. -/
example : trapzRaw (fin 1) (fin 2) (fin 0) (fin 1) = nan := by
  have h2 : (0 : ℝ) < Real.logb 10 2 := Real.logb_pos (by norm_num) (by norm_num)
  have hb : trapzIndex (fin 1) (fin 2) (fin 0) (fin 1) = pinf := by
    unfold trapzIndex
    rw [div_fin 2 1 (by norm_num), log10_fin _ (by norm_num)]
    simp [div_def, div, infMul, log10, h2.le]
  unfold trapzRaw
  rw [hb, div_fin 2 1 (by norm_num)]
  have e1 : (pinf + fin 1 : XR) = pinf := rfl
  have e2 : XR.pow (fin (2 / 1)) pinf = pinf := by norm_num [XR.pow]
  have e3 : (fin 2 * pinf : XR) = pinf := by simp [mul_def, mul, infMul]
  have e4 : (pinf - fin 1 : XR) = pinf := rfl
  have e5 : (fin 0 * pinf : XR) = nan := by simp [mul_def, mul, infMul]
  have e6 : (fin 1e-10 < (pinf : XR)) := trivial
  simp only [e1, e2, e3, e4, e5, XR.abs, e6, if_true]
  rfl

end Naima.Props
