import Verif.Base.XR
import Mathlib.Tactic.Ring
import Mathlib.Tactic.FieldSimp
import Mathlib.Tactic.Linarith
import Mathlib.Tactic.Positivity

/-! Lemmas about ideal IEEE numbers: scaling by a positive finite number. -/

set_option linter.unusedSimpArgs false

namespace Naima
namespace XR

theorem mul_def (a b : XR) : a * b = mul a b := rfl
theorem div_def (a b : XR) : a / b = div a b := rfl
theorem add_def (a b : XR) : a + b = add a b := rfl
theorem sub_def (a b : XR) : a - b = add a (neg b) := rfl

theorem infMul_scale (c x : ℝ) (hc : 0 < c) : infMul (c * x) = infMul x := by
  unfold infMul
  rcases lt_trichotomy x 0 with h | h | h
  · have h1 : c * x < 0 := mul_neg_of_pos_of_neg hc h
    simp [h, h1, not_lt.mpr h.le, not_lt.mpr h1.le]
  · simp [h]
  · have h1 : 0 < c * x := mul_pos hc h
    simp [h, h1]

theorem mul_infMul (c x : ℝ) (hc : 0 < c) : fin c * infMul x = infMul x := by
  unfold infMul
  split_ifs <;> simp [mul_def, mul, infMul, hc, hc.le]

theorem scale_mul (c : ℝ) (hc : 0 < c) (a b : XR) : fin c * a * b = fin c * (a * b) := by
  cases a with
  | nan => cases b <;> rfl
  | fin x =>
    cases b with
    | nan => rfl
    | fin y => simp [mul_assoc]
    | pinf =>
      show infMul (c * x) = fin c * infMul x
      rw [mul_infMul c x hc, infMul_scale c x hc]
    | ninf =>
      show infMul (-(c * x)) = fin c * infMul (-x)
      rw [mul_infMul c (-x) hc, ← infMul_scale c (-x) hc]; congr 1; ring
  | pinf =>
    have h1 : (fin c * pinf : XR) = pinf := by simp [mul_def, mul, infMul, hc]
    have h2 : (fin c * ninf : XR) = ninf := by simp [mul_def, mul, infMul, hc, hc.le]
    rw [h1]
    cases b with
    | nan => rfl
    | fin y => show infMul y = fin c * infMul y; rw [mul_infMul c y hc]
    | pinf => exact h1.symm
    | ninf => exact h2.symm
  | ninf =>
    have h1 : (fin c * pinf : XR) = pinf := by simp [mul_def, mul, infMul, hc]
    have h2 : (fin c * ninf : XR) = ninf := by simp [mul_def, mul, infMul, hc, hc.le]
    rw [h2]
    cases b with
    | nan => rfl
    | fin y => show infMul (-y) = fin c * infMul (-y); rw [mul_infMul c _ hc]
    | pinf => exact h2.symm
    | ninf => exact h1.symm

theorem mul_comm' (a b : XR) : a * b = b * a := by
  cases a <;> cases b <;> first | rfl | exact congrArg fin (mul_comm _ _)

theorem scale_pinf (c : ℝ) (hc : 0 < c) : (fin c * pinf : XR) = pinf := by
  simp [mul_def, mul, infMul, hc]

theorem scale_ninf (c : ℝ) (hc : 0 < c) : (fin c * ninf : XR) = ninf := by
  simp [mul_def, mul, infMul, hc, hc.le]

theorem scale_div (c : ℝ) (hc : 0 < c) (a b : XR) : fin c * a / b = fin c * (a / b) := by
  cases a with
  | nan => cases b <;> rfl
  | fin x =>
    cases b with
    | nan => rfl
    | fin y =>
      rw [mul_fin]
      by_cases hy : y = 0
      · subst hy
        simp only [div_def, div, if_true]
        rw [mul_infMul c x hc, infMul_scale c x hc]
      · rw [div_fin _ _ hy, div_fin _ _ hy, mul_fin, mul_div_assoc]
    | pinf => simp [div_def, div]
    | ninf => simp [div_def, div]
  | pinf =>
    rw [scale_pinf c hc]
    cases b with
    | nan => rfl
    | fin y =>
      simp only [div_def, div]
      split_ifs
      · exact (scale_ninf c hc).symm
      · exact (scale_pinf c hc).symm
    | pinf => rfl
    | ninf => rfl
  | ninf =>
    rw [scale_ninf c hc]
    cases b with
    | nan => rfl
    | fin y =>
      simp only [div_def, div]
      split_ifs
      · exact (scale_pinf c hc).symm
      · exact (scale_ninf c hc).symm
    | pinf => rfl
    | ninf => rfl

theorem scale_ratio (c : ℝ) (hc : 0 < c) (a b : XR) : (fin c * a) / (fin c * b) = a / b := by
  cases a with
  | nan => cases b <;> rfl
  | fin x =>
    cases b with
    | nan => rfl
    | fin y =>
      rw [mul_fin, mul_fin]
      by_cases hy : y = 0
      · subst hy
        simp only [div_def, div, mul_zero, if_true]
        rw [infMul_scale c x hc]
      · rw [div_fin _ _ hy, div_fin _ _ (mul_ne_zero hc.ne' hy), mul_div_mul_left _ _ hc.ne']
    | pinf => rw [scale_pinf c hc]; rfl
    | ninf => rw [scale_ninf c hc]; rfl
  | pinf =>
    rw [scale_pinf c hc]
    cases b with
    | nan => rfl
    | fin y =>
      rw [mul_fin]
      simp only [div_def, div]
      by_cases h : y < 0
      · simp [h, mul_neg_of_pos_of_neg hc h]
      · simp [h, mul_nonneg hc.le (not_lt.mp h)]
    | pinf => rw [scale_pinf c hc]
    | ninf => rw [scale_ninf c hc]
  | ninf =>
    rw [scale_ninf c hc]
    cases b with
    | nan => rfl
    | fin y =>
      rw [mul_fin]
      simp only [div_def, div]
      by_cases h : y < 0
      · simp [h, mul_neg_of_pos_of_neg hc h]
      · simp [h, mul_nonneg hc.le (not_lt.mp h)]
    | pinf => rw [scale_pinf c hc]
    | ninf => rw [scale_ninf c hc]

theorem scale_add (c : ℝ) (hc : 0 < c) (a b : XR) : fin c * (a + b) = fin c * a + fin c * b := by
  have hc' : ¬ c < 0 := not_lt.mpr hc.le
  cases a <;> cases b <;>
    simp [add_def, add, mul_def, mul, infMul, hc, hc', mul_add]

theorem scale_neg (c : ℝ) (hc : 0 < c) (a : XR) : fin c * neg a = neg (fin c * a) := by
  have hc' : ¬ c < 0 := not_lt.mpr hc.le
  cases a <;> simp [mul_def, mul, neg, infMul, hc, hc']

theorem scale_sub (c : ℝ) (hc : 0 < c) (a b : XR) : fin c * (a - b) = fin c * a - fin c * b := by
  show fin c * (a + neg b) = fin c * a + neg (fin c * b)
  rw [scale_add c hc, scale_neg c hc]

theorem scale_sum (c : ℝ) (hc : 0 < c) (l : List XR) :
    sum (l.map (fun a => fin c * a)) = fin c * sum l := by
  induction l with
  | nil => simp
  | cons a l ih => simp [ih, scale_add c hc]

theorem scale_eqv_zero (c : ℝ) (hc : 0 < c) (a : XR) : eqv (fin c * a) (fin 0) ↔ eqv a (fin 0) := by
  have hc' : ¬ c < 0 := not_lt.mpr hc.le
  cases a <;> simp [mul_def, mul, infMul, hc, hc', eqv, hc.ne']

theorem scale_eqv (c : ℝ) (hc : 0 < c) (a b : XR) : eqv (fin c * a) (fin c * b) ↔ eqv a b := by
  have hc' : ¬ c < 0 := not_lt.mpr hc.le
  cases a <;> cases b <;> simp [mul_def, mul, infMul, hc, hc', eqv, hc.ne']

end XR
end Naima
