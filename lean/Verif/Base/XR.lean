import Mathlib.Analysis.SpecialFunctions.Pow.Real
import Mathlib.Analysis.SpecialFunctions.Log.Base

/-!
# Ideal IEEE numbers

`XR` stands for numpy's `float64`.  Special values behave as IEEE 754 / C99 prescribe; finite
values are exact reals.  Simplifications (part of the trusted base): no rounding, no overflow or
underflow of finite results, and no signed zero (every zero is `+0.0`).
-/

namespace Naima

/-- A numpy `float64` without rounding: NaN, an infinity, or a real number. -/
inductive XR : Type
  | nan : XR
  | ninf : XR
  | fin (x : ℝ) : XR
  | pinf : XR

namespace XR

open Classical

noncomputable section

instance : Inhabited XR := ⟨nan⟩
instance : Zero XR := ⟨fin 0⟩
instance : One XR := ⟨fin 1⟩

/-- The finite number denoted by a Python literal or computed real. -/
instance : Coe ℝ XR := ⟨fin⟩

/-- `x` is a finite number. -/
def IsFin : XR → Prop
  | fin _ => True
  | _ => False

/-- `np.isnan` -/
def IsNaN : XR → Prop
  | nan => True
  | _ => False

/-- unary minus -/
def neg : XR → XR
  | nan => nan
  | ninf => pinf
  | fin x => fin (-x)
  | pinf => ninf

/-- IEEE addition -/
def add : XR → XR → XR
  | nan, _ => nan
  | _, nan => nan
  | ninf, pinf => nan
  | pinf, ninf => nan
  | ninf, _ => ninf
  | _, ninf => ninf
  | pinf, _ => pinf
  | _, pinf => pinf
  | fin x, fin y => fin (x + y)

/-- infinity with the sign of a non-zero real; `0 * inf = nan` -/
def infMul (x : ℝ) : XR := if x > 0 then pinf else if x < 0 then ninf else nan

/-- IEEE multiplication -/
def mul : XR → XR → XR
  | nan, _ => nan
  | _, nan => nan
  | fin x, fin y => fin (x * y)
  | fin x, pinf => infMul x
  | fin x, ninf => infMul (-x)
  | pinf, fin y => infMul y
  | ninf, fin y => infMul (-y)
  | pinf, pinf => pinf
  | ninf, ninf => pinf
  | pinf, ninf => ninf
  | ninf, pinf => ninf

/-- IEEE division (divisor zero taken as `+0.0`) -/
def div : XR → XR → XR
  | nan, _ => nan
  | _, nan => nan
  | fin x, fin y => if y = 0 then infMul x else fin (x / y)
  | fin _, pinf => fin 0
  | fin _, ninf => fin 0
  | pinf, fin y => if y < 0 then ninf else pinf
  | ninf, fin y => if y < 0 then pinf else ninf
  | _, _ => nan

instance : Neg XR := ⟨neg⟩
instance : Add XR := ⟨add⟩
instance : Sub XR := ⟨fun a b => add a (neg b)⟩
instance : Mul XR := ⟨mul⟩
instance : Div XR := ⟨div⟩

/-- `a < b` (False if either is NaN) -/
def lt : XR → XR → Prop
  | nan, _ => False
  | _, nan => False
  | ninf, ninf => False
  | ninf, _ => True
  | _, ninf => False
  | pinf, _ => False
  | fin _, pinf => True
  | fin x, fin y => x < y

/-- `a == b` (False if either is NaN) -/
def eqv : XR → XR → Prop
  | ninf, ninf => True
  | pinf, pinf => True
  | fin x, fin y => x = y
  | _, _ => False

instance : LT XR := ⟨lt⟩
/-- `a <= b` (False if either is NaN) -/
instance : LE XR := ⟨fun a b => lt a b ∨ eqv a b⟩

/-- `np.abs` -/
def abs : XR → XR
  | nan => nan
  | ninf => pinf
  | pinf => pinf
  | fin x => fin |x|

/-- `np.log` -/
def log : XR → XR
  | nan => nan
  | ninf => nan
  | pinf => pinf
  | fin x => if x < 0 then nan else if x = 0 then ninf else fin (Real.log x)

/-- `np.log10` -/
def log10 : XR → XR
  | nan => nan
  | ninf => nan
  | pinf => pinf
  | fin x => if x < 0 then nan else if x = 0 then ninf else fin (Real.logb 10 x)

/-- `np.exp` -/
def exp : XR → XR
  | nan => nan
  | ninf => fin 0
  | pinf => pinf
  | fin x => fin (Real.exp x)

/-- `np.sqrt` -/
def sqrt : XR → XR
  | nan => nan
  | ninf => nan
  | pinf => pinf
  | fin x => if x < 0 then nan else fin (Real.sqrt x)

/-- `x ** y` for finite `x`, `y` (C99 `pow`) -/
def powFin (x y : ℝ) : XR :=
  if y = 0 then fin 1
  else if x > 0 then fin (x ^ y)
  else if x = 0 then (if y > 0 then fin 0 else pinf)
  else if ∃ n : ℤ, y = n then fin (x ^ y)
  else nan

/-- `x ** y` (C99 `pow`) -/
def pow : XR → XR → XR
  | fin x, fin y => powFin x y
  | nan, fin y => if y = 0 then fin 1 else nan
  | pinf, fin y => if y = 0 then fin 1 else if y > 0 then pinf else fin 0
  | ninf, fin y =>
      if y = 0 then fin 1 else if y < 0 then fin 0
      else if ∃ n : ℤ, y = 2 * n + 1 then ninf else pinf
  | fin x, pinf => if |x| = 1 then fin 1 else if |x| < 1 then fin 0 else pinf
  | fin x, ninf => if |x| = 1 then fin 1 else if |x| < 1 then pinf else fin 0
  | fin x, nan => if x = 1 then fin 1 else nan
  | nan, _ => nan
  | _, nan => nan
  | _, pinf => pinf
  | _, ninf => fin 0

/-- `np.add.reduce` of a one-dimensional array (exact arithmetic: order of summation is irrelevant) -/
def sum (l : List XR) : XR := l.foldr (· + ·) 0

/-- the real number a finite value denotes (only used under `IsFin`) -/
def toReal : XR → ℝ
  | fin x => x
  | _ => 0

/-! ### computation rules on finite numbers -/

@[simp] theorem zero_def : (0 : XR) = fin 0 := rfl
@[simp] theorem one_def : (1 : XR) = fin 1 := rfl
@[simp] theorem fin_inj (x y : ℝ) : (fin x = fin y) ↔ x = y := by simp
@[simp] theorem add_fin (x y : ℝ) : (fin x + fin y : XR) = fin (x + y) := rfl
@[simp] theorem sub_fin (x y : ℝ) : (fin x - fin y : XR) = fin (x - y) := by
  show fin (x + -y) = _; rw [sub_eq_add_neg]
@[simp] theorem neg_fin (x : ℝ) : (-(fin x) : XR) = fin (-x) := rfl
@[simp] theorem mul_fin (x y : ℝ) : (fin x * fin y : XR) = fin (x * y) := rfl
theorem div_fin (x y : ℝ) (h : y ≠ 0) : (fin x / fin y : XR) = fin (x / y) := by
  show div _ _ = _; simp [div, h]
@[simp] theorem lt_fin (x y : ℝ) : (fin x < fin y) ↔ x < y := Iff.rfl
@[simp] theorem le_fin (x y : ℝ) : (fin x ≤ fin y) ↔ x ≤ y := by
  show (lt _ _ ∨ eqv _ _) ↔ _; simp [lt, eqv, le_iff_lt_or_eq]
@[simp] theorem eqv_fin (x y : ℝ) : eqv (fin x) (fin y) ↔ x = y := Iff.rfl
@[simp] theorem isFin_fin (x : ℝ) : IsFin (fin x) := trivial
@[simp] theorem toReal_fin (x : ℝ) : toReal (fin x) = x := rfl
theorem log_fin (x : ℝ) (h : 0 < x) : log (fin x) = fin (Real.log x) := by
  simp [log, h.ne', not_lt.mpr h.le]
theorem log10_fin (x : ℝ) (h : 0 < x) : log10 (fin x) = fin (Real.logb 10 x) := by
  simp [log10, h.ne', not_lt.mpr h.le]
@[simp] theorem exp_fin (x : ℝ) : exp (fin x) = fin (Real.exp x) := rfl
@[simp] theorem abs_fin (x : ℝ) : abs (fin x) = fin |x| := rfl
theorem sqrt_fin (x : ℝ) (h : 0 ≤ x) : sqrt (fin x) = fin (Real.sqrt x) := by
  simp [sqrt, not_lt.mpr h]
theorem pow_fin (x y : ℝ) (h : 0 < x) : pow (fin x) (fin y) = fin (x ^ y) := by
  unfold pow powFin
  by_cases hy : y = 0
  · simp [hy]
  · simp [hy, h]
theorem isFin_iff (a : XR) : IsFin a ↔ ∃ x, a = fin x := by
  cases a <;> simp [IsFin]
@[simp] theorem nan_add (a : XR) : (nan + a : XR) = nan := rfl
@[simp] theorem add_nan (a : XR) : (a + nan : XR) = nan := by cases a <;> rfl
@[simp] theorem sum_nil : sum [] = fin 0 := rfl
@[simp] theorem sum_cons (a : XR) (l : List XR) : sum (a :: l) = a + sum l := rfl

theorem add_comm' (a b : XR) : a + b = b + a := by
  cases a <;> cases b <;> first | rfl | exact congrArg fin (add_comm _ _)

theorem add_assoc' (a b c : XR) : a + b + c = a + (b + c) := by
  cases a <;> cases b <;> cases c <;> first | rfl | exact congrArg fin (add_assoc _ _ _)

theorem zero_add' (a : XR) : fin 0 + a = a := by
  cases a <;> first | rfl | exact congrArg fin (zero_add _)

theorem add_zero' (a : XR) : a + fin 0 = a := by rw [add_comm', zero_add']

theorem sum_append (l m : List XR) : sum (l ++ m) = sum l + sum m := by
  induction l with
  | nil => simp [zero_add']
  | cons a l ih => simp [ih, add_assoc']

theorem sum_map_fin (l : List ℝ) : sum (l.map fin) = fin l.sum := by
  induction l with
  | nil => simp
  | cons a l ih => simp [ih]

theorem sum_perm {l m : List XR} (h : l.Perm m) : sum l = sum m := by
  induction h with
  | nil => rfl
  | cons a _ ih => simp [ih]
  | swap a b l => simp only [sum_cons]; rw [← add_assoc', ← add_assoc', add_comm' b a]
  | trans _ _ ih1 ih2 => rw [ih1, ih2]

end

end XR

end Naima
