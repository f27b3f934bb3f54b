import Verif.Model.Trapz

/-! # `trapz_loglog` in floating-point arithmetic (`naima/utils.py:333-353`)

The rest of the model computes with real numbers. Here the numerical core of `trapz_loglog` is written once
more, operation by operation, with an arbitrary arithmetic in place of the exact one. Not covered:
overflow, underflow, infinities and NaN (the samples are positive or zero and the results in range). -/

namespace Naima

open Classical

noncomputable section

/-- The operations of an arithmetic. -/
structure Arith where
  add : ℝ → ℝ → ℝ
  sub : ℝ → ℝ → ℝ
  mul : ℝ → ℝ → ℝ
  div : ℝ → ℝ → ℝ
  pow : ℝ → ℝ → ℝ
  log10 : ℝ → ℝ
  log : ℝ → ℝ

/-- The real operations. -/
def Arith.exact : Arith where
  add x y := x + y
  sub x y := x - y
  mul x y := x * y
  div x y := x / y
  pow x y := x ^ y
  log10 x := Real.logb 10 x
  log x := Real.log x

/-- The standard model of floating-point arithmetic: every operation is right up to a relative error `u`
(IEEE double precision: 2^-53 for `+ - * /`, a small multiple of it for the library functions). -/
structure Arith.Accurate (F : Arith) (u : ℝ) : Prop where
  add : ∀ x y, |F.add x y - (x + y)| ≤ u * |x + y|
  sub : ∀ x y, |F.sub x y - (x - y)| ≤ u * |x - y|
  mul : ∀ x y, |F.mul x y - x * y| ≤ u * |x * y|
  div : ∀ x y, y ≠ 0 → |F.div x y - x / y| ≤ u * |x / y|
  pow : ∀ x y, 0 < x → |F.pow x y - x ^ y| ≤ u * |x ^ y|
  log10 : ∀ x, 0 < x → |F.log10 x - Real.logb 10 x| ≤ u * |Real.logb 10 x|
  log : ∀ x, 0 < x → |F.log x - Real.log x| ≤ u * |Real.log x|

/-- utils.py:336 -/
def flIndex (F : Arith) (x1 x2 y1 y2 : ℝ) : ℝ := F.div (F.log10 (F.div y2 y1)) (F.log10 (F.div x2 x1))

/-- utils.py:340-345 -/
def flRaw (F : Arith) (x1 x2 y1 y2 : ℝ) : ℝ :=
  let b := flIndex F x1 x2 y1 y2
  if 1e-10 < |F.add b 1| then
    F.div (F.mul y1 (F.sub (F.mul x2 (F.pow (F.div x2 x1) b)) x1)) (F.add b 1)
  else
    F.mul (F.mul x1 y1) (F.log (F.div x2 x1))

/-- utils.py:347-348 -/
def flBin (F : Arith) (x1 x2 y1 y2 : ℝ) : ℝ :=
  if y1 = 0 ∨ y2 = 0 ∨ x1 = x2 then 0 else flRaw F x1 x2 y1 y2

/-- utils.py:350-351: `intervals=True`, for samples `(x, y)`. -/
def flIntervals (F : Arith) : List (ℝ × ℝ) → List ℝ
  | p :: q :: rest => flBin F p.1 q.1 p.2 q.2 :: flIntervals F (q :: rest)
  | _ => []

end

/-- An order in which numbers are added up (`np.add.reduce` adds pairwise, in blocks; nothing is
assumed about the order). -/
inductive SumTree
  | zero
  | leaf (x : ℝ)
  | node (l r : SumTree)

/-- The numbers added. -/
def SumTree.leaves : SumTree → List ℝ
  | .zero => []
  | .leaf x => [x]
  | .node l r => l.leaves ++ r.leaves

/-- The number of additions one after the other. -/
def SumTree.depth : SumTree → Nat
  | .zero => 0
  | .leaf _ => 0
  | .node l r => max l.depth r.depth + 1

/-- utils.py:353 `np.add.reduce`, the result of adding in that order. -/
def SumTree.value (F : Arith) : SumTree → ℝ
  | .zero => 0
  | .leaf x => x
  | .node l r => F.add (l.value F) (r.value F)

end Naima
