import Verif.Props.C92_Accuracy
import Verif.Props.C70_SyncFormula

/-! Error of the log-log trapezoid rule for the synchrotron integral -/

namespace Naima

open XR Props

/-! ### Curvature of the synchrotron function -/

theorem quadLog_deriv (a b q r : ℝ) (ha : 0 ≤ a) (hb : 0 ≤ b) (s : ℝ) :
    HasDerivAt (fun s => Real.log (1 + a * Real.exp (q * s + r) + b * Real.exp (q * s + r) ^ 2))
      (q * (a * Real.exp (q * s + r) + 2 * b * Real.exp (q * s + r) ^ 2) /
        (1 + a * Real.exp (q * s + r) + b * Real.exp (q * s + r) ^ 2)) s := by
  have hE : HasDerivAt (fun s => Real.exp (q * s + r)) (q * Real.exp (q * s + r)) s := by
    have := (((hasDerivAt_id s).const_mul q).add_const r).exp
    simpa [mul_comm] using this
  have hp : 0 < 1 + a * Real.exp (q * s + r) + b * Real.exp (q * s + r) ^ 2 := by positivity
  have h := (((hE.const_mul a).const_add 1).add ((hE.pow 2).const_mul b)).log hp.ne'
  refine h.congr_deriv ?_
  congr 1
  push_cast
  ring

theorem quadLog_deriv2 (a b q r : ℝ) (ha : 0 ≤ a) (hb : 0 ≤ b) (s : ℝ) :
    HasDerivAt (fun s => q * (a * Real.exp (q * s + r) + 2 * b * Real.exp (q * s + r) ^ 2) /
        (1 + a * Real.exp (q * s + r) + b * Real.exp (q * s + r) ^ 2))
      (q ^ 2 * ((a * Real.exp (q * s + r) + 4 * b * Real.exp (q * s + r) ^ 2 +
        a * b * Real.exp (q * s + r) ^ 3) /
        (1 + a * Real.exp (q * s + r) + b * Real.exp (q * s + r) ^ 2) ^ 2)) s := by
  have hE : HasDerivAt (fun s => Real.exp (q * s + r)) (q * Real.exp (q * s + r)) s := by
    have := (((hasDerivAt_id s).const_mul q).add_const r).exp
    simpa [mul_comm] using this
  have hp : 0 < 1 + a * Real.exp (q * s + r) + b * Real.exp (q * s + r) ^ 2 := by positivity
  have h := (((hE.const_mul a).add ((hE.pow 2).const_mul (2 * b))).const_mul q).div
    (((hE.const_mul a).const_add 1).add ((hE.pow 2).const_mul b)) hp.ne'
  refine h.congr_deriv ?_
  simp only [Pi.add_apply, Pi.pow_apply]
  rw [mul_div_assoc']
  congr 1
  push_cast
  ring

theorem quad_bounds (a b Y : ℝ) (ha : 0 ≤ a) (hb : 0 ≤ b) (hY : 0 < Y) :
    0 ≤ (a * Y + 4 * b * Y ^ 2 + a * b * Y ^ 3) / (1 + a * Y + b * Y ^ 2) ^ 2 ∧
    (a * Y + 4 * b * Y ^ 2 + a * b * Y ^ 3) / (1 + a * Y + b * Y ^ 2) ^ 2 ≤ 1 := by
  have hp : 0 < 1 + a * Y + b * Y ^ 2 := by positivity
  refine ⟨by positivity, ?_⟩
  rw [div_le_one (by positivity)]
  have : (1 + a * Y + b * Y ^ 2) ^ 2 - (a * Y + 4 * b * Y ^ 2 + a * b * Y ^ 3) =
    (1 - b * Y ^ 2) ^ 2 + a * Y + a ^ 2 * Y ^ 2 + a * b * Y ^ 3 := by ring
  have h2 : 0 ≤ (1 - b * Y ^ 2) ^ 2 + a * Y + a ^ 2 * Y ^ 2 + a * b * Y ^ 3 := by positivity
  linarith

theorem lin_bounds (a Y : ℝ) (ha : 0 ≤ a) (hY : 0 < Y) :
    0 ≤ (a * Y + 4 * 0 * Y ^ 2 + a * 0 * Y ^ 3) / (1 + a * Y + 0 * Y ^ 2) ^ 2 ∧
    (a * Y + 4 * 0 * Y ^ 2 + a * 0 * Y ^ 3) / (1 + a * Y + 0 * Y ^ 2) ^ 2 ≤ 1 / 4 := by
  have hp : 0 < 1 + a * Y + 0 * Y ^ 2 := by positivity
  refine ⟨by positivity, ?_⟩
  rw [div_le_iff₀ (by positivity)]
  nlinarith [sq_nonneg (1 - a * Y)]

/-- the logarithm of the synchrotron function as a function of `s = ln E`, at `x = k / E²` -/
theorem log_gAKP (k s : ℝ) (hk : 0 < k) :
    Real.log (gAKP (k / Real.exp s ^ 2)) = Real.log 1.808 + (1 / 3) * (-2 * s + Real.log k)
      - 1 / 2 * Real.log (1 + 3.4 * Real.exp (-(4 / 3) * s + 2 / 3 * Real.log k) +
          0 * Real.exp (-(4 / 3) * s + 2 / 3 * Real.log k) ^ 2)
      + Real.log (1 + 2.210 * Real.exp (-(4 / 3) * s + 2 / 3 * Real.log k) +
          0.347 * Real.exp (-(4 / 3) * s + 2 / 3 * Real.log k) ^ 2)
      - Real.log (1 + 1.353 * Real.exp (-(4 / 3) * s + 2 / 3 * Real.log k) +
          0.217 * Real.exp (-(4 / 3) * s + 2 / 3 * Real.log k) ^ 2)
      - Real.exp (-2 * s + Real.log k) := by
  have hx : k / Real.exp s ^ 2 = Real.exp (-2 * s + Real.log k) := by
    rw [Real.exp_add, Real.exp_log hk, ← Real.exp_nat_mul, neg_mul, Real.exp_neg]
    push_cast
    rw [div_eq_mul_inv, mul_comm]
  have hpow : ∀ c : ℝ, Real.exp (-2 * s + Real.log k) ^ c = Real.exp (c * (-2 * s + Real.log k)) := by
    intro c; rw [← Real.exp_mul, mul_comm]
  rw [hx]
  unfold gAKP
  have e1 : Real.exp (-2 * s + Real.log k) ^ ((2 : ℝ) / 3) =
      Real.exp (-(4 / 3) * s + 2 / 3 * Real.log k) := by rw [hpow]; congr 1; ring
  have e2 : Real.exp (-2 * s + Real.log k) ^ ((4 : ℝ) / 3) =
      Real.exp (-(4 / 3) * s + 2 / 3 * Real.log k) ^ 2 := by
    rw [hpow, ← Real.exp_nat_mul]; congr 1; push_cast; ring
  rw [e1, e2, hpow]
  set Y := Real.exp (-(4 / 3) * s + 2 / 3 * Real.log k) with hY
  have hY0 : 0 < Y := Real.exp_pos _
  have hE := Real.exp_pos ((1 : ℝ) / 3 * (-2 * s + Real.log k))
  have h1 : 0 < 1 + 3.4 * Y := by positivity
  have h2 : 0 < 1 + 2.210 * Y + 0.347 * Y ^ 2 := by positivity
  have h3 : 0 < 1 + 1.353 * Y + 0.217 * Y ^ 2 := by positivity
  have hs := Real.sqrt_pos.2 h1
  rw [Real.log_mul (by positivity) (Real.exp_pos _).ne', Real.log_mul (by positivity) (by positivity),
    Real.log_div (by positivity) hs.ne', Real.log_div h2.ne' h3.ne', Real.log_mul (by norm_num) hE.ne',
    Real.log_exp, Real.log_exp, Real.log_sqrt h1.le]
  simp only [zero_mul, add_zero]
  ring

/-- The slope of the synchrotron function against `ln E` rises by at most 16/9 per e-folding and falls, where
`x ≤ X`, by at most `4 X + 2`. -/
theorem gAKP_slope (k a b X : ℝ) (hk : 0 < k) (ha : 0 < a) (hab : a < b) (hX : k / a ^ 2 ≤ X) :
    SlopeFallsAtMost (4 * X + 2) (fun E => gAKP (k / E ^ 2)) a b ∧
    SlopeRisesAtMost (16 / 9) (fun E => gAKP (k / E ^ 2)) a b := by
  have hb := ha.trans hab
  set q : ℝ := -(4 / 3) with hq
  set r : ℝ := 2 / 3 * Real.log k with hr
  have hX1 : ∀ s, HasDerivAt (fun s => Real.exp (-2 * s + Real.log k)) (-2 * Real.exp (-2 * s + Real.log k)) s := by
    intro s
    have := (((hasDerivAt_id s).const_mul (-2)).add_const (Real.log k)).exp
    simpa [mul_comm] using this
  have hd : ∀ s, HasDerivAt (fun s => Real.log (gAKP (k / Real.exp s ^ 2)))
      (-(2 / 3) - 1 / 2 * (q * (3.4 * Real.exp (q * s + r) + 2 * 0 * Real.exp (q * s + r) ^ 2) /
        (1 + 3.4 * Real.exp (q * s + r) + 0 * Real.exp (q * s + r) ^ 2)) +
       q * (2.210 * Real.exp (q * s + r) + 2 * 0.347 * Real.exp (q * s + r) ^ 2) /
        (1 + 2.210 * Real.exp (q * s + r) + 0.347 * Real.exp (q * s + r) ^ 2) -
       q * (1.353 * Real.exp (q * s + r) + 2 * 0.217 * Real.exp (q * s + r) ^ 2) /
        (1 + 1.353 * Real.exp (q * s + r) + 0.217 * Real.exp (q * s + r) ^ 2) -
       -2 * Real.exp (-2 * s + Real.log k)) s := by
    intro s
    have h0 : HasDerivAt (fun s => Real.log 1.808 + (1 / 3) * (-2 * s + Real.log k)) (-(2 / 3)) s := by
      have := ((((hasDerivAt_id s).const_mul (-2)).add_const (Real.log k)).const_mul (1 / 3)).const_add
        (Real.log 1.808)
      refine this.congr_deriv ?_
      norm_num
    have h := ((((h0.sub ((quadLog_deriv 3.4 0 q r (by norm_num) le_rfl s).const_mul (1 / 2))).add
      (quadLog_deriv 2.210 0.347 q r (by norm_num) (by norm_num) s)).sub
      (quadLog_deriv 1.353 0.217 q r (by norm_num) (by norm_num) s)).sub (hX1 s))
    refine h.congr_of_eventuallyEq ?_
    filter_upwards with s
    rw [log_gAKP k s hk]
    rfl
  have hd2 : ∀ s, HasDerivAt (fun s => -(2 / 3) - 1 / 2 * (q * (3.4 * Real.exp (q * s + r) + 2 * 0 * Real.exp (q * s + r) ^ 2) /
        (1 + 3.4 * Real.exp (q * s + r) + 0 * Real.exp (q * s + r) ^ 2)) +
       q * (2.210 * Real.exp (q * s + r) + 2 * 0.347 * Real.exp (q * s + r) ^ 2) /
        (1 + 2.210 * Real.exp (q * s + r) + 0.347 * Real.exp (q * s + r) ^ 2) -
       q * (1.353 * Real.exp (q * s + r) + 2 * 0.217 * Real.exp (q * s + r) ^ 2) /
        (1 + 1.353 * Real.exp (q * s + r) + 0.217 * Real.exp (q * s + r) ^ 2) -
       -2 * Real.exp (-2 * s + Real.log k)) _ s := fun s =>
    (((((quadLog_deriv2 3.4 0 q r (by norm_num) le_rfl s).const_mul (1 / 2)).const_sub (-(2 / 3))).add
      (quadLog_deriv2 2.210 0.347 q r (by norm_num) (by norm_num) s)).sub
      (quadLog_deriv2 1.353 0.217 q r (by norm_num) (by norm_num) s)).sub ((hX1 s).const_mul (-2))
  refine C92_slope_of_derivative _ a b _ _ ha hab _ _ ?_ (fun s _ => hd s) (fun s _ => hd2 s) ?_
  · exact fun s _ => (hd s).continuousAt.continuousWithinAt
  · intro s hs
    have hxs : Real.exp (-2 * s + Real.log k) ≤ X := by
      refine le_trans ?_ hX
      have hx : k / a ^ 2 = Real.exp (-2 * Real.log a + Real.log k) := by
        rw [Real.exp_add, Real.exp_log hk, neg_mul, Real.exp_neg, mul_comm (2 : ℝ), Real.exp_mul, Real.exp_log ha]
        rw [show a ^ (2 : ℝ) = a ^ 2 by norm_cast, div_eq_mul_inv, mul_comm]
      rw [hx]
      apply Real.exp_le_exp.2
      linarith [hs.1]
    have hY := Real.exp_pos (q * s + r)
    have b1 := lin_bounds 3.4 _ (by norm_num) hY
    have b2 := quad_bounds 2.210 0.347 _ (by norm_num) (by norm_num) hY
    have b3 := quad_bounds 1.353 0.217 _ (by norm_num) (by norm_num) hY
    have hx0 := Real.exp_pos (-2 * s + Real.log k)
    have hq2 : q ^ 2 = 16 / 9 := by rw [hq]; norm_num
    rw [hq2]
    constructor <;> linarith [b1.1, b1.2, b2.1, b2.2, b3.1, b3.2]


/-! ### The synchrotron function falls steeply -/

theorem exp_neg_fifteen : Real.exp (-15) ≤ 3.1e-7 := by
  have h := Real.exp_one_gt_d9
  have h1 : (2.718 : ℝ) ^ 15 ≤ Real.exp 1 ^ 15 := pow_le_pow_left₀ (by norm_num) (by linarith) 15
  rw [← Real.exp_nat_mul] at h1
  have e : ((15 : ℕ) : ℝ) * 1 = 15 := by norm_num
  rw [e] at h1
  rw [Real.exp_neg, inv_le_comm₀ (Real.exp_pos _) (by norm_num)]
  refine le_trans ?_ h1
  norm_num

theorem gAKP_steep (x : ℝ) (hx : 20 ≤ x) : gAKP x ≤ 8.2e-7 * gAKP (x / 4) := by
  have hx0 : 0 < x := by linarith
  have hx4 : 0 < x / 4 := by linarith
  unfold gAKP
  have hpow : ∀ z : ℝ, 0 < z → z ^ ((4 : ℝ) / 3) = (z ^ ((2 : ℝ) / 3)) ^ 2 := by
    intro z hz
    rw [← Real.rpow_natCast, ← Real.rpow_mul hz.le]; norm_num
  rw [hpow x hx0, hpow (x / 4) hx4]
  have hc : x ^ ((1 : ℝ) / 3) ≤ 1.6 * (x / 4) ^ ((1 : ℝ) / 3) := by
    have e : x = 4 * (x / 4) := by ring
    conv_lhs => rw [e, Real.mul_rpow (by norm_num) hx4.le]
    apply mul_le_mul_of_nonneg_right _ (Real.rpow_nonneg hx4.le _)
    have h : (4 : ℝ) ≤ 1.6 ^ (3 : ℝ) := by
      rw [show (3 : ℝ) = ((3 : ℕ) : ℝ) by norm_num, Real.rpow_natCast]; norm_num
    calc (4 : ℝ) ^ ((1 : ℝ) / 3) ≤ ((1.6 : ℝ) ^ (3 : ℝ)) ^ ((1 : ℝ) / 3) :=
          Real.rpow_le_rpow (by norm_num) h (by norm_num)
      _ = 1.6 := by rw [← Real.rpow_mul (by norm_num)]; norm_num
  have hy : (x / 4) ^ ((2 : ℝ) / 3) ≤ x ^ ((2 : ℝ) / 3) :=
    Real.rpow_le_rpow hx4.le (by linarith) (by norm_num)
  have hy0 : 0 < (x / 4) ^ ((2 : ℝ) / 3) := Real.rpow_pos_of_pos hx4 _
  have hc0 : 0 < (x / 4) ^ ((1 : ℝ) / 3) := Real.rpow_pos_of_pos hx4 _
  set y := x ^ ((2 : ℝ) / 3) with hyd
  set y' := (x / 4) ^ ((2 : ℝ) / 3) with hyd'
  set u' := (x / 4) ^ ((1 : ℝ) / 3) with hu'
  have hY : 0 < y := hy0.trans_le hy
  have f1 : 1.808 * x ^ ((1 : ℝ) / 3) / Real.sqrt (1 + 3.4 * y) ≤ 1.6 * (1.808 * u' / Real.sqrt (1 + 3.4 * y')) := by
    have hs : 0 < Real.sqrt (1 + 3.4 * y') := Real.sqrt_pos.2 (by positivity)
    have hs2 : Real.sqrt (1 + 3.4 * y') ≤ Real.sqrt (1 + 3.4 * y) := Real.sqrt_le_sqrt (by linarith)
    rw [mul_div_assoc']
    exact div_le_div₀ (by positivity) (by linarith) hs hs2
  have f2 : (1 + 2.210 * y + 0.347 * y ^ 2) / (1 + 1.353 * y + 0.217 * y ^ 2) ≤
      1.64 * ((1 + 2.210 * y' + 0.347 * y' ^ 2) / (1 + 1.353 * y' + 0.217 * y' ^ 2)) := by
    have g1 : (1 + 2.210 * y + 0.347 * y ^ 2) / (1 + 1.353 * y + 0.217 * y ^ 2) ≤ 1.64 := by
      rw [div_le_iff₀ (by positivity)]
      nlinarith [sq_nonneg y]
    have g2 : 1 ≤ (1 + 2.210 * y' + 0.347 * y' ^ 2) / (1 + 1.353 * y' + 0.217 * y' ^ 2) := by
      rw [one_le_div (by positivity)]
      nlinarith [sq_nonneg y']
    linarith
  have f3 : Real.exp (-x) ≤ 3.1e-7 * Real.exp (-(x / 4)) := by
    have e : -x = -(3 / 4 * x) + -(x / 4) := by ring
    rw [e, Real.exp_add]
    apply mul_le_mul_of_nonneg_right _ (Real.exp_pos _).le
    exact (Real.exp_le_exp.2 (by linarith)).trans exp_neg_fifteen
  have p1 : 0 ≤ 1.808 * u' / Real.sqrt (1 + 3.4 * y') := by positivity
  have p2 : 0 ≤ (1 + 2.210 * y' + 0.347 * y' ^ 2) / (1 + 1.353 * y' + 0.217 * y' ^ 2) := by positivity
  have q2 : 0 ≤ (1 + 2.210 * y + 0.347 * y ^ 2) / (1 + 1.353 * y + 0.217 * y ^ 2) := by positivity
  have p3 := (Real.exp_pos (-(x / 4))).le
  have h12 := mul_le_mul f1 f2 q2 (by positivity)
  have h123 := mul_le_mul h12 f3 (Real.exp_pos _).le (by positivity)
  refine h123.trans ?_
  have hpp := mul_nonneg (mul_nonneg p1 p2) p3
  generalize 1.808 * u' / Real.sqrt (1 + 3.4 * y') = A at *
  generalize (1 + 2.210 * y' + 0.347 * y' ^ 2) / (1 + 1.353 * y' + 0.217 * y' ^ 2) = R at *
  generalize Real.exp (-(x / 4)) = E at *
  nlinarith

/-! ### The integrand -/

/-- the synchrotron kernel as a function of the electron energy -/
theorem sync_kernel_eq (B e E : ℝ) (hB : 0 < B) (he : 0 < e) (hE : 0 < E) :
    syncEmission cE cMe cC cHbar B (E / (cMe * cC ^ 2)) e =
      Real.sqrt 3 / (2 * Real.pi) * (cE ^ 3 * B) / (cMe * cC ^ 2 * cHbar * e) *
        gAKP (e / critEnergy cE cMe cC cHbar B (1 / (cMe * cC ^ 2)) / E ^ 2) := by
  have := cE_pos; have := cHbar_pos; have := cMe_pos; have := cC_pos
  unfold syncEmission
  congr 2
  unfold critEnergy
  field_simp

theorem gAKP_pos (x : ℝ) (hx : 0 < x) : 0 < gAKP x := by
  unfold gAKP
  have : 0 < x ^ ((1:ℝ) / 3) := Real.rpow_pos_of_pos hx _
  have : 0 < x ^ ((2:ℝ) / 3) := Real.rpow_pos_of_pos hx _
  have : 0 < x ^ ((4:ℝ) / 3) := Real.rpow_pos_of_pos hx _
  have : 0 < Real.sqrt (1 + 3.4 * x ^ ((2:ℝ) / 3)) := Real.sqrt_pos.2 (by positivity)
  positivity

/-- logarithm of electrons × kernel -/
theorem log_sync (p : ℝ → ℝ) (c A k s : ℝ) (hc : 0 < c) (hA : 0 < A) (hk : 0 < k) (hp : 0 < p (Real.exp s)) :
    logLog (fun E => p E * c * (A * gAKP (k / E ^ 2))) s =
      Real.log (p (Real.exp s)) + Real.log (gAKP (k / Real.exp s ^ 2)) + Real.log (c * A) := by
  unfold logLog
  have hg := gAKP_pos (k / Real.exp s ^ 2) (by have := Real.exp_pos s; positivity)
  rw [Real.log_mul (by positivity) (by positivity), Real.log_mul hp.ne' hc.ne', Real.log_mul hA.ne' hg.ne',
    Real.log_mul hc.ne' hA.ne']
  ring

theorem sync_rises (K : ℝ) (p : ℝ → ℝ) (a b c A k : ℝ) (ha : 0 < a) (hab : a < b) (hc : 0 < c) (hA : 0 < A)
    (hk : 0 < k) (hp : ∀ E ∈ Set.Icc a b, 0 < p E) (h : SlopeRisesAtMost K p a b) :
    ConcaveOn ℝ (Set.Icc (Real.log a) (Real.log b))
      (fun s => logLog (fun E => p E * c * (A * gAKP (k / E ^ 2))) s - (K + 16 / 9) / 2 * s ^ 2) := by
  have g := (gAKP_slope k a b _ hk ha hab le_rfl).2
  refine ((ConcaveOn.add h g).add (concaveOn_const (Real.log (c * A)) (convex_Icc _ _))).congr ?_
  intro s hs
  simp only [Pi.add_apply]
  rw [log_sync p c A k s hc hA hk (hp _ (exp_mem_Icc ha (ha.trans hab) hs))]
  ring

theorem sync_falls (K X : ℝ) (p : ℝ → ℝ) (a b c A k : ℝ) (ha : 0 < a) (hab : a < b) (hc : 0 < c) (hA : 0 < A)
    (hk : 0 < k) (hX : k / a ^ 2 ≤ X) (hp : ∀ E ∈ Set.Icc a b, 0 < p E) (h : SlopeFallsAtMost K p a b) :
    ConvexOn ℝ (Set.Icc (Real.log a) (Real.log b))
      (fun s => logLog (fun E => p E * c * (A * gAKP (k / E ^ 2))) s + (K + (4 * X + 2)) / 2 * s ^ 2) := by
  have g := (gAKP_slope k a b X hk ha hab hX).1
  refine ((ConvexOn.add h g).add (convexOn_const (Real.log (c * A)) (convex_Icc _ _))).congr ?_
  intro s hs
  simp only [Pi.add_apply]
  rw [log_sync p c A k s hc hA hk (hp _ (exp_mem_Icc ha (ha.trans hab) hs))]
  ring

end Naima
