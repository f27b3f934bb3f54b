import Verif.Proof.SyncTable
import Verif.Props.C103_SyncShape
import Mathlib.MeasureTheory.Integral.ExpDecay
import Mathlib.Analysis.Complex.ExponentialBounds

/-! # The integral of the synchrotron function (AKP10, eq. D7), bounded by a table checked by the kernel -/

namespace Naima.Props

open Naima Classical MeasureTheory

/-- the factor of `gAKP` in front of `exp (-x)`, as a function of the cube root of `x` -/
noncomputable def sF (c : ℝ) : ℝ :=
  1.808 * (c / Real.sqrt (1 + 3.4 * c ^ 2)) *
    ((1 + 2.210 * c ^ 2 + 0.347 * c ^ 4) / (1 + 1.353 * c ^ 2 + 0.217 * c ^ 4))

theorem gAKP_sF (x : ℝ) (hx : 0 ≤ x) : gAKP x = sF (x ^ ((1:ℝ) / 3)) * Real.exp (-x) := by
  have e2 : x ^ ((2 : ℝ) / 3) = (x ^ ((1:ℝ) / 3)) ^ 2 := by
    rw [← Real.rpow_natCast, ← Real.rpow_mul hx]; norm_num
  have e4 : x ^ ((4 : ℝ) / 3) = (x ^ ((1:ℝ) / 3)) ^ 4 := by
    rw [← Real.rpow_natCast, ← Real.rpow_mul hx]; norm_num
  unfold gAKP sF
  rw [e2, e4]; ring

theorem sF_sqrt_mono {a b : ℝ} (ha : 0 ≤ a) (hab : a ≤ b) :
    a / Real.sqrt (1 + 3.4 * a ^ 2) ≤ b / Real.sqrt (1 + 3.4 * b ^ 2) := by
  have h1 : 0 < 1 + 3.4 * a ^ 2 := by positivity
  have h2 : 0 < 1 + 3.4 * b ^ 2 := by positivity
  rw [div_le_div_iff₀ (Real.sqrt_pos.2 h1) (Real.sqrt_pos.2 h2)]
  have hb := ha.trans hab
  apply abs_le_of_sq_le_sq' _ (by positivity) |>.2
  rw [mul_pow, mul_pow, Real.sq_sqrt h1.le, Real.sq_sqrt h2.le]
  have := pow_le_pow_left₀ ha hab 2
  nlinarith

theorem sF_ratio_mono {a b : ℝ} (ha : 0 ≤ a) (hab : a ≤ b) (hb : b ≤ 5) :
    (1 + 2.210 * a ^ 2 + 0.347 * a ^ 4) / (1 + 1.353 * a ^ 2 + 0.217 * a ^ 4) ≤
      (1 + 2.210 * b ^ 2 + 0.347 * b ^ 4) / (1 + 1.353 * b ^ 2 + 0.217 * b ^ 4) := by
  rw [div_le_div_iff₀ (by positivity) (by positivity)]
  have hst := pow_le_pow_left₀ ha hab 2
  have ht : b ^ 2 ≤ 25 := by nlinarith
  have hs : 0 ≤ a ^ 2 := by positivity
  have e1 : a ^ 4 = (a ^ 2) ^ 2 := by ring
  have e2 : b ^ 4 = (b ^ 2) ^ 2 := by ring
  rw [e1, e2]
  generalize a ^ 2 = s at *
  generalize b ^ 2 = t at *
  have : 0 ≤ (t - s) * (0.857 + 0.13 * (s + t) - 0.010079 * (s * t)) := by
    apply mul_nonneg (by linarith)
    nlinarith
  nlinarith

theorem sF_mono {a b : ℝ} (ha : 0 ≤ a) (hab : a ≤ b) (hb : b ≤ 5) : sF a ≤ sF b := by
  unfold sF
  apply mul_le_mul (mul_le_mul_of_nonneg_left (sF_sqrt_mono ha hab) (by norm_num)) (sF_ratio_mono ha hab hb)
    (by positivity)
  have := ha.trans hab
  positivity

theorem sF_nonneg {a : ℝ} (ha : 0 ≤ a) : 0 ≤ sF a := by unfold sF; positivity

theorem sF_le {a : ℝ} (ha : 0 ≤ a) : sF a ≤ 1.7 := by
  have h1 : a / Real.sqrt (1 + 3.4 * a ^ 2) ≤ 0.5424 := by
    rw [div_le_iff₀ (Real.sqrt_pos.2 (by positivity))]
    have : a / 0.5424 ≤ Real.sqrt (1 + 3.4 * a ^ 2) := by
      apply Real.le_sqrt_of_sq_le
      rw [div_pow, div_le_iff₀ (by norm_num)]
      nlinarith [sq_nonneg a]
    rw [div_le_iff₀ (by norm_num)] at this
    linarith
  have h2 : (1 + 2.210 * a ^ 2 + 0.347 * a ^ 4) / (1 + 1.353 * a ^ 2 + 0.217 * a ^ 4) ≤ 1.7 := by
    rw [div_le_iff₀ (by positivity)]; nlinarith [sq_nonneg a, sq_nonneg (a ^ 2)]
  unfold sF
  refine (mul_le_mul (mul_le_mul_of_nonneg_left h1 (by norm_num)) h2 (by positivity) (by norm_num)).trans ?_
  norm_num

/-! ### The table -/

/-- `sF (C / 10^5)² = sNum C / sDen C / 10^12` -/
def sNum (C : ℕ) : ℕ := 1808 ^ 2 * C ^ 2 * (1000 * (10 ^ 5) ^ 4 + 2210 * C ^ 2 * (10 ^ 5) ^ 2 + 347 * C ^ 4) ^ 2 * 10 ^ 13
def sDen (C : ℕ) : ℕ :=
  (1000 * (10 ^ 5) ^ 4 + 1353 * C ^ 2 * (10 ^ 5) ^ 2 + 217 * C ^ 4) ^ 2 * (10 * (10 ^ 5) ^ 2 + 34 * C ^ 2) * 10 ^ 6

theorem sF_sq (C : ℕ) : sF (C / 10 ^ 5) ^ 2 = sNum C / sDen C / 10 ^ 12 := by
  have h1 : (0:ℝ) < 1 + 3.4 * (C / 10 ^ 5) ^ 2 := by positivity
  set D : ℝ := 1000 * (10 ^ 5) ^ 4 + 1353 * (C:ℝ) ^ 2 * (10 ^ 5) ^ 2 + 217 * (C:ℝ) ^ 4 with hD
  set R : ℝ := 10 * (10 ^ 5) ^ 2 + 34 * (C:ℝ) ^ 2 with hR
  set N : ℝ := 1000 * (10 ^ 5) ^ 4 + 2210 * (C:ℝ) ^ 2 * (10 ^ 5) ^ 2 + 347 * (C:ℝ) ^ 4 with hN
  have h3 : 0 < D := by positivity
  have h4 : 0 < R := by positivity
  have e1 : (1:ℝ) + 3.4 * (C / 10 ^ 5) ^ 2 = R / (10 * (10 ^ 5) ^ 2) := by
    rw [hR]; field_simp; ring
  have e2 : (1:ℝ) + 1.353 * (C / 10 ^ 5 : ℝ) ^ 2 + 0.217 * (C / 10 ^ 5 : ℝ) ^ 4 = D / (1000 * (10 ^ 5) ^ 4) := by
    rw [hD]; field_simp; ring
  have e3 : (1:ℝ) + 2.210 * (C / 10 ^ 5 : ℝ) ^ 2 + 0.347 * (C / 10 ^ 5 : ℝ) ^ 4 = N / (1000 * (10 ^ 5) ^ 4) := by
    rw [hN]; field_simp; ring
  have e4 : (sNum C : ℝ) = 1808 ^ 2 * (C:ℝ) ^ 2 * N ^ 2 * 10 ^ 13 := by
    rw [hN]; unfold sNum; push_cast; ring
  have e5 : (sDen C : ℝ) = D ^ 2 * R * 10 ^ 6 := by
    rw [hD, hR]; unfold sDen; push_cast; ring
  unfold sF
  rw [mul_pow, mul_pow, div_pow, Real.sq_sqrt h1.le, e1, e2, e3, e4, e5]
  clear_value D R N
  field_simp
  ring

theorem sDen_pos (C : ℕ) : (0:ℝ) < sDen C := by
  have : 0 < sDen C := by unfold sDen; positivity
  exact_mod_cast this

theorem le_sF (c a : ℕ) (h : a ^ 2 * sDen c ≤ sNum c) : (a / 10 ^ 6 : ℝ) ≤ sF (c / 10 ^ 5) := by
  apply abs_le_of_sq_le_sq' _ (sF_nonneg (by positivity)) |>.2
  rw [sF_sq, div_pow, div_le_div_iff₀ (by positivity) (by positivity)]
  have h : (a:ℝ) ^ 2 * sDen c ≤ sNum c := by exact_mod_cast h
  have : (a:ℝ) ^ 2 ≤ sNum c / sDen c := by rwa [le_div_iff₀ (sDen_pos c)]
  nlinarith

theorem sF_le_of (c a : ℕ) (h : sNum c ≤ a ^ 2 * sDen c) : sF (c / 10 ^ 5) ≤ (a / 10 ^ 6 : ℝ) := by
  apply abs_le_of_sq_le_sq' _ (by positivity) |>.2
  rw [sF_sq, div_pow, div_le_div_iff₀ (by positivity) (by positivity)]
  have h : (sNum c : ℝ) ≤ (a:ℝ) ^ 2 * sDen c := by exact_mod_cast h
  have : (sNum c / sDen c : ℝ) ≤ (a:ℝ) ^ 2 := by rwa [div_le_iff₀ (sDen_pos c)]
  nlinarith

/-- entry `i` is a lower bound at `x = i/100` -/
def checkLo : ℕ → List (ℕ × ℕ) → Bool
  | _, [] => true
  | i, (c, a) :: l => Nat.ble (c ^ 3 * 100) (i * 10 ^ 15) && Nat.ble (a ^ 2 * sDen c) (sNum c) && checkLo (i + 1) l

/-- entry `i`, with both numbers increased by a little, is an upper bound at `x = i/100` -/
def checkHi : ℕ → List (ℕ × ℕ) → Bool
  | _, [] => true
  | i, (c, a) :: l => Nat.ble (i * 10 ^ 15) ((c + 1) ^ 3 * 100) && Nat.ble (sNum (c + 1)) ((a + 19) ^ 2 * sDen (c + 1)) &&
      Nat.ble (c + 1) (5 * 10 ^ 5) && checkHi (i + 1) l

/-- `∑ aⱼ q^j` with `q` replaced by `Q / 10^9`, rounded down -/
def horner (Q : ℕ) : List (ℕ × ℕ) → ℕ
  | [] => 0
  | (_, a) :: l => a * 10 ^ 6 + Q * horner Q l / 10 ^ 9

/-- the same with `a + 19`, rounded up -/
def hornerHi (Q : ℕ) : List (ℕ × ℕ) → ℕ
  | [] => 0
  | (_, a) :: l => (a + 19) * 10 ^ 6 + Q * hornerHi Q l / 10 ^ 9 + 1

theorem table_lo : checkLo 0 (syncTable.take 800) = true := by decide +kernel
theorem table_hi : checkHi 1 (syncTable.drop 1) = true := by decide +kernel
theorem table_length : syncTable.length = 801 := by decide +kernel

/-! ### Sums against integrals -/

/-- `∑ aⱼ q^j` -/
noncomputable def psum (q : ℝ) (f : ℕ × ℕ → ℝ) : List (ℕ × ℕ) → ℝ
  | [] => 0
  | p :: l => f p + q * psum q f l

theorem horner_le (Q : ℕ) (q : ℝ) (hq : (Q / 10 ^ 9 : ℝ) ≤ q) (l : List (ℕ × ℕ)) :
    (horner Q l / 10 ^ 12 : ℝ) ≤ psum q (fun p => p.2 / 10 ^ 6) l := by
  induction l with
  | nil => simp [horner, psum]
  | cons p l ih =>
    obtain ⟨c, a⟩ := p
    simp only [horner, psum]
    have h1 : ((Q * horner Q l / 10 ^ 9 : ℕ) : ℝ) ≤ (Q * horner Q l : ℝ) / 10 ^ 9 := by
      refine Nat.cast_div_le.trans (le_of_eq ?_); push_cast; ring
    have h2 : (Q / 10 ^ 9 : ℝ) * (horner Q l / 10 ^ 12) ≤ q * psum q (fun p => p.2 / 10 ^ 6) l :=
      mul_le_mul hq ih (by positivity) ((by positivity : (0:ℝ) ≤ Q / 10 ^ 9).trans hq)
    push_cast
    linarith

theorem le_hornerHi (Q : ℕ) (q : ℝ) (hq0 : 0 ≤ q) (hq : q ≤ (Q / 10 ^ 9 : ℝ)) (l : List (ℕ × ℕ)) :
    psum q (fun p => (p.2 + 19) / 10 ^ 6) l ≤ (hornerHi Q l / 10 ^ 12 : ℝ) := by
  induction l with
  | nil => simp [hornerHi, psum]
  | cons p l ih =>
    obtain ⟨c, a⟩ := p
    simp only [hornerHi, psum]
    have h1 : (Q * hornerHi Q l : ℝ) / 10 ^ 9 ≤ ((Q * hornerHi Q l / 10 ^ 9 : ℕ) : ℝ) + 1 := by
      have := (Nat.lt_div_mul_add (a := Q * hornerHi Q l) (b := 10 ^ 9) (by norm_num)).le
      have : ((Q * hornerHi Q l : ℕ) : ℝ) ≤ ((Q * hornerHi Q l / 10 ^ 9 : ℕ) : ℝ) * 10 ^ 9 + 10 ^ 9 := by exact_mod_cast this
      push_cast at this ⊢
      rw [div_le_iff₀ (by norm_num)]
      linarith
    have h2 : q * psum q (fun p => (p.2 + 19) / 10 ^ 6) l ≤ (Q / 10 ^ 9 : ℝ) * (hornerHi Q l / 10 ^ 12) :=
      (mul_le_mul_of_nonneg_left ih hq0).trans (mul_le_mul_of_nonneg_right hq (by positivity))
    push_cast at h1 ⊢
    linarith

theorem cbrt_le {x c : ℝ} (hx : 0 ≤ x) (hc : 0 ≤ c) (h : x ≤ c ^ 3) : x ^ ((1:ℝ) / 3) ≤ c := by
  have := Real.rpow_le_rpow hx h (by norm_num : (0:ℝ) ≤ 1 / 3)
  rwa [← Real.rpow_natCast, ← Real.rpow_mul hc, show ((3:ℕ):ℝ) * (1 / 3) = 1 by norm_num, Real.rpow_one] at this

theorem le_cbrt {x c : ℝ} (hc : 0 ≤ c) (h : c ^ 3 ≤ x) : c ≤ x ^ ((1:ℝ) / 3) := by
  have := Real.rpow_le_rpow (by positivity) h (by norm_num : (0:ℝ) ≤ 1 / 3)
  rwa [← Real.rpow_natCast, ← Real.rpow_mul hc, show ((3:ℕ):ℝ) * (1 / 3) = 1 by norm_num, Real.rpow_one] at this

theorem gAKP_measurable : Measurable gAKP := by unfold gAKP; fun_prop

theorem gAKP_nonneg' (x : ℝ) (hx : 0 ≤ x) : 0 ≤ gAKP x := by
  rw [gAKP_sF x hx]; exact mul_nonneg (sF_nonneg (by positivity)) (Real.exp_pos _).le

theorem gAKP_le_exp (x : ℝ) (hx : 0 ≤ x) : gAKP x ≤ 1.7 * Real.exp (-x) := by
  rw [gAKP_sF x hx]; exact mul_le_mul_of_nonneg_right (sF_le (by positivity)) (Real.exp_pos _).le

theorem gAKP_integrable : IntegrableOn gAKP (Set.Ioi 0) := by
  have hi : IntegrableOn (fun x : ℝ => 1.7 * Real.exp (-x)) (Set.Ioi 0) := by
    have := (integrableOn_exp_mul_Ioi (show (-1:ℝ) < 0 by norm_num) 0).const_mul 1.7
    simpa [IntegrableOn] using this
  apply Integrable.mono' hi gAKP_measurable.aestronglyMeasurable
  filter_upwards [ae_restrict_mem measurableSet_Ioi] with x hx
  rw [Real.norm_of_nonneg (gAKP_nonneg' x (le_of_lt hx))]
  exact gAKP_le_exp x (le_of_lt hx)

theorem gAKP_intervalIntegrable (a b : ℝ) (ha : 0 ≤ a) (hb : 0 ≤ b) : IntervalIntegrable gAKP volume a b := by
  rw [intervalIntegrable_iff]
  apply gAKP_integrable.mono_set
  intro x hx
  rw [Set.mem_uIoc] at hx
  rcases hx with h | h
  · exact ha.trans_lt h.1
  · exact hb.trans_lt h.1

theorem integral_exp_neg_interval (k a b : ℝ) : ∫ x in a..b, k * Real.exp (-x) = k * (Real.exp (-a) - Real.exp (-b)) := by
  rw [intervalIntegral.integral_const_mul]
  congr 1
  have := integral_exp (a := -b) (b := -a)
  rw [← this, intervalIntegral.integral_comp_neg]

theorem exp_step (i : ℕ) : Real.exp (-((i + 1 : ℕ) / 100 : ℝ)) = Real.exp (-(i / 100 : ℝ)) * Real.exp (-(1 / 100 : ℝ)) := by
  rw [← Real.exp_add]; congr 1; push_cast; ring

theorem lower_sum (l : List (ℕ × ℕ)) (i : ℕ) (h : checkLo i l = true) (hi : i + l.length ≤ 12500) :
    psum (Real.exp (-(1 / 100 : ℝ))) (fun p => p.2 / 10 ^ 6) l * (1 - Real.exp (-(1 / 100 : ℝ))) * Real.exp (-(i / 100 : ℝ)) ≤
      ∫ x in (i / 100 : ℝ)..((i + l.length : ℕ) / 100 : ℝ), gAKP x := by
  induction l generalizing i with
  | nil => simp [psum]
  | cons p l ih =>
    obtain ⟨c, a⟩ := p
    simp only [checkLo, Bool.and_eq_true, Nat.ble_eq] at h
    obtain ⟨⟨h1, h2⟩, h3⟩ := h
    have ih := ih (i + 1) h3 (by simp only [List.length_cons] at hi; omega)
    simp only [List.length_cons] at hi ⊢
    have hlen : i + 1 + l.length = i + (l.length + 1) := by omega
    rw [hlen] at ih
    rw [← intervalIntegral.integral_add_adjacent_intervals (b := ((i + 1 : ℕ) / 100 : ℝ))
      (gAKP_intervalIntegrable _ _ (by positivity) (by positivity)) (gAKP_intervalIntegrable _ _ (by positivity) (by positivity))]
    have hc : (c / 10 ^ 5 : ℝ) ^ 3 ≤ i / 100 := by
      have : ((c ^ 3 * 100 : ℕ) : ℝ) ≤ ((i * 10 ^ 15 : ℕ) : ℝ) := by exact_mod_cast h1
      push_cast at this
      rw [div_pow, div_le_div_iff₀ (by positivity) (by positivity)]
      linarith
    have hfirst : ∫ x in (i / 100 : ℝ)..((i + 1 : ℕ) / 100 : ℝ), (a / 10 ^ 6 : ℝ) * Real.exp (-x) ≤
        ∫ x in (i / 100 : ℝ)..((i + 1 : ℕ) / 100 : ℝ), gAKP x := by
      apply intervalIntegral.integral_mono_on
      · push_cast; linarith
      · exact (by fun_prop : Continuous fun x : ℝ => (a / 10 ^ 6 : ℝ) * Real.exp (-x)).intervalIntegrable _ _
      · exact gAKP_intervalIntegrable _ _ (by positivity) (by positivity)
      · intro x hx
        have hx0 : 0 ≤ x := (by positivity : (0:ℝ) ≤ i / 100).trans hx.1
        rw [gAKP_sF x hx0]
        apply mul_le_mul_of_nonneg_right _ (Real.exp_pos _).le
        refine (le_sF c a h2).trans (sF_mono (by positivity) (le_cbrt (by positivity) (hc.trans hx.1)) ?_)
        apply cbrt_le hx0 (by norm_num)
        refine hx.2.trans ?_
        have : ((i + 1 : ℕ) : ℝ) ≤ 12500 := by exact_mod_cast (by omega : i + 1 ≤ 12500)
        linarith
    rw [integral_exp_neg_interval, exp_step] at hfirst
    simp only [exp_step] at ih
    simp only [psum]
    linarith

theorem upper_sum (l : List (ℕ × ℕ)) (i : ℕ) (h : checkHi (i + 1) l = true) :
    ∫ x in (i / 100 : ℝ)..((i + l.length : ℕ) / 100 : ℝ), gAKP x ≤
    psum (Real.exp (-(1 / 100 : ℝ))) (fun p => (p.2 + 19) / 10 ^ 6) l * (1 - Real.exp (-(1 / 100 : ℝ))) *
      Real.exp (-(i / 100 : ℝ)) := by
  induction l generalizing i with
  | nil => simp [psum]
  | cons p l ih =>
    obtain ⟨c, a⟩ := p
    simp only [checkHi, Bool.and_eq_true, Nat.ble_eq] at h
    obtain ⟨⟨⟨h1, h2⟩, h4⟩, h3⟩ := h
    have ih := ih (i + 1) h3
    simp only [List.length_cons]
    have hlen : i + 1 + l.length = i + (l.length + 1) := by omega
    rw [hlen] at ih
    rw [← intervalIntegral.integral_add_adjacent_intervals (b := ((i + 1 : ℕ) / 100 : ℝ))
      (gAKP_intervalIntegrable _ _ (by positivity) (by positivity)) (gAKP_intervalIntegrable _ _ (by positivity) (by positivity))]
    have hc : ((i + 1 : ℕ) / 100 : ℝ) ≤ (((c + 1 : ℕ) : ℝ) / 10 ^ 5) ^ 3 := by
      have : (((i + 1) * 10 ^ 15 : ℕ) : ℝ) ≤ (((c + 1) ^ 3 * 100 : ℕ) : ℝ) := by exact_mod_cast h1
      push_cast at this ⊢
      rw [div_pow, div_le_div_iff₀ (by positivity) (by positivity)]
      linarith
    have hc5 : (((c + 1 : ℕ) : ℝ) / 10 ^ 5) ≤ 5 := by
      have : ((c + 1 : ℕ) : ℝ) ≤ ((5 * 10 ^ 5 : ℕ) : ℝ) := by exact_mod_cast h4
      rw [div_le_iff₀ (by positivity)]
      push_cast at this ⊢
      linarith
    have hfirst : ∫ x in (i / 100 : ℝ)..((i + 1 : ℕ) / 100 : ℝ), gAKP x ≤
        ∫ x in (i / 100 : ℝ)..((i + 1 : ℕ) / 100 : ℝ), (((a + 19 : ℕ) : ℝ) / 10 ^ 6 : ℝ) * Real.exp (-x) := by
      apply intervalIntegral.integral_mono_on
      · push_cast; linarith
      · exact gAKP_intervalIntegrable _ _ (by positivity) (by positivity)
      · exact (by fun_prop : Continuous fun x : ℝ => (((a + 19 : ℕ) : ℝ) / 10 ^ 6 : ℝ) * Real.exp (-x)).intervalIntegrable _ _
      · intro x hx
        have hx0 : 0 ≤ x := (by positivity : (0:ℝ) ≤ i / 100).trans hx.1
        rw [gAKP_sF x hx0]
        apply mul_le_mul_of_nonneg_right _ (Real.exp_pos _).le
        refine le_trans (sF_mono (by positivity) (cbrt_le hx0 (by positivity) (hx.2.trans hc)) hc5) (sF_le_of _ _ h2)
    rw [integral_exp_neg_interval, exp_step] at hfirst
    simp only [exp_step] at ih
    simp only [psum]
    have e : ((a + 19 : ℕ) : ℝ) = (a:ℝ) + 19 := by push_cast; ring
    rw [e] at hfirst
    linarith

/-- bounds of `exp (-1/100)` -/
theorem exp_hundredth : (0.990049833 : ℝ) ≤ Real.exp (-(1 / 100 : ℝ)) ∧ Real.exp (-(1 / 100 : ℝ)) ≤ 0.990049834 := by
  have h := Real.exp_bound (x := -(1 / 100 : ℝ)) (by norm_num) (n := 5) (by norm_num)
  rw [abs_le] at h
  norm_num [Finset.sum_range_succ, Nat.factorial] at h
  constructor <;> linarith [h.1, h.2]

theorem horner_value : 107260000000000 ≤ horner 990049833 (syncTable.take 800) := by decide +kernel
theorem hornerHi_value : hornerHi 990049834 (syncTable.drop 1) ≤ 108350000000000 := by decide +kernel

/-- **The integral of the synchrotron function.** -/
theorem gAKP_integral : 1.067 ≤ ∫ x in Set.Ioi 0, gAKP x ∧ ∫ x in Set.Ioi 0, gAKP x ≤ 1.0792 := by
  have hsplit : ∫ x in Set.Ioi 0, gAKP x = (∫ x in (0:ℝ)..8, gAKP x) + ∫ x in Set.Ioi 8, gAKP x := by
    rw [← intervalIntegral.integral_interval_add_Ioi gAKP_integrable
      (gAKP_integrable.mono_set (Set.Ioi_subset_Ioi (by norm_num : (0:ℝ) ≤ 8)))]
  have htail0 : 0 ≤ ∫ x in Set.Ioi 8, gAKP x :=
    setIntegral_nonneg measurableSet_Ioi (fun x hx => gAKP_nonneg' x (le_of_lt (lt_trans (by norm_num) (show (8:ℝ) < x from hx))))
  have htail : ∫ x in Set.Ioi 8, gAKP x ≤ 1.7 * Real.exp (-8) := by
    have hi : IntegrableOn (fun x : ℝ => 1.7 * Real.exp (-x)) (Set.Ioi 8) := by
      have := (integrableOn_exp_mul_Ioi (show (-1:ℝ) < 0 by norm_num) 8).const_mul 1.7
      simpa [IntegrableOn] using this
    calc _ ≤ ∫ x in Set.Ioi 8, 1.7 * Real.exp (-x) := by
          apply setIntegral_mono_on (gAKP_integrable.mono_set (Set.Ioi_subset_Ioi (by norm_num))) hi measurableSet_Ioi
          intro x hx
          exact gAKP_le_exp x ((by norm_num : (0:ℝ) ≤ 8).trans (le_of_lt hx))
      _ = _ := by rw [integral_const_mul, integral_exp_neg_Ioi]
  have he8 : Real.exp (-8) ≤ 0.0004 := by
    have h1 : Real.exp (-8) = Real.exp (-1) ^ 8 := by rw [← Real.exp_nat_mul]; norm_num
    have h2 : Real.exp (-1) ≤ 0.3679 := by linarith [Real.exp_neg_one_lt_d9]
    rw [h1]
    exact (pow_le_pow_left₀ (Real.exp_pos _).le h2 8).trans (by norm_num)
  obtain ⟨q1, q2⟩ := exp_hundredth
  have hlo := lower_sum (syncTable.take 800) 0 table_lo (by simp [table_length])
  have hhi := upper_sum (syncTable.drop 1) 0 table_hi
  have l1 : (syncTable.take 800).length = 800 := by simp [table_length]
  have l2 : (syncTable.drop 1).length = 800 := by simp [table_length]
  rw [l1] at hlo
  rw [l2] at hhi
  rw [show ((0:ℕ):ℝ) / 100 = 0 by norm_num, show ((0 + 800 : ℕ) : ℝ) / 100 = 8 by norm_num, neg_zero, Real.exp_zero,
    mul_one] at hlo hhi
  have k1 := horner_le 990049833 (Real.exp (-(1 / 100 : ℝ))) (by norm_num; linarith) (syncTable.take 800)
  have k2 := le_hornerHi 990049834 (Real.exp (-(1 / 100 : ℝ))) (Real.exp_pos _).le (by norm_num; linarith) (syncTable.drop 1)
  have v1 : (107260000000000 : ℝ) ≤ horner 990049833 (syncTable.take 800) := by exact_mod_cast horner_value
  have v2 : (hornerHi 990049834 (syncTable.drop 1) : ℝ) ≤ 108350000000000 := by exact_mod_cast hornerHi_value
  have w1 : 107.26 ≤ psum (Real.exp (-(1 / 100 : ℝ))) (fun p => p.2 / 10 ^ 6) (syncTable.take 800) := by
    refine le_trans ?_ k1
    rw [le_div_iff₀ (by norm_num)]; linarith
  have w2 : psum (Real.exp (-(1 / 100 : ℝ))) (fun p => (p.2 + 19) / 10 ^ 6) (syncTable.drop 1) ≤ 108.35 := by
    refine k2.trans ?_
    rw [div_le_iff₀ (by norm_num)]; linarith
  rw [hsplit]
  generalize psum (Real.exp (-(1 / 100 : ℝ))) (fun p => p.2 / 10 ^ 6) (syncTable.take 800) = A at *
  generalize psum (Real.exp (-(1 / 100 : ℝ))) (fun p => (p.2 + 19) / 10 ^ 6) (syncTable.drop 1) = B at *
  clear k1 k2 v1 v2 l1 l2 hsplit
  generalize Real.exp (-(1 / 100 : ℝ)) = q at *
  have h1 : 107.26 * (1 - 0.990049834) ≤ A * (1 - q) := mul_le_mul w1 (by linarith) (by norm_num) (by linarith)
  have h2 : B * (1 - q) ≤ 108.35 * (1 - 0.990049833) := mul_le_mul w2 (by linarith) (by linarith) (by norm_num)
  norm_num at h1 h2 he8 htail ⊢
  constructor <;> linarith

end Naima.Props
