import Verif.Proof.ICTable
import Verif.Proof.SyncQuad
import Verif.Props.C83_Convergence
import Mathlib.Analysis.Real.Pi.Bounds
import Mathlib.Analysis.SpecialFunctions.Gamma.Basic

/-! # The first moment of the thermal inverse Compton function, bounded by a table checked by the kernel -/

namespace Naima.Props

open Naima Classical MeasureTheory

/-- the factor of `x · F₄(x)` in front of `exp (-x)`, with each occurrence of `x` an argument of its own -/
noncomputable def icT (P x y A B : ℝ) : ℝ :=
  x * (P * (1 + 6.62 * y) / (1 + P * 6.62 * y)) * ((1 + 0.382 * B) / (0.726 * A + 1 + 0.382 * B))

/-- `F₄` -/
noncomputable abbrev icF4 (x : ℝ) : ℝ := Spec.F34 0.461 0.726 1.457 0.382 6.620 x

/-- `F₃` -/
noncomputable abbrev icF3 (x : ℝ) : ℝ := Spec.F34 0.606 0.443 1.481 0.540 0.319 x

theorem icF4_icT (x : ℝ) (hx : 0 ≤ x) : x * icF4 x =
    icT (Real.pi ^ 2 / 6) x x (x ^ (0.461 : ℝ)) (x ^ (1.457 : ℝ)) * Real.exp (-x) := by
  have hA : 0 ≤ x ^ (0.461 : ℝ) := by positivity
  have hB : 0 ≤ x ^ (1.457 : ℝ) := by positivity
  have hpi := Real.pi_pos
  unfold icF4 Spec.F34 Spec.gFactor icT
  have h1 : 1 + 0.382 * x ^ (1.457 : ℝ) ≠ 0 := by positivity
  have h2 : 0.726 * x ^ (0.461 : ℝ) + 1 + 0.382 * x ^ (1.457 : ℝ) ≠ 0 := by positivity
  have h3 : 1 / (1 + 0.726 * x ^ (0.461 : ℝ) / (1 + 0.382 * x ^ (1.457 : ℝ))) =
      (1 + 0.382 * x ^ (1.457 : ℝ)) / (0.726 * x ^ (0.461 : ℝ) + 1 + 0.382 * x ^ (1.457 : ℝ)) := by
    have : 1 + 0.382 * x ^ (1.457 : ℝ) + 0.726 * x ^ (0.461 : ℝ) ≠ 0 := by positivity
    rw [one_add_div h1, one_div_div]; congr 1; ring
  rw [h3, show Real.pi ^ 2 * 6.620 / 6 * x = Real.pi ^ 2 / 6 * 6.62 * x by ring,
    show (6.620:ℝ) = 6.62 by norm_num]
  ring

theorem icT_mono {P P' x x' y y' A A' B B' : ℝ} (hP : 1 ≤ P) (hPP : P ≤ P') (hx : 0 ≤ x) (hxx : x ≤ x')
    (hy : 0 ≤ y') (hyy : y' ≤ y) (hA : 0 ≤ A') (hAA : A' ≤ A) (hB : 0 ≤ B) (hBB : B ≤ B') :
    icT P x y A B ≤ icT P' x' y' A' B' := by
  unfold icT
  have hP' := hP.trans hPP
  have hy0 := hy.trans hyy
  have hA0 := hA.trans hAA
  have hB0 := hB.trans hBB
  have h1 : P * (1 + 6.62 * y) / (1 + P * 6.62 * y) ≤ P' * (1 + 6.62 * y') / (1 + P' * 6.62 * y') := by
    calc _ ≤ P * (1 + 6.62 * y') / (1 + P * 6.62 * y') := by
          rw [div_le_div_iff₀ (by positivity) (by positivity)]
          have : 0 ≤ (y - y') * (P - 1) * P := by
            apply mul_nonneg (mul_nonneg (by linarith) (by linarith)) (by linarith)
          nlinarith
      _ ≤ _ := by
          rw [div_le_div_iff₀ (by positivity) (by positivity)]
          have : 0 ≤ (P' - P) * (1 + 6.62 * y') := mul_nonneg (by linarith) (by positivity)
          nlinarith
  have h2 : (1 + 0.382 * B) / (0.726 * A + 1 + 0.382 * B) ≤ (1 + 0.382 * B') / (0.726 * A' + 1 + 0.382 * B') := by
    rw [div_le_div_iff₀ (by positivity) (by positivity)]
    have h3 : A' * (1 + 0.382 * B) ≤ A * (1 + 0.382 * B') := mul_le_mul hAA (by linarith) (by positivity) hA0
    nlinarith
  have hx0 := hx.trans hxx
  exact mul_le_mul (mul_le_mul hxx h1 (by positivity) hx0) h2 (by positivity) (by positivity)

/-! ### The table -/

/-- `icT (p/10^6) (i/100) (j/100) (A/10^5) (B/10^5) = icNum / icDen` -/
def icNum (p i j B : ℕ) : ℕ := i * (p * (10 ^ 4 + 662 * j)) * (10 ^ 8 + 382 * B)
def icDen (p j A B : ℕ) : ℕ := 100 * (10 ^ 10 + p * 662 * j) * (726 * A + 10 ^ 8 + 382 * B)

theorem icDen_pos (p j A B : ℕ) : 0 < icDen p j A B := by unfold icDen; positivity

theorem icT_nat (p i j A B : ℕ) :
    icT (p / 10 ^ 6) (i / 100) (j / 100) (A / 10 ^ 5) (B / 10 ^ 5) = icNum p i j B / icDen p j A B := by
  unfold icT icNum icDen
  push_cast
  have h1 : (1:ℝ) + p / 10 ^ 6 * 6.62 * (j / 100) = (10 ^ 10 + p * 662 * j) / 10 ^ 10 := by field_simp; ring
  have h2 : (0.726:ℝ) * (A / 10 ^ 5) + 1 + 0.382 * (B / 10 ^ 5) = (726 * A + 10 ^ 8 + 382 * B) / 10 ^ 8 := by field_simp; ring
  have h3 : (1:ℝ) + 0.382 * (B / 10 ^ 5) = (10 ^ 8 + 382 * B) / 10 ^ 8 := by field_simp; ring
  have h4 : (1:ℝ) + 6.62 * (j / 100) = (10 ^ 4 + 662 * j) / 10 ^ 4 := by field_simp; ring
  rw [h1, h2, h3, h4]
  have : (0:ℝ) < 10 ^ 10 + p * 662 * j := by positivity
  have : (0:ℝ) < 726 * A + 10 ^ 8 + 382 * B := by positivity
  field_simp
  ring

/-- entry `i` holds `(i/100)^0.461` and `(i/100)^1.457` rounded down -/
def icCheck : ℕ → List (ℕ × ℕ) → Bool
  | _, [] => true
  | i, (A, B) :: l =>
      Nat.ble (A ^ 1000 * 100 ^ 461) (i ^ 461 * (10 ^ 5) ^ 1000) &&
      Nat.ble (i ^ 461 * (10 ^ 5) ^ 1000) ((A + 1) ^ 1000 * 100 ^ 461) &&
      Nat.ble (B ^ 1000 * 100 ^ 1457) (i ^ 1457 * (10 ^ 5) ^ 1000) &&
      Nat.ble (i ^ 1457 * (10 ^ 5) ^ 1000) ((B + 1) ^ 1000 * 100 ^ 1457) && icCheck (i + 1) l

/-- lower sum, `q` replaced by `Q / 10^9`, rounded down -/
def icLo (Q : ℕ) : ℕ → List (ℕ × ℕ) → ℕ
  | _, [] => 0
  | _, [_] => 0
  | i, (_, B) :: (A', B') :: l =>
      icNum 1644900 i (i + 1) B * 10 ^ 12 / icDen 1644900 (i + 1) (A' + 1) B + Q * icLo Q (i + 1) ((A', B') :: l) / 10 ^ 9

/-- upper sum, rounded up -/
def icHi (Q : ℕ) : ℕ → List (ℕ × ℕ) → ℕ
  | _, [] => 0
  | _, [_] => 0
  | i, (A, _) :: (A', B') :: l =>
      icNum 1644935 (i + 1) i (B' + 1) * 10 ^ 12 / icDen 1644935 i A (B' + 1) + 1 +
        Q * icHi Q (i + 1) ((A', B') :: l) / 10 ^ 9 + 1

theorem icTable_check : icCheck 0 icTable = true := by decide +kernel
theorem icTable_length : icTable.length = 1201 := by decide +kernel

/-! ### Sums against integrals -/

theorem le_root {x c : ℝ} (n k : ℕ) (hk : k ≠ 0) (hx : 0 ≤ x) (hc : 0 ≤ c) (h : c ^ k ≤ x ^ n) : c ≤ x ^ ((n:ℝ) / k) := by
  have hk' : (k:ℝ) ≠ 0 := by exact_mod_cast hk
  have := Real.rpow_le_rpow (by positivity) h (by positivity : (0:ℝ) ≤ 1 / k)
  rw [← Real.rpow_natCast, ← Real.rpow_natCast, ← Real.rpow_mul hc, ← Real.rpow_mul hx,
    mul_one_div_cancel hk', Real.rpow_one] at this
  rwa [div_eq_mul_one_div]

theorem root_le {x c : ℝ} (n k : ℕ) (hk : k ≠ 0) (hx : 0 ≤ x) (hc : 0 ≤ c) (h : x ^ n ≤ c ^ k) : x ^ ((n:ℝ) / k) ≤ c := by
  have hk' : (k:ℝ) ≠ 0 := by exact_mod_cast hk
  have := Real.rpow_le_rpow (by positivity) h (by positivity : (0:ℝ) ≤ 1 / k)
  rw [← Real.rpow_natCast, ← Real.rpow_natCast, ← Real.rpow_mul hc, ← Real.rpow_mul hx,
    mul_one_div_cancel hk', Real.rpow_one] at this
  rwa [div_eq_mul_one_div]

theorem le_root_nat (i A n k : ℕ) (hk : k ≠ 0) (h : A ^ k * 100 ^ n ≤ i ^ n * (10 ^ 5) ^ k) :
    (A / 10 ^ 5 : ℝ) ≤ (i / 100 : ℝ) ^ ((n:ℝ) / k) := by
  apply le_root n k hk (by positivity) (by positivity)
  rw [div_pow, div_pow, div_le_div_iff₀ (by positivity) (by positivity)]
  exact_mod_cast h

theorem root_le_nat (i A n k : ℕ) (hk : k ≠ 0) (h : i ^ n * (10 ^ 5) ^ k ≤ (A + 1) ^ k * 100 ^ n) :
    (i / 100 : ℝ) ^ ((n:ℝ) / k) ≤ ((A + 1 : ℕ) / 10 ^ 5 : ℝ) := by
  apply root_le n k hk (by positivity) (by positivity)
  rw [div_pow, div_pow, div_le_div_iff₀ (by positivity) (by positivity)]
  exact_mod_cast h

/-- what the check says of the head of the list -/
theorem icCheck_cons {i A B : ℕ} {l : List (ℕ × ℕ)} (h : icCheck i ((A, B) :: l) = true) :
    (A / 10 ^ 5 : ℝ) ≤ (i / 100 : ℝ) ^ (0.461:ℝ) ∧ (i / 100 : ℝ) ^ (0.461:ℝ) ≤ ((A + 1 : ℕ) / 10 ^ 5 : ℝ) ∧
    (B / 10 ^ 5 : ℝ) ≤ (i / 100 : ℝ) ^ (1.457:ℝ) ∧ (i / 100 : ℝ) ^ (1.457:ℝ) ≤ ((B + 1 : ℕ) / 10 ^ 5 : ℝ) ∧
    icCheck (i + 1) l = true := by
  rw [icCheck, Bool.and_eq_true, Bool.and_eq_true, Bool.and_eq_true, Bool.and_eq_true, Nat.ble_eq, Nat.ble_eq, Nat.ble_eq,
    Nat.ble_eq] at h
  obtain ⟨⟨⟨⟨h1, h2⟩, h3⟩, h4⟩, h5⟩ := h
  have e1 : (0.461:ℝ) = ((461:ℕ):ℝ) / ((1000:ℕ):ℝ) := by norm_num
  have e2 : (1.457:ℝ) = ((1457:ℕ):ℝ) / ((1000:ℕ):ℝ) := by norm_num
  rw [e1, e2]
  have hk : 1000 ≠ 0 := by norm_num
  exact ⟨le_root_nat i A 461 1000 hk h1, root_le_nat i A 461 1000 hk h2, le_root_nat i B 1457 1000 hk h3,
    root_le_nat i B 1457 1000 hk h4, h5⟩

theorem F34_continuousOn_Ici (α a β b c : ℝ) (hα : 0 ≤ α) (hβ : 0 ≤ β) (ha : 0 ≤ a) (hb : 0 ≤ b) (hc : 0 ≤ c) :
    ContinuousOn (fun x => Spec.F34 α a β b c x) (Set.Ici 0) := by
  unfold Spec.F34 Spec.gFactor
  have hpi := Real.pi_pos
  have hp : ∀ r : ℝ, 0 ≤ r → ContinuousOn (fun x : ℝ => x ^ r) (Set.Ici 0) := fun r hr =>
    (Real.continuous_rpow_const hr).continuousOn
  have h1 : ∀ x ∈ Set.Ici (0:ℝ), 1 + b * x ^ β ≠ 0 := fun x hx => by
    have : (0:ℝ) ≤ x := hx
    positivity
  have h2 : ∀ x ∈ Set.Ici (0:ℝ), 1 + a * x ^ α / (1 + b * x ^ β) ≠ 0 := fun x hx => by
    have : (0:ℝ) ≤ x := hx
    positivity
  have h3 : ∀ x ∈ Set.Ici (0:ℝ), 1 + Real.pi ^ 2 * c / 6 * x ≠ 0 := fun x hx => by
    have : (0:ℝ) ≤ x := hx
    positivity
  have c1 : ContinuousOn (fun x : ℝ => 1 / (1 + a * x ^ α / (1 + b * x ^ β))) (Set.Ici 0) :=
    continuousOn_const.div (continuousOn_const.add ((continuousOn_const.mul (hp α hα)).div
      (continuousOn_const.add (continuousOn_const.mul (hp β hβ))) h1)) h2
  have c2 : ContinuousOn (fun x : ℝ => Real.pi ^ 2 / 6 * ((1 + c * x) / (1 + Real.pi ^ 2 * c / 6 * x)) * Real.exp (-x))
      (Set.Ici 0) :=
    (continuousOn_const.mul (ContinuousOn.div (by fun_prop) (by fun_prop) h3)).mul (by fun_prop)
  exact c2.mul c1

theorem icF4_continuousOn : ContinuousOn icF4 (Set.Ici 0) :=
  F34_continuousOn_Ici _ _ _ _ _ (by norm_num) (by norm_num) (by norm_num) (by norm_num) (by norm_num)

theorem pi_sq_six : (1.6449:ℝ) ≤ Real.pi ^ 2 / 6 ∧ Real.pi ^ 2 / 6 ≤ 1.644935 := by
  have h1 := Real.pi_gt_d6
  have h2 := Real.pi_lt_d6
  constructor <;> nlinarith

theorem F34_le (α a β b c x : ℝ) (hx : 0 ≤ x) (ha : 0 ≤ a) (hb : 0 ≤ b) (hc : 0 ≤ c) :
    0 ≤ Spec.F34 α a β b c x ∧ Spec.F34 α a β b c x ≤ 1.645 * Real.exp (-x) := by
  obtain ⟨p1, p2⟩ := pi_sq_six
  have hpi := Real.pi_pos
  unfold Spec.F34 Spec.gFactor
  have hA : 0 ≤ x ^ α := by positivity
  have hB : 0 ≤ x ^ β := by positivity
  refine ⟨by positivity, ?_⟩
  have h1 : 1 / (1 + a * x ^ α / (1 + b * x ^ β)) ≤ 1 := by
    rw [div_le_one (by positivity)]
    have : 0 ≤ a * x ^ α / (1 + b * x ^ β) := by positivity
    linarith
  have h2 : (1 + c * x) / (1 + Real.pi ^ 2 * c / 6 * x) ≤ 1 := by
    rw [div_le_one (by positivity)]
    have : 0 ≤ c * x := by positivity
    nlinarith
  calc _ ≤ 1.645 * 1 * Real.exp (-x) * 1 := by gcongr; linarith
    _ = _ := by ring

theorem x_icF4_intervalIntegrable (a b : ℝ) (ha : 0 ≤ a) (hb : 0 ≤ b) :
    IntervalIntegrable (fun x => x * icF4 x) volume a b := by
  apply ContinuousOn.intervalIntegrable
  apply (continuousOn_id.mul icF4_continuousOn).mono
  intro x hx
  rw [Set.mem_uIcc] at hx
  rcases hx with h | h
  · exact ha.trans h.1
  · exact hb.trans h.1

/-- on a cell of the grid -/
theorem icF4_cell (i A B A' B' : ℕ) (x : ℝ) (hx1 : (i / 100 : ℝ) ≤ x) (hx2 : x ≤ ((i + 1 : ℕ) / 100 : ℝ))
    (h1 : (A / 10 ^ 5 : ℝ) ≤ (i / 100 : ℝ) ^ (0.461:ℝ)) (h2 : (B / 10 ^ 5 : ℝ) ≤ (i / 100 : ℝ) ^ (1.457:ℝ))
    (h3 : ((i + 1 : ℕ) / 100 : ℝ) ^ (0.461:ℝ) ≤ ((A' + 1 : ℕ) / 10 ^ 5 : ℝ))
    (h4 : ((i + 1 : ℕ) / 100 : ℝ) ^ (1.457:ℝ) ≤ ((B' + 1 : ℕ) / 10 ^ 5 : ℝ)) :
    (icNum 1644900 i (i + 1) B / icDen 1644900 (i + 1) (A' + 1) B : ℝ) * Real.exp (-x) ≤ x * icF4 x ∧
    x * icF4 x ≤ (icNum 1644935 (i + 1) i (B' + 1) / icDen 1644935 i A (B' + 1) : ℝ) * Real.exp (-x) := by
  have hi : (0:ℝ) ≤ i / 100 := by positivity
  have hx := hi.trans hx1
  obtain ⟨p1, p2⟩ := pi_sq_six
  rw [icF4_icT x hx, ← icT_nat, ← icT_nat]
  have m1 : ∀ r : ℝ, 0 ≤ r → (i / 100 : ℝ) ^ r ≤ x ^ r := fun r hr => Real.rpow_le_rpow hi hx1 hr
  have m2 : ∀ r : ℝ, 0 ≤ r → x ^ r ≤ ((i + 1 : ℕ) / 100 : ℝ) ^ r := fun r hr => Real.rpow_le_rpow hx hx2 hr
  constructor
  · apply mul_le_mul_of_nonneg_right _ (Real.exp_pos _).le
    exact icT_mono (by norm_num) (by norm_num; linarith) hi hx1 hx hx2 (by positivity) ((m2 _ (by norm_num)).trans h3)
      (by positivity) (h2.trans (m1 _ (by norm_num)))
  · apply mul_le_mul_of_nonneg_right _ (Real.exp_pos _).le
    exact icT_mono (by linarith) (by norm_num; linarith) hx hx2 hi hx1 (by positivity) (h1.trans (m1 _ (by norm_num)))
      (by positivity) ((m2 _ (by norm_num)).trans h4)

theorem div_cast_le (a b k : ℕ) (hk : 0 < k) : ((a * k / b : ℕ) : ℝ) / k ≤ (a / b : ℝ) := by
  have hk' : (0:ℝ) < k := by exact_mod_cast hk
  rw [div_le_iff₀ hk']
  refine Nat.cast_div_le.trans (le_of_eq ?_)
  push_cast; ring

theorem le_div_cast (a b k : ℕ) (hb : 0 < b) (hk : 0 < k) : (a / b : ℝ) ≤ ((a * k / b : ℕ) + 1 : ℝ) / k := by
  have hk' : (0:ℝ) < k := by exact_mod_cast hk
  have hb' : (0:ℝ) < b := by exact_mod_cast hb
  have := (Nat.lt_div_mul_add (a := a * k) (b := b) hb).le
  have : ((a * k : ℕ) : ℝ) ≤ ((a * k / b : ℕ) : ℝ) * b + b := by exact_mod_cast this
  rw [div_le_div_iff₀ hb' hk']
  push_cast at this ⊢
  linarith

theorem icLo_le (Q : ℕ) (hQ : (Q / 10 ^ 9 : ℝ) ≤ Real.exp (-(1 / 100 : ℝ))) (l : List (ℕ × ℕ)) (p : ℕ × ℕ) (i : ℕ)
    (h : icCheck i (p :: l) = true) :
    (icLo Q i (p :: l) / 10 ^ 12 : ℝ) * (1 - Real.exp (-(1 / 100 : ℝ))) * Real.exp (-(i / 100 : ℝ)) ≤
      ∫ x in (i / 100 : ℝ)..((i + l.length : ℕ) / 100 : ℝ), x * icF4 x := by
  have hq1 : Real.exp (-(1 / 100 : ℝ)) ≤ 1 := Real.exp_le_one_iff.2 (by norm_num)
  induction l generalizing i p with
  | nil => simp [icLo]
  | cons p' l ih =>
    obtain ⟨A, B⟩ := p
    obtain ⟨A', B'⟩ := p'
    obtain ⟨c1, c2, c3, c4, c5⟩ := icCheck_cons h
    obtain ⟨d1, d2, d3, d4, -⟩ := icCheck_cons c5
    have ih := ih (A', B') (i + 1) c5
    simp only [List.length_cons]
    have hlen : i + 1 + l.length = i + (l.length + 1) := by omega
    rw [hlen] at ih
    rw [← intervalIntegral.integral_add_adjacent_intervals (b := ((i + 1 : ℕ) / 100 : ℝ))
      (x_icF4_intervalIntegrable _ _ (by positivity) (by positivity)) (x_icF4_intervalIntegrable _ _ (by positivity) (by positivity))]
    set r : ℝ := (icNum 1644900 i (i + 1) B / icDen 1644900 (i + 1) (A' + 1) B : ℝ) with hr
    have hfirst : ∫ x in (i / 100 : ℝ)..((i + 1 : ℕ) / 100 : ℝ), r * Real.exp (-x) ≤
        ∫ x in (i / 100 : ℝ)..((i + 1 : ℕ) / 100 : ℝ), x * icF4 x := by
      apply intervalIntegral.integral_mono_on
      · push_cast; linarith
      · exact (by fun_prop : Continuous fun x : ℝ => r * Real.exp (-x)).intervalIntegrable _ _
      · exact x_icF4_intervalIntegrable _ _ (by positivity) (by positivity)
      · intro x hx
        exact (icF4_cell i A B A' B' x hx.1 hx.2 c1 c3 d2 d4).1
    rw [integral_exp_neg_interval, exp_step] at hfirst
    rw [exp_step] at ih
    set q := Real.exp (-(1 / 100 : ℝ)) with hq
    set E := Real.exp (-(i / 100 : ℝ)) with hE
    have hE0 : 0 < E := Real.exp_pos _
    rw [icLo]
    have k1 : ((icNum 1644900 i (i + 1) B * 10 ^ 12 / icDen 1644900 (i + 1) (A' + 1) B : ℕ) : ℝ) / 10 ^ 12 ≤ r := by
      have := div_cast_le (icNum 1644900 i (i + 1) B) (icDen 1644900 (i + 1) (A' + 1) B) (10 ^ 12) (by norm_num)
      rwa [show (((10 ^ 12 : ℕ)) : ℝ) = 10 ^ 12 by norm_num] at this
    set H := icLo Q (i + 1) ((A', B') :: l) with hH
    have k2 : ((Q * H / 10 ^ 9 : ℕ) : ℝ) / 10 ^ 12 ≤ q * (H / 10 ^ 12) := by
      have h1 : ((Q * H / 10 ^ 9 : ℕ) : ℝ) ≤ (Q * H : ℝ) / 10 ^ 9 := by
        refine Nat.cast_div_le.trans (le_of_eq ?_); push_cast; ring
      have h2 : (Q / 10 ^ 9 : ℝ) * (H / 10 ^ 12) ≤ q * (H / 10 ^ 12) := mul_le_mul_of_nonneg_right hQ (by positivity)
      refine le_trans ?_ h2
      rw [div_le_iff₀ (by positivity)]
      refine h1.trans (le_of_eq ?_)
      field_simp
    rw [Nat.cast_add, add_div]
    have k3 := mul_le_mul_of_nonneg_right (add_le_add k1 k2) (mul_nonneg (by linarith : 0 ≤ 1 - q) hE0.le)
    generalize ((icNum 1644900 i (i + 1) B * 10 ^ 12 / icDen 1644900 (i + 1) (A' + 1) B : ℕ) : ℝ) / 10 ^ 12 = u at *
    generalize ((Q * H / 10 ^ 9 : ℕ) : ℝ) / 10 ^ 12 = v at *
    linarith

theorem le_icHi (Q : ℕ) (hQ : Real.exp (-(1 / 100 : ℝ)) ≤ (Q / 10 ^ 9 : ℝ)) (l : List (ℕ × ℕ)) (p : ℕ × ℕ) (i : ℕ)
    (h : icCheck i (p :: l) = true) :
    ∫ x in (i / 100 : ℝ)..((i + l.length : ℕ) / 100 : ℝ), x * icF4 x ≤
    (icHi Q i (p :: l) / 10 ^ 12 : ℝ) * (1 - Real.exp (-(1 / 100 : ℝ))) * Real.exp (-(i / 100 : ℝ)) := by
  have hq1 : Real.exp (-(1 / 100 : ℝ)) ≤ 1 := Real.exp_le_one_iff.2 (by norm_num)
  induction l generalizing i p with
  | nil => simp [icHi]
  | cons p' l ih =>
    obtain ⟨A, B⟩ := p
    obtain ⟨A', B'⟩ := p'
    obtain ⟨c1, c2, c3, c4, c5⟩ := icCheck_cons h
    obtain ⟨d1, d2, d3, d4, -⟩ := icCheck_cons c5
    have ih := ih (A', B') (i + 1) c5
    simp only [List.length_cons]
    have hlen : i + 1 + l.length = i + (l.length + 1) := by omega
    rw [hlen] at ih
    rw [← intervalIntegral.integral_add_adjacent_intervals (b := ((i + 1 : ℕ) / 100 : ℝ))
      (x_icF4_intervalIntegrable _ _ (by positivity) (by positivity)) (x_icF4_intervalIntegrable _ _ (by positivity) (by positivity))]
    set r : ℝ := (icNum 1644935 (i + 1) i (B' + 1) / icDen 1644935 i A (B' + 1) : ℝ) with hr
    have hfirst : ∫ x in (i / 100 : ℝ)..((i + 1 : ℕ) / 100 : ℝ), x * icF4 x ≤
        ∫ x in (i / 100 : ℝ)..((i + 1 : ℕ) / 100 : ℝ), r * Real.exp (-x) := by
      apply intervalIntegral.integral_mono_on
      · push_cast; linarith
      · exact x_icF4_intervalIntegrable _ _ (by positivity) (by positivity)
      · exact (by fun_prop : Continuous fun x : ℝ => r * Real.exp (-x)).intervalIntegrable _ _
      · intro x hx
        exact (icF4_cell i A B A' B' x hx.1 hx.2 c1 c3 d2 d4).2
    rw [integral_exp_neg_interval, exp_step] at hfirst
    rw [exp_step] at ih
    set q := Real.exp (-(1 / 100 : ℝ)) with hq
    set E := Real.exp (-(i / 100 : ℝ)) with hE
    have hE0 : 0 < E := Real.exp_pos _
    rw [icHi]
    have k1 : r ≤ (((icNum 1644935 (i + 1) i (B' + 1) * 10 ^ 12 / icDen 1644935 i A (B' + 1) : ℕ) : ℝ) + 1) / 10 ^ 12 := by
      have := le_div_cast (icNum 1644935 (i + 1) i (B' + 1)) (icDen 1644935 i A (B' + 1)) (10 ^ 12) (icDen_pos _ _ _ _)
        (by norm_num)
      rwa [show (((10 ^ 12 : ℕ)) : ℝ) = 10 ^ 12 by norm_num] at this
    set H := icHi Q (i + 1) ((A', B') :: l) with hH
    have k2 : q * (H / 10 ^ 12) ≤ (((Q * H / 10 ^ 9 : ℕ) : ℝ) + 1) / 10 ^ 12 := by
      have h1 : (Q * H : ℝ) / 10 ^ 9 ≤ ((Q * H / 10 ^ 9 : ℕ) : ℝ) + 1 := by
        have := (Nat.lt_div_mul_add (a := Q * H) (b := 10 ^ 9) (by norm_num)).le
        have : ((Q * H : ℕ) : ℝ) ≤ ((Q * H / 10 ^ 9 : ℕ) : ℝ) * 10 ^ 9 + 10 ^ 9 := by exact_mod_cast this
        push_cast at this ⊢
        rw [div_le_iff₀ (by norm_num)]
        linarith
      have h2 : q * (H / 10 ^ 12) ≤ (Q / 10 ^ 9 : ℝ) * (H / 10 ^ 12) := mul_le_mul_of_nonneg_right hQ (by positivity)
      refine h2.trans ?_
      rw [le_div_iff₀ (by positivity)]
      refine le_trans (le_of_eq ?_) h1
      field_simp
    have e : (((icNum 1644935 (i + 1) i (B' + 1) * 10 ^ 12 / icDen 1644935 i A (B' + 1) + 1 + Q * H / 10 ^ 9 + 1 : ℕ) : ℝ)) / 10 ^ 12 =
        (((icNum 1644935 (i + 1) i (B' + 1) * 10 ^ 12 / icDen 1644935 i A (B' + 1) : ℕ) : ℝ) + 1) / 10 ^ 12 +
          (((Q * H / 10 ^ 9 : ℕ) : ℝ) + 1) / 10 ^ 12 := by
      rw [Nat.cast_add, Nat.cast_add, Nat.cast_add]; push_cast; ring
    rw [e]
    have k3 := mul_le_mul_of_nonneg_right (add_le_add k1 k2) (mul_nonneg (by linarith : 0 ≤ 1 - q) hE0.le)
    generalize (((icNum 1644935 (i + 1) i (B' + 1) * 10 ^ 12 / icDen 1644935 i A (B' + 1) : ℕ) : ℝ) + 1) / 10 ^ 12 = u at *
    generalize (((Q * H / 10 ^ 9 : ℕ) : ℝ) + 1) / 10 ^ 12 = v at *
    linarith

theorem icLo_value : 72008000000000 ≤ icLo 990049833 0 icTable := by decide +kernel
theorem icHi_value : icHi 990049834 0 icTable ≤ 73054000000000 := by decide +kernel

theorem rpow_exp_integrable (k : ℕ) : IntegrableOn (fun x : ℝ => x ^ k * Real.exp (-x)) (Set.Ioi 0) := by
  have h := Real.GammaIntegral_convergent (s := k + 1) (by positivity)
  refine h.congr_fun (fun x hx => ?_) measurableSet_Ioi
  simp only [add_sub_cancel_right, Real.rpow_natCast]
  ring

theorem rpow_exp_integral (k : ℕ) : ∫ x in Set.Ioi 0, (x : ℝ) ^ k * Real.exp (-x) = k.factorial := by
  rw [← Real.Gamma_nat_eq_factorial, Real.Gamma_eq_integral (by positivity)]
  apply setIntegral_congr_fun measurableSet_Ioi
  intro x hx
  simp only [add_sub_cancel_right, Real.rpow_natCast]
  ring

theorem icF4_bounds (x : ℝ) (hx : 0 ≤ x) : 0 ≤ icF4 x ∧ icF4 x ≤ 1.645 * Real.exp (-x) :=
  F34_le _ _ _ _ _ x hx (by norm_num) (by norm_num) (by norm_num)

theorem icF3_bounds (x : ℝ) (hx : 0 ≤ x) : 0 ≤ icF3 x ∧ icF3 x ≤ 1.645 * Real.exp (-x) :=
  F34_le _ _ _ _ _ x hx (by norm_num) (by norm_num) (by norm_num)

theorem icF4_measurable : Measurable icF4 := by
  unfold icF4 Spec.F34 Spec.gFactor; fun_prop

theorem icF3_measurable : Measurable icF3 := by
  unfold icF3 Spec.F34 Spec.gFactor; fun_prop

theorem pow_icF4_integrable (k : ℕ) : IntegrableOn (fun x => x ^ k * icF4 x) (Set.Ioi 0) := by
  apply Integrable.mono' ((rpow_exp_integrable k).const_mul 1.645)
    ((measurable_id.pow_const k).mul icF4_measurable).aestronglyMeasurable
  filter_upwards [ae_restrict_mem measurableSet_Ioi] with x hx
  have hx : (0:ℝ) < x := hx
  obtain ⟨h0, h1⟩ := icF4_bounds x hx.le
  rw [Real.norm_of_nonneg (by simp only [Pi.mul_apply, Pi.pow_apply, id]; positivity)]
  simp only [Pi.mul_apply, Pi.pow_apply, id]
  calc x ^ k * icF4 x ≤ x ^ k * (1.645 * Real.exp (-x)) := mul_le_mul_of_nonneg_left h1 (by positivity)
    _ = _ := by ring

theorem x_icF4_integrable : IntegrableOn (fun x => x * icF4 x) (Set.Ioi 0) := by
  simpa using pow_icF4_integrable 1

/-- **The first moment of `F₄`.** -/
theorem icF4_moment : 0.71648 ≤ ∫ x in Set.Ioi 0, x * icF4 x ∧ ∫ x in Set.Ioi 0, x * icF4 x ≤ 0.72725 := by
  have hsplit : ∫ x in Set.Ioi 0, x * icF4 x = (∫ x in (0:ℝ)..12, x * icF4 x) + ∫ x in Set.Ioi 12, x * icF4 x := by
    rw [← intervalIntegral.integral_interval_add_Ioi x_icF4_integrable
      (x_icF4_integrable.mono_set (Set.Ioi_subset_Ioi (by norm_num : (0:ℝ) ≤ 12)))]
  have htail0 : 0 ≤ ∫ x in Set.Ioi 12, x * icF4 x :=
    setIntegral_nonneg measurableSet_Ioi (fun x hx => by
      have : (12:ℝ) < x := hx
      exact mul_nonneg (by linarith) (icF4_bounds x (by linarith)).1)
  have htail : ∫ x in Set.Ioi 12, x * icF4 x ≤ 40 * Real.exp (-12) := by
    have hi : IntegrableOn (fun x : ℝ => 20 * Real.exp (-6) * Real.exp (-(1 / 2) * x)) (Set.Ioi 12) :=
      (integrableOn_exp_mul_Ioi (show (-(1 / 2):ℝ) < 0 by norm_num) 12).const_mul _
    calc _ ≤ ∫ x in Set.Ioi 12, 20 * Real.exp (-6) * Real.exp (-(1 / 2) * x) := by
          apply setIntegral_mono_on (x_icF4_integrable.mono_set (Set.Ioi_subset_Ioi (by norm_num))) hi measurableSet_Ioi
          intro x hx
          have hx : (12:ℝ) < x := hx
          have h1 : x / 12 ≤ Real.exp (x / 12 - 1) := by
            have := Real.add_one_le_exp (x / 12 - 1); linarith
          have h2 : Real.exp (x / 12 - 1) ≤ Real.exp (x / 2 - 6) := Real.exp_le_exp.2 (by linarith)
          have h3 : x ≤ 12 * Real.exp (x / 2 - 6) := by linarith
          calc x * icF4 x ≤ 12 * Real.exp (x / 2 - 6) * (1.645 * Real.exp (-x)) :=
                mul_le_mul h3 (icF4_bounds x (by linarith)).2 (icF4_bounds x (by linarith)).1 (by positivity)
            _ = 19.74 * (Real.exp (x / 2 - 6) * Real.exp (-x)) := by ring
            _ ≤ 20 * (Real.exp (x / 2 - 6) * Real.exp (-x)) := mul_le_mul_of_nonneg_right (by norm_num) (by positivity)
            _ = 20 * (Real.exp (-6) * Real.exp (-(1 / 2) * x)) := by
                congr 1
                rw [← Real.exp_add, ← Real.exp_add]; congr 1; ring
            _ = _ := by ring
      _ = _ := by
          rw [integral_const_mul, integral_exp_mul_Ioi (show (-(1 / 2):ℝ) < 0 by norm_num),
            show (-12:ℝ) = -6 + -(1 / 2) * 12 by norm_num, Real.exp_add]
          ring
  have he12 : Real.exp (-12) ≤ 0.00000616 := by
    have h1 : Real.exp (-12) = Real.exp (-1) ^ 12 := by rw [← Real.exp_nat_mul]; norm_num
    have h2 : Real.exp (-1) ≤ 0.36788 := by linarith [Real.exp_neg_one_lt_d9]
    rw [h1]
    exact (pow_le_pow_left₀ (Real.exp_pos _).le h2 12).trans (by norm_num)
  obtain ⟨q1, q2⟩ := exp_hundredth
  obtain ⟨p, l, htab, hl⟩ : ∃ p l, icTable = p :: l ∧ l.length = 1200 := by
    have h := icTable_length
    generalize icTable = t at h
    cases t with
    | nil => simp at h
    | cons p l => exact ⟨p, l, rfl, by rw [List.length_cons] at h; omega⟩
  have hch := icTable_check
  rw [htab] at hch
  have hlo := icLo_le 990049833 (by norm_num; linarith) l p 0 hch
  have hhi := le_icHi 990049834 (by norm_num; linarith) l p 0 hch
  rw [← htab, hl] at hlo hhi
  rw [show ((0:ℕ):ℝ) / 100 = 0 by norm_num, show ((0 + 1200 : ℕ) : ℝ) / 100 = 12 by norm_num, neg_zero, Real.exp_zero,
    mul_one] at hlo hhi
  have v1 : (72008000000000 : ℝ) ≤ icLo 990049833 0 icTable := by exact_mod_cast icLo_value
  have v2 : (icHi 990049834 0 icTable : ℝ) ≤ 73054000000000 := by exact_mod_cast icHi_value
  have w1 : 72.008 ≤ (icLo 990049833 0 icTable : ℝ) / 10 ^ 12 := by rw [le_div_iff₀ (by norm_num)]; linarith
  have w2 : (icHi 990049834 0 icTable : ℝ) / 10 ^ 12 ≤ 73.054 := by rw [div_le_iff₀ (by norm_num)]; linarith
  have w3 : 0 ≤ (icHi 990049834 0 icTable : ℝ) / 10 ^ 12 := div_nonneg (Nat.cast_nonneg _) (by norm_num)
  rw [hsplit]
  clear v1 v2 hch htab hl
  generalize (icLo 990049833 0 icTable : ℝ) / 10 ^ 12 = A at *
  generalize (icHi 990049834 0 icTable : ℝ) / 10 ^ 12 = B at *
  generalize Real.exp (-(1 / 100 : ℝ)) = q at *
  have h1 : 72.008 * (1 - 0.990049834) ≤ A * (1 - q) := mul_le_mul w1 (by linarith) (by norm_num) (by linarith)
  have h2 : B * (1 - q) ≤ 73.054 * (1 - 0.990049833) := mul_le_mul w2 (by linarith) (by linarith) (by norm_num)
  norm_num at h1 h2 he12 htail ⊢
  constructor <;> linarith

end Naima.Props
