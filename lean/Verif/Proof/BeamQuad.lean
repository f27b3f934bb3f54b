import Verif.Proof.BeamTable
import Verif.Proof.ICQuad

/-! # The first moment of the inverse Compton function of a thermal beam, bounded by a table checked by the kernel -/

namespace Naima.Props

open Naima Classical MeasureTheory

/-- the factor of `x · F₂(x)` in front of `exp (-x)`, with the powers of `x` arguments of their own -/
noncomputable def anT (P x A B : ℝ) : ℝ :=
  x * (P + x) * ((1 + 0.534 * B) / (1.330 * A + 1 + 0.534 * B))

/-- `F₁` -/
noncomputable abbrev anF1 (x : ℝ) : ℝ := Spec.F12 0.857 0.153 1.840 0.254 x

/-- `F₂` -/
noncomputable abbrev anF2 (x : ℝ) : ℝ := Spec.F12 0.691 1.330 1.668 0.534 x

theorem anF2_anT (x : ℝ) (hx : 0 ≤ x) : x * anF2 x =
    anT (Real.pi ^ 2 / 6) x (x ^ (0.691 : ℝ)) (x ^ (1.668 : ℝ)) * Real.exp (-x) := by
  have hA : 0 ≤ x ^ (0.691 : ℝ) := by positivity
  have hB : 0 ≤ x ^ (1.668 : ℝ) := by positivity
  unfold anF2 Spec.F12 Spec.gFactor anT
  generalize x ^ (0.691 : ℝ) = A at *
  generalize x ^ (1.668 : ℝ) = B at *
  have h1 : 1 + 0.534 * B ≠ 0 := by positivity
  have h3 : 1 / (1 + 1.330 * A / (1 + 0.534 * B)) = (1 + 0.534 * B) / (1.330 * A + 1 + 0.534 * B) := by
    rw [one_add_div h1, one_div_div]; congr 1; ring
  rw [h3]
  ring

theorem anT_mono {P P' x x' A A' B B' : ℝ} (hP : 1 ≤ P) (hPP : P ≤ P') (hx : 0 ≤ x) (hxx : x ≤ x')
    (hA : 0 ≤ A') (hAA : A' ≤ A) (hB : 0 ≤ B) (hBB : B ≤ B') :
    anT P x A B ≤ anT P' x' A' B' := by
  unfold anT
  have hA0 := hA.trans hAA
  have hB0 := hB.trans hBB
  have h2 : (1 + 0.534 * B) / (1.330 * A + 1 + 0.534 * B) ≤ (1 + 0.534 * B') / (1.330 * A' + 1 + 0.534 * B') := by
    rw [div_le_div_iff₀ (by positivity) (by positivity)]
    have h3 : A' * (1 + 0.534 * B) ≤ A * (1 + 0.534 * B') := mul_le_mul hAA (by linarith) (by positivity) hA0
    nlinarith
  have hx0 := hx.trans hxx
  exact mul_le_mul (mul_le_mul hxx (by linarith) (by linarith) hx0) h2 (by positivity)
    (mul_nonneg hx0 (by linarith))

/-! ### The table -/

/-- `anT (p/10^6) (i/100) (A/10^5) (B/10^5) = anNum / anDen` -/
def anNum (p i B : ℕ) : ℕ := i * (p + 10 ^ 4 * i) * (10 ^ 8 + 534 * B)
def anDen (A B : ℕ) : ℕ := 10 ^ 8 * (1330 * A + 10 ^ 8 + 534 * B)

theorem anDen_pos (A B : ℕ) : 0 < anDen A B := by unfold anDen; positivity

theorem anT_nat (p i A B : ℕ) :
    anT (p / 10 ^ 6) (i / 100) (A / 10 ^ 5) (B / 10 ^ 5) = anNum p i B / anDen A B := by
  unfold anT anNum anDen
  push_cast
  have h2 : (1.330:ℝ) * (A / 10 ^ 5) + 1 + 0.534 * (B / 10 ^ 5) = (1330 * A + 10 ^ 8 + 534 * B) / 10 ^ 8 := by field_simp; ring
  have h3 : (1:ℝ) + 0.534 * (B / 10 ^ 5) = (10 ^ 8 + 534 * B) / 10 ^ 8 := by field_simp; ring
  have h4 : (i / 100 : ℝ) * (p / 10 ^ 6 + i / 100) = i * (p + 10 ^ 4 * i) / 10 ^ 8 := by field_simp; ring
  rw [h2, h3, h4]
  have : (0:ℝ) < 1330 * A + 10 ^ 8 + 534 * B := by positivity
  field_simp
  ring

/-- entry `i` holds `(i/100)^0.691` and `(i/100)^1.668` rounded down -/
def anCheck : ℕ → List (ℕ × ℕ) → Bool
  | _, [] => true
  | i, (A, B) :: l =>
      Nat.ble (A ^ 1000 * 100 ^ 691) (i ^ 691 * (10 ^ 5) ^ 1000) &&
      Nat.ble (i ^ 691 * (10 ^ 5) ^ 1000) ((A + 1) ^ 1000 * 100 ^ 691) &&
      Nat.ble (B ^ 1000 * 100 ^ 1668) (i ^ 1668 * (10 ^ 5) ^ 1000) &&
      Nat.ble (i ^ 1668 * (10 ^ 5) ^ 1000) ((B + 1) ^ 1000 * 100 ^ 1668) && anCheck (i + 1) l

/-- lower sum, `q` replaced by `Q / 10^9`, rounded down -/
def anLo (Q : ℕ) : ℕ → List (ℕ × ℕ) → ℕ
  | _, [] => 0
  | _, [_] => 0
  | i, (_, B) :: (A', B') :: l =>
      anNum 1644900 i B * 10 ^ 12 / anDen (A' + 1) B + Q * anLo Q (i + 1) ((A', B') :: l) / 10 ^ 9

/-- upper sum, rounded up -/
def anHi (Q : ℕ) : ℕ → List (ℕ × ℕ) → ℕ
  | _, [] => 0
  | _, [_] => 0
  | i, (A, _) :: (A', B') :: l =>
      anNum 1644935 (i + 1) (B' + 1) * 10 ^ 12 / anDen A (B' + 1) + 1 +
        Q * anHi Q (i + 1) ((A', B') :: l) / 10 ^ 9 + 1

theorem anTable_check : anCheck 0 anTable = true := by decide +kernel
theorem anTable_length : anTable.length = 1201 := by decide +kernel

/-- what the check says of the head of the list -/
theorem anCheck_cons {i A B : ℕ} {l : List (ℕ × ℕ)} (h : anCheck i ((A, B) :: l) = true) :
    (A / 10 ^ 5 : ℝ) ≤ (i / 100 : ℝ) ^ (0.691:ℝ) ∧ (i / 100 : ℝ) ^ (0.691:ℝ) ≤ ((A + 1 : ℕ) / 10 ^ 5 : ℝ) ∧
    (B / 10 ^ 5 : ℝ) ≤ (i / 100 : ℝ) ^ (1.668:ℝ) ∧ (i / 100 : ℝ) ^ (1.668:ℝ) ≤ ((B + 1 : ℕ) / 10 ^ 5 : ℝ) ∧
    anCheck (i + 1) l = true := by
  rw [anCheck, Bool.and_eq_true, Bool.and_eq_true, Bool.and_eq_true, Bool.and_eq_true, Nat.ble_eq, Nat.ble_eq, Nat.ble_eq,
    Nat.ble_eq] at h
  obtain ⟨⟨⟨⟨h1, h2⟩, h3⟩, h4⟩, h5⟩ := h
  have e1 : (0.691:ℝ) = ((691:ℕ):ℝ) / ((1000:ℕ):ℝ) := by norm_num
  have e2 : (1.668:ℝ) = ((1668:ℕ):ℝ) / ((1000:ℕ):ℝ) := by norm_num
  rw [e1, e2]
  have hk : 1000 ≠ 0 := by norm_num
  exact ⟨le_root_nat i A 691 1000 hk h1, root_le_nat i A 691 1000 hk h2, le_root_nat i B 1668 1000 hk h3,
    root_le_nat i B 1668 1000 hk h4, h5⟩

theorem F12_continuousOn_Ici (α a β b : ℝ) (hα : 0 ≤ α) (hβ : 0 ≤ β) (ha : 0 ≤ a) (hb : 0 ≤ b) :
    ContinuousOn (fun x => Spec.F12 α a β b x) (Set.Ici 0) := by
  unfold Spec.F12 Spec.gFactor
  have hp : ∀ r : ℝ, 0 ≤ r → ContinuousOn (fun x : ℝ => x ^ r) (Set.Ici 0) := fun r hr =>
    (Real.continuous_rpow_const hr).continuousOn
  have h1 : ∀ x ∈ Set.Ici (0:ℝ), 1 + b * x ^ β ≠ 0 := fun x hx => by
    have : (0:ℝ) ≤ x := hx
    positivity
  have h2 : ∀ x ∈ Set.Ici (0:ℝ), 1 + a * x ^ α / (1 + b * x ^ β) ≠ 0 := fun x hx => by
    have : (0:ℝ) ≤ x := hx
    positivity
  have c1 : ContinuousOn (fun x : ℝ => 1 / (1 + a * x ^ α / (1 + b * x ^ β))) (Set.Ici 0) :=
    continuousOn_const.div (continuousOn_const.add ((continuousOn_const.mul (hp α hα)).div
      (continuousOn_const.add (continuousOn_const.mul (hp β hβ))) h1)) h2
  have c2 : ContinuousOn (fun x : ℝ => (Real.pi ^ 2 / 6 + x) * Real.exp (-x)) (Set.Ici 0) := by fun_prop
  exact c2.mul c1

theorem anF2_continuousOn : ContinuousOn anF2 (Set.Ici 0) :=
  F12_continuousOn_Ici _ _ _ _ (by norm_num) (by norm_num) (by norm_num) (by norm_num)

theorem F12_le (α a β b x : ℝ) (hx : 0 ≤ x) (ha : 0 ≤ a) (hb : 0 ≤ b) :
    0 ≤ Spec.F12 α a β b x ∧ Spec.F12 α a β b x ≤ (1.645 + x) * Real.exp (-x) := by
  obtain ⟨p1, p2⟩ := pi_sq_six
  have hpi := Real.pi_pos
  unfold Spec.F12 Spec.gFactor
  have hA : 0 ≤ x ^ α := by positivity
  have hB : 0 ≤ x ^ β := by positivity
  refine ⟨by positivity, ?_⟩
  have h1 : 1 / (1 + a * x ^ α / (1 + b * x ^ β)) ≤ 1 := by
    rw [div_le_one (by positivity)]
    have : 0 ≤ a * x ^ α / (1 + b * x ^ β) := by positivity
    linarith
  calc _ ≤ (1.645 + x) * Real.exp (-x) * 1 := by gcongr; linarith
    _ = _ := by ring

theorem x_anF2_intervalIntegrable (a b : ℝ) (ha : 0 ≤ a) (hb : 0 ≤ b) :
    IntervalIntegrable (fun x => x * anF2 x) volume a b := by
  apply ContinuousOn.intervalIntegrable
  apply (continuousOn_id.mul anF2_continuousOn).mono
  intro x hx
  rw [Set.mem_uIcc] at hx
  rcases hx with h | h
  · exact ha.trans h.1
  · exact hb.trans h.1

/-- on a cell of the grid -/
theorem anF2_cell (i A B A' B' : ℕ) (x : ℝ) (hx1 : (i / 100 : ℝ) ≤ x) (hx2 : x ≤ ((i + 1 : ℕ) / 100 : ℝ))
    (h1 : (A / 10 ^ 5 : ℝ) ≤ (i / 100 : ℝ) ^ (0.691:ℝ)) (h2 : (B / 10 ^ 5 : ℝ) ≤ (i / 100 : ℝ) ^ (1.668:ℝ))
    (h3 : ((i + 1 : ℕ) / 100 : ℝ) ^ (0.691:ℝ) ≤ ((A' + 1 : ℕ) / 10 ^ 5 : ℝ))
    (h4 : ((i + 1 : ℕ) / 100 : ℝ) ^ (1.668:ℝ) ≤ ((B' + 1 : ℕ) / 10 ^ 5 : ℝ)) :
    (anNum 1644900 i B / anDen (A' + 1) B : ℝ) * Real.exp (-x) ≤ x * anF2 x ∧
    x * anF2 x ≤ (anNum 1644935 (i + 1) (B' + 1) / anDen A (B' + 1) : ℝ) * Real.exp (-x) := by
  have hi : (0:ℝ) ≤ i / 100 := by positivity
  have hx := hi.trans hx1
  obtain ⟨p1, p2⟩ := pi_sq_six
  rw [anF2_anT x hx, ← anT_nat, ← anT_nat]
  have m1 : ∀ r : ℝ, 0 ≤ r → (i / 100 : ℝ) ^ r ≤ x ^ r := fun r hr => Real.rpow_le_rpow hi hx1 hr
  have m2 : ∀ r : ℝ, 0 ≤ r → x ^ r ≤ ((i + 1 : ℕ) / 100 : ℝ) ^ r := fun r hr => Real.rpow_le_rpow hx hx2 hr
  constructor
  · apply mul_le_mul_of_nonneg_right _ (Real.exp_pos _).le
    exact anT_mono (by norm_num) (by norm_num; linarith) hi hx1 (by positivity) ((m2 _ (by norm_num)).trans h3)
      (by positivity) (h2.trans (m1 _ (by norm_num)))
  · apply mul_le_mul_of_nonneg_right _ (Real.exp_pos _).le
    exact anT_mono (by linarith) (by norm_num; linarith) hx hx2 (by positivity) (h1.trans (m1 _ (by norm_num)))
      (by positivity) ((m2 _ (by norm_num)).trans h4)

theorem anLo_le (Q : ℕ) (hQ : (Q / 10 ^ 9 : ℝ) ≤ Real.exp (-(1 / 100 : ℝ))) (l : List (ℕ × ℕ)) (p : ℕ × ℕ) (i : ℕ)
    (h : anCheck i (p :: l) = true) :
    (anLo Q i (p :: l) / 10 ^ 12 : ℝ) * (1 - Real.exp (-(1 / 100 : ℝ))) * Real.exp (-(i / 100 : ℝ)) ≤
      ∫ x in (i / 100 : ℝ)..((i + l.length : ℕ) / 100 : ℝ), x * anF2 x := by
  have hq1 : Real.exp (-(1 / 100 : ℝ)) ≤ 1 := Real.exp_le_one_iff.2 (by norm_num)
  induction l generalizing i p with
  | nil => simp [anLo]
  | cons p' l ih =>
    obtain ⟨A, B⟩ := p
    obtain ⟨A', B'⟩ := p'
    obtain ⟨c1, c2, c3, c4, c5⟩ := anCheck_cons h
    obtain ⟨d1, d2, d3, d4, -⟩ := anCheck_cons c5
    have ih := ih (A', B') (i + 1) c5
    simp only [List.length_cons]
    have hlen : i + 1 + l.length = i + (l.length + 1) := by omega
    rw [hlen] at ih
    rw [← intervalIntegral.integral_add_adjacent_intervals (b := ((i + 1 : ℕ) / 100 : ℝ))
      (x_anF2_intervalIntegrable _ _ (by positivity) (by positivity)) (x_anF2_intervalIntegrable _ _ (by positivity) (by positivity))]
    set r : ℝ := (anNum 1644900 i B / anDen (A' + 1) B : ℝ) with hr
    have hfirst : ∫ x in (i / 100 : ℝ)..((i + 1 : ℕ) / 100 : ℝ), r * Real.exp (-x) ≤
        ∫ x in (i / 100 : ℝ)..((i + 1 : ℕ) / 100 : ℝ), x * anF2 x := by
      apply intervalIntegral.integral_mono_on
      · push_cast; linarith
      · exact (by fun_prop : Continuous fun x : ℝ => r * Real.exp (-x)).intervalIntegrable _ _
      · exact x_anF2_intervalIntegrable _ _ (by positivity) (by positivity)
      · intro x hx
        exact (anF2_cell i A B A' B' x hx.1 hx.2 c1 c3 d2 d4).1
    rw [integral_exp_neg_interval, exp_step] at hfirst
    rw [exp_step] at ih
    set q := Real.exp (-(1 / 100 : ℝ)) with hq
    set E := Real.exp (-(i / 100 : ℝ)) with hE
    have hE0 : 0 < E := Real.exp_pos _
    rw [anLo]
    have k1 : ((anNum 1644900 i B * 10 ^ 12 / anDen (A' + 1) B : ℕ) : ℝ) / 10 ^ 12 ≤ r := by
      have := div_cast_le (anNum 1644900 i B) (anDen (A' + 1) B) (10 ^ 12) (by norm_num)
      rwa [show (((10 ^ 12 : ℕ)) : ℝ) = 10 ^ 12 by norm_num] at this
    set H := anLo Q (i + 1) ((A', B') :: l) with hH
    have k2 : ((Q * H / 10 ^ 9 : ℕ) : ℝ) / 10 ^ 12 ≤ q * (H / 10 ^ 12) := by
      have h1 : ((Q * H / 10 ^ 9 : ℕ) : ℝ) ≤ (Q * H : ℝ) / 10 ^ 9 := by
        refine Nat.cast_div_le.trans (le_of_eq ?_); push_cast; ring
      have h2 : (Q / 10 ^ 9 : ℝ) * (H / 10 ^ 12) ≤ q * (H / 10 ^ 12) := mul_le_mul_of_nonneg_right hQ (by positivity)
      refine le_trans ?_ h2
      rw [div_le_iff₀ (by positivity)]
      refine h1.trans (le_of_eq ?_)
      field_simp
    rw [Nat.cast_add, add_div]
    have k3 := mul_le_mul_of_nonneg_right (add_le_add k1 k2) (mul_nonneg (by linarith : 0 ≤ 1 - q) hE0.le)
    generalize ((anNum 1644900 i B * 10 ^ 12 / anDen (A' + 1) B : ℕ) : ℝ) / 10 ^ 12 = u at *
    generalize ((Q * H / 10 ^ 9 : ℕ) : ℝ) / 10 ^ 12 = v at *
    linarith

theorem le_anHi (Q : ℕ) (hQ : Real.exp (-(1 / 100 : ℝ)) ≤ (Q / 10 ^ 9 : ℝ)) (l : List (ℕ × ℕ)) (p : ℕ × ℕ) (i : ℕ)
    (h : anCheck i (p :: l) = true) :
    ∫ x in (i / 100 : ℝ)..((i + l.length : ℕ) / 100 : ℝ), x * anF2 x ≤
    (anHi Q i (p :: l) / 10 ^ 12 : ℝ) * (1 - Real.exp (-(1 / 100 : ℝ))) * Real.exp (-(i / 100 : ℝ)) := by
  have hq1 : Real.exp (-(1 / 100 : ℝ)) ≤ 1 := Real.exp_le_one_iff.2 (by norm_num)
  induction l generalizing i p with
  | nil => simp [anHi]
  | cons p' l ih =>
    obtain ⟨A, B⟩ := p
    obtain ⟨A', B'⟩ := p'
    obtain ⟨c1, c2, c3, c4, c5⟩ := anCheck_cons h
    obtain ⟨d1, d2, d3, d4, -⟩ := anCheck_cons c5
    have ih := ih (A', B') (i + 1) c5
    simp only [List.length_cons]
    have hlen : i + 1 + l.length = i + (l.length + 1) := by omega
    rw [hlen] at ih
    rw [← intervalIntegral.integral_add_adjacent_intervals (b := ((i + 1 : ℕ) / 100 : ℝ))
      (x_anF2_intervalIntegrable _ _ (by positivity) (by positivity)) (x_anF2_intervalIntegrable _ _ (by positivity) (by positivity))]
    set r : ℝ := (anNum 1644935 (i + 1) (B' + 1) / anDen A (B' + 1) : ℝ) with hr
    have hfirst : ∫ x in (i / 100 : ℝ)..((i + 1 : ℕ) / 100 : ℝ), x * anF2 x ≤
        ∫ x in (i / 100 : ℝ)..((i + 1 : ℕ) / 100 : ℝ), r * Real.exp (-x) := by
      apply intervalIntegral.integral_mono_on
      · push_cast; linarith
      · exact x_anF2_intervalIntegrable _ _ (by positivity) (by positivity)
      · exact (by fun_prop : Continuous fun x : ℝ => r * Real.exp (-x)).intervalIntegrable _ _
      · intro x hx
        exact (anF2_cell i A B A' B' x hx.1 hx.2 c1 c3 d2 d4).2
    rw [integral_exp_neg_interval, exp_step] at hfirst
    rw [exp_step] at ih
    set q := Real.exp (-(1 / 100 : ℝ)) with hq
    set E := Real.exp (-(i / 100 : ℝ)) with hE
    have hE0 : 0 < E := Real.exp_pos _
    rw [anHi]
    have k1 : r ≤ (((anNum 1644935 (i + 1) (B' + 1) * 10 ^ 12 / anDen A (B' + 1) : ℕ) : ℝ) + 1) / 10 ^ 12 := by
      have := le_div_cast (anNum 1644935 (i + 1) (B' + 1)) (anDen A (B' + 1)) (10 ^ 12) (anDen_pos _ _)
        (by norm_num)
      rwa [show (((10 ^ 12 : ℕ)) : ℝ) = 10 ^ 12 by norm_num] at this
    set H := anHi Q (i + 1) ((A', B') :: l) with hH
    have k2 : q * (H / 10 ^ 12) ≤ (((Q * H / 10 ^ 9 : ℕ) : ℝ) + 1) / 10 ^ 12 := by
      have h1 : (Q * H : ℝ) / 10 ^ 9 ≤ ((Q * H / 10 ^ 9 : ℕ) : ℝ) + 1 := by
        have := (Nat.lt_div_mul_add (a := Q * H) (b := 10 ^ 9) (by norm_num)).le
        have : ((Q * H : ℕ) : ℝ) ≤ ((Q * H / 10 ^ 9 : ℕ) : ℝ) * 10 ^ 9 + 10 ^ 9 := by exact_mod_cast this
        push_cast at this ⊢
        rw [div_le_iff₀ (by norm_num)]
        linarith
      have h2 : q * (H / 10 ^ 12) ≤ (Q / 10 ^ 9 : ℝ) * (H / 10 ^ 12) := mul_le_mul_of_nonneg_right hQ (by positivity)
      refine h2.trans ?_
      rw [le_div_iff₀ (by positivity)]
      refine le_trans (le_of_eq ?_) h1
      field_simp
    have e : (((anNum 1644935 (i + 1) (B' + 1) * 10 ^ 12 / anDen A (B' + 1) + 1 + Q * H / 10 ^ 9 + 1 : ℕ) : ℝ)) / 10 ^ 12 =
        (((anNum 1644935 (i + 1) (B' + 1) * 10 ^ 12 / anDen A (B' + 1) : ℕ) : ℝ) + 1) / 10 ^ 12 +
          (((Q * H / 10 ^ 9 : ℕ) : ℝ) + 1) / 10 ^ 12 := by
      rw [Nat.cast_add, Nat.cast_add, Nat.cast_add]; push_cast; ring
    rw [e]
    have k3 := mul_le_mul_of_nonneg_right (add_le_add k1 k2) (mul_nonneg (by linarith : 0 ≤ 1 - q) hE0.le)
    generalize (((anNum 1644935 (i + 1) (B' + 1) * 10 ^ 12 / anDen A (B' + 1) : ℕ) : ℝ) + 1) / 10 ^ 12 = u at *
    generalize (((Q * H / 10 ^ 9 : ℕ) : ℝ) + 1) / 10 ^ 12 = v at *
    linarith

theorem anLo_value : 216442000000000 ≤ anLo 990049833 0 anTable := by decide +kernel
theorem anHi_value : anHi 990049834 0 anTable ≤ 219474000000000 := by decide +kernel

theorem anF2_bounds (x : ℝ) (hx : 0 ≤ x) : 0 ≤ anF2 x ∧ anF2 x ≤ (1.645 + x) * Real.exp (-x) :=
  F12_le _ _ _ _ x hx (by norm_num) (by norm_num)

theorem anF1_bounds (x : ℝ) (hx : 0 ≤ x) : 0 ≤ anF1 x ∧ anF1 x ≤ (1.645 + x) * Real.exp (-x) :=
  F12_le _ _ _ _ x hx (by norm_num) (by norm_num)

theorem anF2_measurable : Measurable anF2 := by
  unfold anF2 Spec.F12 Spec.gFactor; fun_prop

theorem anF1_measurable : Measurable anF1 := by
  unfold anF1 Spec.F12 Spec.gFactor; fun_prop

theorem pow_beam_integrable (k : ℕ) : IntegrableOn (fun x : ℝ => x ^ k * ((1.645 + x) * Real.exp (-x))) (Set.Ioi 0) := by
  have h : IntegrableOn ((fun x : ℝ => 1.645 * (x ^ k * Real.exp (-x))) + fun x => x ^ (k + 1) * Real.exp (-x)) (Set.Ioi 0) :=
    ((rpow_exp_integrable k).const_mul 1.645).add (rpow_exp_integrable (k + 1))
  refine h.congr_fun (fun x _ => ?_) measurableSet_Ioi
  simp only [Pi.add_apply]
  ring

theorem pow_anF2_integrable (k : ℕ) : IntegrableOn (fun x => x ^ k * anF2 x) (Set.Ioi 0) := by
  apply Integrable.mono' (pow_beam_integrable k)
    ((measurable_id.pow_const k).mul anF2_measurable).aestronglyMeasurable
  filter_upwards [ae_restrict_mem measurableSet_Ioi] with x hx
  have hx : (0:ℝ) < x := hx
  obtain ⟨h0, h1⟩ := anF2_bounds x hx.le
  rw [Real.norm_of_nonneg (by simp only [Pi.mul_apply, Pi.pow_apply, id]; positivity)]
  simp only [Pi.mul_apply, Pi.pow_apply, id]
  exact mul_le_mul_of_nonneg_left h1 (by positivity)

theorem x_anF2_integrable : IntegrableOn (fun x => x * anF2 x) (Set.Ioi 0) := by
  simpa using pow_anF2_integrable 1

theorem anF2_second : ∫ x in Set.Ioi 0, x ^ 2 * anF2 x ≤ 9.29 := by
  have h2 : ∫ x in Set.Ioi 0, x ^ 2 * anF2 x ≤ ∫ x in Set.Ioi 0, (1.645 * ((x:ℝ) ^ 2 * Real.exp (-x)) + (x:ℝ) ^ 3 * Real.exp (-x)) := by
    apply setIntegral_mono_on (pow_anF2_integrable 2)
      (((rpow_exp_integrable 2).const_mul _).add (rpow_exp_integrable 3)) measurableSet_Ioi
    intro x hx
    have hx : (0:ℝ) < x := hx
    calc x ^ 2 * anF2 x ≤ x ^ 2 * ((1.645 + x) * Real.exp (-x)) :=
          mul_le_mul_of_nonneg_left (anF2_bounds x hx.le).2 (by positivity)
      _ = _ := by simp only [Pi.add_apply]; ring
  rw [integral_add ((rpow_exp_integrable 2).const_mul _) (rpow_exp_integrable 3), integral_const_mul, rpow_exp_integral,
    rpow_exp_integral] at h2
  norm_num [Nat.factorial] at h2 ⊢
  linarith

/-- **The first moment of `F₂`.** -/
theorem anF2_moment : 2.1536 ≤ ∫ x in Set.Ioi 0, x * anF2 x ∧ ∫ x in Set.Ioi 0, x * anF2 x ≤ 2.1851 := by
  have hsplit : ∫ x in Set.Ioi 0, x * anF2 x = (∫ x in (0:ℝ)..12, x * anF2 x) + ∫ x in Set.Ioi 12, x * anF2 x := by
    rw [← intervalIntegral.integral_interval_add_Ioi x_anF2_integrable
      (x_anF2_integrable.mono_set (Set.Ioi_subset_Ioi (by norm_num : (0:ℝ) ≤ 12)))]
  have htail0 : 0 ≤ ∫ x in Set.Ioi 12, x * anF2 x :=
    setIntegral_nonneg measurableSet_Ioi (fun x hx => by
      have : (12:ℝ) < x := hx
      exact mul_nonneg (by linarith) (anF2_bounds x (by linarith)).1)
  have htail : ∫ x in Set.Ioi 12, x * anF2 x ≤ 196.8 * Real.exp (-12) := by
    have hi : IntegrableOn (fun x : ℝ => 164 * Real.exp (-2) * Real.exp (-(5 / 6) * x)) (Set.Ioi 12) :=
      (integrableOn_exp_mul_Ioi (show (-(5 / 6):ℝ) < 0 by norm_num) 12).const_mul _
    calc _ ≤ ∫ x in Set.Ioi 12, 164 * Real.exp (-2) * Real.exp (-(5 / 6) * x) := by
          apply setIntegral_mono_on (x_anF2_integrable.mono_set (Set.Ioi_subset_Ioi (by norm_num))) hi measurableSet_Ioi
          intro x hx
          have hx : (12:ℝ) < x := hx
          have h1 : x / 12 ≤ Real.exp (x / 12 - 1) := by
            have := Real.add_one_le_exp (x / 12 - 1); linarith
          have h3 : x ≤ 12 * Real.exp (x / 12 - 1) := by linarith
          have h4 : 1.645 + x ≤ 13.645 * Real.exp (x / 12 - 1) := by norm_num; linarith
          have h5 : x * (1.645 + x) ≤ 12 * Real.exp (x / 12 - 1) * (13.645 * Real.exp (x / 12 - 1)) :=
            mul_le_mul h3 h4 (by linarith) (by positivity)
          calc x * anF2 x ≤ x * ((1.645 + x) * Real.exp (-x)) :=
                mul_le_mul_of_nonneg_left (anF2_bounds x (by linarith)).2 (by linarith)
            _ = x * (1.645 + x) * Real.exp (-x) := by ring
            _ ≤ 12 * Real.exp (x / 12 - 1) * (13.645 * Real.exp (x / 12 - 1)) * Real.exp (-x) :=
                mul_le_mul_of_nonneg_right h5 (Real.exp_pos _).le
            _ = 163.74 * (Real.exp (x / 12 - 1) * Real.exp (x / 12 - 1) * Real.exp (-x)) := by ring
            _ ≤ 164 * (Real.exp (x / 12 - 1) * Real.exp (x / 12 - 1) * Real.exp (-x)) :=
                mul_le_mul_of_nonneg_right (by norm_num) (by positivity)
            _ = 164 * (Real.exp (-2) * Real.exp (-(5 / 6) * x)) := by
                congr 1
                rw [← Real.exp_add, ← Real.exp_add, ← Real.exp_add]; congr 1; ring
            _ = _ := by ring
      _ = _ := by
          rw [integral_const_mul, integral_exp_mul_Ioi (show (-(5 / 6):ℝ) < 0 by norm_num),
            show (-12:ℝ) = -2 + -(5 / 6) * 12 by norm_num, Real.exp_add]
          ring
  have he12 : Real.exp (-12) ≤ 0.00000616 := by
    have h1 : Real.exp (-12) = Real.exp (-1) ^ 12 := by rw [← Real.exp_nat_mul]; norm_num
    have h2 : Real.exp (-1) ≤ 0.36788 := by linarith [Real.exp_neg_one_lt_d9]
    rw [h1]
    exact (pow_le_pow_left₀ (Real.exp_pos _).le h2 12).trans (by norm_num)
  obtain ⟨q1, q2⟩ := exp_hundredth
  obtain ⟨p, l, htab, hl⟩ : ∃ p l, anTable = p :: l ∧ l.length = 1200 := by
    have h := anTable_length
    generalize anTable = t at h
    cases t with
    | nil => simp at h
    | cons p l => exact ⟨p, l, rfl, by rw [List.length_cons] at h; omega⟩
  have hch := anTable_check
  rw [htab] at hch
  have hlo := anLo_le 990049833 (by norm_num; linarith) l p 0 hch
  have hhi := le_anHi 990049834 (by norm_num; linarith) l p 0 hch
  rw [← htab, hl] at hlo hhi
  rw [show ((0:ℕ):ℝ) / 100 = 0 by norm_num, show ((0 + 1200 : ℕ) : ℝ) / 100 = 12 by norm_num, neg_zero, Real.exp_zero,
    mul_one] at hlo hhi
  have v1 : (216442000000000 : ℝ) ≤ anLo 990049833 0 anTable := by exact_mod_cast anLo_value
  have v2 : (anHi 990049834 0 anTable : ℝ) ≤ 219474000000000 := by exact_mod_cast anHi_value
  have w1 : 216.442 ≤ (anLo 990049833 0 anTable : ℝ) / 10 ^ 12 := by rw [le_div_iff₀ (by norm_num)]; linarith
  have w2 : (anHi 990049834 0 anTable : ℝ) / 10 ^ 12 ≤ 219.474 := by rw [div_le_iff₀ (by norm_num)]; linarith
  have w3 : 0 ≤ (anHi 990049834 0 anTable : ℝ) / 10 ^ 12 := div_nonneg (Nat.cast_nonneg _) (by norm_num)
  rw [hsplit]
  clear v1 v2 hch htab hl
  generalize (anLo 990049833 0 anTable : ℝ) / 10 ^ 12 = A at *
  generalize (anHi 990049834 0 anTable : ℝ) / 10 ^ 12 = B at *
  generalize Real.exp (-(1 / 100 : ℝ)) = q at *
  have h1 : 216.442 * (1 - 0.990049834) ≤ A * (1 - q) := mul_le_mul w1 (by linarith) (by norm_num) (by linarith)
  have h2 : B * (1 - q) ≤ 219.474 * (1 - 0.990049833) := mul_le_mul w2 (by linarith) (by linarith) (by norm_num)
  norm_num at h1 h2 he12 htail ⊢
  constructor <;> linarith

end Naima.Props
