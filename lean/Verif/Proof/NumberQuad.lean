import Verif.Proof.BeamQuad

/-! # The integrals of the two inverse Compton functions `F₄` and `F₂`, from the tables of `ICQuad` and `BeamQuad` -/

namespace Naima.Props

open Naima Classical MeasureTheory

/-! ### Sums of cells -/

/-- weighted sum of cells, rounded down: `n₀ + q n₁ + q² n₂ + …` with `q = Q / 10^9` -/
def expSumLo (Q : ℕ) : List ℕ → ℕ
  | [] => 0
  | n :: l => n + Q * expSumLo Q l / 10 ^ 9

/-- weighted sum of cells, rounded up -/
def expSumHi (Q : ℕ) : List ℕ → ℕ
  | [] => 0
  | n :: l => n + (Q * expSumHi Q l / 10 ^ 9 + 1)

/-- on the cells from `i/100` on, `f` is at least `n / 10^12 · exp (-x)` -/
def CellsLo (f : ℝ → ℝ) : ℕ → List ℕ → Prop
  | _, [] => True
  | i, n :: l => (∀ x ∈ Set.Icc (i / 100 : ℝ) ((i + 1 : ℕ) / 100), (n / 10 ^ 12 : ℝ) * Real.exp (-x) ≤ f x) ∧ CellsLo f (i + 1) l

/-- … at most … -/
def CellsHi (f : ℝ → ℝ) : ℕ → List ℕ → Prop
  | _, [] => True
  | i, n :: l => (∀ x ∈ Set.Icc (i / 100 : ℝ) ((i + 1 : ℕ) / 100), f x ≤ (n / 10 ^ 12 : ℝ) * Real.exp (-x)) ∧ CellsHi f (i + 1) l

theorem cell_integrable {f : ℝ → ℝ} (hf : ContinuousOn f (Set.Ici 0)) (a b : ℝ) (ha : 0 ≤ a) (hb : 0 ≤ b) :
    IntervalIntegrable f volume a b := by
  apply ContinuousOn.intervalIntegrable
  apply hf.mono
  intro x hx
  rw [Set.mem_uIcc] at hx
  rcases hx with h | h
  · exact ha.trans h.1
  · exact hb.trans h.1

theorem expSumLo_le {f : ℝ → ℝ} (hf : ContinuousOn f (Set.Ici 0)) (Q : ℕ) (hQ : (Q / 10 ^ 9 : ℝ) ≤ Real.exp (-(1 / 100 : ℝ)))
    (l : List ℕ) (i : ℕ) (h : CellsLo f i l) :
    (expSumLo Q l / 10 ^ 12 : ℝ) * (1 - Real.exp (-(1 / 100 : ℝ))) * Real.exp (-(i / 100 : ℝ)) ≤
      ∫ x in (i / 100 : ℝ)..((i + l.length : ℕ) / 100 : ℝ), f x := by
  have hq1 : Real.exp (-(1 / 100 : ℝ)) ≤ 1 := Real.exp_le_one_iff.2 (by norm_num)
  induction l generalizing i with
  | nil => simp [expSumLo]
  | cons n l ih =>
    obtain ⟨c, h'⟩ := h
    have ih := ih (i + 1) h'
    simp only [List.length_cons]
    have hlen : i + 1 + l.length = i + (l.length + 1) := by omega
    rw [hlen] at ih
    rw [← intervalIntegral.integral_add_adjacent_intervals (b := ((i + 1 : ℕ) / 100 : ℝ))
      (cell_integrable hf _ _ (by positivity) (by positivity)) (cell_integrable hf _ _ (by positivity) (by positivity))]
    have hfirst : ∫ x in (i / 100 : ℝ)..((i + 1 : ℕ) / 100 : ℝ), (n / 10 ^ 12 : ℝ) * Real.exp (-x) ≤
        ∫ x in (i / 100 : ℝ)..((i + 1 : ℕ) / 100 : ℝ), f x := by
      apply intervalIntegral.integral_mono_on
      · push_cast; linarith
      · exact (by fun_prop : Continuous fun x : ℝ => (n / 10 ^ 12 : ℝ) * Real.exp (-x)).intervalIntegrable _ _
      · exact cell_integrable hf _ _ (by positivity) (by positivity)
      · exact c
    rw [integral_exp_neg_interval, exp_step] at hfirst
    rw [exp_step] at ih
    set q := Real.exp (-(1 / 100 : ℝ)) with hq
    set E := Real.exp (-(i / 100 : ℝ)) with hE
    have hE0 : 0 < E := Real.exp_pos _
    rw [expSumLo]
    set H := expSumLo Q l with hH
    have k2 : ((Q * H / 10 ^ 9 : ℕ) : ℝ) / 10 ^ 12 ≤ q * (H / 10 ^ 12) := by
      have h1 : ((Q * H / 10 ^ 9 : ℕ) : ℝ) ≤ (Q * H : ℝ) / 10 ^ 9 := by
        refine Nat.cast_div_le.trans (le_of_eq ?_); push_cast; ring
      have h2 : (Q / 10 ^ 9 : ℝ) * (H / 10 ^ 12) ≤ q * (H / 10 ^ 12) := mul_le_mul_of_nonneg_right hQ (by positivity)
      refine le_trans ?_ h2
      rw [div_le_iff₀ (by positivity)]
      refine h1.trans (le_of_eq ?_)
      field_simp
    rw [Nat.cast_add, add_div]
    have k3 := mul_le_mul_of_nonneg_right k2 (mul_nonneg (by linarith : 0 ≤ 1 - q) hE0.le)
    generalize ((Q * H / 10 ^ 9 : ℕ) : ℝ) / 10 ^ 12 = v at *
    linarith

theorem le_expSumHi {f : ℝ → ℝ} (hf : ContinuousOn f (Set.Ici 0)) (Q : ℕ) (hQ : Real.exp (-(1 / 100 : ℝ)) ≤ (Q / 10 ^ 9 : ℝ))
    (l : List ℕ) (i : ℕ) (h : CellsHi f i l) :
    ∫ x in (i / 100 : ℝ)..((i + l.length : ℕ) / 100 : ℝ), f x ≤
      (expSumHi Q l / 10 ^ 12 : ℝ) * (1 - Real.exp (-(1 / 100 : ℝ))) * Real.exp (-(i / 100 : ℝ)) := by
  have hq1 : Real.exp (-(1 / 100 : ℝ)) ≤ 1 := Real.exp_le_one_iff.2 (by norm_num)
  induction l generalizing i with
  | nil => simp [expSumHi]
  | cons n l ih =>
    obtain ⟨c, h'⟩ := h
    have ih := ih (i + 1) h'
    simp only [List.length_cons]
    have hlen : i + 1 + l.length = i + (l.length + 1) := by omega
    rw [hlen] at ih
    rw [← intervalIntegral.integral_add_adjacent_intervals (b := ((i + 1 : ℕ) / 100 : ℝ))
      (cell_integrable hf _ _ (by positivity) (by positivity)) (cell_integrable hf _ _ (by positivity) (by positivity))]
    have hfirst : ∫ x in (i / 100 : ℝ)..((i + 1 : ℕ) / 100 : ℝ), f x ≤
        ∫ x in (i / 100 : ℝ)..((i + 1 : ℕ) / 100 : ℝ), (n / 10 ^ 12 : ℝ) * Real.exp (-x) := by
      apply intervalIntegral.integral_mono_on
      · push_cast; linarith
      · exact cell_integrable hf _ _ (by positivity) (by positivity)
      · exact (by fun_prop : Continuous fun x : ℝ => (n / 10 ^ 12 : ℝ) * Real.exp (-x)).intervalIntegrable _ _
      · exact c
    rw [integral_exp_neg_interval, exp_step] at hfirst
    rw [exp_step] at ih
    set q := Real.exp (-(1 / 100 : ℝ)) with hq
    set E := Real.exp (-(i / 100 : ℝ)) with hE
    have hE0 : 0 < E := Real.exp_pos _
    rw [expSumHi]
    set H := expSumHi Q l with hH
    have k2 : q * (H / 10 ^ 12) ≤ ((Q * H / 10 ^ 9 + 1 : ℕ) : ℝ) / 10 ^ 12 := by
      have h1 : (Q * H : ℝ) / 10 ^ 9 ≤ ((Q * H / 10 ^ 9 : ℕ) : ℝ) + 1 := by
        have := (Nat.lt_div_mul_add (a := Q * H) (b := 10 ^ 9) (by norm_num)).le
        have : ((Q * H : ℕ) : ℝ) ≤ ((Q * H / 10 ^ 9 : ℕ) : ℝ) * 10 ^ 9 + 10 ^ 9 := by exact_mod_cast this
        push_cast at this ⊢
        rw [div_le_iff₀ (by norm_num)]
        linarith
      have h2 : q * (H / 10 ^ 12) ≤ (Q / 10 ^ 9 : ℝ) * (H / 10 ^ 12) := mul_le_mul_of_nonneg_right hQ (by positivity)
      refine h2.trans ?_
      rw [le_div_iff₀ (by positivity), Nat.cast_add, Nat.cast_one]
      refine le_trans (le_of_eq ?_) h1
      field_simp
    have e : ((n + (Q * H / 10 ^ 9 + 1) : ℕ) : ℝ) / 10 ^ 12 = n / 10 ^ 12 + ((Q * H / 10 ^ 9 + 1 : ℕ) : ℝ) / 10 ^ 12 := by
      rw [Nat.cast_add, add_div]
    rw [e]
    have k3 := mul_le_mul_of_nonneg_right k2 (mul_nonneg (by linarith : 0 ≤ 1 - q) hE0.le)
    generalize ((Q * H / 10 ^ 9 + 1 : ℕ) : ℝ) / 10 ^ 12 = v at *
    linarith

/-! ### `F₄` -/

theorem icF4_icT0 (x : ℝ) (hx : 0 < x) : icF4 x =
    icT (Real.pi ^ 2 / 6) 1 x (x ^ (0.461 : ℝ)) (x ^ (1.457 : ℝ)) * Real.exp (-x) := by
  have h := icF4_icT x hx.le
  have e : icT (Real.pi ^ 2 / 6) x x (x ^ (0.461 : ℝ)) (x ^ (1.457 : ℝ)) =
      x * icT (Real.pi ^ 2 / 6) 1 x (x ^ (0.461 : ℝ)) (x ^ (1.457 : ℝ)) := by unfold icT; ring
  rw [e, mul_assoc] at h
  exact mul_left_cancel₀ hx.ne' h

def icCells0Lo : ℕ → List (ℕ × ℕ) → List ℕ
  | _, [] => []
  | _, [_] => []
  | i, (_, B) :: (A', B') :: l =>
      (icNum 1644900 100 (i + 1) B * 10 ^ 12 / icDen 1644900 (i + 1) (A' + 1) B) :: icCells0Lo (i + 1) ((A', B') :: l)

def icCells0Hi : ℕ → List (ℕ × ℕ) → List ℕ
  | _, [] => []
  | _, [_] => []
  | i, (A, _) :: (A', B') :: l =>
      (icNum 1644935 100 i (B' + 1) * 10 ^ 12 / icDen 1644935 i A (B' + 1) + 1) :: icCells0Hi (i + 1) ((A', B') :: l)

theorem icF4_zero : icF4 0 = Real.pi ^ 2 / 6 := by
  unfold icF4 Spec.F34 Spec.gFactor
  have h : ∀ r : ℝ, 0 < r → (0:ℝ) ^ r = 0 := fun r hr => Real.zero_rpow hr.ne'
  rw [h 0.461 (by norm_num), h 1.457 (by norm_num)]
  simp

theorem anF2_zero : anF2 0 = Real.pi ^ 2 / 6 := by
  unfold anF2 Spec.F12 Spec.gFactor
  have h : ∀ r : ℝ, 0 < r → (0:ℝ) ^ r = 0 := fun r hr => Real.zero_rpow hr.ne'
  rw [h 0.691 (by norm_num), h 1.668 (by norm_num)]
  simp

theorem icF4_icT0' (x : ℝ) (hx : 0 ≤ x) : icF4 x =
    icT (Real.pi ^ 2 / 6) 1 x (x ^ (0.461 : ℝ)) (x ^ (1.457 : ℝ)) * Real.exp (-x) := by
  rcases hx.eq_or_lt with h | h
  · subst h
    rw [icF4_zero]
    have h : ∀ r : ℝ, 0 < r → (0:ℝ) ^ r = 0 := fun r hr => Real.zero_rpow hr.ne'
    rw [h 0.461 (by norm_num), h 1.457 (by norm_num)]
    simp [icT]
  · exact icF4_icT0 x h

theorem icCells0_ok (l : List (ℕ × ℕ)) (i : ℕ) (h : icCheck i l = true) :
    CellsLo icF4 i (icCells0Lo i l) ∧ CellsHi icF4 i (icCells0Hi i l) := by
  obtain ⟨p1, p2⟩ := pi_sq_six
  induction l generalizing i with
  | nil => exact ⟨trivial, trivial⟩
  | cons p l ih =>
    cases l with
    | nil => exact ⟨trivial, trivial⟩
    | cons p' l =>
      obtain ⟨A, B⟩ := p
      obtain ⟨A', B'⟩ := p'
      obtain ⟨c1, c2, c3, c4, c5⟩ := icCheck_cons h
      obtain ⟨d1, d2, d3, d4, -⟩ := icCheck_cons c5
      have hi : (0:ℝ) ≤ i / 100 := by positivity
      obtain ⟨e1, e2⟩ := ih (i + 1) c5
      refine ⟨⟨?_, e1⟩, ⟨?_, e2⟩⟩ <;> intro x hx
      · have hx0 := hi.trans hx.1
        rw [icF4_icT0' x hx0]
        apply mul_le_mul_of_nonneg_right _ (Real.exp_pos _).le
        have k := div_cast_le (icNum 1644900 100 (i + 1) B) (icDen 1644900 (i + 1) (A' + 1) B) (10 ^ 12) (by norm_num)
        rw [show (((10 ^ 12 : ℕ)) : ℝ) = 10 ^ 12 by norm_num, ← icT_nat] at k
        refine k.trans ?_
        exact icT_mono (by norm_num) (by norm_num; linarith) (by norm_num) (by norm_num) hx0 hx.2 (by positivity)
          ((Real.rpow_le_rpow hx0 hx.2 (by norm_num)).trans d2) (by positivity)
          (c3.trans (Real.rpow_le_rpow hi hx.1 (by norm_num)))
      · have hx0 := hi.trans hx.1
        rw [icF4_icT0' x hx0]
        apply mul_le_mul_of_nonneg_right _ (Real.exp_pos _).le
        have k := le_div_cast (icNum 1644935 100 i (B' + 1)) (icDen 1644935 i A (B' + 1)) (10 ^ 12) (icDen_pos _ _ _ _) (by norm_num)
        rw [show (((10 ^ 12 : ℕ)) : ℝ) = 10 ^ 12 by norm_num, ← icT_nat] at k
        rw [Nat.cast_add, Nat.cast_one]
        refine le_trans ?_ k
        exact icT_mono (by linarith) (by norm_num; linarith) (by norm_num) (by norm_num) hi hx.1 (by positivity)
          (c1.trans (Real.rpow_le_rpow hi hx.1 (by norm_num))) (by positivity)
          ((Real.rpow_le_rpow hx0 hx.2 (by norm_num)).trans d4)

/-! ### `F₂` -/

/-- the factor of `F₂(x)` in front of `exp (-x)` -/
noncomputable def anT0 (P x A B : ℝ) : ℝ := (P + x) * ((1 + 0.534 * B) / (1.330 * A + 1 + 0.534 * B))

theorem anF2_anT0 (x : ℝ) (hx : 0 ≤ x) : anF2 x =
    anT0 (Real.pi ^ 2 / 6) x (x ^ (0.691 : ℝ)) (x ^ (1.668 : ℝ)) * Real.exp (-x) := by
  rcases hx.eq_or_lt with h | h
  · subst h
    rw [anF2_zero]
    have h : ∀ r : ℝ, 0 < r → (0:ℝ) ^ r = 0 := fun r hr => Real.zero_rpow hr.ne'
    rw [h 0.691 (by norm_num), h 1.668 (by norm_num)]
    simp [anT0]
  · have h1 := anF2_anT x hx
    have e : anT (Real.pi ^ 2 / 6) x (x ^ (0.691 : ℝ)) (x ^ (1.668 : ℝ)) =
        x * anT0 (Real.pi ^ 2 / 6) x (x ^ (0.691 : ℝ)) (x ^ (1.668 : ℝ)) := by unfold anT anT0; ring
    rw [e, mul_assoc] at h1
    exact mul_left_cancel₀ h.ne' h1

theorem anT0_mono {P P' x x' A A' B B' : ℝ} (hP : 1 ≤ P) (hPP : P ≤ P') (hx : 0 ≤ x) (hxx : x ≤ x')
    (hA : 0 ≤ A') (hAA : A' ≤ A) (hB : 0 ≤ B) (hBB : B ≤ B') :
    anT0 P x A B ≤ anT0 P' x' A' B' := by
  unfold anT0
  have hA0 := hA.trans hAA
  have hB0 := hB.trans hBB
  have h2 : (1 + 0.534 * B) / (1.330 * A + 1 + 0.534 * B) ≤ (1 + 0.534 * B') / (1.330 * A' + 1 + 0.534 * B') := by
    rw [div_le_div_iff₀ (by positivity) (by positivity)]
    have h3 : A' * (1 + 0.534 * B) ≤ A * (1 + 0.534 * B') := mul_le_mul hAA (by linarith) (by positivity) hA0
    nlinarith
  exact mul_le_mul (by linarith) h2 (by positivity) (by linarith)

def anNum0 (p i B : ℕ) : ℕ := (p + 10 ^ 4 * i) * (10 ^ 8 + 534 * B)
def anDen0 (A B : ℕ) : ℕ := 10 ^ 6 * (1330 * A + 10 ^ 8 + 534 * B)

theorem anDen0_pos (A B : ℕ) : 0 < anDen0 A B := by unfold anDen0; positivity

theorem anT0_nat (p i A B : ℕ) :
    anT0 (p / 10 ^ 6) (i / 100) (A / 10 ^ 5) (B / 10 ^ 5) = anNum0 p i B / anDen0 A B := by
  unfold anT0 anNum0 anDen0
  push_cast
  have h2 : (1.330:ℝ) * (A / 10 ^ 5) + 1 + 0.534 * (B / 10 ^ 5) = (1330 * A + 10 ^ 8 + 534 * B) / 10 ^ 8 := by field_simp; ring
  have h3 : (1:ℝ) + 0.534 * (B / 10 ^ 5) = (10 ^ 8 + 534 * B) / 10 ^ 8 := by field_simp; ring
  have h4 : (p / 10 ^ 6 + i / 100 : ℝ) = (p + 10 ^ 4 * i) / 10 ^ 6 := by field_simp; ring
  rw [h2, h3, h4]
  have : (0:ℝ) < 1330 * A + 10 ^ 8 + 534 * B := by positivity
  field_simp
  ring

def anCells0Lo : ℕ → List (ℕ × ℕ) → List ℕ
  | _, [] => []
  | _, [_] => []
  | i, (_, B) :: (A', B') :: l =>
      (anNum0 1644900 i B * 10 ^ 12 / anDen0 (A' + 1) B) :: anCells0Lo (i + 1) ((A', B') :: l)

def anCells0Hi : ℕ → List (ℕ × ℕ) → List ℕ
  | _, [] => []
  | _, [_] => []
  | i, (A, _) :: (A', B') :: l =>
      (anNum0 1644935 (i + 1) (B' + 1) * 10 ^ 12 / anDen0 A (B' + 1) + 1) :: anCells0Hi (i + 1) ((A', B') :: l)

theorem anCells0_ok (l : List (ℕ × ℕ)) (i : ℕ) (h : anCheck i l = true) :
    CellsLo anF2 i (anCells0Lo i l) ∧ CellsHi anF2 i (anCells0Hi i l) := by
  obtain ⟨p1, p2⟩ := pi_sq_six
  induction l generalizing i with
  | nil => exact ⟨trivial, trivial⟩
  | cons p l ih =>
    cases l with
    | nil => exact ⟨trivial, trivial⟩
    | cons p' l =>
      obtain ⟨A, B⟩ := p
      obtain ⟨A', B'⟩ := p'
      obtain ⟨c1, c2, c3, c4, c5⟩ := anCheck_cons h
      obtain ⟨d1, d2, d3, d4, -⟩ := anCheck_cons c5
      have hi : (0:ℝ) ≤ i / 100 := by positivity
      obtain ⟨e1, e2⟩ := ih (i + 1) c5
      refine ⟨⟨?_, e1⟩, ⟨?_, e2⟩⟩ <;> intro x hx
      · have hx0 := hi.trans hx.1
        rw [anF2_anT0 x hx0]
        apply mul_le_mul_of_nonneg_right _ (Real.exp_pos _).le
        have k := div_cast_le (anNum0 1644900 i B) (anDen0 (A' + 1) B) (10 ^ 12) (by norm_num)
        rw [show (((10 ^ 12 : ℕ)) : ℝ) = 10 ^ 12 by norm_num, ← anT0_nat] at k
        refine k.trans ?_
        exact anT0_mono (by norm_num) (by norm_num; linarith) hi hx.1 (by positivity)
          ((Real.rpow_le_rpow hx0 hx.2 (by norm_num)).trans d2) (by positivity)
          (c3.trans (Real.rpow_le_rpow hi hx.1 (by norm_num)))
      · have hx0 := hi.trans hx.1
        rw [anF2_anT0 x hx0]
        apply mul_le_mul_of_nonneg_right _ (Real.exp_pos _).le
        have k := le_div_cast (anNum0 1644935 (i + 1) (B' + 1)) (anDen0 A (B' + 1)) (10 ^ 12) (anDen0_pos _ _) (by norm_num)
        rw [show (((10 ^ 12 : ℕ)) : ℝ) = 10 ^ 12 by norm_num, ← anT0_nat] at k
        rw [Nat.cast_add, Nat.cast_one]
        refine le_trans ?_ k
        exact anT0_mono (by linarith) (by norm_num; linarith) hx0 hx.2 (by positivity)
          (c1.trans (Real.rpow_le_rpow hi hx.1 (by norm_num))) (by positivity)
          ((Real.rpow_le_rpow hx0 hx.2 (by norm_num)).trans d4)

/-! ### The integrals -/

theorem icCells0Lo_length : (icCells0Lo 0 icTable).length = 1200 := by decide +kernel
theorem icCells0Hi_length : (icCells0Hi 0 icTable).length = 1200 := by decide +kernel
theorem anCells0Lo_length : (anCells0Lo 0 anTable).length = 1200 := by decide +kernel
theorem anCells0Hi_length : (anCells0Hi 0 anTable).length = 1200 := by decide +kernel
theorem icCells0Lo_value : 80071000000000 ≤ expSumLo 990049833 (icCells0Lo 0 icTable) := by decide +kernel
theorem icCells0Hi_value : expSumHi 990049834 (icCells0Hi 0 icTable) ≤ 81071000000000 := by decide +kernel
theorem anCells0Lo_value : 160334000000000 ≤ expSumLo 990049833 (anCells0Lo 0 anTable) := by decide +kernel
theorem anCells0Hi_value : expSumHi 990049834 (anCells0Hi 0 anTable) ≤ 162206000000000 := by decide +kernel

/-- an integral over all `x > 0` from the sums over the cells below 12 and a bound for the rest -/
theorem expSum_integral {f : ℝ → ℝ} (hf : ContinuousOn f (Set.Ici 0)) (hint : IntegrableOn f (Set.Ioi 0))
    (h0 : ∀ x > 0, 0 ≤ f x) (hle : ∀ x > 0, f x ≤ (1.645 + x) * Real.exp (-x)) (lo hi : List ℕ)
    (hlo : CellsLo f 0 lo) (hhi : CellsHi f 0 hi) (nlo : lo.length = 1200) (nhi : hi.length = 1200) (a b : ℝ)
    (ha : a * 10 ^ 12 ≤ expSumLo 990049833 lo) (hb : expSumHi 990049834 hi ≤ b * 10 ^ 12) (ha0 : 0 ≤ a) :
    a * 0.009950166 ≤ ∫ x in Set.Ioi 0, f x ∧ ∫ x in Set.Ioi 0, f x ≤ b * 0.009950167 + 0.0002 := by
  have hsplit : ∫ x in Set.Ioi 0, f x = (∫ x in (0:ℝ)..12, f x) + ∫ x in Set.Ioi 12, f x := by
    rw [← intervalIntegral.integral_interval_add_Ioi hint
      (hint.mono_set (Set.Ioi_subset_Ioi (by norm_num : (0:ℝ) ≤ 12)))]
  have htail0 : 0 ≤ ∫ x in Set.Ioi 12, f x :=
    setIntegral_nonneg measurableSet_Ioi (fun x hx => h0 x (by have : (12:ℝ) < x := hx; linarith))
  have htail : ∫ x in Set.Ioi 12, f x ≤ 15 * Real.exp (-12) := by
    have hi' : IntegrableOn (fun x : ℝ => 13.645 * Real.exp (-1) * Real.exp (-(11 / 12) * x)) (Set.Ioi 12) :=
      (integrableOn_exp_mul_Ioi (show (-(11 / 12):ℝ) < 0 by norm_num) 12).const_mul _
    calc _ ≤ ∫ x in Set.Ioi 12, 13.645 * Real.exp (-1) * Real.exp (-(11 / 12) * x) := by
          apply setIntegral_mono_on (hint.mono_set (Set.Ioi_subset_Ioi (by norm_num))) hi' measurableSet_Ioi
          intro x hx
          have hx : (12:ℝ) < x := hx
          have h1 : x / 12 ≤ Real.exp (x / 12 - 1) := by
            have := Real.add_one_le_exp (x / 12 - 1); linarith
          have h4 : 1.645 + x ≤ 13.645 * Real.exp (x / 12 - 1) := by norm_num; linarith
          calc f x ≤ (1.645 + x) * Real.exp (-x) := hle x (by linarith)
            _ ≤ 13.645 * Real.exp (x / 12 - 1) * Real.exp (-x) := mul_le_mul_of_nonneg_right h4 (Real.exp_pos _).le
            _ = 13.645 * (Real.exp (-1) * Real.exp (-(11 / 12) * x)) := by
                rw [mul_assoc, ← Real.exp_add, ← Real.exp_add]; congr 2; ring
            _ = _ := by ring
      _ = 13.645 * 12 / 11 * Real.exp (-12) := by
          rw [integral_const_mul, integral_exp_mul_Ioi (show (-(11 / 12):ℝ) < 0 by norm_num),
            show (-12:ℝ) = -1 + -(11 / 12) * 12 by norm_num, Real.exp_add]
          ring
      _ ≤ _ := mul_le_mul_of_nonneg_right (by norm_num) (Real.exp_pos _).le
  have he12 : Real.exp (-12) ≤ 0.00000616 := by
    have h1 : Real.exp (-12) = Real.exp (-1) ^ 12 := by rw [← Real.exp_nat_mul]; norm_num
    have h2 : Real.exp (-1) ≤ 0.36788 := by linarith [Real.exp_neg_one_lt_d9]
    rw [h1]
    exact (pow_le_pow_left₀ (Real.exp_pos _).le h2 12).trans (by norm_num)
  obtain ⟨q1, q2⟩ := exp_hundredth
  have hlo := expSumLo_le hf 990049833 (by norm_num; linarith) lo 0 hlo
  have hhi := le_expSumHi hf 990049834 (by norm_num; linarith) hi 0 hhi
  rw [nlo] at hlo
  rw [nhi] at hhi
  rw [show ((0:ℕ):ℝ) / 100 = 0 by norm_num, show ((0 + 1200 : ℕ) : ℝ) / 100 = 12 by norm_num, neg_zero, Real.exp_zero,
    mul_one] at hlo hhi
  have w1 : a ≤ (expSumLo 990049833 lo : ℝ) / 10 ^ 12 := by rw [le_div_iff₀ (by norm_num)]; exact ha
  have w2 : (expSumHi 990049834 hi : ℝ) / 10 ^ 12 ≤ b := by rw [div_le_iff₀ (by norm_num)]; exact hb
  have w3 : 0 ≤ (expSumHi 990049834 hi : ℝ) / 10 ^ 12 := div_nonneg (Nat.cast_nonneg _) (by norm_num)
  rw [hsplit]
  clear ha hb
  generalize (expSumLo 990049833 lo : ℝ) / 10 ^ 12 = A at *
  generalize (expSumHi 990049834 hi : ℝ) / 10 ^ 12 = B at *
  generalize Real.exp (-(1 / 100 : ℝ)) = q at *
  have h1 : a * (1 - 0.990049834) ≤ A * (1 - q) := mul_le_mul w1 (by linarith) (by norm_num) (by linarith)
  have h2 : B * (1 - q) ≤ b * (1 - 0.990049833) := mul_le_mul w2 (by linarith) (by linarith) (by linarith)
  norm_num at h1 h2 he12 htail ⊢
  constructor <;> linarith

theorem icF4_integrable : IntegrableOn icF4 (Set.Ioi 0) := by simpa using pow_icF4_integrable 0
theorem anF2_integrable : IntegrableOn anF2 (Set.Ioi 0) := by simpa using pow_anF2_integrable 0

/-- **The integral of `F₄`.** -/
theorem icF4_area : 0.7967 ≤ ∫ x in Set.Ioi 0, icF4 x ∧ ∫ x in Set.Ioi 0, icF4 x ≤ 0.80688 := by
  obtain ⟨c1, c2⟩ := icCells0_ok icTable 0 icTable_check
  have h := expSum_integral icF4_continuousOn icF4_integrable (fun x hx => (icF4_bounds x (le_of_lt hx)).1)
    (fun x hx => (icF4_bounds x (le_of_lt hx)).2.trans
      (mul_le_mul_of_nonneg_right (by have : 0 < x := hx; linarith) (Real.exp_pos _).le))
    _ _ c1 c2 icCells0Lo_length icCells0Hi_length 80.071 81.071
    (le_trans (by norm_num) (Nat.cast_le (α := ℝ).2 icCells0Lo_value))
    (le_trans (Nat.cast_le (α := ℝ).2 icCells0Hi_value) (by norm_num)) (by norm_num)
  exact ⟨le_trans (by norm_num) h.1, h.2.trans (by norm_num)⟩

/-- **The integral of `F₂`.** -/
theorem anF2_area : 1.5953 ≤ ∫ x in Set.Ioi 0, anF2 x ∧ ∫ x in Set.Ioi 0, anF2 x ≤ 1.6142 := by
  obtain ⟨c1, c2⟩ := anCells0_ok anTable 0 anTable_check
  have h := expSum_integral anF2_continuousOn anF2_integrable (fun x hx => (anF2_bounds x (le_of_lt hx)).1)
    (fun x hx => (anF2_bounds x (le_of_lt hx)).2)
    _ _ c1 c2 anCells0Lo_length anCells0Hi_length 160.334 162.206
    (le_trans (by norm_num) (Nat.cast_le (α := ℝ).2 anCells0Lo_value))
    (le_trans (Nat.cast_le (α := ℝ).2 anCells0Hi_value) (by norm_num)) (by norm_num)
  exact ⟨le_trans (by norm_num) h.1, h.2.trans (by norm_num)⟩

end Naima.Props
