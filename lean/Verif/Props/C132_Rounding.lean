import Verif.Proof.Rounded
import Verif.Spec.Rounded
import Mathlib.Analysis.SpecialFunctions.Log.Deriv
import Mathlib.Analysis.Complex.ExponentialBounds
import Mathlib.Analysis.Convex.SpecificFunctions.Basic

/-! # C132: rounding errors of `trapz_loglog` -/

namespace Naima.Props

open Naima XR Classical Naima.Spec

/-! ## The rounded program is the program -/

/-- The exact operations make no error. -/
theorem C132_exact_accurate : Arith.exact.Accurate 0 := by
  constructor <;> intros <;> simp [Arith.exact]

/-- **C132 (same program).** With exact operations the operation-by-operation version computes the bins of
the model of `trapz_loglog` used everywhere else. -/
theorem C132_same_program (x1 x2 y1 y2 : ℝ) (h1 : 0 < x1) (h12 : x1 < x2) (hy1 : 0 ≤ y1) (hy2 : 0 ≤ y2) :
    trapzBin (fin x1) (fin x2) (fin y1) (fin y2) = fin (flBin Arith.exact x1 x2 y1 y2) := by
  have h2 := h1.trans h12
  have hr : 0 < x2 / x1 := div_pos h2 h1
  unfold trapzBin flBin
  simp only [XR.eqv_fin]
  by_cases hm : y1 = 0 ∨ y2 = 0 ∨ x1 = x2
  · rw [if_pos hm, if_pos hm]
  · rw [if_neg hm, if_neg hm]
    push Not at hm
    have py1 : 0 < y1 := lt_of_le_of_ne hy1 (Ne.symm hm.1)
    have py2 : 0 < y2 := lt_of_le_of_ne hy2 (Ne.symm hm.2.1)
    have hq : 0 < y2 / y1 := div_pos py2 py1
    have hl : Real.logb 10 (x2 / x1) ≠ 0 :=
      (Real.logb_pos (by norm_num) ((one_lt_div h1).2 h12)).ne'
    have hidx : trapzIndex (fin x1) (fin x2) (fin y1) (fin y2) = fin (flIndex Arith.exact x1 x2 y1 y2) := by
      unfold trapzIndex flIndex
      rw [XR.div_fin _ _ py1.ne', XR.div_fin _ _ h1.ne', XR.log10_fin _ hq, XR.log10_fin _ hr, XR.div_fin _ _ hl]
      rfl
    unfold trapzRaw flRaw
    simp only [hidx]
    have hadd : (fin (flIndex Arith.exact x1 x2 y1 y2) + fin 1 : XR) =
        fin (Arith.exact.add (flIndex Arith.exact x1 x2 y1 y2) 1) := rfl
    rw [hadd]
    have habs : XR.abs (fin (Arith.exact.add (flIndex Arith.exact x1 x2 y1 y2) 1)) =
        fin |Arith.exact.add (flIndex Arith.exact x1 x2 y1 y2) 1| := rfl
    rw [habs]
    simp only [XR.lt_fin]
    split_ifs with hc
    · have hne : Arith.exact.add (flIndex Arith.exact x1 x2 y1 y2) 1 ≠ 0 := by
        intro h0
        rw [h0] at hc
        norm_num at hc
      rw [XR.div_fin _ _ h1.ne', XR.pow_fin _ _ hr]
      have e1 : ∀ a b : ℝ, (fin a * fin b : XR) = fin (a * b) := fun _ _ => rfl
      have e2 : ∀ a b : ℝ, (fin a - fin b : XR) = fin (a - b) := fun a b => by
        change fin (a + -b) = _
        rw [sub_eq_add_neg]
      rw [e1, e2, e1, XR.div_fin _ _ hne]
      rfl
    · rw [XR.div_fin _ _ h1.ne', XR.log_fin _ hr]
      rfl

/-! ## One bin -/

theorem local_index_log {p q : ℝ × ℝ} (h1 : 0 < p.1) (h12 : p.1 < q.1) :
    localIndex p q * Real.log (q.1 / p.1) = Real.log (q.2 / p.2) := by
  have : 0 < Real.log (q.1 / p.1) := Real.log_pos ((one_lt_div h1).2 h12)
  unfold localIndex
  field_simp

theorem powerLawIntegral_nonneg {p q : ℝ × ℝ} (h1 : 0 < p.1) (h12 : p.1 < q.1) (hy1 : 0 ≤ p.2) :
    0 ≤ powerLawIntegral p q := by
  unfold powerLawIntegral
  split_ifs
  · exact le_rfl
  · refine intervalIntegral.integral_nonneg h12.le (fun t ht => ?_)
    exact mul_nonneg hy1 (Real.rpow_nonneg (div_nonneg (h1.le.trans ht.1) h1.le) _)

/-- **C132 (one bin).** A bin whose power-law index is not within 1.1e-10 of -1 is integrated with relative
error at most 27 `u` times its amplification, in any arithmetic with relative errors `u`. -/
theorem C132_bin (F : Arith) (u : ℝ) (hF : F.Accurate u) (hu0 : 0 ≤ u) (p q : ℝ × ℝ) (h1 : 0 < p.1)
    (h12 : p.1 < q.1) (hy1 : 0 < p.2) (hy2 : 0 < q.2) (hs : 1.1e-10 ≤ |localIndex p q + 1|)
    (hE : u * amplification p q ≤ 1 / 100) :
    |flBin F p.1 q.1 p.2 q.2 - powerLawIntegral p q| ≤ 27 * (u * amplification p q) * powerLawIntegral p q := by
  have hb := local_index_log (p := p) (q := q) h1 h12
  have hs0 : localIndex p q + 1 ≠ 0 := by
    intro h; rw [h, abs_zero] at hs; norm_num at hs
  have hE' : u * amplification p q = u * (1 + |localIndex p q|) * (1 + Real.log (q.1 / p.1)) *
      (1 + 1 / Real.log (q.1 / p.1)) * (1 + 1 / |localIndex p q + 1|) := by
    unfold amplification; ring
  obtain ⟨g1, g2⟩ := Rounded.pow_branch hF hu0 h1 h12 hy1 hy2 rfl hb hs0 hE' hE
  have hI : powerLawIntegral p q = p.2 * (q.1 * (q.1 / p.1) ^ localIndex p q - p.1) / (localIndex p q + 1) := by
    unfold powerLawIntegral
    rw [if_neg (by push Not; exact ⟨hy1.ne', hy2.ne'⟩), Rounded.integral_bin _ _ h1 h12 hs0]
  have hbr : 1e-10 < |F.add (flIndex F p.1 q.1 p.2 q.2) 1| := by
    have a := abs_sub_abs_le_abs_sub (localIndex p q + 1) (F.add (flIndex F p.1 q.1 p.2 q.2) 1)
    rw [abs_sub_comm] at a
    have h5 : 5.3 * (u * amplification p q) * |localIndex p q + 1| ≤ 5.3 * (1 / 100) * |localIndex p q + 1| :=
      mul_le_mul_of_nonneg_right (by linarith) (abs_nonneg _)
    norm_num at hs ⊢
    linarith
  rw [← hI, abs_of_nonneg (powerLawIntegral_nonneg h1 h12 hy1.le)] at g2
  unfold flBin flRaw
  rw [if_neg (by push Not; exact ⟨hy1.ne', hy2.ne', h12.ne⟩)]
  simp only
  rw [if_pos hbr]
  exact g2

/-- **C132 (index near -1).** Whatever the index, equal or arbitrarily close to -1, and whichever of the
two formulas the rounded index selects: the relative error stays below `4e11 u (1+|b|)(1+L)(1+1/L) + 2e-10 L`. -/
theorem C132_bin_any_index (F : Arith) (u : ℝ) (hF : F.Accurate u) (hu0 : 0 ≤ u) (p q : ℝ × ℝ) (h1 : 0 < p.1)
    (h12 : p.1 < q.1) (hy1 : 0 < p.2) (hy2 : 0 < q.2) (L E : ℝ) (hL : L = Real.log (q.1 / p.1))
    (hE : E = u * (1 + |localIndex p q|) * (1 + L) * (1 + 1 / L)) (hE1 : E ≤ 1e-13) (hL1 : L ≤ 1e6) :
    |flBin F p.1 q.1 p.2 q.2 - powerLawIntegral p q| ≤ (4e11 * E + 2e-10 * L) * powerLawIntegral p q := by
  have hb := local_index_log (p := p) (q := q) h1 h12
  rw [← hL] at hb
  have hL0 : 0 < L := by rw [hL]; exact Real.log_pos ((one_lt_div h1).2 h12)
  have hI0 := powerLawIntegral_nonneg (q := q) h1 h12 hy1.le
  have hη : u * (1 + |localIndex p q|) * (1 + 1 / L) ≤ E := by
    rw [hE]
    have : 0 ≤ u * (1 + |localIndex p q|) * (1 + 1 / L) * L := by positivity
    nlinarith
  have hκ : u * (1 + |localIndex p q|) * (1 + 1 / L) * L ≤ E := by
    rw [hE]
    have : 0 ≤ u * (1 + |localIndex p q|) * (1 + 1 / L) := by positivity
    nlinarith
  have hE0 : 0 ≤ E := by rw [hE]; positivity
  have hηn : 0 ≤ u * (1 + |localIndex p q|) * (1 + 1 / L) := by positivity
  generalize hηd : u * (1 + |localIndex p q|) * (1 + 1 / L) = η at hη hκ hηn
  obtain ⟨-, -, -, -, -, hc⟩ := Rounded.index_bound hF hu0 h1 h12 hy1 hy2 hL hb hηd.symm (by norm_num at hE1 ⊢; linarith)
  have hcs := abs_sub_abs_le_abs_sub (F.add (flIndex F p.1 q.1 p.2 q.2) 1) (localIndex p q + 1)
  have hsc := abs_sub_abs_le_abs_sub (localIndex p q + 1) (F.add (flIndex F p.1 q.1 p.2 q.2) 1)
  rw [abs_sub_comm (localIndex p q + 1)] at hsc
  have hE2 : E ≤ 1 / 10000000000000 := by norm_num at hE1 ⊢; linarith
  have hlarge : 4e11 * E = 400000000000 * E := by norm_num
  have hsmall : (2e-10 : ℝ) * L = L / 5000000000 := by ring
  rw [hlarge, hsmall]
  unfold flBin flRaw
  rw [if_neg (by push Not; exact ⟨hy1.ne', hy2.ne', h12.ne⟩)]
  simp only
  by_cases hbr : 1e-10 < |F.add (flIndex F p.1 q.1 p.2 q.2) 1|
  · rw [if_pos hbr]
    have hbr' : (1 : ℝ) / 10000000000 < |F.add (flIndex F p.1 q.1 p.2 q.2) 1| := by norm_num at hbr ⊢; exact hbr
    have hσ : (9 : ℝ) / 100000000000 ≤ |localIndex p q + 1| := by linarith
    have hσ0 : 0 < |localIndex p q + 1| := by linarith
    have hs0 : localIndex p q + 1 ≠ 0 := abs_pos.1 hσ0
    have hinv : 1 / |localIndex p q + 1| ≤ 11200000000 := by
      rw [div_le_iff₀ hσ0]; linarith
    have hEE : E * (1 + 1 / |localIndex p q + 1|) ≤ 11300000000 * E := by
      rw [mul_comm]; exact mul_le_mul_of_nonneg_right (by linarith) hE0
    obtain ⟨-, g2⟩ := Rounded.pow_branch hF hu0 h1 h12 hy1 hy2 hL hb hs0
      (E := E * (1 + 1 / |localIndex p q + 1|)) (by rw [hE]) (by linarith)
    have hI : powerLawIntegral p q = p.2 * (q.1 * (q.1 / p.1) ^ localIndex p q - p.1) / (localIndex p q + 1) := by
      unfold powerLawIntegral
      rw [if_neg (by push Not; exact ⟨hy1.ne', hy2.ne'⟩), Rounded.integral_bin _ _ h1 h12 hs0]
    rw [← hI, abs_of_nonneg hI0] at g2
    refine g2.trans (mul_le_mul_of_nonneg_right ?_ hI0)
    linarith
  · rw [if_neg hbr]
    have hbr' : |F.add (flIndex F p.1 q.1 p.2 q.2) 1| ≤ 1 / 10000000000 := by norm_num at hbr ⊢; exact hbr
    have hσ : |localIndex p q + 1| ≤ 1 / 10000000000 + 5.3 * η := by linarith
    have ht : |(localIndex p q + 1) * L| ≤ L / 10000000000 + 5.3 * E := by
      rw [abs_mul, abs_of_pos hL0]
      have := mul_le_mul_of_nonneg_right hσ hL0.le
      linarith
    have hL2 : L ≤ 1000000 := by norm_num at hL1; exact hL1
    have ht1 : |(localIndex p q + 1) * L| ≤ 1 / 1000 := by linarith
    have hI : powerLawIntegral p q = ∫ t in p.1..q.1, p.2 * (t / p.1) ^ localIndex p q := by
      unfold powerLawIntegral
      rw [if_neg (by push Not; exact ⟨hy1.ne', hy2.ne'⟩)]
    have hnear := Rounded.integral_near h1 h12 hy1 hL (b := localIndex p q) (by linarith)
    rw [← hI] at hnear
    have g := Rounded.log_branch hF hu0 h1 h12 hy1 hy2 hL hb hηd.symm (by linarith) hnear
    have hA : 0 < p.1 * p.2 * L := by positivity
    generalize p.1 * p.2 * L = A at hnear g hA
    have hAI : A ≤ 1.01 * powerLawIntegral p q := by
      have := (abs_le.1 hnear).1
      nlinarith
    refine g.trans ?_
    have h6 : 5.2 * η + |(localIndex p q + 1) * L| ≤ 10.5 * E + L / 10000000000 := by linarith
    have h7 : 0 ≤ 10.5 * E + L / 10000000000 := by positivity
    calc (5.2 * η + |(localIndex p q + 1) * L|) * A ≤ (10.5 * E + L / 10000000000) * A :=
          mul_le_mul_of_nonneg_right h6 hA.le
      _ ≤ (10.5 * E + L / 10000000000) * (1.01 * powerLawIntegral p q) := mul_le_mul_of_nonneg_left hAI h7
      _ = (10.605 * E + 1.01 * L / 10000000000) * powerLawIntegral p q := by ring
      _ ≤ _ := mul_le_mul_of_nonneg_right (by linarith) hI0

/-! ## The whole integral -/

theorem flBin_zero (F : Arith) (p q : ℝ × ℝ) (h : p.2 = 0 ∨ q.2 = 0) :
    flBin F p.1 q.1 p.2 q.2 = 0 ∧ powerLawIntegral p q = 0 := by
  constructor
  · unfold flBin; rw [if_pos (by tauto)]
  · unfold powerLawIntegral; rw [if_pos h]

/-- bins with relative error `e` -/
theorem bins_error (F : Arith) (e : ℝ) (he : 0 ≤ e) (P : ℝ × ℝ → ℝ × ℝ → Prop)
    (hP : ∀ p q : ℝ × ℝ, 0 < p.1 → p.1 < q.1 → 0 < p.2 → 0 < q.2 → P p q →
      |flBin F p.1 q.1 p.2 q.2 - powerLawIntegral p q| ≤ e * powerLawIntegral p q) :
    ∀ pts : List (ℝ × ℝ), Samples pts → EveryBin P pts →
      0 ≤ joinedIntegral pts ∧ |(flIntervals F pts).sum - joinedIntegral pts| ≤ e * joinedIntegral pts ∧
      ((flIntervals F pts).map (fun x => |x|)).sum ≤ (1 + e) * joinedIntegral pts
  | [], _, _ => by simp [flIntervals, joinedIntegral]
  | [p], _, _ => by simp [flIntervals, joinedIntegral]
  | p :: q :: rest, hs, hb => by
    obtain ⟨⟨h1, h12, hy1, hy2⟩, hs'⟩ := hs
    obtain ⟨hb1, hb'⟩ := hb
    obtain ⟨i1, i2, i3⟩ := bins_error F e he P hP (q :: rest) hs' hb'
    have hI0 := powerLawIntegral_nonneg (q := q) h1 h12 hy1
    have hbin : |flBin F p.1 q.1 p.2 q.2 - powerLawIntegral p q| ≤ e * powerLawIntegral p q := by
      by_cases hz : p.2 = 0 ∨ q.2 = 0
      · obtain ⟨z1, z2⟩ := flBin_zero F p q hz
        rw [z1, z2]; simp
      · push Not at hz
        have p1 := lt_of_le_of_ne hy1 (Ne.symm hz.1)
        have p2 := lt_of_le_of_ne hy2 (Ne.symm hz.2)
        exact hP p q h1 h12 p1 p2 (hb1 p1 p2)
    simp only [flIntervals, joinedIntegral, List.sum_cons, List.map_cons]
    refine ⟨add_nonneg hI0 i1, ?_, ?_⟩
    · have := abs_add_le (flBin F p.1 q.1 p.2 q.2 - powerLawIntegral p q)
        ((flIntervals F (q :: rest)).sum - joinedIntegral (q :: rest))
      rw [show flBin F p.1 q.1 p.2 q.2 + (flIntervals F (q :: rest)).sum -
        (powerLawIntegral p q + joinedIntegral (q :: rest)) =
        flBin F p.1 q.1 p.2 q.2 - powerLawIntegral p q +
        ((flIntervals F (q :: rest)).sum - joinedIntegral (q :: rest)) by ring]
      linarith
    · have := abs_add_le (flBin F p.1 q.1 p.2 q.2 - powerLawIntegral p q) (powerLawIntegral p q)
      rw [sub_add_cancel, abs_of_nonneg hI0] at this
      linarith

/-- **C132 (integral).** For samples of any number, in any arithmetic with relative errors `u`, added up in
any order: if in every bin with positive samples the index is not within 1.1e-10 of -1 and `u` times the
amplification is at most `ε`, the result of `trapz_loglog` has relative error at most
`27 ε + (1 + 27 ε)((1+u)^d - 1)`, with `d` the depth of the additions. -/
theorem C132_integral (F : Arith) (u ε : ℝ) (hF : F.Accurate u) (hu0 : 0 ≤ u) (hε0 : 0 ≤ ε) (hε : ε ≤ 1 / 100)
    (pts : List (ℝ × ℝ)) (hs : Samples pts)
    (hb : EveryBin (fun p q => 1.1e-10 ≤ |localIndex p q + 1| ∧ u * amplification p q ≤ ε) pts)
    (t : SumTree) (ht : t.leaves = flIntervals F pts) :
    |t.value F - joinedIntegral pts| ≤
      (27 * ε + (1 + 27 * ε) * ((1 + u) ^ t.depth - 1)) * joinedIntegral pts := by
  obtain ⟨i1, i2, i3⟩ := bins_error F (27 * ε) (by linarith) _ (fun p q h1 h12 hy1 hy2 hP => by
    have := C132_bin F u hF hu0 p q h1 h12 hy1 hy2 hP.1 (hP.2.trans hε)
    refine this.trans (mul_le_mul_of_nonneg_right ?_ (powerLawIntegral_nonneg h1 h12 hy1.le))
    linarith [hP.2]) pts hs hb
  have hv := Rounded.tree_value hF hu0 t
  rw [ht] at hv
  have hp : 0 ≤ (1 + u) ^ t.depth - 1 := by
    have := one_le_pow₀ (n := t.depth) (by linarith : (1 : ℝ) ≤ 1 + u)
    linarith
  have e1 := mul_le_mul_of_nonneg_left i3 hp
  have e2 := abs_add_le (t.value F - (flIntervals F pts).sum) ((flIntervals F pts).sum - joinedIntegral pts)
  rw [sub_add_sub_cancel] at e2
  linarith

theorem pow_small (u : ℝ) (n d : ℕ) (hu0 : 0 ≤ u) (hd : d ≤ n) (x : ℝ) (hx : (n : ℝ) * u ≤ x) (hx1 : x ≤ 1) :
    (1 + u) ^ d - 1 ≤ 2 * x := by
  have h1 : (1 + u) ^ d ≤ (1 + u) ^ n := pow_le_pow_right₀ (by linarith) hd
  have h2 : (1 + u) ^ n ≤ Real.exp x := by
    have := Real.add_one_le_exp u
    calc (1 + u) ^ n ≤ (Real.exp u) ^ n := pow_le_pow_left₀ (by linarith) (by linarith) _
      _ = Real.exp (n * u) := by rw [← Real.exp_nat_mul]
      _ ≤ Real.exp x := Real.exp_le_exp.2 hx
  have hx0 : 0 ≤ x := le_trans (by positivity) hx
  have h3 := Real.abs_exp_sub_one_le (x := x) (by rw [abs_of_nonneg hx0]; exact hx1)
  rw [abs_of_nonneg hx0] at h3
  have h4 := (abs_le.1 h3).2
  linarith

theorem joined_nonneg : ∀ l : List (ℝ × ℝ), Samples l → 0 ≤ joinedIntegral l
  | [], _ => le_rfl
  | [_], _ => le_rfl
  | p :: q :: rest, ⟨⟨h1, h12, hy1, _⟩, h'⟩ =>
    add_nonneg (powerLawIntegral_nonneg h1 h12 hy1) (joined_nonneg (q :: rest) h')

theorem everyBin_mono {P Q : ℝ × ℝ → ℝ × ℝ → Prop} (h : ∀ p q, P p q → Q p q) :
    ∀ l : List (ℝ × ℝ), EveryBin P l → EveryBin Q l
  | [], _ => trivial
  | [_], _ => trivial
  | p :: q :: rest, hb => ⟨fun a b => h p q (hb.1 a b), everyBin_mono h (q :: rest) hb.2⟩

theorem amplification_bound (p q : ℝ × ℝ) (a1 : 1 / 200 ≤ Real.log (q.1 / p.1)) (a2 : Real.log (q.1 / p.1) ≤ 1)
    (a3 : |localIndex p q| ≤ 20) (a4 : 1 / 100 ≤ |localIndex p q + 1|) : amplification p q ≤ 852642 := by
  have b1 : 1 / Real.log (q.1 / p.1) ≤ 200 := by
    rw [div_le_iff₀ (by linarith)]; linarith
  have b2 : 1 / |localIndex p q + 1| ≤ 100 := by
    rw [div_le_iff₀ (by linarith)]; linarith
  have hL0 : 0 < Real.log (q.1 / p.1) := by linarith
  have hσ0 : 0 < |localIndex p q + 1| := by linarith
  unfold amplification
  simp only
  have hb0 := abs_nonneg (localIndex p q)
  have c1 : (1 + |localIndex p q|) * (1 + Real.log (q.1 / p.1)) ≤ 42 := by
    have : (1 + |localIndex p q|) * (1 + Real.log (q.1 / p.1)) ≤ 21 * 2 :=
      mul_le_mul (by linarith) (by linarith) (by linarith) (by norm_num)
    linarith
  have c2 : (1 + |localIndex p q|) * (1 + Real.log (q.1 / p.1)) * (1 + 1 / Real.log (q.1 / p.1)) ≤ 8442 := by
    have : (1 + |localIndex p q|) * (1 + Real.log (q.1 / p.1)) * (1 + 1 / Real.log (q.1 / p.1)) ≤ 42 * 201 :=
      mul_le_mul c1 (by linarith) (by positivity) (by norm_num)
    linarith
  have : (1 + |localIndex p q|) * (1 + Real.log (q.1 / p.1)) * (1 + 1 / Real.log (q.1 / p.1)) *
      (1 + 1 / |localIndex p q + 1|) ≤ 8442 * 101 := mul_le_mul c2 (by linarith) (by positivity) (by norm_num)
  linarith

/-- **C132 (double precision).** With library functions accurate to 2^-52 (twice the rounding unit of double
precision), at most 10000 additions one after the other, bins between 1/200 and 1 wide in the logarithm,
indices between -20 and 20 not within 0.01 of -1: `trapz_loglog` is right to one part in 10^8, for
every number of samples and all values. -/
theorem C132_double (F : Arith) (u : ℝ) (hu : u = 1 / 2 ^ 52) (hF : F.Accurate u) (pts : List (ℝ × ℝ))
    (hs : Samples pts)
    (hb : EveryBin (fun p q => 1 / 200 ≤ Real.log (q.1 / p.1) ∧ Real.log (q.1 / p.1) ≤ 1 ∧
      |localIndex p q| ≤ 20 ∧ 1 / 100 ≤ |localIndex p q + 1|) pts)
    (t : SumTree) (ht : t.leaves = flIntervals F pts) (hd : t.depth ≤ 10000) :
    |t.value F - joinedIntegral pts| ≤ 1 / 10 ^ 8 * joinedIntegral pts := by
  have hu0 : 0 ≤ u := by rw [hu]; positivity
  have hu1 : u * 852642 ≤ 1 / 5000000000 := by rw [hu]; norm_num
  have hu2 : ((10000 : ℕ) : ℝ) * u ≤ 1 / 100000000000 := by rw [hu]; norm_num
  clear hu
  have hbin : ∀ p q : ℝ × ℝ, (1 / 200 ≤ Real.log (q.1 / p.1) ∧ Real.log (q.1 / p.1) ≤ 1 ∧
      |localIndex p q| ≤ 20 ∧ 1 / 100 ≤ |localIndex p q + 1|) →
      (1.1e-10 ≤ |localIndex p q + 1| ∧ u * amplification p q ≤ 1 / 5000000000) := by
    rintro p q ⟨a1, a2, a3, a4⟩
    exact ⟨le_trans (by norm_num) a4,
      (mul_le_mul_of_nonneg_left (amplification_bound p q a1 a2 a3 a4) hu0).trans hu1⟩
  have hmain := C132_integral F u (1 / 5000000000) hF hu0 (by norm_num) (by norm_num) pts hs
    (everyBin_mono hbin pts hb) t ht
  have hpow := pow_small u 10000 t.depth hu0 hd _ hu2 (by norm_num)
  generalize (1 + u) ^ t.depth - 1 = w at hmain hpow
  refine hmain.trans (mul_le_mul_of_nonneg_right ?_ (joined_nonneg pts hs))
  have hw : w ≤ 2 * (1 / 100000000000) := hpow
  clear hpow hmain hbin hu2 hu1
  norm_num
  linarith

/-! ## The amplification near index -1 is real -/

/-- An arithmetic in which only the power is rounded, upwards. -/
noncomputable def powUp (u : ℝ) : Arith := { Arith.exact with pow := fun x y => x ^ y * (1 + u) }

theorem powUp_accurate (u : ℝ) (hu0 : 0 ≤ u) : (powUp u).Accurate u := by
  constructor
  · intro x y; simp only [powUp, Arith.exact, sub_self, abs_zero]; positivity
  · intro x y; simp only [powUp, Arith.exact, sub_self, abs_zero]; positivity
  · intro x y; simp only [powUp, Arith.exact, sub_self, abs_zero]; positivity
  · intro x y _; simp only [powUp, Arith.exact, sub_self, abs_zero]; positivity
  · intro x y hx
    simp only [powUp]
    rw [show x ^ y * (1 + u) - x ^ y = u * x ^ y by ring, abs_mul, abs_of_nonneg hu0]
  · intro x _; simp only [powUp, Arith.exact, sub_self, abs_zero]; positivity
  · intro x _; simp only [powUp, Arith.exact, sub_self, abs_zero]; positivity

/-- **C132 (sharp).** The condition on the index cannot be dropped: with samples one per cent apart and index
`-1 + 2e-10`, one rounding error of 2^-53 in the power makes a relative error above 5e-5. -/
theorem C132_sharp (u : ℝ) (hu : u = 1 / 2 ^ 53) : (powUp u).Accurate u ∧ ∃ p q : ℝ × ℝ, Samples [p, q] ∧
    0 < p.2 ∧ 0 < q.2 ∧ localIndex p q = -1 + 2e-10 ∧ 0 < powerLawIntegral p q ∧
    5e-5 * powerLawIntegral p q ≤ |flBin (powUp u) p.1 q.1 p.2 q.2 - powerLawIntegral p q| := by
  have hu0 : 0 ≤ u := by rw [hu]; positivity
  have hu1 : (5e-5 : ℝ) * (2e-12) ≤ u := by rw [hu]; norm_num
  clear hu
  refine ⟨powUp_accurate u hu0, ?_⟩
  obtain ⟨s, hs⟩ : ∃ s : ℝ, s = 2e-10 := ⟨_, rfl⟩
  obtain ⟨r, hr⟩ : ∃ r : ℝ, r = 1.01 := ⟨_, rfl⟩
  obtain ⟨b, hb⟩ : ∃ b : ℝ, b = -1 + s := ⟨_, rfl⟩
  have hs0 : 0 < s := by rw [hs]; norm_num
  have hs1 : s ≤ 1 := by rw [hs]; norm_num
  have hr1 : 1 < r := by rw [hr]; norm_num
  have hr0 : 0 < r := by linarith
  have hbs : b + 1 = s := by rw [hb]; ring
  have hy : 0 < r ^ b := Real.rpow_pos_of_pos hr0 b
  have hlog : 0 < Real.log r := Real.log_pos hr1
  have hW : r * r ^ b = r ^ s := by rw [← hbs, Real.rpow_add_one hr0.ne', mul_comm]
  have hW1 : 1 < r ^ s := Real.one_lt_rpow hr1 hs0
  have hW2 : r ^ s ≤ 1 + s * (r - 1) := by
    have := rpow_one_add_le_one_add_mul_self (s := r - 1) (by linarith) hs0.le hs1
    rwa [add_sub_cancel] at this
  have hidx : localIndex (1, 1) (r, r ^ b) = b := by
    simp only [localIndex, div_one]
    rw [Real.log_rpow hr0]
    field_simp
  have hI : powerLawIntegral (1, 1) (r, r ^ b) = (r ^ s - 1) / s := by
    unfold powerLawIntegral
    rw [if_neg (by push Not; exact ⟨one_ne_zero, hy.ne'⟩), hidx,
      Rounded.integral_bin _ _ one_pos hr1 (by rw [hbs]; exact hs0.ne'), hbs]
    simp only [div_one, one_mul, hW]
  have hfi : flIndex (powUp u) 1 r 1 (r ^ b) = b := by
    simp only [flIndex, powUp, Arith.exact, div_one]
    rw [Real.logb, Real.logb, Real.log_rpow hr0]
    have : Real.log 10 ≠ 0 := (Real.log_pos (by norm_num)).ne'
    field_simp
  have hfl : flBin (powUp u) 1 r 1 (r ^ b) = (r ^ s * (1 + u) - 1) / s := by
    unfold flBin flRaw
    rw [if_neg (by push Not; exact ⟨one_ne_zero, hy.ne', hr1.ne⟩)]
    simp only [hfi]
    have hadd : (powUp u).add b 1 = s := by rw [← hbs]; rfl
    rw [hadd, if_pos (by rw [abs_of_pos hs0, hs]; norm_num)]
    simp only [powUp, Arith.exact, div_one, one_mul]
    rw [← mul_assoc, hW]
  refine ⟨(1, 1), (r, r ^ b), ⟨⟨one_pos, hr1, zero_le_one, hy.le⟩, trivial⟩, one_pos, hy, ?_, ?_, ?_⟩
  · rw [hidx, hb, hs]
  · rw [hI]; exact div_pos (by linarith) hs0
  · rw [hI]
    simp only
    rw [hfl, ← sub_div, show r ^ s * (1 + u) - 1 - (r ^ s - 1) = r ^ s * u by ring,
      abs_of_nonneg (div_nonneg (mul_nonneg (by linarith) hu0) hs0.le), mul_div_assoc', div_le_div_iff_of_pos_right hs0]
    have h3 : r ^ s - 1 ≤ 2e-12 := by
      have : s * (r - 1) ≤ 2e-12 := by rw [hs, hr]; norm_num
      linarith
    have h4 : (5e-5 : ℝ) * (r ^ s - 1) ≤ 5e-5 * 2e-12 := mul_le_mul_of_nonneg_left h3 (by norm_num)
    have h5 : u ≤ r ^ s * u := by nlinarith
    linarith

/-! ## Instances -/

theorem exact_any (u : ℝ) (hu0 : 0 ≤ u) : Arith.exact.Accurate u := by
  constructor <;> intros <;> simp only [Arith.exact, sub_self, abs_zero] <;> positivity

theorem index_12 : localIndex (1, 1) (2, 4) = 2 := by
  simp only [localIndex, div_one]
  rw [show (4 : ℝ) = 2 ^ 2 by norm_num, Real.log_pow]
  have : Real.log 2 ≠ 0 := (Real.log_pos (by norm_num)).ne'
  field_simp
  norm_num

/-- Three samples, the last of them zero, with a power that rounds upwards: the hypotheses of `C132_double`
are met. -/
example : |(SumTree.node (.leaf (flBin (powUp (1 / 2 ^ 52)) 1 2 1 4)) (.leaf (flBin (powUp (1 / 2 ^ 52)) 2 4 4 0))).value
      (powUp (1 / 2 ^ 52)) - joinedIntegral [(1, 1), (2, 4), (4, 0)]| ≤
    1 / 10 ^ 8 * joinedIntegral [(1, 1), (2, 4), (4, 0)] := by
  refine C132_double (powUp (1 / 2 ^ 52)) _ rfl (powUp_accurate _ (by positivity)) _ ?_ ?_ _ rfl (by simp [SumTree.depth])
  · simp only [Samples]
    norm_num
  · have h2 : (0.6931471803 : ℝ) < Real.log 2 := Real.log_two_gt_d9
    have h3 : Real.log 2 < 0.6931471808 := Real.log_two_lt_d9
    refine ⟨fun _ _ => ⟨?_, ?_, ?_, ?_⟩, fun _ h => absurd h (lt_irrefl _), trivial⟩
    · simp only [div_one]; linarith
    · simp only [div_one]; linarith
    · rw [index_12]; norm_num
    · rw [index_12]; norm_num

end Naima.Props
