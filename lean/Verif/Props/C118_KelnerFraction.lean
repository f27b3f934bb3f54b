import Verif.Proof.KelnerFraction
import Verif.Props.C81_LookupTable

/-! # C118: the share of the energy of the protons that Kelner's formula gives to the photons -/

namespace Naima.Props

open Naima XR Classical MeasureTheory

/-! ### Specification -/

/-- Energy of all photons of one collision, in units of the energy `E` (TeV) of the proton. -/
noncomputable def photonShare (E : ℝ) : ℝ := ∫ x in (0:ℝ)..1, x * KAB06.F x E

/-! ### Numbers -/

theorem gridL_cast (i : ℕ) : ((gridL i : ℚ) : ℝ) = -7 / 4 + i / 4 := by unfold gridL; push_cast; ring

theorem gridL_ge (i : ℕ) : (-7 / 4 : ℝ) ≤ gridL i := by
  rw [gridL_cast]
  have : (0:ℝ) ≤ i := by positivity
  linarith

theorem locate (L : ℝ) (n : ℕ) (h0 : -7 / 4 ≤ L) (h1 : L < -7 / 4 + n / 4) :
    ∃ i < n, ((gridL i : ℚ) : ℝ) ≤ L ∧ L ≤ ((gridL (i + 1) : ℚ) : ℝ) := by
  refine ⟨⌊4 * (L + 7 / 4)⌋₊, ?_, ?_, ?_⟩
  · rw [Nat.floor_lt (by linarith)]; linarith
  · rw [gridL_cast]
    have := Nat.floor_le (a := 4 * (L + 7 / 4)) (by linarith)
    linarith
  · rw [gridL_cast]
    have := Nat.lt_floor_add_one (4 * (L + 7 / 4))
    push_cast
    linarith

theorem k_first (L : ℝ) (h : -231 / 100 ≤ L) (h' : L ≤ -7 / 4) :
    ((758 / 1000 : ℚ) : ℝ) ≤ kKInv L ∧ kKInv L ≤ ((763 / 1000 : ℚ) : ℝ) := by
  unfold kKInv
  push_cast
  constructor
  · nlinarith [sq_nonneg (L + 7 / 4)]
  · nlinarith

theorem share_tail (L : ℝ) (h : 13 ≤ L) : KAB06.B L * fracInt (kBetaInv L) (1 / kKInv L) ≤ 1 / 5 := by
  have ha0 := kBetaInv_pos L
  have hB0 : 0 < KAB06.B L := kB_pos L
  have t1 := fracInt_mono (kBetaInv L) (kBetaInv L) 0 (1 / kKInv L) ha0 le_rfl le_rfl
    (one_div_pos.2 (kKInv_pos _)).le
  have t2 := fracInt_le (kBetaInv L) 0 ha0 le_rfl
  have hB : KAB06.B L ≤ 1.375 * kBetaInv L - 1.16 := by unfold KAB06.B kBetaInv; nlinarith
  have ha : 4.5 ≤ kBetaInv L := by unfold kBetaInv; nlinarith
  generalize kBetaInv L = a at *
  have e : gSum 1 (-10664 / 3125) (13136 / 3125) a 0 =
      24 * (5 * a ^ 4 + 40 * a ^ 3 + 105 * a ^ 2 + 100 * a + 24) / ((a + 1) * (a + 2) * (a + 3) * (a + 4)) ^ 2 := by
    unfold gSum mom
    have := ha0.ne'
    field_simp
    ring
  have t3 := t1.trans (t2.trans e.le)
  have hS : 0 ≤ 24 * (5 * a ^ 4 + 40 * a ^ 3 + 105 * a ^ 2 + 100 * a + 24) /
      ((a + 1) * (a + 2) * (a + 3) * (a + 4)) ^ 2 := by positivity
  refine (mul_le_mul_of_nonneg_left t3 hB0.le).trans ((mul_le_mul_of_nonneg_right hB hS).trans ?_)
  rw [← mul_div_assoc, div_le_div_iff₀ (by positivity) (by norm_num)]
  obtain ⟨t, rfl⟩ : ∃ t, a = 4.5 + t := ⟨a - 4.5, by ring⟩
  have ht : 0 ≤ t := by linarith
  rw [← sub_nonneg]
  ring_nf
  positivity

theorem share_le (L : ℝ) (h : -231 / 100 ≤ L) : KAB06.B L * fracInt (kBetaInv L) (1 / kKInv L) ≤ 1 / 5 := by
  by_cases c : L ≤ -7 / 4
  · have hk := (k_first L h c).2
    have hn : hiQ (-231 / 100) (-7 / 4) (763 / 1000) ≤ 1 / 5 := by decide +kernel
    refine (hi_step (-231 / 100) (-7 / 4) (763 / 1000) L (by push_cast; norm_num) (by push_cast; linarith)
      (by push_cast; linarith) (by norm_num) hk).trans ?_
    have : ((hiQ (-231 / 100) (-7 / 4) (763 / 1000) : ℚ) : ℝ) ≤ ((1 / 5 : ℚ) : ℝ) := by exact_mod_cast hn
    simpa using this
  push Not at c
  by_cases c' : 13 ≤ L
  · exact share_tail L c'
  push Not at c'
  obtain ⟨i, hi, h1, h2⟩ := locate L 59 c.le (by push_cast; linarith)
  have hg := gridL_ge i
  have hg' : (-7 / 4 : ℝ) ≤ gridL (i + 1) := by linarith
  refine (hi_step (gridL i) (gridL (i + 1)) (kQ (gridL (i + 1))) L (by linarith) h1 h2 ?_ ?_).trans ?_
  · have := kKInv_pos (gridL (i + 1))
    rw [← kQ_cast] at this
    exact_mod_cast this
  · rw [kQ_cast]; exact k_mono _ _ c.le h2
  · have : ((hiQ (gridL i) (gridL (i + 1)) (kQ (gridL (i + 1))) : ℚ) : ℝ) ≤ ((1 / 5 : ℚ) : ℝ) := by
      exact_mod_cast hi_numbers i hi
    simpa using this

theorem le_share (L : ℝ) (h : -231 / 100 ≤ L) (h' : L ≤ 11.6) :
    3 / 20 ≤ KAB06.B L * fracInt (kBetaInv L) (1 / kKInv L) := by
  by_cases c : L ≤ -7 / 4
  · have hk := (k_first L h c).1
    have hn : 3 / 20 ≤ loQ (-231 / 100) (-7 / 4) (758 / 1000) := by decide +kernel
    refine le_trans ?_ (lo_step (-231 / 100) (-7 / 4) (758 / 1000) L (by push_cast; norm_num) (by push_cast; linarith)
      (by push_cast; linarith) (by norm_num) hk)
    have : ((3 / 20 : ℚ) : ℝ) ≤ ((loQ (-231 / 100) (-7 / 4) (758 / 1000) : ℚ) : ℝ) := by exact_mod_cast hn
    simpa using this
  push Not at c
  obtain ⟨i, hi, h1, h2⟩ := locate L 54 c.le (by push_cast; linarith)
  have hg := gridL_ge i
  refine le_trans ?_ (lo_step (gridL i) (gridL (i + 1)) (kQ (gridL i)) L (by linarith) h1 h2 (k_numbers i hi) ?_)
  · have : ((3 / 20 : ℚ) : ℝ) ≤ ((loQ (gridL i) (gridL (i + 1)) (kQ (gridL i)) : ℚ) : ℝ) := by
      exact_mod_cast lo_numbers i hi
    simpa using this
  · rw [kQ_cast]; exact k_mono _ _ hg h1

theorem log_tenth (E : ℝ) (h : 0.1 ≤ E) : -231 / 100 ≤ Real.log E := by
  have h1 : Real.log 0.1 = -Real.log 10 := by
    rw [show (0.1 : ℝ) = 10⁻¹ by norm_num, Real.log_inv]
  have h2 := log10_bounds
  have h3 := Real.log_le_log (by norm_num) h
  linarith

theorem log_high (E : ℝ) (h0 : 0 < E) (h : E ≤ 1e5) : Real.log E ≤ 11.6 := by
  have h1 : Real.log 1e5 = 5 * Real.log 10 := by
    rw [show (1e5 : ℝ) = 10 ^ 5 by norm_num, Real.log_pow]; norm_num
  have h2 := log10_bounds
  have h3 := Real.log_le_log h0 h
  linarith

/-! ### One collision -/

/-- **C118 (one collision).** For every proton of 0.1 TeV or more, the photons of a collision, distributed as `_Fgamma`, carry
at most a fifth of the energy of the proton; for protons up to 10⁵ TeV, the range of validity of the formula, they carry at least
15 % of it (a third of the energy lost to pions, neutral and charged). -/
theorem C118_collision (E : ℝ) (hE : 0.1 ≤ E) :
    ∃ F : ℝ → ℝ, (∀ x, 0 < x → x < 1 → kFgamma x E = fin (F x) ∧ 0 < F x) ∧
      IntervalIntegrable (fun x => x * F x) volume 0 1 ∧
      ∫ x in (0:ℝ)..1, x * F x ≤ 1 / 5 ∧ (E ≤ 1e5 → 0.15 ≤ ∫ x in (0:ℝ)..1, x * F x) := by
  obtain ⟨h1, h2⟩ := energy_by_parts E
  refine ⟨fun x => KAB06.F x E, fun x h0 h1 => ⟨kFgamma_eq x E h0 h1, ?_⟩, h1, ?_, fun h => ?_⟩
  · obtain ⟨r, hr, e⟩ := kFgamma_pos x E h0 h1
    rw [kFgamma_eq x E h0 h1, fin_inj] at e
    exact hr.trans_eq e.symm
  · rw [h2]; exact share_le _ (log_tenth E hE)
  · rw [h2]
    have := le_share _ (log_tenth E hE) (log_high E (by linarith) h)
    linarith

end Naima.Props
