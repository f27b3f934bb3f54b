import Verif.Model.ChainSummary
import Verif.Proof.Results

/-! # C78: printed summary of a parameter in a chain plot -/

namespace Naima.Props

open Naima Classical

/-! ### Specification -/

/-- rounding to a nearest integer, ties either way -/
def IsRounding (rnd : ℝ → ℤ) : Prop := ∀ x, |(rnd x : ℝ) - x| ≤ 1 / 2

/-- value, lower and upper uncertainty a reader takes from the printed text -/
noncomputable def readValue (s : Shown) : ℝ := s.value.val * (10 : ℝ) ^ s.order
noncomputable def readLo (s : Shown) : ℝ := s.lo.val * (10 : ℝ) ^ s.order
noncomputable def readHi (s : Shown) : ℝ := s.hi.val * (10 : ℝ) ^ s.order

/-- What is read off the text is the number to a small fraction of its uncertainty, and both
uncertainties to 40 per cent. -/
structure Summarises (s : Shown) (med lo hi : ℝ) : Prop where
  valueLo : |readValue s - med| ≤ 2 / 7 * lo
  valueHi : |readValue s - med| ≤ 2 / 7 * hi
  lo : |readLo s - lo| ≤ 2 / 5 * lo
  hi : |readHi s - hi| ≤ 2 / 5 * hi

/-! ### Proof -/

theorem decimals_ok (e : ℝ) (h : 0 < e) :
    ∃ n, decimals e = .ok n ∧ 2 ≤ e * (10 : ℝ) ^ n ∧ e * (10 : ℝ) ^ n < 20 := by
  have h10 : (0 : ℝ) < 10 := by norm_num
  unfold decimals
  rw [if_neg h.ne', if_neg (by linarith)]
  set f := ⌊Real.logb 10 e⌋ with hf
  have e1 : (10 : ℝ) ^ f ≤ e := by
    have := Int.floor_le (Real.logb 10 e)
    rw [← hf, Real.le_logb_iff_rpow_le (by norm_num) h] at this
    exact_mod_cast this
  have e2 : e < (10 : ℝ) ^ (f + 1) := by
    have := Int.lt_floor_add_one (Real.logb 10 e)
    rw [← hf, Real.logb_lt_iff_lt_rpow (by norm_num) h] at this
    exact_mod_cast this
  have p : (0 : ℝ) < (10 : ℝ) ^ (-f) := by positivity
  have g1 : 1 ≤ e * (10 : ℝ) ^ (-f) := by
    have := mul_le_mul_of_nonneg_right e1 p.le
    rwa [← zpow_add₀ h10.ne', add_neg_cancel, zpow_zero] at this
  have g2 : e * (10 : ℝ) ^ (-f) < 10 := by
    have := mul_lt_mul_of_pos_right e2 p
    rwa [← zpow_add₀ h10.ne', show f + 1 + -f = 1 by ring, zpow_one] at this
  simp only
  by_cases c : e * (10 : ℝ) ^ (-f) < 2
  · rw [if_pos c]
    refine ⟨_, rfl, ?_, ?_⟩ <;> rw [zpow_add₀ h10.ne', zpow_one, ← mul_assoc] <;> linarith
  · rw [if_neg c]
    exact ⟨_, rfl, by linarith, by linarith⟩

theorem round2_err (rnd : ℝ → ℤ) (hr : IsRounding rnd) (x : ℝ) (n : ℤ) :
    |(round2 rnd x n).val - x| ≤ (10 : ℝ) ^ (-n) / 2 := by
  have p : (0 : ℝ) < (10 : ℝ) ^ (-n) := by positivity
  have e : (round2 rnd x n).val - x = ((rnd (x * (10 : ℝ) ^ n) : ℝ) - x * (10 : ℝ) ^ n) * (10 : ℝ) ^ (-n) := by
    unfold round2 Dec.val
    simp only
    rw [sub_mul, mul_assoc x, ← zpow_add₀ (by norm_num : (10 : ℝ) ≠ 0)]
    simp
  rw [e, abs_mul, abs_of_pos p]
  have := mul_le_mul_of_nonneg_right (hr (x * (10 : ℝ) ^ n)) p.le
  linarith

/-- a unit that is at most half of `e` -/
theorem unit_le (e : ℝ) (n : ℤ) (h : 2 ≤ e * (10 : ℝ) ^ n) : (10 : ℝ) ^ (-n) ≤ e / 2 := by
  have p : (0 : ℝ) < (10 : ℝ) ^ n := by positivity
  rw [zpow_neg, inv_le_iff_one_le_mul₀ p]
  linarith

/-- the printed uncertainty is within 20 per cent -/
theorem round2_self (rnd : ℝ → ℤ) (hr : IsRounding rnd) (e : ℝ) (n : ℤ) (h : 2 ≤ e * (10 : ℝ) ^ n) :
    |(round2 rnd e n).val - e| ≤ e / 5 := by
  have p : (0 : ℝ) < (10 : ℝ) ^ (-n) := by positivity
  set x := e * (10 : ℝ) ^ n with hx
  have ee : e = x * (10 : ℝ) ^ (-n) := by
    rw [hx, mul_assoc, ← zpow_add₀ (by norm_num : (10 : ℝ) ≠ 0)]; simp
  have key : |(rnd x : ℝ) - x| ≤ x / 5 := by
    have h1 := abs_le.1 (hr x)
    by_cases c : 5 / 2 ≤ x
    · exact le_trans (hr x) (by linarith)
    · push Not at c
      have h2 : (1 : ℝ) < rnd x := by linarith
      have h3 : (rnd x : ℝ) < 3 := by linarith
      have h2' : 1 < rnd x := by exact_mod_cast h2
      have h3' : rnd x < 3 := by exact_mod_cast h3
      have : rnd x = 2 := by omega
      rw [this, abs_le]
      push_cast
      constructor <;> linarith
  have e' : (round2 rnd e n).val - e = ((rnd x : ℝ) - x) * (10 : ℝ) ^ (-n) := by
    rw [sub_mul, ← ee]
    rfl
  rw [e', abs_mul, abs_of_pos p, ee]
  have := mul_le_mul_of_nonneg_right key p.le
  linarith

/-- what `latexValueError` prints, before multiplication by the power of ten -/
structure Printed (s : Shown) (val lo hi : ℝ) : Prop where
  asym : |lo - hi| > (lo + hi) / 8 → |s.value.val - val| ≤ lo / 4 ∧ |s.value.val - val| ≤ hi / 4 ∧
    |s.lo.val - lo| ≤ lo / 5 ∧ |s.hi.val - hi| ≤ hi / 5
  sym : |lo - hi| ≤ (lo + hi) / 8 → s.lo = s.hi ∧ |s.value.val - val| ≤ (lo + hi) / 8 ∧
    |s.lo.val - (lo + hi) / 2| ≤ (lo + hi) / 10

theorem pyIntR_bounds (x : ℝ) : x - 1 < pyIntR x ∧ (pyIntR x : ℝ) < x + 1 := by
  unfold pyIntR
  split
  · exact ⟨Int.sub_one_lt_floor x, by have := Int.floor_le x; linarith⟩
  · exact ⟨by have := Int.le_ceil x; linarith, Int.ceil_lt_add_one x⟩

/-- **C78 (printed numbers, precisely).** For every non-zero value and positive uncertainties: if the
uncertainties differ by more than a quarter of their mean, both are printed to within 20 per cent and
the value to within a quarter of the smaller one; otherwise one number is printed that is their mean to
within 20 per cent, and the value to within a quarter of the mean. A power of ten is printed only for
absolute values of at least 1000 or at most 1/1000, and then the value printed before it is between 1/10
and 10. -/
theorem C78_printed (rnd : ℝ → ℤ) (hr : IsRounding rnd) (val lo hi : ℝ) (hv : val ≠ 0) (hlo : 0 < lo)
    (hhi : 0 < hi) :
    ∃ s, latexValueError rnd val lo hi = .ok s ∧
      Printed s (val / (10 : ℝ) ^ s.order) (lo / (10 : ℝ) ^ s.order) (hi / (10 : ℝ) ^ s.order) ∧
      (s.order = 0 → 1 / 1000 < |val| ∧ |val| < 1000) ∧
      (s.order ≠ 0 → 1 / 10 < |val| / (10 : ℝ) ^ s.order ∧ |val| / (10 : ℝ) ^ s.order < 10 ∧
        (1000 ≤ |val| ∨ |val| ≤ 1 / 1000)) := by
  have main : ∀ (v l h : ℝ) (order : ℤ), 0 < l → 0 < h → ∃ s, (do
      let nlo ← decimals l
      if h ≠ 0 then
        let nhi ← decimals h
        if |l - h| / ((l + h) / 2) > 0.25 then
          .ok ⟨round2 rnd v (max nlo nhi), round2 rnd l nlo, round2 rnd h nhi, order⟩
        else
          let e := (l + h) / 2
          let n ← decimals e
          .ok ⟨round2 rnd v n, round2 rnd e n, round2 rnd e n, order⟩
      else
        .ok ⟨round2 rnd v nlo, round2 rnd l nlo, round2 rnd l nlo, order⟩ : Except PyErr Shown) = .ok s ∧
      s.order = order ∧ Printed s v l h := by
    intro v l h order h1 h2
    obtain ⟨nlo, a1, a2, a3⟩ := decimals_ok l h1
    obtain ⟨nhi, b1, b2, b3⟩ := decimals_ok h h2
    obtain ⟨n, c1, c2, c3⟩ := decimals_ok ((l + h) / 2) (by linarith)
    have hq : |l - h| / ((l + h) / 2) > 0.25 ↔ |l - h| > (l + h) / 8 := by
      rw [gt_iff_lt, lt_div_iff₀ (by linarith)]
      constructor <;> intro <;> linarith
    rw [a1, b1]
    simp only [bind, Except.bind, c1]
    rw [if_pos h2.ne']
    by_cases c : |l - h| > (l + h) / 8
    · rw [if_pos (hq.2 c)]
      refine ⟨_, rfl, rfl, ⟨fun _ => ?_, fun c' => absurd c (not_lt.2 c')⟩⟩
      have u := round2_err rnd hr v (max nlo nhi)
      have u1 : (10 : ℝ) ^ (-(max nlo nhi)) ≤ (10 : ℝ) ^ (-nlo) :=
        zpow_le_zpow_right₀ (by norm_num) (by simp)
      have u2 : (10 : ℝ) ^ (-(max nlo nhi)) ≤ (10 : ℝ) ^ (-nhi) :=
        zpow_le_zpow_right₀ (by norm_num) (by simp)
      have w1 := unit_le l nlo a2
      have w2 := unit_le h nhi b2
      exact ⟨by simp only; linarith, by simp only; linarith, round2_self rnd hr l nlo a2,
        round2_self rnd hr h nhi b2⟩
    · rw [if_neg (fun x => c (hq.1 x))]
      refine ⟨_, rfl, rfl, ⟨fun c' => absurd c' c, fun _ => ⟨rfl, ?_, ?_⟩⟩⟩
      · have u := round2_err rnd hr v n
        have w := unit_le _ n c2
        simp only
        linarith
      · have := round2_self rnd hr _ n c2
        simp only
        linarith
  have hav : 0 < |val| := abs_pos.2 hv
  obtain ⟨k1, k2⟩ := pyIntR_bounds (Real.logb 10 |val|)
  set o := pyIntR (Real.logb 10 |val|) with ho
  have l1 : |val| < (10 : ℝ) ^ (o + 1) := by
    have : Real.logb 10 |val| < ((o + 1 : ℤ) : ℝ) := by push_cast; linarith
    rw [Real.logb_lt_iff_lt_rpow (by norm_num) hav] at this
    exact_mod_cast this
  have l2 : (10 : ℝ) ^ (o - 1) < |val| := by
    have : ((o - 1 : ℤ) : ℝ) < Real.logb 10 |val| := by push_cast; linarith
    rw [Real.lt_logb_iff_rpow_lt (by norm_num) hav] at this
    exact_mod_cast this
  have hsign : (0 ≤ Real.logb 10 |val| → (10 : ℝ) ^ o ≤ |val|) ∧
      (Real.logb 10 |val| < 0 → |val| ≤ (10 : ℝ) ^ o) := by
    constructor
    · intro h
      have : ((o : ℤ) : ℝ) ≤ Real.logb 10 |val| := by rw [ho, pyIntR, if_pos h]; exact Int.floor_le _
      rw [Real.le_logb_iff_rpow_le (by norm_num) hav] at this
      exact_mod_cast this
    · intro h
      have : Real.logb 10 |val| ≤ ((o : ℤ) : ℝ) := by rw [ho, pyIntR, if_neg (not_le.2 h)]; exact Int.le_ceil _
      rw [Real.logb_le_iff_le_rpow (by norm_num) hav] at this
      exact_mod_cast this
  unfold latexValueError
  rw [if_neg hv]
  simp only [← ho]
  by_cases c : o > 2 ∨ o < -2
  · simp only [c, decide_true, if_true]
    have p : (0 : ℝ) < (10 : ℝ) ^ o := by positivity
    obtain ⟨s, h1, h2, h3⟩ := main (val / (10 : ℝ) ^ o) (lo / (10 : ℝ) ^ o) (hi / (10 : ℝ) ^ o) o
      (div_pos hlo p) (div_pos hhi p)
    refine ⟨s, h1, by rw [h2]; exact h3, fun h0 => ?_, fun _ => ?_⟩
    · exfalso; omega
    · rw [h2]
      refine ⟨?_, ?_, ?_⟩
      · rw [lt_div_iff₀ p]
        rw [zpow_sub_one₀ (by norm_num)] at l2
        linarith
      · rw [div_lt_iff₀ p]
        rw [zpow_add_one₀ (by norm_num)] at l1
        linarith
      · by_cases hs : 0 ≤ Real.logb 10 |val|
        · left
          have ho3 : 3 ≤ o := by
            have : (-1 : ℝ) < o := by linarith
            have : (-1 : ℤ) < o := by exact_mod_cast this
            omega
          refine le_trans ?_ (hsign.1 hs)
          calc (1000 : ℝ) = (10 : ℝ) ^ (3 : ℤ) := by norm_num
            _ ≤ _ := zpow_le_zpow_right₀ (by norm_num) ho3
        · right
          push Not at hs
          have ho3 : o ≤ -3 := by
            have : (o : ℝ) < 1 := by linarith
            have : o < 1 := by exact_mod_cast this
            omega
          refine le_trans (hsign.2 hs) ?_
          calc (10 : ℝ) ^ o ≤ (10 : ℝ) ^ (-3 : ℤ) := zpow_le_zpow_right₀ (by norm_num) ho3
            _ = _ := by norm_num
  · simp only [c, decide_false, Bool.false_eq_true, if_false]
    obtain ⟨s, h1, h2, h3⟩ := main val lo hi 0 hlo hhi
    refine ⟨s, h1, by rw [h2]; simpa using h3, fun _ => ⟨?_, ?_⟩, fun h0 => absurd h2 h0⟩
    · push Not at c
      refine lt_of_le_of_lt ?_ l2
      calc (1 : ℝ) / 1000 = (10 : ℝ) ^ (-3 : ℤ) := by norm_num
        _ ≤ _ := zpow_le_zpow_right₀ (by norm_num) (by omega)
    · push Not at c
      refine lt_of_lt_of_le l1 ?_
      calc (10 : ℝ) ^ (o + 1) ≤ (10 : ℝ) ^ (3 : ℤ) := zpow_le_zpow_right₀ (by norm_num) (by omega)
        _ = _ := by norm_num

theorem Printed.summarises {s : Shown} {val lo hi : ℝ} (hlo : 0 < lo) (hhi : 0 < hi)
    (h : Printed s (val / (10 : ℝ) ^ s.order) (lo / (10 : ℝ) ^ s.order) (hi / (10 : ℝ) ^ s.order)) :
    Summarises s val lo hi := by
  set p : ℝ := (10 : ℝ) ^ s.order with hp
  have p0 : 0 < p := by positivity
  have sc : ∀ a b c : ℝ, |a - b / p| ≤ c / p → |a * p - b| ≤ c := by
    intro a b c h
    have e : a * p - b = (a - b / p) * p := by field_simp
    rw [e, abs_mul, abs_of_pos p0]
    calc _ ≤ c / p * p := mul_le_mul_of_nonneg_right h p0.le
      _ = c := by field_simp
  have hab : |lo / p - hi / p| = |lo - hi| / p := by
    rw [← sub_div, abs_div, abs_of_pos p0]
  have l0 := div_pos hlo p0
  have h0 := div_pos hhi p0
  by_cases c : |lo / p - hi / p| > (lo / p + hi / p) / 8
  · obtain ⟨a1, a2, a3, a4⟩ := h.asym c
    refine ⟨?_, ?_, ?_, ?_⟩ <;> apply sc <;> rw [mul_div_assoc] <;> linarith
  · push Not at c
    obtain ⟨a1, a2, a3⟩ := h.sym c
    have cc := abs_le.1 c
    have a3' := abs_le.1 a3
    refine ⟨?_, ?_, ?_, ?_⟩ <;> apply sc <;> rw [mul_div_assoc]
    · linarith
    · linarith
    · rw [abs_le]; constructor <;> linarith
    · rw [← a1, abs_le]; constructor <;> linarith

/-- **C78 (a chain's summary).** For every non-empty set of samples whose median is not zero and
strictly between the 16th and 84th percentiles, and every label without `log(`: one line is printed,
with the label, from which median and both distances to the percentiles can be read. -/
theorem C78_summary (rnd : ℝ → ℤ) (hr : IsRounding rnd) (label : Label) (dist : List ℝ) (hd : dist ≠ [])
    (h0 : percentile dist 50 ≠ 0) (h1 : percentile dist 16 < percentile dist 50)
    (h2 : percentile dist 50 < percentile dist 84)
    (hl : ¬ log10Pre <:+: label ∧ ¬ logPre <:+: label) :
    ∃ s, chainSummary rnd label dist = .ok [(label, s)] ∧
      Summarises s (percentile dist 50) (percentile dist 50 - percentile dist 16)
        (percentile dist 84 - percentile dist 50) := by
  obtain ⟨s, e, hp, -⟩ := C78_printed rnd hr _ _ _ h0 (sub_pos.2 h1) (sub_pos.2 h2)
  refine ⟨s, ?_, hp.summarises (sub_pos.2 h1) (sub_pos.2 h2)⟩
  unfold chainSummary summaryLine
  rw [if_neg hd, e]
  simp [bind, Except.bind, isLogLabel, hl]

theorem percentile_pos (l : List ℝ) (hl : l ≠ []) (h : ∀ x ∈ l, 0 < x) (q : ℝ) (h0 : 0 ≤ q) (h1 : q ≤ 100) :
    0 < percentile l q :=
  lt_of_lt_of_le (h _ (percentile_zero l hl).1) (percentile_mono l hl 0 q le_rfl h0 h1)

theorem takeWhile_append_stop (name rest : Label) (c : Char) (h : c ∉ name) :
    (name ++ c :: rest).takeWhile (· ≠ c) = name := by
  induction name with
  | nil => simp
  | cons a l ih =>
    have ha : a ≠ c := fun e => h (by simp [e])
    rw [List.cons_append, List.takeWhile_cons, if_pos (by simpa using ha), ih (fun m => h (by simp [m]))]

theorem labelInner_log (pre name : Label) (h1 : '(' ∉ name) (h2 : ')' ∉ name) :
    labelInner (pre ++ '(' :: name ++ [')']) = name := by
  unfold labelInner
  have e : (pre ++ '(' :: name ++ [')']).reverse = (')' :: name.reverse) ++ '(' :: pre.reverse := by simp
  rw [e, takeWhile_append_stop _ _ _ (by simp [h1])]
  rw [List.reverse_cons, List.reverse_reverse]
  exact takeWhile_append_stop name [] ')' h2

/-- **C78 (logarithmic parameters).** For a label `log10(name)` or `log(name)` a second line is printed,
labelled `name`, from which the percentiles of the parameter itself (ten, or e, to the power of the
samples) can be read. -/
theorem C78_log_summary (rnd : ℝ → ℤ) (hr : IsRounding rnd) (ten : Bool) (name : Label)
    (hn : '(' ∉ name ∧ ')' ∉ name) (dist d : List ℝ) (hd : dist ≠ [])
    (hdd : d = dist.map (fun x => if ten then (10 : ℝ) ^ x else Real.exp x))
    (h0 : percentile dist 50 ≠ 0) (h1 : percentile dist 16 < percentile dist 50)
    (h2 : percentile dist 50 < percentile dist 84) (h1' : percentile d 16 < percentile d 50)
    (h2' : percentile d 50 < percentile d 84) (label : Label)
    (hlab : label = (if ten then log10Pre else logPre) ++ name ++ [')']) :
    ∃ s s', chainSummary rnd label dist = .ok [(label, s), (name, s')] ∧
      Summarises s (percentile dist 50) (percentile dist 50 - percentile dist 16)
        (percentile dist 84 - percentile dist 50) ∧
      Summarises s' (percentile d 50) (percentile d 50 - percentile d 16)
        (percentile d 84 - percentile d 50) := by
  obtain ⟨s, e, hp, -⟩ := C78_printed rnd hr _ _ _ h0 (sub_pos.2 h1) (sub_pos.2 h2)
  have hd' : d ≠ [] := by rw [hdd]; simpa using hd
  have hpos : 0 < percentile d 50 := by
    apply percentile_pos d hd' _ _ (by norm_num) (by norm_num)
    intro x hx
    rw [hdd] at hx
    obtain ⟨y, _, rfl⟩ := List.mem_map.1 hx
    cases ten
    · exact Real.exp_pos y
    · simp only [if_true]; positivity
  obtain ⟨s', e', hp', -⟩ := C78_printed rnd hr _ _ _ hpos.ne' (sub_pos.2 h1') (sub_pos.2 h2')
  refine ⟨s, s', ?_, hp.summarises (sub_pos.2 h1) (sub_pos.2 h2), hp'.summarises (sub_pos.2 h1') (sub_pos.2 h2')⟩
  have hlog : isLogLabel label = true := by
    unfold isLogLabel
    rw [hlab]
    cases ten
    · simp only [Bool.false_eq_true, if_false, Bool.or_eq_true, decide_eq_true_eq]
      exact Or.inr ⟨[], name ++ [')'], by simp⟩
    · simp only [if_true, Bool.or_eq_true, decide_eq_true_eq]
      exact Or.inl ⟨[], name ++ [')'], by simp⟩
  have hnew : newDist label dist none = some d := by
    unfold newDist labelHead
    rw [hlab, hdd]
    cases ten
    · simp [logPre]
    · simp [log10Pre]
  have hin : labelInner label = name := by
    rw [hlab]
    cases ten
    · exact labelInner_log ['l', 'o', 'g'] name hn.1 hn.2
    · exact labelInner_log ['l', 'o', 'g', '1', '0'] name hn.1 hn.2
  unfold chainSummary summaryLine
  rw [if_neg hd, e]
  simp only [bind, Except.bind, hlog, if_true, hnew, e', hin]

/-! ### What the code does not do -/

/-- A negation: no summary if the median is exactly zero. -/
theorem C78_false_zero_median (rnd : ℝ → ℤ) (label : Label) (dist : List ℝ) (hd : dist ≠ [])
    (h0 : percentile dist 50 = 0) : chainSummary rnd label dist = .error .overflowError := by
  unfold chainSummary summaryLine latexValueError
  rw [if_neg hd, h0]
  simp [bind, Except.bind]

/-- A negation: no summary if the 16th percentile is the median (for instance because more than 34 per
cent of the walkers are stuck at one value). -/
theorem C78_false_stuck (rnd : ℝ → ℤ) (label : Label) (dist : List ℝ) (hd : dist ≠ [])
    (h0 : percentile dist 16 = percentile dist 50) : chainSummary rnd label dist = .error .overflowError := by
  unfold chainSummary summaryLine latexValueError
  rw [if_neg hd, h0]
  by_cases c : percentile dist 50 = 0
  · simp [bind, Except.bind, c]
  · simp [bind, Except.bind, c, decimals]

/-- A negation: if the 84th percentile is the median, the upper uncertainty printed is the lower one. -/
theorem C78_false_upper (rnd : ℝ → ℤ) (hr : IsRounding rnd) (val lo : ℝ) (hv : val ≠ 0) (hlo : 0 < lo) :
    ∃ s, latexValueError rnd val lo 0 = .ok s ∧ 4 / 5 * lo ≤ readHi s := by
  unfold latexValueError
  rw [if_neg hv]
  simp only []
  set o := pyIntR (Real.logb 10 |val|)
  have main : ∀ (v l : ℝ) (order : ℤ), 0 < l → ∃ s, (do
      let nlo ← decimals l
      .ok ⟨round2 rnd v nlo, round2 rnd l nlo, round2 rnd l nlo, order⟩ : Except PyErr Shown) = .ok s ∧
      s.order = order ∧ 4 / 5 * l ≤ s.hi.val := by
    intro v l order h1
    obtain ⟨n, a1, a2, -⟩ := decimals_ok l h1
    rw [a1]
    refine ⟨_, rfl, rfl, ?_⟩
    have := abs_le.1 (round2_self rnd hr l n a2)
    simp only
    linarith
  by_cases c : o > 2 ∨ o < -2
  · simp only [c, decide_true, if_true, zero_div, ne_eq, not_true_eq_false, if_false]
    have p : (0 : ℝ) < (10 : ℝ) ^ o := by positivity
    obtain ⟨s, h1, h2, h3⟩ := main (val / (10 : ℝ) ^ o) (lo / (10 : ℝ) ^ o) o (div_pos hlo p)
    refine ⟨s, h1, ?_⟩
    unfold readHi
    rw [h2]
    have := mul_le_mul_of_nonneg_right h3 p.le
    have e : 4 / 5 * (lo / (10 : ℝ) ^ o) * (10 : ℝ) ^ o = 4 / 5 * lo := by field_simp
    linarith
  · simp only [c, decide_false, Bool.false_eq_true, if_false, ne_eq, not_true_eq_false]
    obtain ⟨s, h1, h2, h3⟩ := main val lo 0 hlo
    refine ⟨s, h1, ?_⟩
    unfold readHi
    rw [h2]
    simpa using h3

/-- A negation: a label with `log(` or `log10(` not at its beginning, such as LaTeX, ends in an error. -/
theorem C78_false_label (rnd : ℝ → ℤ) (hr : IsRounding rnd) (label : Label) (dist : List ℝ) (hd : dist ≠ [])
    (h0 : percentile dist 50 ≠ 0) (h1 : percentile dist 16 < percentile dist 50)
    (h2 : percentile dist 50 < percentile dist 84)
    (hl : log10Pre <:+: label ∨ logPre <:+: label)
    (hp : ∀ rest, label ≠ log10Pre ++ rest ∧ label ≠ logPre ++ rest) :
    chainSummary rnd label dist = .error .unboundLocalError := by
  obtain ⟨s, e, -⟩ := C78_printed rnd hr _ _ _ h0 (sub_pos.2 h1) (sub_pos.2 h2)
  have hlog : isLogLabel label = true := by
    unfold isLogLabel
    simpa using hl
  have hmem : '(' ∈ label := by
    rcases hl with h | h
    · exact h.subset (by simp [log10Pre])
    · exact h.subset (by simp [logPre])
  have hsplit : ∀ l : Label, '(' ∈ l → ∃ rest, l = l.takeWhile (· ≠ '(') ++ '(' :: rest := by
    intro l
    induction l with
    | nil => simp
    | cons a l ih =>
      intro hm
      by_cases c : a = '('
      · exact ⟨l, by simp [c]⟩
      · rcases List.mem_cons.1 hm with h | h
        · exact absurd h.symm c
        · obtain ⟨r, hr⟩ := ih h
          refine ⟨r, ?_⟩
          rw [List.takeWhile_cons, if_pos (by simpa using c), List.cons_append, ← hr]
  obtain ⟨rest, hrest⟩ := hsplit label hmem
  have hnew : newDist label dist none = none := by
    unfold newDist labelHead
    rw [if_neg, if_neg]
    · intro h
      rw [h] at hrest
      exact (hp rest).2 hrest
    · intro h
      rw [h] at hrest
      exact (hp rest).1 hrest
  unfold chainSummary summaryLine
  rw [if_neg hd, e]
  simp only [bind, Except.bind, hlog, if_true, hnew]

/-! ### Hypotheses are met -/

/-- Python's rounding is one (half to even) -/
theorem isRounding_round : IsRounding (fun x => round x) := fun x => by
  rw [abs_sub_comm]; exact abs_sub_round x

theorem percentile_123 : percentile [3, 1, 2] 50 = 2 ∧ percentile [3, 1, 2] 16 = 1.32 ∧ percentile [3, 1, 2] 84 = 2.68 := by
  have hs : ([3, 1, 2] : List ℝ).mergeSort (fun a b => decide (a ≤ b)) = [1, 2, 3] := by
    have : ([3, 1, 2] : List ℝ).Perm [1, 2, 3] := by
      refine List.Perm.trans (List.Perm.swap _ _ _) ?_
      exact List.Perm.cons _ (List.Perm.swap _ _ _)
    apply List.Perm.eq_of_pairwise (le := fun a b => a ≤ b)
    · intro a b _ _ h1 h2; exact le_antisymm h1 h2
    · have := List.pairwise_mergeSort (le := fun a b : ℝ => decide (a ≤ b)) (fun a b c => by simpa using le_trans)
        (fun a b => by simpa using le_total a b) [3, 1, 2]
      simpa using this
    · norm_num
    · exact (List.mergeSort_perm _ _).trans this
  have f1 : ⌊(1 : ℝ)⌋₊ = 1 := by simp
  refine ⟨?_, ?_, ?_⟩ <;> unfold percentile <;> simp only [hs]
  · norm_num
  · have : ⌊(((([3, 1, 2] : List ℝ).length : ℝ) - 1) * (16 / 100) : ℝ)⌋₊ = 0 := by
      rw [Nat.floor_eq_zero]; norm_num
    rw [this]; norm_num
  · have : ⌊(((([3, 1, 2] : List ℝ).length : ℝ) - 1) * (84 / 100) : ℝ)⌋₊ = 1 := by
      rw [Nat.floor_eq_iff (by norm_num)]; norm_num
    rw [this]; norm_num

example : ∃ s, chainSummary (fun x => round x) ['B'] [3, 1, 2] = .ok [(['B'], s)] ∧ Summarises s 2 (2 - 1.32) (2.68 - 2) := by
  obtain ⟨a, b, c⟩ := percentile_123
  have := C78_summary _ isRounding_round ['B'] [3, 1, 2] (by simp) (by rw [a]; norm_num)
    (by rw [a, b]; norm_num) (by rw [a, c]; norm_num)
    ⟨fun h => by simpa [log10Pre] using h.length_le, fun h => by simpa [logPre] using h.length_le⟩
  rwa [a, b, c] at this

example : chainSummary (fun x => round x) "$\\log(E)$".toList [3, 1, 2] = .error .unboundLocalError := by
  obtain ⟨a, b, c⟩ := percentile_123
  refine C78_false_label _ isRounding_round _ [3, 1, 2] (by simp) (by rw [a]; norm_num)
    (by rw [a, b]; norm_num) (by rw [a, c]; norm_num) (Or.inr ?_) ?_
  · exact ⟨['$', '\\'], ['E', ')', '$'], by decide⟩
  · intro rest
    constructor <;> intro h <;> have := congrArg List.head? h <;> revert this <;> simp [log10Pre, logPre]

end Naima.Props
