import Verif.Model.Rounded
import Mathlib.Analysis.SpecialFunctions.Pow.Real
import Mathlib.Analysis.SpecialFunctions.Log.Base
import Mathlib.Analysis.SpecialFunctions.Integrals.Basic

namespace Naima.Rounded

open Naima

theorem rel_pos {a a' u : ℝ} (ha : 0 < a) (hu : u ≤ 1 / 100) (h : |a' - a| ≤ u * |a|) : 0 < a' := by
  rw [abs_of_pos ha] at h
  have := (abs_le.1 h).1
  nlinarith

/-- logarithm of a rounded number -/
theorem log_rel {a a' u : ℝ} (ha : 0 < a) (hu0 : 0 ≤ u) (hu : u ≤ 1 / 100) (h : |a' - a| ≤ u * |a|) :
    |Real.log a' - Real.log a| ≤ 2 * u := by
  have ha' := rel_pos ha hu h
  rw [abs_of_pos ha] at h
  obtain ⟨h1, h2⟩ := abs_le.1 h
  rw [← Real.log_div ha'.ne' ha.ne']
  have hq : 0 < a' / a := div_pos ha' ha
  have hup : a' / a - 1 ≤ u := by rw [sub_le_iff_le_add, div_le_iff₀ ha]; linarith
  have hlo : 1 - u ≤ a' / a := by rw [le_div_iff₀ ha]; linarith
  have e1 := Real.log_le_sub_one_of_pos hq
  have e2 := Real.one_sub_inv_le_log_of_pos hq
  rw [abs_le]
  constructor
  · have : (a' / a)⁻¹ ≤ 1 + 2 * u := by
      rw [inv_le_comm₀ hq (by linarith)]
      refine le_trans ?_ hlo
      rw [← one_div, div_le_iff₀ (by linarith)]
      nlinarith
    linarith
  · linarith

/-- the logarithm of a rounded quotient, rounded -/
theorem log_step {l l' u L : ℝ} (hu0 : 0 ≤ u) (hu : u ≤ 1 / 100) (h1 : |l - L| ≤ 2 * u) (h2 : |l' - l| ≤ u * |l|) :
    |l' - L| ≤ u * (3 + |L|) := by
  have h3 : |l| ≤ |L| + 2 * u := by
    have := abs_add_le (l - L) L
    rw [sub_add_cancel] at this
    linarith
  have h4 : |l' - L| ≤ |l' - l| + |l - L| := by
    have := abs_add_le (l' - l) (l - L)
    rwa [sub_add_sub_cancel] at this
  nlinarith [mul_le_mul_of_nonneg_left h3 hu0]

/-- the local index -/
theorem index_step {lx ly u L b η : ℝ} (hL : 0 < L) (hu0 : 0 ≤ u)
    (hη : η = u * (1 + |b|) * (1 + 1 / L)) (hη1 : η ≤ 1 / 100)
    (hx : |lx - L| ≤ u * (3 + L)) (hy : |ly - b * L| ≤ u * (3 + |b| * L)) :
    0 < lx ∧ |ly / lx - b| ≤ 3.1 * η := by
  have hb := abs_nonneg b
  have hηL : η * L = u * (1 + |b|) * (1 + L) := by
    rw [hη]; field_simp; ring
  have hu3 : u * (3 + L) ≤ 3 * η * L := by
    rw [mul_assoc, hηL]
    nlinarith [mul_nonneg hu0 hb, mul_nonneg (mul_nonneg hu0 hb) hL.le, mul_nonneg hu0 hL.le]
  have hlx : 0.97 * L ≤ lx := by
    have := (abs_le.1 hx).1
    nlinarith
  have hlx0 : 0 < lx := by linarith
  refine ⟨hlx0, ?_⟩
  have hnum : |ly - b * lx| ≤ 3 * (η * L) := by
    have e : ly - b * lx = (ly - b * L) - b * (lx - L) := by ring
    have h1 : |ly - b * lx| ≤ |ly - b * L| + |b| * |lx - L| := by
      rw [e, ← abs_mul]; exact abs_sub _ _
    have h2 : |b| * |lx - L| ≤ |b| * (u * (3 + L)) := mul_le_mul_of_nonneg_left hx hb
    rw [hηL]
    nlinarith [mul_nonneg hu0 hb, mul_nonneg (mul_nonneg hu0 hb) hL.le, mul_nonneg hu0 hL.le]
  have hη0 : 0 ≤ η := by rw [hη]; positivity
  rw [show ly / lx - b = (ly - b * lx) / lx by field_simp, abs_div, abs_of_pos hlx0, div_le_iff₀ hlx0]
  nlinarith [mul_nonneg hη0 hL.le, mul_le_mul_of_nonneg_left hlx hη0]

theorem exp_sub_one {δ : ℝ} (h : |δ| ≤ 1 / 2) : |Real.exp δ - 1| ≤ 2 * |δ| := by
  have := Real.abs_exp_sub_one_le (x := δ) (by linarith)
  linarith

/-- `e^t / |e^t - 1| <= 1 + 1/|t|` -/
theorem exp_ratio {t : ℝ} (ht : t ≠ 0) : Real.exp t ≤ |Real.exp t - 1| * (1 + 1 / |t|) := by
  rcases lt_or_gt_of_ne ht with h | h
  · rw [abs_of_neg h, abs_of_neg (by have := Real.exp_lt_exp.2 h; rw [Real.exp_zero] at this; linarith)]
    have h1 : (1 - t) * Real.exp t ≤ 1 := by
      have := Real.add_one_le_exp (-t)
      have h2 : Real.exp (-t) * Real.exp t = 1 := by rw [← Real.exp_add]; simp
      nlinarith [Real.exp_pos t]
    have hne : 0 < -t := by linarith
    rw [show 1 + 1 / -t = (1 - t) / -t by field_simp; ring, ← mul_div_assoc, le_div_iff₀ hne]
    nlinarith [Real.exp_pos t]
  · rw [abs_of_pos h, abs_of_pos (by linarith [Real.one_lt_exp_iff.2 h])]
    have h1 := Real.add_one_le_exp t
    rw [show 1 + 1 / t = (t + 1) / t by field_simp, ← mul_div_assoc, le_div_iff₀ h]
    nlinarith

theorem params {u b L σ E : ℝ} (hu0 : 0 ≤ u) (hL0 : 0 < L) (hs0 : 0 < σ)
    (hE : E = u * (1 + |b|) * (1 + L) * (1 + 1 / L) * (1 + 1 / σ)) :
    ∃ η κ, η = u * (1 + |b|) * (1 + 1 / L) ∧ 0 ≤ η ∧ 0 ≤ κ ∧ η * L = κ ∧ u ≤ κ ∧ u * |b| ≤ κ ∧ η ≤ E ∧ κ ≤ E ∧
      η ≤ E * σ ∧ κ * (1 + 1 / (σ * L)) ≤ E := by
  have hb0 := abs_nonneg b
  have hn : 0 ≤ u * (1 + |b|) := by positivity
  have h1 : u ≤ u * (1 + |b|) := by nlinarith [mul_nonneg hu0 hb0]
  have h2 : u * |b| ≤ u * (1 + |b|) := by nlinarith
  generalize u * (1 + |b|) = η0 at hE hn h1 h2 ⊢
  have hv : 0 < 1 / L := by positivity
  have hw : 0 < 1 / σ := by positivity
  have hk : η0 ≤ η0 * (1 + L) := by nlinarith [mul_nonneg hn hL0.le]
  have e1 : 0 ≤ η0 * (1 / L) := by positivity
  have e2 : 0 ≤ η0 * L := by positivity
  have hκE : η0 * (1 + L) * (1 + 1 / (σ * L)) ≤ E := by
    rw [hE, mul_assoc (η0 * (1 + L))]
    refine mul_le_mul_of_nonneg_left ?_ (by positivity)
    have : (1 + 1 / L) * (1 + 1 / σ) = 1 + 1 / (σ * L) + 1 / L + 1 / σ := by field_simp; ring
    rw [this]; linarith
  refine ⟨η0 * (1 + 1 / L), η0 * (1 + L), rfl, by positivity, by positivity, by field_simp; ring, by linarith,
    by linarith, ?_, ?_, ?_, hκE⟩
  · rw [hE]
    have a1 : 0 ≤ η0 * (1 + 1 / L) := by positivity
    have a2 : 0 ≤ η0 * (1 + 1 / L) * L := by positivity
    have a3 : 0 ≤ η0 * (1 + L) * (1 + 1 / L) * (1 / σ) := by positivity
    nlinarith
  · have : 0 ≤ η0 * (1 + L) * (1 / (σ * L)) := by positivity
    nlinarith
  · have : E * σ = η0 * (1 + 1 / L) * (1 + L) * (σ + 1) := by rw [hE]; field_simp
    rw [this]
    have a2 : 0 ≤ η0 * (1 + 1 / L) * L := by positivity
    have a3 : 0 ≤ η0 * (1 + 1 / L) * (1 + L) * σ := by positivity
    nlinarith

/-- the rounded power, times `x2` -/
theorem pow_step {F : Arith} {u : ℝ} (hF : F.Accurate u) (hu0 : 0 ≤ u) {r bh b L x2 η κ : ℝ} (hL0 : 0 < L)
    (px : 0 < r) (h2 : 0 < x2) (hl : |Real.log r - L| ≤ 2 * u) (hbh : |bh - b| ≤ 4.2 * η) (hηn : 0 ≤ η)
    (hη1 : η ≤ 1 / 100) (hηL : η * L = κ) (huκ : u ≤ κ) (hubκ : u * |b| ≤ κ) (hκ1 : κ ≤ 1 / 100) :
    |F.mul x2 (F.pow r bh) - x2 * Real.exp (b * L)| ≤ 15 * (κ * (x2 * Real.exp (b * L))) := by
  have hb0 := abs_nonneg b
  have hκn : 0 ≤ κ := hu0.trans huκ
  obtain ⟨δ, hδd⟩ : ∃ δ, δ = bh * Real.log r - b * L := ⟨_, rfl⟩
  have hδ : |δ| ≤ 6.3 * κ := by
    have e : δ = (bh - b) * Real.log r + b * (Real.log r - L) := by rw [hδd]; ring
    have e1 : |Real.log r| ≤ L + 2 * u := by
      have := abs_add_le (Real.log r - L) L
      rw [sub_add_cancel, abs_of_pos hL0] at this
      linarith
    have e2 : |δ| ≤ |bh - b| * |Real.log r| + |b| * |Real.log r - L| := by
      rw [e, ← abs_mul, ← abs_mul]; exact abs_add_le _ _
    have e3 : |bh - b| * |Real.log r| ≤ 4.2 * η * (L + 2 * u) := mul_le_mul hbh e1 (abs_nonneg _) (by positivity)
    have e4 : |b| * |Real.log r - L| ≤ |b| * (2 * u) := mul_le_mul_of_nonneg_left hl hb0
    have e5 : η * u ≤ 1 / 100 * κ := mul_le_mul hη1 huκ hu0 (by norm_num)
    have e6 : 4.2 * η * (L + 2 * u) = 4.2 * (η * L) + 8.4 * (η * u) := by ring
    have e7 : |b| * (2 * u) = 2 * (u * |b|) := by ring
    rw [e6, hηL] at e3
    rw [e7] at e4
    linarith
  have hexp := exp_sub_one (show |δ| ≤ 1 / 2 by linarith)
  have hpow : r ^ bh = Real.exp (b * L) * Real.exp δ := by
    rw [Real.rpow_def_of_pos px, ← Real.exp_add]
    congr 1
    rw [hδd]; ring
  have hP := hF.pow r bh px
  rw [hpow, abs_of_pos (mul_pos (Real.exp_pos _) (Real.exp_pos δ))] at hP
  have hM := hF.mul x2 (F.pow r bh)
  generalize F.pow r bh = P at hP hM ⊢
  generalize F.mul x2 P = M at hM ⊢
  have hx : 0 < Real.exp (b * L) := Real.exp_pos _
  generalize Real.exp (b * L) = X at hx hP ⊢
  have hexp' : |Real.exp δ - 1| ≤ 12.6 * κ := by linarith
  have hex1 : Real.exp δ ≤ 1.126 := by
    have := (abs_le.1 hexp').2
    linarith
  generalize Real.exp δ = e at hexp' hex1 hP
  have hW0 : 0 < x2 * X := mul_pos h2 hx
  have hx2P : |x2 * P - x2 * X| ≤ (x2 * X) * (12.6 * κ + 1.126 * u) := by
    have e0 : x2 * P - x2 * X = x2 * (P - X * e) + (x2 * X) * (e - 1) := by ring
    have e1 : |x2 * (P - X * e)| ≤ (x2 * X) * (1.126 * u) := by
      rw [abs_mul, abs_of_pos h2]
      have a1 := mul_le_mul_of_nonneg_left hP h2.le
      have a3 : (x2 * X) * (u * e) ≤ (x2 * X) * (u * 1.126) :=
        mul_le_mul_of_nonneg_left (mul_le_mul_of_nonneg_left hex1 hu0) hW0.le
      nlinarith
    have e2 : |(x2 * X) * (e - 1)| ≤ (x2 * X) * (12.6 * κ) := by
      rw [abs_mul, abs_of_pos hW0]; exact mul_le_mul_of_nonneg_left hexp' hW0.le
    rw [e0]
    have := abs_add_le (x2 * (P - X * e)) ((x2 * X) * (e - 1))
    linarith
  generalize x2 * X = W at hW0 hx2P ⊢
  have e1 : |x2 * P| ≤ 1.14 * W := by
    have := abs_add_le (x2 * P - W) W
    rw [sub_add_cancel, abs_of_pos hW0] at this
    have h3 : W * (12.6 * κ + 1.126 * u) ≤ W * 0.14 := mul_le_mul_of_nonneg_left (by linarith) hW0.le
    linarith
  have e2 := abs_add_le (M - x2 * P) (x2 * P - W)
  rw [sub_add_sub_cancel] at e2
  have e3 := mul_le_mul_of_nonneg_left e1 hu0
  have e4 : W * u ≤ W * κ := mul_le_mul_of_nonneg_left huκ hW0.le
  nlinarith

/-- difference, product and quotient -/
theorem fin_step {F : Arith} {u : ℝ} (hF : F.Accurate u) (hu0 : 0 ≤ u) {M W x1 y1 s c κ E : ℝ} (hy1 : 0 < y1)
    (hs : s ≠ 0) (hE1 : E ≤ 1 / 100) (huE : u ≤ E) (hMW : |M - W| ≤ 15 * (κ * W))
    (hWN : κ * W ≤ E * |W - x1|) (hcE : |c - s| ≤ 5.3 * E * |s|) :
    |F.div (F.mul y1 (F.sub M x1)) c - y1 * (W - x1) / s| ≤ 27 * E * |y1 * (W - x1) / s| := by
  have hEn : 0 ≤ E := hu0.trans huE
  have hσ : 0 < |s| := abs_pos.2 hs
  have hS := hF.sub M x1
  generalize F.sub M x1 = S at hS ⊢
  have e0 : |M - x1 - (W - x1)| ≤ 15 * (κ * W) := by rw [sub_sub_sub_cancel_right]; exact hMW
  generalize W - x1 = N at *
  have hNn := abs_nonneg N
  have hEN : 0 ≤ E * |N| := mul_nonneg hEn hNn
  have huN : u * |N| ≤ E * |N| := mul_le_mul_of_nonneg_right huE hNn
  have hSN : |S - N| ≤ 17 * (E * |N|) := by
    have e1 : |M - x1| ≤ |N| + 15 * (E * |N|) := by
      have := abs_add_le (M - x1 - N) N
      rw [sub_add_cancel] at this
      linarith
    have e2 := abs_add_le (S - (M - x1)) (M - x1 - N)
    rw [sub_add_sub_cancel] at e2
    have e3 := mul_le_mul_of_nonneg_left e1 hu0
    have e4 : u * (E * |N|) ≤ 1 / 100 * (E * |N|) := mul_le_mul_of_nonneg_right (huE.trans hE1) hEN
    linarith
  have hY := hF.mul y1 S
  generalize F.mul y1 S = Y at hY ⊢
  obtain ⟨D, hD⟩ : ∃ D, D = y1 * N := ⟨_, rfl⟩
  have hDabs : |D| = y1 * |N| := by rw [hD, abs_mul, abs_of_pos hy1]
  have hyS : |y1 * S - D| ≤ 17 * (E * |D|) := by
    have := mul_le_mul_of_nonneg_left hSN hy1.le
    rw [hDabs, hD, ← mul_sub, abs_mul, abs_of_pos hy1]
    linarith
  rw [← hD]
  have hDn := abs_nonneg D
  have hED : 0 ≤ E * |D| := mul_nonneg hEn hDn
  have huD : u * |D| ≤ E * |D| := mul_le_mul_of_nonneg_right huE hDn
  have hYD : |Y - D| ≤ 18.2 * (E * |D|) := by
    have e1 : |y1 * S| ≤ |D| + 17 * (E * |D|) := by
      have := abs_add_le (y1 * S - D) D
      rw [sub_add_cancel] at this
      linarith
    have e2 := abs_add_le (Y - y1 * S) (y1 * S - D)
    rw [sub_add_sub_cancel] at e2
    have e3 := mul_le_mul_of_nonneg_left e1 hu0
    have e4 : u * (E * |D|) ≤ 1 / 100 * (E * |D|) := mul_le_mul_of_nonneg_right (huE.trans hE1) hED
    linarith
  have hcσ : 0.94 * |s| ≤ |c| := by
    have := abs_sub_abs_le_abs_sub s c
    rw [abs_sub_comm s c] at this
    have h5 : 5.3 * E * |s| ≤ 5.3 * (1 / 100) * |s| := by
      refine mul_le_mul_of_nonneg_right ?_ hσ.le
      linarith
    linarith
  have hc0 : 0 < |c| := by linarith
  have hcne : c ≠ 0 := abs_pos.1 hc0
  have hZ := hF.div Y c hcne
  generalize F.div Y c = Z at hZ ⊢
  have hI : |D / s| = |D| / |s| := abs_div _ _
  have hDI : |D| = |D / s| * |s| := by rw [hI]; field_simp
  have hIn := abs_nonneg (D / s)
  have hEI : 0 ≤ E * |D / s| := mul_nonneg hEn hIn
  have hquot : |Y / c - D / s| ≤ 25.1 * (E * |D / s|) := by
    have e : Y / c - D / s = ((Y - D) * s + D * (s - c)) / (c * s) := by
      field_simp; ring
    have e1 : |(Y - D) * s + D * (s - c)| ≤ 23.5 * (E * |D|) * |s| := by
      have a := abs_add_le ((Y - D) * s) (D * (s - c))
      rw [abs_mul, abs_mul, abs_sub_comm s c] at a
      have b1 := mul_le_mul_of_nonneg_right hYD hσ.le
      have b2 := mul_le_mul_of_nonneg_left hcE hDn
      linarith
    rw [e, abs_div, abs_mul c, div_le_iff₀ (by positivity)]
    refine e1.trans ?_
    rw [hDI]
    have b3 := mul_le_mul_of_nonneg_left hcσ (mul_nonneg hEI hσ.le)
    have b4 := mul_nonneg (mul_nonneg hEI hσ.le) hσ.le
    linarith
  generalize D / s = I at *
  have e1 : |Y / c| ≤ |I| + 25.1 * (E * |I|) := by
    have := abs_add_le (Y / c - I) I
    rw [sub_add_cancel] at this
    linarith
  have e2 := abs_add_le (Z - Y / c) (Y / c - I)
  rw [sub_add_sub_cancel] at e2
  have e3 := mul_le_mul_of_nonneg_left e1 hu0
  have e4 : u * (E * |I|) ≤ 1 / 100 * (E * |I|) := mul_le_mul_of_nonneg_right (huE.trans hE1) hEI
  have e5 : u * |I| ≤ E * |I| := mul_le_mul_of_nonneg_right huE hIn
  linarith

/-! ## One bin -/

section bin

variable {F : Arith} {u : ℝ} (hF : F.Accurate u) (hu0 : 0 ≤ u)
variable {x1 x2 y1 y2 : ℝ} (h1 : 0 < x1) (h12 : x1 < x2) (hy1 : 0 < y1) (hy2 : 0 < y2)
variable {L b : ℝ} (hL : L = Real.log (x2 / x1)) (hb : b * L = Real.log (y2 / y1))

include hF hu0 h1 h12 hy1 hy2 hL hb

/-- width, rounded ratio, rounded index -/
theorem index_bound {η : ℝ} (hη : η = u * (1 + |b|) * (1 + 1 / L)) (hη1 : η ≤ 1 / 100) :
    0 < L ∧ u ≤ 1 / 100 ∧ 0 < F.div x2 x1 ∧ |Real.log (F.div x2 x1) - L| ≤ 2 * u ∧
    |flIndex F x1 x2 y1 y2 - b| ≤ 4.2 * η ∧ |F.add (flIndex F x1 x2 y1 y2) 1 - (b + 1)| ≤ 5.3 * η := by
  have h2 : 0 < x2 := h1.trans h12
  have hρ : 0 < x2 / x1 := div_pos h2 h1
  have hq : 0 < y2 / y1 := div_pos hy2 hy1
  have hL0 : 0 < L := by rw [hL]; exact Real.log_pos ((one_lt_div h1).2 h12)
  have hb0 := abs_nonneg b
  have hv : 0 < 1 / L := by positivity
  have hu1 : u * (1 + |b|) ≤ η := by
    rw [hη]; nlinarith [mul_nonneg (mul_nonneg hu0 (by linarith : 0 ≤ 1 + |b|)) hv.le]
  have hub : u + u * |b| ≤ η := by linarith
  have hubn : 0 ≤ u * |b| := mul_nonneg hu0 hb0
  have hu : u ≤ 1 / 100 := by linarith
  have dx := hF.div x2 x1 h1.ne'
  have dy := hF.div y2 y1 hy1.ne'
  have px := rel_pos hρ hu dx
  have py := rel_pos hq hu dy
  have lx := log_rel hρ hu0 hu dx
  have ly := log_rel hq hu0 hu dy
  rw [← hL] at lx
  rw [← hb] at ly
  have h10 : 0 < Real.log 10 := Real.log_pos (by norm_num)
  have conv : ∀ z, 0 < z → |Real.log 10 * F.log10 z - Real.log z| ≤ u * |Real.log z| := by
    intro z hz
    have := hF.log10 z hz
    have e : Real.log z = Real.log 10 * Real.logb 10 z := by rw [Real.logb]; field_simp
    rw [e, ← mul_sub, abs_mul, abs_mul, abs_of_pos h10]
    nlinarith
  have lx' := log_step hu0 hu lx (conv _ px)
  have ly' := log_step hu0 hu ly (conv _ py)
  rw [abs_of_pos hL0] at lx'
  rw [abs_mul, abs_of_pos hL0] at ly'
  obtain ⟨hlx, hidx⟩ := index_step hL0 hu0 hη hη1 lx' ly'
  have hne : F.log10 (F.div x2 x1) ≠ 0 := by
    rintro h; rw [h, mul_zero] at hlx; exact lt_irrefl _ hlx
  have hratio : Real.log 10 * F.log10 (F.div y2 y1) / (Real.log 10 * F.log10 (F.div x2 x1)) =
      F.log10 (F.div y2 y1) / F.log10 (F.div x2 x1) := mul_div_mul_left _ _ h10.ne'
  rw [hratio] at hidx
  have hd := hF.div (F.log10 (F.div y2 y1)) (F.log10 (F.div x2 x1)) hne
  set w := F.log10 (F.div y2 y1) / F.log10 (F.div x2 x1) with hw
  have hη0 : 0 ≤ η := by linarith
  have hwabs : |w| ≤ |b| + 3.1 * η := by
    have := abs_add_le (w - b) b
    rw [sub_add_cancel] at this
    linarith
  have hbh : |flIndex F x1 x2 y1 y2 - b| ≤ 4.2 * η := by
    have e := abs_add_le (flIndex F x1 x2 y1 y2 - w) (w - b)
    rw [sub_add_sub_cancel] at e
    have e2 : |flIndex F x1 x2 y1 y2 - w| ≤ u * |w| := hd
    have e3 := mul_le_mul_of_nonneg_left hwabs hu0
    have e4 : u * η ≤ 1 / 100 * η := mul_le_mul_of_nonneg_right hu hη0
    linarith
  refine ⟨hL0, hu, px, lx, hbh, ?_⟩
  have ha := hF.add (flIndex F x1 x2 y1 y2) 1
  set bh := flIndex F x1 x2 y1 y2 with hbh'
  have e1 : |bh + 1| ≤ 1 + |b| + 4.2 * η := by
    have := abs_add_le (bh - b) (b + 1)
    have h3 := abs_add_le b 1
    rw [abs_one] at h3
    rw [show bh - b + (b + 1) = bh + 1 by ring] at this
    linarith
  have e2 := abs_add_le (F.add bh 1 - (bh + 1)) (bh - b)
  rw [show F.add bh 1 - (bh + 1) + (bh - b) = F.add bh 1 - (b + 1) by ring] at e2
  have e3 := mul_le_mul_of_nonneg_left e1 hu0
  have e4 : u * η ≤ 1 / 100 * η := mul_le_mul_of_nonneg_right hu hη0
  linarith

/-- The power-law branch. -/
theorem pow_branch {E : ℝ} (hs : b + 1 ≠ 0)
    (hE : E = u * (1 + |b|) * (1 + L) * (1 + 1 / L) * (1 + 1 / |b + 1|)) (hE1 : E ≤ 1 / 100) :
    |F.add (flIndex F x1 x2 y1 y2) 1 - (b + 1)| ≤ 5.3 * E * |b + 1| ∧
    |F.div (F.mul y1 (F.sub (F.mul x2 (F.pow (F.div x2 x1) (flIndex F x1 x2 y1 y2))) x1))
        (F.add (flIndex F x1 x2 y1 y2) 1) - y1 * (x2 * (x2 / x1) ^ b - x1) / (b + 1)| ≤
      27 * E * |y1 * (x2 * (x2 / x1) ^ b - x1) / (b + 1)| := by
  have h2 : 0 < x2 := h1.trans h12
  have hρ : 0 < x2 / x1 := div_pos h2 h1
  have hL0 : 0 < L := by rw [hL]; exact Real.log_pos ((one_lt_div h1).2 h12)
  have hs0 : 0 < |b + 1| := abs_pos.2 hs
  obtain ⟨η, κ, hη, hηn, hκn, hηL, huκ, hubκ, hηE, hκE, hησ, hκt⟩ := params hu0 hL0 hs0 hE
  obtain ⟨-, hu, px, hl, hbh, hc⟩ := index_bound hF hu0 h1 h12 hy1 hy2 hL hb hη (by linarith)
  have hcE : |F.add (flIndex F x1 x2 y1 y2) 1 - (b + 1)| ≤ 5.3 * E * |b + 1| := by linarith
  refine ⟨hcE, ?_⟩
  have hM := pow_step hF hu0 hL0 px h2 hl hbh hηn (hηE.trans hE1) hηL huκ hubκ (hκE.trans hE1)
  have hW : (x2 / x1) ^ b = Real.exp (b * L) := by
    rw [Real.rpow_def_of_pos hρ, ← hL, mul_comm]
  rw [hW]
  refine fin_step hF hu0 hy1 hs hE1 (huκ.trans hκE) hM ?_ hcE
  have hWe : x2 * Real.exp (b * L) = x1 * Real.exp ((b + 1) * L) := by
    rw [add_mul, one_mul, Real.exp_add]
    have : Real.exp L = x2 / x1 := by rw [hL, Real.exp_log hρ]
    rw [this]
    field_simp
  have h3 := exp_ratio (mul_ne_zero hs hL0.ne')
  rw [abs_mul, abs_of_pos hL0] at h3
  have hNe : |x2 * Real.exp (b * L) - x1| = x1 * |Real.exp ((b + 1) * L) - 1| := by
    rw [hWe, show x1 * Real.exp ((b + 1) * L) - x1 = x1 * (Real.exp ((b + 1) * L) - 1) by ring, abs_mul,
      abs_of_pos h1]
  have h4 : x2 * Real.exp (b * L) ≤ |x2 * Real.exp (b * L) - x1| * (1 + 1 / (|b + 1| * L)) := by
    rw [hNe, hWe, mul_assoc]
    exact mul_le_mul_of_nonneg_left h3 h1.le
  have a1 := mul_le_mul_of_nonneg_left h4 hκn
  have a2 := mul_le_mul_of_nonneg_right hκt (abs_nonneg (x2 * Real.exp (b * L) - x1))
  linarith

/-- The logarithmic branch, against the power law of index `b`; `I` is the integral. -/
theorem log_branch {η t I : ℝ} (hη : η = u * (1 + |b|) * (1 + 1 / L)) (hη1 : η ≤ 1 / 100)
    (hI : |I - x1 * y1 * L| ≤ t * (x1 * y1 * L)) :
    |F.mul (F.mul x1 y1) (F.log (F.div x2 x1)) - I| ≤ (5.2 * η + t) * (x1 * y1 * L) := by
  obtain ⟨hL0, hu, px, hl, -, -⟩ := index_bound hF hu0 h1 h12 hy1 hy2 hL hb hη hη1
  have hb0 := abs_nonneg b
  have hκ : η * L = u * (1 + |b|) * (1 + L) := by rw [hη]; field_simp; ring
  have hη0 : 0 ≤ η := by rw [hη]; positivity
  have hκn : 0 ≤ η * L := by positivity
  have huκ : u + u * L ≤ η * L := by
    rw [hκ]
    nlinarith [mul_nonneg hu0 hb0, mul_nonneg (mul_nonneg hu0 hb0) hL0.le]
  have hulL : 0 ≤ u * L := by positivity
  have hlog := log_step hu0 hu hl (hF.log _ px)
  rw [abs_of_pos hL0] at hlog
  have hlog' : |F.log (F.div x2 x1) - L| ≤ 3 * (η * L) := by nlinarith
  generalize F.log (F.div x2 x1) = ℓ at hlog hlog' ⊢
  have hm := hF.mul x1 y1
  generalize F.mul x1 y1 = m at hm ⊢
  have hz := hF.mul m ℓ
  generalize F.mul m ℓ = Z at hz ⊢
  have hxy : 0 < x1 * y1 := mul_pos h1 hy1
  generalize x1 * y1 = A at hm hxy hI ⊢
  rw [abs_of_pos hxy] at hm
  generalize hk : η * L = κ at hκn huκ hlog' 
  have hℓ : |ℓ| ≤ L + 3 * κ := by
    have := abs_add_le (ℓ - L) L
    rw [sub_add_cancel, abs_of_pos hL0] at this
    linarith
  have hu3 : u * κ ≤ 1 / 100 * κ := mul_le_mul_of_nonneg_right hu hκn
  have e1 : |m * ℓ - A * L| ≤ 4.03 * κ * A := by
    have e : m * ℓ - A * L = (m - A) * ℓ + A * (ℓ - L) := by ring
    have a1 := abs_add_le ((m - A) * ℓ) (A * (ℓ - L))
    rw [← e, abs_mul, abs_mul, abs_of_pos hxy] at a1
    have a2 : |m - A| * |ℓ| ≤ u * A * (L + 3 * κ) := mul_le_mul hm hℓ (abs_nonneg _) (by positivity)
    have a3 : A * |ℓ - L| ≤ A * (3 * κ) := mul_le_mul_of_nonneg_left hlog' hxy.le
    have a4 : u * A * (L + 3 * κ) = (u * L + 3 * (u * κ)) * A := by ring
    have a5 : (u * L + 3 * (u * κ)) * A ≤ (κ + 3 / 100 * κ) * A :=
      mul_le_mul_of_nonneg_right (by linarith) hxy.le
    linarith
  have e2 : |m * ℓ| ≤ (L + 4.03 * κ) * A := by
    have := abs_add_le (m * ℓ - A * L) (A * L)
    rw [sub_add_cancel, abs_of_pos (mul_pos hxy hL0)] at this
    linarith
  have e3 : |Z - m * ℓ| ≤ 1.05 * κ * A := by
    refine hz.trans ((mul_le_mul_of_nonneg_left e2 hu0).trans ?_)
    have : u * ((L + 4.03 * κ) * A) = (u * L + 4.03 * (u * κ)) * A := by ring
    rw [this]
    exact mul_le_mul_of_nonneg_right (by linarith) hxy.le
  have e4 := abs_add_le (Z - m * ℓ) (m * ℓ - A * L)
  rw [sub_add_sub_cancel] at e4
  have e5 := abs_add_le (Z - A * L) (A * L - I)
  rw [sub_add_sub_cancel, abs_sub_comm (A * L) I] at e5
  have e6 : (5.2 * η + t) * (A * L) = 5.2 * κ * A + t * (A * L) := by rw [← hk]; ring
  have hκA : 0 ≤ κ * A := by positivity
  rw [e6]
  linarith

end bin

/-! ## The integral of the local power law -/

theorem integral_bin {x1 x2 : ℝ} (y1 b : ℝ) (h1 : 0 < x1) (h12 : x1 < x2) (hs : b + 1 ≠ 0) :
    ∫ t in x1..x2, y1 * (t / x1) ^ b = y1 * (x2 * (x2 / x1) ^ b - x1) / (b + 1) := by
  have h2 : 0 < x2 := h1.trans h12
  have hx : 0 < x1 ^ b := Real.rpow_pos_of_pos h1 b
  have h0 : (0 : ℝ) ∉ Set.uIcc x1 x2 := by
    rw [Set.uIcc_of_le h12.le]; exact fun h => absurd h.1 (not_le.2 h1)
  have hc : ∀ t ∈ Set.uIcc x1 x2, y1 * (t / x1) ^ b = (y1 / x1 ^ b) * t ^ b := by
    intro t ht
    rw [Set.uIcc_of_le h12.le] at ht
    rw [Real.div_rpow (h1.le.trans ht.1) h1.le]
    ring
  rw [intervalIntegral.integral_congr hc, intervalIntegral.integral_const_mul,
    integral_rpow (Or.inr ⟨fun h => hs (by rw [h]; norm_num), h0⟩), Real.rpow_add_one h2.ne',
    Real.rpow_add_one h1.ne', Real.div_rpow h2.le h1.le]
  field_simp

theorem integral_bin_log {x1 x2 : ℝ} (y1 : ℝ) (h1 : 0 < x1) (h12 : x1 < x2) :
    ∫ t in x1..x2, y1 * (t / x1) ^ (-1 : ℝ) = x1 * y1 * Real.log (x2 / x1) := by
  have h2 : 0 < x2 := h1.trans h12
  have hc : ∀ t ∈ Set.uIcc x1 x2, y1 * (t / x1) ^ (-1 : ℝ) = (x1 * y1) * t⁻¹ := by
    intro t ht
    rw [Real.rpow_neg_one, inv_div]
    rw [div_eq_mul_inv]; ring
  rw [intervalIntegral.integral_congr hc, intervalIntegral.integral_const_mul,
    integral_inv_of_pos h1 h2]

/-- Near index -1 the integral is close to that of index -1. -/
theorem integral_near {x1 x2 y1 b L : ℝ} (h1 : 0 < x1) (h12 : x1 < x2) (hy1 : 0 < y1)
    (hL : L = Real.log (x2 / x1)) (ht : |(b + 1) * L| ≤ 1) :
    |(∫ t in x1..x2, y1 * (t / x1) ^ b) - x1 * y1 * L| ≤ |(b + 1) * L| * (x1 * y1 * L) := by
  have h2 : 0 < x2 := h1.trans h12
  have hρ : 0 < x2 / x1 := div_pos h2 h1
  have hL0 : 0 < L := by rw [hL]; exact Real.log_pos ((one_lt_div h1).2 h12)
  by_cases hs : b + 1 = 0
  · have hb : b = -1 := by linarith
    rw [hb, integral_bin_log y1 h1 h12, ← hL]
    norm_num
  · rw [integral_bin y1 b h1 h12 hs]
    have e : x2 * (x2 / x1) ^ b = x1 * Real.exp ((b + 1) * L) := by
      rw [Real.rpow_def_of_pos hρ, ← hL, add_mul, one_mul, Real.exp_add]
      have : Real.exp L = x2 / x1 := by rw [hL, Real.exp_log hρ]
      rw [this, mul_comm L b]
      field_simp
    have h3 := Real.abs_exp_sub_one_sub_id_le ht
    have e2 : y1 * (x2 * (x2 / x1) ^ b - x1) / (b + 1) - x1 * y1 * L =
        (x1 * y1 * L) * ((Real.exp ((b + 1) * L) - 1 - (b + 1) * L) / ((b + 1) * L)) := by
      rw [e]; field_simp
    have hA : 0 < x1 * y1 * L := by positivity
    have htne : 0 < |(b + 1) * L| := abs_pos.2 (mul_ne_zero hs hL0.ne')
    rw [e2, abs_mul, abs_of_pos hA, abs_div, mul_comm]
    refine mul_le_mul_of_nonneg_right ?_ hA.le
    rw [div_le_iff₀ htne, ← sq, sq_abs]
    exact h3

/-! ## Sums -/

theorem tree_value {F : Arith} {u : ℝ} (hF : F.Accurate u) (hu0 : 0 ≤ u) : ∀ t : SumTree,
    |t.value F - t.leaves.sum| ≤ ((1 + u) ^ t.depth - 1) * (t.leaves.map (fun x => |x|)).sum
  | .zero => by simp [SumTree.value, SumTree.leaves, SumTree.depth]
  | .leaf x => by simp [SumTree.value, SumTree.leaves, SumTree.depth]
  | .node l r => by
    have hl := tree_value hF hu0 l
    have hr := tree_value hF hu0 r
    have abs_sum : ∀ L : List ℝ, |L.sum| ≤ (L.map (fun x => |x|)).sum := by
      intro L
      induction L with
      | nil => simp
      | cons a L ih =>
        simp only [List.sum_cons, List.map_cons]
        exact (abs_add_le _ _).trans (by linarith)
    have hla := abs_sum l.leaves
    have hra := abs_sum r.leaves
    have nl : 0 ≤ (l.leaves.map (fun x => |x|)).sum := (abs_nonneg _).trans hla
    have nr : 0 ≤ (r.leaves.map (fun x => |x|)).sum := (abs_nonneg _).trans hra
    have ha := hF.add (l.value F) (r.value F)
    simp only [SumTree.value, SumTree.leaves, SumTree.depth, List.sum_append, List.map_append]
    generalize l.value F = vl at *
    generalize r.value F = vr at *
    generalize F.add vl vr = v at *
    generalize l.leaves.sum = sl at *
    generalize r.leaves.sum = sr at *
    generalize (l.leaves.map (fun x => |x|)).sum = al at *
    generalize (r.leaves.map (fun x => |x|)).sum = ar at *
    have h1u : (1 : ℝ) ≤ 1 + u := by linarith
    have pl : (1 + u) ^ l.depth ≤ (1 + u) ^ (max l.depth r.depth) := pow_le_pow_right₀ h1u (le_max_left _ _)
    have pr : (1 + u) ^ r.depth ≤ (1 + u) ^ (max l.depth r.depth) := pow_le_pow_right₀ h1u (le_max_right _ _)
    rw [pow_succ]
    generalize (1 + u) ^ (max l.depth r.depth) = p at *
    have hl' : |vl - sl| ≤ (p - 1) * al := hl.trans (mul_le_mul_of_nonneg_right (by linarith) nl)
    have hr' : |vr - sr| ≤ (p - 1) * ar := hr.trans (mul_le_mul_of_nonneg_right (by linarith) nr)
    have e1 : |vl + vr - (sl + sr)| ≤ (p - 1) * (al + ar) := by
      have := abs_add_le (vl - sl) (vr - sr)
      rw [show vl - sl + (vr - sr) = vl + vr - (sl + sr) by ring] at this
      linarith
    have e2 : |vl + vr| ≤ p * (al + ar) := by
      have := abs_add_le (vl + vr - (sl + sr)) (sl + sr)
      rw [sub_add_cancel] at this
      have h4 := abs_add_le sl sr
      linarith
    have e3 := abs_add_le (v - (vl + vr)) (vl + vr - (sl + sr))
    rw [sub_add_sub_cancel] at e3
    have e4 := mul_le_mul_of_nonneg_left e2 hu0
    linarith

end Naima.Rounded
