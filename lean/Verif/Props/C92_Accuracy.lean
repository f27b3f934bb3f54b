import Verif.Proof.Accuracy
import Verif.Props.C83_Convergence
import Verif.Props.C22_C24_Models
import Mathlib.Analysis.Convex.Deriv

/-! # C92: accuracy of the energy content at a finite number of grid points

`compute_We` and `compute_Wp` sum over a logarithmic grid. For a spectrum with bounded curvature in the
log-log plane the error at any number of points is bounded explicitly; for a spectrum that only steepens
the result is never above the true energy. -/

namespace Naima.Props

open Naima XR Classical

/-! ### Specification -/

/-- Step in `ln E` of a grid from `a` to `b` with `n` points per decade, at least ten points in all. -/
noncomputable def lnStep (n a b : ℝ) : ℝ :=
  Real.log (b / a) / (((max 10 ⌊n * Real.logb 10 (b / a)⌋ : ℤ) : ℝ) - 1)

/-- The slope of `ln f` against `ln E` rises by at most `K` per e-folding in energy. With `K = 0` the
spectrum can only steepen. -/
def SlopeRisesAtMost (K : ℝ) (f : ℝ → ℝ) (a b : ℝ) : Prop :=
  ConcaveOn ℝ (Set.Icc (Real.log a) (Real.log b)) (fun s => Real.log (f (Real.exp s)) - K / 2 * s ^ 2)

/-- The slope of `ln f` against `ln E` falls by at most `K` per e-folding in energy. With `K = 0` the
spectrum can only flatten. -/
def SlopeFallsAtMost (K : ℝ) (f : ℝ → ℝ) (a b : ℝ) : Prop :=
  ConvexOn ℝ (Set.Icc (Real.log a) (Real.log b)) (fun s => Real.log (f (Real.exp s)) + K / 2 * s ^ 2)

/-- The two definitions in terms of the second logarithmic derivative: if `ln f` as a function of `ln E`
has derivative `g'` and second derivative `g''` with `-K₁ ≤ g'' ≤ K₂`, the slope falls by at most `K₁` and
rises by at most `K₂`. -/
theorem C92_slope_of_derivative (f : ℝ → ℝ) (a b K₁ K₂ : ℝ) (ha : 0 < a) (hab : a < b) (g' g'' : ℝ → ℝ)
    (hc : ContinuousOn (fun s => Real.log (f (Real.exp s))) (Set.Icc (Real.log a) (Real.log b)))
    (h1 : ∀ s ∈ Set.Ioo (Real.log a) (Real.log b),
      HasDerivAt (fun s => Real.log (f (Real.exp s))) (g' s) s)
    (h2 : ∀ s ∈ Set.Ioo (Real.log a) (Real.log b), HasDerivAt g' (g'' s) s)
    (hK : ∀ s ∈ Set.Ioo (Real.log a) (Real.log b), -K₁ ≤ g'' s ∧ g'' s ≤ K₂) :
    SlopeFallsAtMost K₁ f a b ∧ SlopeRisesAtMost K₂ f a b := by
  constructor
  · apply convexOn_of_hasDerivWithinAt2_nonneg (convex_Icc _ _) (f' := fun s => g' s + K₁ * s)
      (f'' := fun s => g'' s + K₁)
    · exact hc.add (by fun_prop)
    · rw [interior_Icc]
      intro s hs
      have e := (h1 s hs).add (((hasDerivAt_id s).pow 2).const_mul (K₁ / 2))
      have e' : HasDerivAt (fun s => Real.log (f (Real.exp s)) + K₁ / 2 * s ^ 2) (g' s + K₁ * s) s := by
        refine e.congr_deriv ?_
        simp; ring
      exact e'.hasDerivWithinAt
    · rw [interior_Icc]
      intro s hs
      have e := (h2 s hs).add ((hasDerivAt_id s).const_mul K₁)
      have e' : HasDerivAt (fun s => g' s + K₁ * s) (g'' s + K₁) s := by
        refine e.congr_deriv ?_
        simp
      exact e'.hasDerivWithinAt
    · rw [interior_Icc]
      intro s hs
      linarith [(hK s hs).1]
  · apply concaveOn_of_hasDerivWithinAt2_nonpos (convex_Icc _ _) (f' := fun s => g' s - K₂ * s)
      (f'' := fun s => g'' s - K₂)
    · exact hc.sub (by fun_prop)
    · rw [interior_Icc]
      intro s hs
      have e := (h1 s hs).sub (((hasDerivAt_id s).pow 2).const_mul (K₂ / 2))
      have e' : HasDerivAt (fun s => Real.log (f (Real.exp s)) - K₂ / 2 * s ^ 2) (g' s - K₂ * s) s := by
        refine e.congr_deriv ?_
        simp; ring
      exact e'.hasDerivWithinAt
    · rw [interior_Icc]
      intro s hs
      have e := (h2 s hs).sub ((hasDerivAt_id s).const_mul K₂)
      have e' : HasDerivAt (fun s => g' s - K₂ * s) (g'' s - K₂) s := by
        refine e.congr_deriv ?_
        simp
      exact e'.hasDerivWithinAt
    · rw [interior_Icc]
      intro s hs
      linarith [(hK s hs).2]

/-! ### Proofs -/

theorem log_weighted (p : ℝ → ℝ) (c : ℝ) (hc : 0 < c) (s : ℝ) (hp : 0 < p (Real.exp s)) :
    logLog (fun E => E * (p E * c)) s = Real.log (p (Real.exp s)) + (s + Real.log c) := by
  unfold logLog
  rw [Real.log_mul (Real.exp_pos s).ne' (by positivity), Real.log_mul hp.ne' hc.ne', Real.log_exp]
  ring

theorem affine_concave (S : Set ℝ) (hS : Convex ℝ S) (c : ℝ) : ConcaveOn ℝ S (fun s : ℝ => s + c) :=
  (concaveOn_id hS).add (concaveOn_const c hS)

theorem affine_convex (S : Set ℝ) (hS : Convex ℝ S) (c : ℝ) : ConvexOn ℝ S (fun s : ℝ => s + c) :=
  (convexOn_id hS).add (convexOn_const c hS)

theorem exp_mem_Icc {a b s : ℝ} (ha : 0 < a) (hb : 0 < b) (hs : s ∈ Set.Icc (Real.log a) (Real.log b)) :
    Real.exp s ∈ Set.Icc a b :=
  ⟨(Real.log_le_iff_le_exp ha).1 hs.1, (Real.le_log_iff_exp_le hb).1 hs.2⟩

theorem weighted_rises (K : ℝ) (p : ℝ → ℝ) (a b c : ℝ) (ha : 0 < a) (hb : 0 < b) (hc : 0 < c)
    (hp : ∀ E ∈ Set.Icc a b, 0 < p E) (h : SlopeRisesAtMost K p a b) :
    ConcaveOn ℝ (Set.Icc (Real.log a) (Real.log b)) (fun s => logLog (fun E => E * (p E * c)) s - K / 2 * s ^ 2) := by
  refine (ConcaveOn.add h (affine_concave _ (convex_Icc _ _) (Real.log c))).congr ?_
  intro s hs
  simp only [Pi.add_apply]
  rw [log_weighted p c hc s (hp _ (exp_mem_Icc ha hb hs))]
  ring

theorem weighted_falls (K : ℝ) (p : ℝ → ℝ) (a b c : ℝ) (ha : 0 < a) (hb : 0 < b) (hc : 0 < c)
    (hp : ∀ E ∈ Set.Icc a b, 0 < p E) (h : SlopeFallsAtMost K p a b) :
    ConvexOn ℝ (Set.Icc (Real.log a) (Real.log b)) (fun s => logLog (fun E => E * (p E * c)) s + K / 2 * s ^ 2) := by
  refine (ConvexOn.add h (affine_convex _ (convex_Icc _ _) (Real.log c))).congr ?_
  intro s hs
  simp only [Pi.add_apply]
  rw [log_weighted p c hc s (hp _ (exp_mem_Icc ha hb hs))]
  ring

theorem lnStep_gridK (n a b c : ℝ) (hn : 0 ≤ n) (ha : 0 < a) (hab : a < b) (hc : 0 < c) :
    Real.log (b / a) / ((gridK (Real.logb 10 (b / c) - Real.logb 10 (a / c)) n : ℝ) - 1) = lnStep n a b := by
  have hb := ha.trans hab
  rw [← Real.logb_div (div_pos hb hc).ne' (div_pos ha hc).ne', div_div_div_cancel_right₀ hc.ne']
  have h0 : 0 ≤ Real.logb 10 (b / a) := Real.logb_nonneg (by norm_num) (by rw [one_le_div ha]; exact hab.le)
  unfold lnStep gridK
  rw [if_pos (mul_nonneg hn h0)]
  congr 2
  have : (0 : ℤ) ≤ max 10 ⌊n * Real.logb 10 (b / a)⌋ := le_trans (by norm_num) (le_max_left _ _)
  have e := Int.toNat_of_nonneg this
  exact_mod_cast e

/-- **C92 (energy in electrons).** For every electron spectrum that is positive and continuous on the range,
every number `n` of grid points per decade and every bound `K ≥ 0` on its curvature, with `h` the step of the
grid in `ln E`: if the slope rises by at most `K` per e-folding, `compute_We` is at most
`exp(K h²/8 + 1e-10 h)` times the true energy `∫ E dN/dE dE`; if it falls by at most `K`, the true energy is
at most `exp(K h²/8 + 1e-10 h)` times `compute_We`. -/
theorem C92_compute_We (m : ElModel) (pd : PDist) (hu : pd.unit.dim = Dim.diffEnergy)
    (hus : 0 < pd.unit.scale) (lo hi : Qty ℝ)
    (hlo : lo.PosEnergy) (hhi : hi.PosEnergy) (hlt : lo.phys < hi.phys) (p : ℝ → ℝ)
    (hp : ∀ E ∈ Set.Icc lo.phys hi.phys, pd.f E = fin (p E))
    (hpos : ∀ E ∈ Set.Icc lo.phys hi.phys, 0 < p E) (hcont : ContinuousOn p (Set.Icc lo.phys hi.phys))
    (n K : ℝ) (hn : 0 ≤ n) (hK : 0 ≤ K) :
    ∃ W : ℝ, ({ m with nEed := n } : ElModel).computeWe pd (some lo) (some hi) = .ok (fin W) ∧
      (SlopeRisesAtMost K p lo.phys hi.phys →
        W ≤ Real.exp (K * lnStep n lo.phys hi.phys ^ 2 / 8 + 1e-10 * lnStep n lo.phys hi.phys) *
          ∫ E in lo.phys..hi.phys, E * (p E * pd.unit.scale)) ∧
      (SlopeFallsAtMost K p lo.phys hi.phys →
        ∫ E in lo.phys..hi.phys, E * (p E * pd.unit.scale) ≤
          Real.exp (K * lnStep n lo.phys hi.phys ^ 2 / 8 + 1e-10 * lnStep n lo.phys hi.phys) * W) := by
  have ha := hlo.phys_pos
  have hb := hhi.phys_pos
  obtain ⟨W, w1, w2, w3⟩ := grid_accuracy cMec2 lo.phys hi.phys cMec2_pos ha hlt
    (fun E => E * (p E * pd.unit.scale))
    (fun t ht => mul_pos (ha.trans_le ht.1) (mul_pos (hpos t ht) hus))
    (continuousOn_id.mul (hcont.mul continuousOn_const)) K hK
    (gridK (Real.logb 10 (hi.phys / cMec2) - Real.logb 10 (lo.phys / cMec2)) n) (gridK_ten _ _)
  rw [lnStep_gridK n lo.phys hi.phys cMec2 hn ha hlt cMec2_pos] at w2 w3
  refine ⟨W, ?_, fun h => w2 (weighted_rises K p _ _ _ ha hb hus hpos h),
    fun h => w3 (weighted_falls K p _ _ _ ha hb hus hpos h)⟩
  rw [computeWe_trapz m pd hu lo hi hlo hhi hlt p hp n _ (gamGrid_eq n lo hi hlo hhi)]
  exact congrArg Except.ok w1

/-- **C92 (energy in protons).** The same for `compute_Wp`. -/
theorem C92_compute_Wp (m : PrModel) (pd : PDist) (hu : pd.unit.dim = Dim.diffEnergy)
    (hus : 0 < pd.unit.scale) (lo hi : Qty ℝ)
    (hlo : lo.PosEnergy) (hhi : hi.PosEnergy) (hlt : lo.phys < hi.phys) (p : ℝ → ℝ)
    (hp : ∀ E ∈ Set.Icc lo.phys hi.phys, pd.f E = fin (p E))
    (hpos : ∀ E ∈ Set.Icc lo.phys hi.phys, 0 < p E) (hcont : ContinuousOn p (Set.Icc lo.phys hi.phys))
    (n K : ℝ) (hn : 0 ≤ n) (hK : 0 ≤ K) :
    ∃ W : ℝ, ({ m with nEpd := n } : PrModel).computeWp pd (some lo) (some hi) = .ok (fin W) ∧
      (SlopeRisesAtMost K p lo.phys hi.phys →
        W ≤ Real.exp (K * lnStep n lo.phys hi.phys ^ 2 / 8 + 1e-10 * lnStep n lo.phys hi.phys) *
          ∫ E in lo.phys..hi.phys, E * (p E * pd.unit.scale)) ∧
      (SlopeFallsAtMost K p lo.phys hi.phys →
        ∫ E in lo.phys..hi.phys, E * (p E * pd.unit.scale) ≤
          Real.exp (K * lnStep n lo.phys hi.phys ^ 2 / 8 + 1e-10 * lnStep n lo.phys hi.phys) * W) := by
  have ha := hlo.phys_pos
  have hb := hhi.phys_pos
  obtain ⟨W, w1, w2, w3⟩ := grid_accuracy PhysUnit.GeV.scale lo.phys hi.phys GeV_pos ha hlt
    (fun E => E * (p E * pd.unit.scale))
    (fun t ht => mul_pos (ha.trans_le ht.1) (mul_pos (hpos t ht) hus))
    (continuousOn_id.mul (hcont.mul continuousOn_const)) K hK
    (gridK (Real.logb 10 (hi.phys / PhysUnit.GeV.scale) - Real.logb 10 (lo.phys / PhysUnit.GeV.scale)) n)
    (gridK_ten _ _)
  rw [lnStep_gridK n lo.phys hi.phys PhysUnit.GeV.scale hn ha hlt GeV_pos] at w2 w3
  refine ⟨W, ?_, fun h => w2 (weighted_rises K p _ _ _ ha hb hus hpos h),
    fun h => w3 (weighted_falls K p _ _ _ ha hb hus hpos h)⟩
  rw [computeWp_trapz m pd hu hus lo hi hlo hhi hlt p hp n _ (epGrid_gridK n lo hi hlo hhi)]
  exact congrArg Except.ok w1

/-! ### The documented spectral shapes -/

theorem rpow_exp_mul (x c r : ℝ) (hc : 0 < c) : (Real.exp x / c) ^ r = Real.exp (r * (x - Real.log c)) := by
  rw [Real.rpow_def_of_pos (by positivity), Real.log_div (Real.exp_pos _).ne' hc.ne', Real.log_exp, mul_comm]

/-- **C92 (power law).** The slope of a power law is constant. -/
theorem C92_power_law (A α E0 a b : ℝ) (hA : 0 < A) (h0 : 0 < E0) (ha : 0 < a) (hab : a < b) :
    SlopeFallsAtMost 0 (fun E => Spec.powerLaw A α (E / E0)) a b ∧
    SlopeRisesAtMost 0 (fun E => Spec.powerLaw A α (E / E0)) a b := by
  have e : (fun s => Real.log (Spec.powerLaw A α (Real.exp s / E0))) =
      fun s => Real.log A + -α * (s - Real.log E0) := by
    funext s
    unfold Spec.powerLaw
    rw [rpow_exp_mul _ _ _ h0, Real.log_mul hA.ne' (Real.exp_pos _).ne', Real.log_exp]
  apply C92_slope_of_derivative _ a b 0 0 ha hab (fun _ => -α) (fun _ => 0)
  · rw [e]; fun_prop
  · intro s _
    rw [e]
    have := (((hasDerivAt_id s).sub_const (Real.log E0)).const_mul (-α)).const_add (Real.log A)
    simpa using this
  · intro s _; exact hasDerivAt_const _ _
  · intro s _; simp

/-- **C92 (exponential cutoff).** The slope of a power law with exponential cutoff never rises and, up to the
energy `b`, falls by at most `β² (b / E_c)^β` per e-folding. -/
theorem C92_exponential_cutoff (A α β E0 Ec a b : ℝ) (hA : 0 < A) (h0 : 0 < E0) (hc : 0 < Ec) (hβ : 0 ≤ β)
    (ha : 0 < a) (hab : a < b) :
    SlopeFallsAtMost (β ^ 2 * (b / Ec) ^ β) (fun E => Spec.ecpl A α β (E / E0) (E / Ec)) a b ∧
    SlopeRisesAtMost 0 (fun E => Spec.ecpl A α β (E / E0) (E / Ec)) a b := by
  have hb := ha.trans hab
  have e : (fun s => Real.log (Spec.ecpl A α β (Real.exp s / E0) (Real.exp s / Ec))) =
      fun s => Real.log A + -α * (s - Real.log E0) - Real.exp (β * (s - Real.log Ec)) := by
    funext s
    unfold Spec.ecpl
    rw [rpow_exp_mul _ _ _ h0, rpow_exp_mul _ _ _ hc, Real.log_mul (by positivity) (Real.exp_pos _).ne',
      Real.log_mul hA.ne' (Real.exp_pos _).ne', Real.log_exp, Real.log_exp]
    ring
  have hE : ∀ s, HasDerivAt (fun s => Real.exp (β * (s - Real.log Ec))) (β * Real.exp (β * (s - Real.log Ec))) s := by
    intro s
    have := ((((hasDerivAt_id s).sub_const (Real.log Ec)).const_mul β)).exp
    simpa [mul_comm] using this
  apply C92_slope_of_derivative _ a b _ 0 ha hab (fun s => -α - β * Real.exp (β * (s - Real.log Ec)))
    (fun s => -(β * (β * Real.exp (β * (s - Real.log Ec)))))
  · rw [e]; fun_prop
  · intro s _
    rw [e]
    have := ((((hasDerivAt_id s).sub_const (Real.log E0)).const_mul (-α)).const_add (Real.log A)).sub (hE s)
    refine this.congr_deriv ?_
    simp
  · intro s _
    exact ((hE s).const_mul β).const_sub (-α)
  · intro s hs
    constructor
    · apply neg_le_neg
      have e2 : (b / Ec) ^ β = Real.exp (β * (Real.log b - Real.log Ec)) := by
        have := rpow_exp_mul (Real.log b) Ec β hc
        rwa [Real.exp_log hb] at this
      rw [e2, ← mul_assoc, ← pow_two]
      apply mul_le_mul_of_nonneg_left _ (sq_nonneg β)
      apply Real.exp_le_exp.2
      apply mul_le_mul_of_nonneg_left _ hβ
      linarith [hs.2]
    · have := Real.exp_pos (β * (s - Real.log Ec))
      have : 0 ≤ β * (β * Real.exp (β * (s - Real.log Ec))) := by positivity
      linarith

/-- **C92 (log-parabola).** The slope of a log-parabola falls by exactly `2β` per e-folding (rises for
negative `β`). -/
theorem C92_log_parabola (A α β E0 a b : ℝ) (hA : 0 < A) (h0 : 0 < E0) (ha : 0 < a) (hab : a < b) :
    SlopeFallsAtMost (2 * β) (fun E => Spec.logParabola A α β (E / E0)) a b ∧
    SlopeRisesAtMost (-2 * β) (fun E => Spec.logParabola A α β (E / E0)) a b := by
  have e : (fun s => Real.log (Spec.logParabola A α β (Real.exp s / E0))) =
      fun s => Real.log A + (-α * (s - Real.log E0) - β * (s - Real.log E0) ^ 2) := by
    funext s
    unfold Spec.logParabola
    rw [rpow_exp_mul _ _ _ h0, Real.log_mul hA.ne' (Real.exp_pos _).ne', Real.log_exp,
      Real.log_div (Real.exp_pos _).ne' h0.ne', Real.log_exp]
    ring
  apply C92_slope_of_derivative _ a b _ _ ha hab (fun s => -α - 2 * β * (s - Real.log E0)) (fun _ => -(2 * β))
  · rw [e]; fun_prop
  · intro s _
    rw [e]
    have := ((((hasDerivAt_id s).sub_const (Real.log E0)).const_mul (-α)).sub
      ((((hasDerivAt_id s).sub_const (Real.log E0)).pow 2).const_mul β)).const_add (Real.log A)
    refine this.congr_deriv ?_
    simp; ring
  · intro s _
    have := (((hasDerivAt_id s).sub_const (Real.log E0)).const_mul (2 * β)).const_sub (-α)
    simpa using this
  · intro s _; constructor <;> linarith

/-! ### What that means with the default grid -/

/-- at 100 points per decade over at least a decade the step is below 0.0236 -/
theorem lnStep_default (a b : ℝ) (ha : 0 < a) (hab : 10 * a ≤ b) :
    0 ≤ lnStep 100 a b ∧ lnStep 100 a b ≤ 0.0236 := by
  have hr : 10 ≤ b / a := by rwa [le_div_iff₀ ha]
  set d := Real.logb 10 (b / a) with hd
  have hd1 : 1 ≤ d := by
    rw [hd, Real.le_logb_iff_rpow_le (by norm_num) (by linarith)]; simpa using hr
  have hl : Real.log (b / a) = d * Real.log 10 := by
    rw [hd, Real.logb]
    have : Real.log 10 ≠ 0 := Real.log_ne_zero_of_pos_of_ne_one (by norm_num) (by norm_num)
    field_simp
  have hk : 100 * d - 1 ≤ ((max 10 ⌊100 * d⌋ : ℤ) : ℝ) := by
    have h1 : (⌊100 * d⌋ : ℝ) ≤ ((max 10 ⌊100 * d⌋ : ℤ) : ℝ) := by exact_mod_cast le_max_right _ _
    have := Int.sub_one_lt_floor (100 * d)
    linarith
  have hlog : Real.log 10 < 2.311 := by
    have h1 := Real.log_two_lt_d9
    have h2 : Real.log (10 ^ 3) < Real.log (2 ^ 10) := Real.log_lt_log (by norm_num) (by norm_num)
    rw [Real.log_pow, Real.log_pow] at h2
    push_cast at h2
    linarith
  have hlog0 : 0 < Real.log 10 := Real.log_pos (by norm_num)
  unfold lnStep
  rw [← hd, hl]
  have hden : 0 < ((max 10 ⌊100 * d⌋ : ℤ) : ℝ) - 1 := by linarith
  refine ⟨by positivity, ?_⟩
  rw [div_le_iff₀ hden]
  nlinarith

theorem exp_small (x y : ℝ) (hx : x ≤ y) (hy : y < 1) : Real.exp x ≤ 1 / (1 - y) := by
  have h1 : 1 - y ≤ Real.exp (-y) := by linarith [Real.add_one_le_exp (-y)]
  rw [le_div_iff₀ (by linarith)]
  calc Real.exp x * (1 - y) ≤ Real.exp y * Real.exp (-y) :=
        mul_le_mul (Real.exp_le_exp.2 hx) h1 (by linarith) (Real.exp_pos _).le
    _ = 1 := by rw [← Real.exp_add]; simp

theorem default_bounds (a b : ℝ) (ha : 0 < a) (hab : 10 * a ≤ b) :
    Real.exp (0 * lnStep 100 a b ^ 2 / 8 + 1e-10 * lnStep 100 a b) ≤ 1 + 1e-11 ∧
    Real.exp (10 * lnStep 100 a b ^ 2 / 8 + 1e-10 * lnStep 100 a b) ≤ 1.001 := by
  obtain ⟨h0, h1⟩ := lnStep_default a b ha hab
  constructor
  · refine (exp_small _ 3e-12 (by linarith) (by norm_num)).trans (by norm_num)
  · refine (exp_small _ 7.1e-4 ?_ (by norm_num)).trans (by norm_num)
    have : lnStep 100 a b ^ 2 ≤ 0.0236 ^ 2 := pow_le_pow_left₀ h0 h1 2
    norm_num at this ⊢
    linarith

/-- **C92 (default grid, electrons).** With the default 100 points per decade, over a range of at least a
decade, for every electron spectrum whose slope never rises and falls by at most 10 per e-folding:
`compute_We` is not above the true energy content by more than a part in 10¹¹, and not below it by more than
0.1 %. -/
theorem C92_default_We (m : ElModel) (hm : m.nEed = 100) (pd : PDist) (hu : pd.unit.dim = Dim.diffEnergy)
    (hus : 0 < pd.unit.scale) (lo hi : Qty ℝ)
    (hlo : lo.PosEnergy) (hhi : hi.PosEnergy) (hlt : 10 * lo.phys ≤ hi.phys) (p : ℝ → ℝ)
    (hp : ∀ E ∈ Set.Icc lo.phys hi.phys, pd.f E = fin (p E))
    (hpos : ∀ E ∈ Set.Icc lo.phys hi.phys, 0 < p E) (hcont : ContinuousOn p (Set.Icc lo.phys hi.phys))
    (hr : SlopeRisesAtMost 0 p lo.phys hi.phys) (hf : SlopeFallsAtMost 10 p lo.phys hi.phys) :
    ∃ W : ℝ, m.computeWe pd (some lo) (some hi) = .ok (fin W) ∧
      W ≤ (1 + 1e-11) * ∫ E in lo.phys..hi.phys, E * (p E * pd.unit.scale) ∧
      ∫ E in lo.phys..hi.phys, E * (p E * pd.unit.scale) ≤ 1.001 * W := by
  have ha := hlo.phys_pos
  have hl : lo.phys < hi.phys := by linarith
  have hme : m = { m with nEed := 100 } := by cases m; simp only at hm; subst hm; rfl
  obtain ⟨b1, b2⟩ := default_bounds lo.phys hi.phys ha hlt
  obtain ⟨W, w1, w2, -⟩ := C92_compute_We m pd hu hus lo hi hlo hhi hl p hp hpos hcont 100 0
    (by norm_num) le_rfl
  obtain ⟨W', w1', -, w3⟩ := C92_compute_We m pd hu hus lo hi hlo hhi hl p hp hpos hcont 100 10
    (by norm_num) (by norm_num)
  have e : W' = W := by
    rw [w1'] at w1; injection w1 with w1; injection w1
  subst e
  have hI : 0 ≤ ∫ E in lo.phys..hi.phys, E * (p E * pd.unit.scale) := by
    apply intervalIntegral.integral_nonneg hl.le
    intro E hE
    exact mul_nonneg (ha.le.trans hE.1) (mul_nonneg (hpos E hE).le hus.le)
  have hW : 0 ≤ W' := by
    by_contra h
    push Not at h
    have := w3 hf
    have : Real.exp (10 * lnStep 100 lo.phys hi.phys ^ 2 / 8 + 1e-10 * lnStep 100 lo.phys hi.phys) * W' < 0 :=
      mul_neg_of_pos_of_neg (Real.exp_pos _) h
    linarith
  refine ⟨W', by rw [hme]; exact w1, ?_, ?_⟩
  · exact (w2 hr).trans (mul_le_mul_of_nonneg_right b1 hI)
  · exact (w3 hf).trans (mul_le_mul_of_nonneg_right b2 hW)

/-- **C92 (default grid, protons).** The same for `compute_Wp`. -/
theorem C92_default_Wp (m : PrModel) (hm : m.nEpd = 100) (pd : PDist) (hu : pd.unit.dim = Dim.diffEnergy)
    (hus : 0 < pd.unit.scale) (lo hi : Qty ℝ)
    (hlo : lo.PosEnergy) (hhi : hi.PosEnergy) (hlt : 10 * lo.phys ≤ hi.phys) (p : ℝ → ℝ)
    (hp : ∀ E ∈ Set.Icc lo.phys hi.phys, pd.f E = fin (p E))
    (hpos : ∀ E ∈ Set.Icc lo.phys hi.phys, 0 < p E) (hcont : ContinuousOn p (Set.Icc lo.phys hi.phys))
    (hr : SlopeRisesAtMost 0 p lo.phys hi.phys) (hf : SlopeFallsAtMost 10 p lo.phys hi.phys) :
    ∃ W : ℝ, m.computeWp pd (some lo) (some hi) = .ok (fin W) ∧
      W ≤ (1 + 1e-11) * ∫ E in lo.phys..hi.phys, E * (p E * pd.unit.scale) ∧
      ∫ E in lo.phys..hi.phys, E * (p E * pd.unit.scale) ≤ 1.001 * W := by
  have ha := hlo.phys_pos
  have hl : lo.phys < hi.phys := by linarith
  have hme : m = { m with nEpd := 100 } := by cases m; simp only at hm; subst hm; rfl
  obtain ⟨b1, b2⟩ := default_bounds lo.phys hi.phys ha hlt
  obtain ⟨W, w1, w2, -⟩ := C92_compute_Wp m pd hu hus lo hi hlo hhi hl p hp hpos hcont 100 0
    (by norm_num) le_rfl
  obtain ⟨W', w1', -, w3⟩ := C92_compute_Wp m pd hu hus lo hi hlo hhi hl p hp hpos hcont 100 10
    (by norm_num) (by norm_num)
  have e : W' = W := by
    rw [w1'] at w1; injection w1 with w1; injection w1
  subst e
  have hI : 0 ≤ ∫ E in lo.phys..hi.phys, E * (p E * pd.unit.scale) := by
    apply intervalIntegral.integral_nonneg hl.le
    intro E hE
    exact mul_nonneg (ha.le.trans hE.1) (mul_nonneg (hpos E hE).le hus.le)
  have hW : 0 ≤ W' := by
    by_contra h
    push Not at h
    have := w3 hf
    have : Real.exp (10 * lnStep 100 lo.phys hi.phys ^ 2 / 8 + 1e-10 * lnStep 100 lo.phys hi.phys) * W' < 0 :=
      mul_neg_of_pos_of_neg (Real.exp_pos _) h
    linarith
  refine ⟨W', by rw [hme]; exact w1, ?_, ?_⟩
  · exact (w2 hr).trans (mul_le_mul_of_nonneg_right b1 hI)
  · exact (w3 hf).trans (mul_le_mul_of_nonneg_right b2 hW)

theorem erg_phys (E : ℝ) : (⟨E, PhysUnit.erg⟩ : Qty ℝ).phys = E := by
  simp [Qty.phys, PhysUnit.erg]

/-- **C92 (ExponentialCutoffPowerLaw).** Electrons following the documented power law with exponential
cutoff, whose upper limit is at most ten times the cutoff energy, on the default grid over at least a decade:
`compute_We` is not above the true energy content by more than a part in 10¹¹, and not below it by more than
0.1 %, whatever the amplitude, index and reference energy, in whatever units. -/
theorem C92_exponential_cutoff_We (m : ElModel) (hm : m.nEed = 100) (A α : ℝ) (hA : 0 < A) (e0 ec : Qty ℝ)
    (h0 : e0.PosEnergy) (hc : ec.PosEnergy) (u : PhysUnit) (hu : u.dim = Dim.diffEnergy) (hus : 0 < u.scale)
    (lo hi : Qty ℝ) (hlo : lo.PosEnergy) (hhi : hi.PosEnergy) (hlt : 10 * lo.phys ≤ hi.phys)
    (hcut : hi.phys ≤ 10 * ec.phys) :
    ∃ W : ℝ, m.computeWe (ECPL.toPDist ⟨fin A, e0.lift, fin α, ec.lift, fin 1⟩ u) (some lo) (some hi) = .ok (fin W) ∧
      W ≤ (1 + 1e-11) * ∫ E in lo.phys..hi.phys,
        E * (A * (E / e0.phys) ^ (-α) * Real.exp (-(E / ec.phys)) * u.scale) ∧
      ∫ E in lo.phys..hi.phys, E * (A * (E / e0.phys) ^ (-α) * Real.exp (-(E / ec.phys)) * u.scale) ≤
        1.001 * W := by
  have ha := hlo.phys_pos
  have hb := hhi.phys_pos
  have q0 := h0.phys_pos
  have qc := hc.phys_pos
  have hl : lo.phys < hi.phys := by linarith
  obtain ⟨f1, r1⟩ := C92_exponential_cutoff A α 1 e0.phys ec.phys lo.phys hi.phys hA q0 qc zero_le_one ha hl
  have fe : (fun E => Spec.ecpl A α 1 (E / e0.phys) (E / ec.phys)) =
      fun E => A * (E / e0.phys) ^ (-α) * Real.exp (-(E / ec.phys)) := by
    funext E; unfold Spec.ecpl; rw [Real.rpow_one]
  rw [fe] at f1 r1
  have key := C92_default_We m hm (ECPL.toPDist ⟨fin A, e0.lift, fin α, ec.lift, fin 1⟩ u) hu hus lo hi hlo hhi hlt
    (fun E => A * (E / e0.phys) ^ (-α) * Real.exp (-(E / ec.phys))) ?_ ?_ ?_ r1 ?_
  · exact key
  · intro E hE
    have hE0 : 0 < E := ha.trans_le hE.1
    have e1 := C22_exponential_cutoff_power_law A α 1 ⟨E, PhysUnit.erg⟩ e0 ec ⟨rfl, by simp [PhysUnit.erg], hE0⟩ h0 hc
    rw [erg_phys, show Spec.ecpl A α 1 (E / e0.phys) (E / ec.phys) = _ from congrFun fe E] at e1
    show (match ECPL.call ⟨fin A, e0.lift, fin α, ec.lift, fin 1⟩ (⟨E, PhysUnit.erg⟩ : Qty ℝ).lift with
      | .ok v => v
      | .error _ => nan) = _
    rw [e1]
  · intro E hE
    have hE0 : 0 < E := ha.trans_le hE.1
    positivity
  · apply ContinuousOn.mul
    · apply ContinuousOn.mul continuousOn_const
      apply ContinuousOn.rpow_const (by fun_prop)
      intro E hE
      have hE0 : 0 < E := ha.trans_le hE.1
      exact Or.inl (by positivity)
    · fun_prop
  · -- a smaller bound implies a larger one
    have h10 : hi.phys / ec.phys ≤ 10 := by rwa [div_le_iff₀ qc]
    have hk : (1 : ℝ) ^ 2 * (hi.phys / ec.phys) ^ (1 : ℝ) ≤ 10 := by rw [Real.rpow_one]; linarith
    have hx : ConvexOn ℝ (Set.Icc (Real.log lo.phys) (Real.log hi.phys))
        (fun s : ℝ => (10 - (1 : ℝ) ^ 2 * (hi.phys / ec.phys) ^ (1 : ℝ)) / 2 * s ^ 2) := by
      have := (even_two.convexOn_pow (𝕜 := ℝ)).subset (Set.subset_univ _) (convex_Icc (Real.log lo.phys) (Real.log hi.phys))
      exact this.smul (c := (10 - (1 : ℝ) ^ 2 * (hi.phys / ec.phys) ^ (1 : ℝ)) / 2) (div_nonneg (sub_nonneg.2 hk) (by norm_num))
    refine (ConvexOn.add f1 hx).congr ?_
    intro s _
    simp only [Pi.add_apply]
    ring

/-! ### The hypotheses are met -/

/-- Electrons from 1 GeV to 100 TeV with a 20 TeV cutoff: `C92_exponential_cutoff_We` applies. -/
example (m : ElModel) (hm : m.nEed = 100) :
    ∃ W : ℝ, m.computeWe (ECPL.toPDist ⟨fin 1e33, (⟨1, PhysUnit.TeV⟩ : Qty ℝ).lift, fin 2.3,
      (⟨20, PhysUnit.TeV⟩ : Qty ℝ).lift, fin 1⟩ ⟨1 / cEV, Dim.diffEnergy⟩)
      (some ⟨1, PhysUnit.GeV⟩) (some ⟨100, PhysUnit.TeV⟩) = .ok (fin W) := by
  have := cEV_pos
  obtain ⟨W, h, -⟩ := C92_exponential_cutoff_We m hm 1e33 2.3 (by norm_num) ⟨1, PhysUnit.TeV⟩ ⟨20, PhysUnit.TeV⟩
    ⟨rfl, by simp [PhysUnit.TeV]; positivity, by norm_num⟩ ⟨rfl, by simp [PhysUnit.TeV]; positivity, by norm_num⟩
    ⟨1 / cEV, Dim.diffEnergy⟩ rfl (by positivity) ⟨1, PhysUnit.GeV⟩ ⟨100, PhysUnit.TeV⟩
    ⟨rfl, by simp [PhysUnit.GeV]; positivity, by norm_num⟩ ⟨rfl, by simp [PhysUnit.TeV]; positivity, by norm_num⟩
    (by simp [Qty.phys, PhysUnit.GeV, PhysUnit.TeV]; linarith) (by simp [Qty.phys, PhysUnit.TeV]; linarith)
  exact ⟨W, h⟩

/-- The bound is not trivial: the step of the default grid over six decades is about 0.023. -/
example : lnStep 100 1 (10 ^ 6) = 6 * Real.log 10 / 599 := by
  unfold lnStep
  have : Real.logb 10 (10 ^ 6 / 1) = 6 := by
    rw [div_one, Real.logb_pow, Real.logb_self_eq_one (by norm_num)]; norm_num
  rw [this]
  norm_num
  rw [show (1000000 : ℝ) = 10 ^ 6 by norm_num, Real.log_pow]
  norm_num

end Naima.Props
