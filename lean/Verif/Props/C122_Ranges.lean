import Verif.Props.C92_Accuracy

/-! # C122: energy contents of neighbouring ranges

`compute_We` and `compute_Wp` lay out a new grid for every range, so that contents of parts of a range need not
add up to the content of the whole. -/

namespace Naima.Props

open Naima XR Classical

/-! ### Specification -/

/-- A particle distribution that is positive and continuous on `[a, b]`, whose spectrum there never hardens, and
steepens by at most ten powers per e-folding in energy; `p` are its numbers as a function of energy in erg. -/
structure Smooth (pd : PDist) (p : ℝ → ℝ) (a b : ℝ) : Prop where
  dim : pd.unit.dim = Dim.diffEnergy
  scale : 0 < pd.unit.scale
  value : ∀ E ∈ Set.Icc a b, pd.f E = fin (p E)
  pos : ∀ E ∈ Set.Icc a b, 0 < p E
  cont : ContinuousOn p (Set.Icc a b)
  rises : SlopeRisesAtMost 0 p a b
  falls : SlopeFallsAtMost 10 p a b

theorem Smooth.sub {pd : PDist} {p : ℝ → ℝ} {a b a' b' : ℝ} (h : Smooth pd p a b) (ha : 0 < a) (h1 : a ≤ a')
    (h2 : a' ≤ b') (h3 : b' ≤ b) : Smooth pd p a' b' := by
  have hs : Set.Icc a' b' ⊆ Set.Icc a b := Set.Icc_subset_Icc h1 h3
  have hl : Set.Icc (Real.log a') (Real.log b') ⊆ Set.Icc (Real.log a) (Real.log b) :=
    Set.Icc_subset_Icc (Real.log_le_log ha h1) (Real.log_le_log (ha.trans_le (h1.trans h2)) h3)
  exact ⟨h.dim, h.scale, fun E hE => h.value E (hs hE), fun E hE => h.pos E (hs hE), h.cont.mono hs,
    ConcaveOn.subset h.rises hl (convex_Icc _ _), ConvexOn.subset h.falls hl (convex_Icc _ _)⟩

theorem lnStep_fine (n a b : ℝ) (hn : 100 ≤ n) (ha : 0 < a) (hab : 10 * a ≤ b) :
    0 ≤ lnStep n a b ∧ lnStep n a b ≤ 0.0236 := by
  have hr : 10 ≤ b / a := by rwa [le_div_iff₀ ha]
  set d := Real.logb 10 (b / a) with hd
  have hd1 : 1 ≤ d := by
    rw [hd, Real.le_logb_iff_rpow_le (by norm_num) (by linarith)]; simpa using hr
  have hl : Real.log (b / a) = d * Real.log 10 := by
    rw [hd, Real.logb]
    have : Real.log 10 ≠ 0 := Real.log_ne_zero_of_pos_of_ne_one (by norm_num) (by norm_num)
    field_simp
  have hnd : 100 * d ≤ n * d := mul_le_mul_of_nonneg_right hn (by linarith)
  have hk : 100 * d - 1 ≤ ((max 10 ⌊n * d⌋ : ℤ) : ℝ) := by
    have h1 : (⌊n * d⌋ : ℝ) ≤ ((max 10 ⌊n * d⌋ : ℤ) : ℝ) := by exact_mod_cast le_max_right _ _
    have := Int.sub_one_lt_floor (n * d)
    linarith
  have hlog : Real.log 10 < 2.311 := by
    have h1 := Real.log_two_lt_d9
    have h2 : Real.log (10 ^ 3) < Real.log (2 ^ 10) := Real.log_lt_log (by norm_num) (by norm_num)
    rw [Real.log_pow, Real.log_pow] at h2
    push_cast at h2
    linarith
  have hlog0 : 0 < Real.log 10 := Real.log_pos (by norm_num)
  unfold lnStep
  rw [← hd, hl]
  have hden : 0 < ((max 10 ⌊n * d⌋ : ℤ) : ℝ) - 1 := by linarith
  refine ⟨by positivity, ?_⟩
  rw [div_le_iff₀ hden]
  nlinarith

/-- `W` is the content `I` up to a part in 10¹¹ too much and 0.1 % too little. -/
def Close (W I : ℝ) : Prop := W ≤ (1 + 1e-11) * I ∧ I ≤ 1.001 * W

theorem close_of_bounds (n a b W I : ℝ) (hn : 100 ≤ n) (ha : 0 < a) (hab : 10 * a ≤ b) (hI : 0 ≤ I)
    (h1 : W ≤ Real.exp (0 * lnStep n a b ^ 2 / 8 + 1e-10 * lnStep n a b) * I)
    (h2 : I ≤ Real.exp (10 * lnStep n a b ^ 2 / 8 + 1e-10 * lnStep n a b) * W) : 0 ≤ W ∧ Close W I := by
  obtain ⟨s0, s1⟩ := lnStep_fine n a b hn ha hab
  have b1 : Real.exp (0 * lnStep n a b ^ 2 / 8 + 1e-10 * lnStep n a b) ≤ 1 + 1e-11 :=
    (exp_small _ 3e-12 (by linarith) (by norm_num)).trans (by norm_num)
  have b2 : Real.exp (10 * lnStep n a b ^ 2 / 8 + 1e-10 * lnStep n a b) ≤ 1.001 := by
    refine (exp_small _ 7.1e-4 ?_ (by norm_num)).trans (by norm_num)
    have : lnStep n a b ^ 2 ≤ 0.0236 ^ 2 := pow_le_pow_left₀ s0 s1 2
    norm_num at this ⊢
    linarith
  have hW : 0 ≤ W := by
    by_contra h
    push Not at h
    have := mul_neg_of_pos_of_neg (Real.exp_pos (10 * lnStep n a b ^ 2 / 8 + 1e-10 * lnStep n a b)) h
    linarith
  exact ⟨hW, h1.trans (mul_le_mul_of_nonneg_right b1 hI), h2.trans (mul_le_mul_of_nonneg_right b2 hW)⟩

/-- The energy in particles between two energies, in erg. -/
noncomputable def trueContent (pd : PDist) (p : ℝ → ℝ) (a b : ℝ) : ℝ := ∫ E in a..b, E * (p E * pd.unit.scale)

theorem trueContent_nonneg {pd : PDist} {p : ℝ → ℝ} {a b : ℝ} (ha : 0 < a) (hab : a ≤ b) (h : Smooth pd p a b) :
    0 ≤ trueContent pd p a b := by
  apply intervalIntegral.integral_nonneg hab
  intro E hE
  exact mul_nonneg (ha.le.trans hE.1) (mul_nonneg (h.pos E hE).le h.scale.le)

theorem trueContent_add {pd : PDist} {p : ℝ → ℝ} {a b c : ℝ} (ha : 0 < a) (hab : a ≤ b) (hbc : b ≤ c)
    (h : Smooth pd p a c) : trueContent pd p a b + trueContent pd p b c = trueContent pd p a c := by
  have hint : ∀ x y, a ≤ x → x ≤ y → y ≤ c → IntervalIntegrable (fun E => E * (p E * pd.unit.scale)) MeasureTheory.volume x y := by
    intro x y h1 h2 h3
    apply ContinuousOn.intervalIntegrable
    rw [Set.uIcc_of_le h2]
    exact continuousOn_id.mul ((h.cont.mono (Set.Icc_subset_Icc h1 h3)).mul continuousOn_const)
  exact intervalIntegral.integral_add_adjacent_intervals (hint a b le_rfl hab hbc) (hint b c hab hbc le_rfl)

theorem We_close (m : ElModel) (hm : 100 ≤ m.nEed) (pd : PDist) (p : ℝ → ℝ) (lo hi : Qty ℝ) (hlo : lo.PosEnergy)
    (hhi : hi.PosEnergy) (hlt : 10 * lo.phys ≤ hi.phys) (h : Smooth pd p lo.phys hi.phys) :
    ∃ W : ℝ, m.computeWe pd (some lo) (some hi) = .ok (fin W) ∧ 0 ≤ W ∧ Close W (trueContent pd p lo.phys hi.phys) := by
  have ha := hlo.phys_pos
  have hl : lo.phys < hi.phys := by linarith
  obtain ⟨W, w1, w2, -⟩ := C92_compute_We m pd h.dim h.scale lo hi hlo hhi hl p h.value h.pos h.cont m.nEed 0
    (by linarith) le_rfl
  obtain ⟨W', w1', -, w3⟩ := C92_compute_We m pd h.dim h.scale lo hi hlo hhi hl p h.value h.pos h.cont m.nEed 10
    (by linarith) (by norm_num)
  have e : W' = W := by
    rw [w1'] at w1; injection w1 with w1; injection w1
  subst e
  exact ⟨W', w1, close_of_bounds m.nEed _ _ W' _ hm ha hlt (trueContent_nonneg ha hl.le h) (w2 h.rises) (w3 h.falls)⟩

theorem Wp_close (m : PrModel) (hm : 100 ≤ m.nEpd) (pd : PDist) (p : ℝ → ℝ) (lo hi : Qty ℝ) (hlo : lo.PosEnergy)
    (hhi : hi.PosEnergy) (hlt : 10 * lo.phys ≤ hi.phys) (h : Smooth pd p lo.phys hi.phys) :
    ∃ W : ℝ, m.computeWp pd (some lo) (some hi) = .ok (fin W) ∧ 0 ≤ W ∧ Close W (trueContent pd p lo.phys hi.phys) := by
  have ha := hlo.phys_pos
  have hl : lo.phys < hi.phys := by linarith
  obtain ⟨W, w1, w2, -⟩ := C92_compute_Wp m pd h.dim h.scale lo hi hlo hhi hl p h.value h.pos h.cont m.nEpd 0
    (by linarith) le_rfl
  obtain ⟨W', w1', -, w3⟩ := C92_compute_Wp m pd h.dim h.scale lo hi hlo hhi hl p h.value h.pos h.cont m.nEpd 10
    (by linarith) (by norm_num)
  have e : W' = W := by
    rw [w1'] at w1; injection w1 with w1; injection w1
  subst e
  exact ⟨W', w1, close_of_bounds m.nEpd _ _ W' _ hm ha hlt (trueContent_nonneg ha hl.le h) (w2 h.rises) (w3 h.falls)⟩

theorem adjacent_arith {W W₁ W₂ I I₁ I₂ : ℝ} (h : Close W I) (h1 : Close W₁ I₁) (h2 : Close W₂ I₂)
    (hI : I₁ + I₂ = I) (p : 0 ≤ W) (p1 : 0 ≤ W₁) (p2 : 0 ≤ W₂) :
    W ≤ 1.0011 * (W₁ + W₂) ∧ W₁ + W₂ ≤ 1.0011 * W := by
  obtain ⟨a, b⟩ := h; obtain ⟨a1, b1⟩ := h1; obtain ⟨a2, b2⟩ := h2
  constructor <;> nlinarith

/-- **C122 (neighbouring ranges, electrons).** With the default 100 or more points per decade, over ranges of at
least a decade, the energies in electrons below and above an intermediate energy add up to the energy in the
whole range, to within 0.11 %. -/
theorem C122_adjacent_We (m : ElModel) (hm : 100 ≤ m.nEed) (pd : PDist) (p : ℝ → ℝ) (lo mid hi : Qty ℝ)
    (hlo : lo.PosEnergy) (hmid : mid.PosEnergy) (hhi : hi.PosEnergy) (h1 : 10 * lo.phys ≤ mid.phys)
    (h2 : 10 * mid.phys ≤ hi.phys) (h : Smooth pd p lo.phys hi.phys) :
    ∃ W W₁ W₂ : ℝ, m.computeWe pd (some lo) (some hi) = .ok (fin W) ∧
      m.computeWe pd (some lo) (some mid) = .ok (fin W₁) ∧ m.computeWe pd (some mid) (some hi) = .ok (fin W₂) ∧
      W ≤ 1.0011 * (W₁ + W₂) ∧ W₁ + W₂ ≤ 1.0011 * W := by
  have ha := hlo.phys_pos
  have hb := hmid.phys_pos
  have hc := hhi.phys_pos
  obtain ⟨W, w, wp, wc⟩ := We_close m hm pd p lo hi hlo hhi (by linarith) h
  obtain ⟨W₁, w₁, wp₁, wc₁⟩ := We_close m hm pd p lo mid hlo hmid h1 (h.sub ha le_rfl (by linarith) (by linarith))
  obtain ⟨W₂, w₂, wp₂, wc₂⟩ := We_close m hm pd p mid hi hmid hhi h2 (h.sub ha (by linarith) (by linarith) le_rfl)
  exact ⟨W, W₁, W₂, w, w₁, w₂, adjacent_arith wc wc₁ wc₂ (trueContent_add ha (by linarith) (by linarith) h) wp wp₁ wp₂⟩

/-- **C122 (neighbouring ranges, protons).** The same for `compute_Wp`. -/
theorem C122_adjacent_Wp (m : PrModel) (hm : 100 ≤ m.nEpd) (pd : PDist) (p : ℝ → ℝ) (lo mid hi : Qty ℝ)
    (hlo : lo.PosEnergy) (hmid : mid.PosEnergy) (hhi : hi.PosEnergy) (h1 : 10 * lo.phys ≤ mid.phys)
    (h2 : 10 * mid.phys ≤ hi.phys) (h : Smooth pd p lo.phys hi.phys) :
    ∃ W W₁ W₂ : ℝ, m.computeWp pd (some lo) (some hi) = .ok (fin W) ∧
      m.computeWp pd (some lo) (some mid) = .ok (fin W₁) ∧ m.computeWp pd (some mid) (some hi) = .ok (fin W₂) ∧
      W ≤ 1.0011 * (W₁ + W₂) ∧ W₁ + W₂ ≤ 1.0011 * W := by
  have ha := hlo.phys_pos
  have hb := hmid.phys_pos
  have hc := hhi.phys_pos
  obtain ⟨W, w, wp, wc⟩ := Wp_close m hm pd p lo hi hlo hhi (by linarith) h
  obtain ⟨W₁, w₁, wp₁, wc₁⟩ := Wp_close m hm pd p lo mid hlo hmid h1 (h.sub ha le_rfl (by linarith) (by linarith))
  obtain ⟨W₂, w₂, wp₂, wc₂⟩ := Wp_close m hm pd p mid hi hmid hhi h2 (h.sub ha (by linarith) (by linarith) le_rfl)
  exact ⟨W, W₁, W₂, w, w₁, w₂, adjacent_arith wc wc₁ wc₂ (trueContent_add ha (by linarith) (by linarith) h) wp wp₁ wp₂⟩

theorem trueContent_mono {pd : PDist} {p : ℝ → ℝ} {a b a' b' : ℝ} (ha : 0 < a) (h1 : a ≤ a') (h2 : a' ≤ b') (h3 : b' ≤ b)
    (h : Smooth pd p a b) : trueContent pd p a' b' ≤ trueContent pd p a b := by
  rw [← trueContent_add ha h1 (h2.trans h3) h,
    ← trueContent_add (ha.trans_le h1) h2 h3 (h.sub ha h1 (h2.trans h3) le_rfl)]
  have g1 := trueContent_nonneg ha h1 (h.sub ha le_rfl h1 (h2.trans h3))
  have g2 := trueContent_nonneg (ha.trans_le (h1.trans h2)) h3 (h.sub ha (h1.trans h2) h3 le_rfl)
  linarith

/-- **C122 (a part never holds more than the whole, electrons).** -/
theorem C122_part_We (m : ElModel) (hm : 100 ≤ m.nEed) (pd : PDist) (p : ℝ → ℝ) (lo hi lo' hi' : Qty ℝ)
    (hlo : lo.PosEnergy) (hhi : hi.PosEnergy) (hlo' : lo'.PosEnergy) (hhi' : hi'.PosEnergy)
    (h1 : lo.phys ≤ lo'.phys) (h2 : 10 * lo'.phys ≤ hi'.phys) (h3 : hi'.phys ≤ hi.phys)
    (h : Smooth pd p lo.phys hi.phys) :
    ∃ W W' : ℝ, m.computeWe pd (some lo) (some hi) = .ok (fin W) ∧
      m.computeWe pd (some lo') (some hi') = .ok (fin W') ∧ 0 ≤ W' ∧ W' ≤ 1.0011 * W := by
  have ha := hlo.phys_pos
  have ha' := hlo'.phys_pos
  obtain ⟨W, w, wp, wc⟩ := We_close m hm pd p lo hi hlo hhi (by linarith) h
  obtain ⟨W', w', wp', wc'⟩ := We_close m hm pd p lo' hi' hlo' hhi' h2 (h.sub ha h1 (by linarith) h3)
  have := trueContent_mono ha h1 (by linarith) h3 h
  refine ⟨W, W', w, w', wp', ?_⟩
  have := wc'.1
  have := wc.2
  nlinarith

/-- **C122 (a part never holds more than the whole, protons).** -/
theorem C122_part_Wp (m : PrModel) (hm : 100 ≤ m.nEpd) (pd : PDist) (p : ℝ → ℝ) (lo hi lo' hi' : Qty ℝ)
    (hlo : lo.PosEnergy) (hhi : hi.PosEnergy) (hlo' : lo'.PosEnergy) (hhi' : hi'.PosEnergy)
    (h1 : lo.phys ≤ lo'.phys) (h2 : 10 * lo'.phys ≤ hi'.phys) (h3 : hi'.phys ≤ hi.phys)
    (h : Smooth pd p lo.phys hi.phys) :
    ∃ W W' : ℝ, m.computeWp pd (some lo) (some hi) = .ok (fin W) ∧
      m.computeWp pd (some lo') (some hi') = .ok (fin W') ∧ 0 ≤ W' ∧ W' ≤ 1.0011 * W := by
  have ha := hlo.phys_pos
  have ha' := hlo'.phys_pos
  obtain ⟨W, w, wp, wc⟩ := Wp_close m hm pd p lo hi hlo hhi (by linarith) h
  obtain ⟨W', w', wp', wc'⟩ := Wp_close m hm pd p lo' hi' hlo' hhi' h2 (h.sub ha h1 (by linarith) h3)
  have := trueContent_mono ha h1 (by linarith) h3 h
  refine ⟨W, W', w, w', wp', ?_⟩
  have := wc'.1
  have := wc.2
  nlinarith

/-! ### Power laws: the closed form -/

theorem lnStep_any (n a b : ℝ) (hn : 100 ≤ n) (ha : 0 < a) (hab : a < b) :
    0 ≤ lnStep n a b ∧ lnStep n a b ≤ 0.26 := by
  by_cases h : 10 * a ≤ b
  · obtain ⟨h0, h1⟩ := lnStep_fine n a b hn ha h
    exact ⟨h0, h1.trans (by norm_num)⟩
  · push Not at h
    have hr : b / a < 10 := by rwa [div_lt_iff₀ ha]
    have hr1 : 1 < b / a := by rwa [one_lt_div ha]
    have hl0 : 0 < Real.log (b / a) := Real.log_pos hr1
    have hl : Real.log (b / a) < 2.311 := by
      have h1 := Real.log_two_lt_d9
      have h2 : Real.log (10 ^ 3) < Real.log (2 ^ 10) := Real.log_lt_log (by norm_num) (by norm_num)
      rw [Real.log_pow, Real.log_pow] at h2
      push_cast at h2
      have := Real.log_lt_log (by linarith) hr
      linarith
    have hk : (10:ℝ) ≤ ((max 10 ⌊n * Real.logb 10 (b / a)⌋ : ℤ) : ℝ) := by exact_mod_cast le_max_left _ _
    unfold lnStep
    have hden : 0 < ((max 10 ⌊n * Real.logb 10 (b / a)⌋ : ℤ) : ℝ) - 1 := by linarith
    refine ⟨by positivity, ?_⟩
    rw [div_le_iff₀ hden]
    nlinarith

/-- The energy between `a` and `b` in particles with `dN/dE = A (E/E₀)^-α`: the textbook closed form. -/
noncomputable def powerLawContent (A α E0 a b : ℝ) : ℝ :=
  if α = 2 then A * E0 ^ 2 * Real.log (b / a)
  else A * E0 ^ α * (b ^ (2 - α) - a ^ (2 - α)) / (2 - α)

theorem powerLawContent_eq (A α E0 a b c : ℝ) (h0 : 0 < E0) (ha : 0 < a) (hab : a < b) :
    ∫ E in a..b, E * (Spec.powerLaw A α (E / E0) * c) = powerLawContent (A * c) α E0 a b := by
  have hm : (0:ℝ) ∉ Set.uIcc a b := by
    rw [Set.uIcc_of_le hab.le]; intro h; exact absurd h.1 (not_le.2 ha)
  have e : Set.EqOn (fun E => E * (Spec.powerLaw A α (E / E0) * c)) (fun E => A * c * E0 ^ α * E ^ (1 - α)) (Set.uIcc a b) := by
    intro E hE
    rw [Set.uIcc_of_le hab.le] at hE
    have hE0 : 0 < E := ha.trans_le hE.1
    simp only [Spec.powerLaw]
    rw [Real.div_rpow hE0.le h0.le, Real.rpow_neg h0.le, Real.rpow_sub hE0, Real.rpow_one, Real.rpow_neg hE0.le]
    have := (Real.rpow_pos_of_pos h0 α).ne'
    have := (Real.rpow_pos_of_pos hE0 α).ne'
    field_simp
  rw [intervalIntegral.integral_congr e, intervalIntegral.integral_const_mul]
  unfold powerLawContent
  split_ifs with h2
  · subst h2
    have e' : Set.EqOn (fun E : ℝ => E ^ (1 - 2 : ℝ)) (fun E => E⁻¹) (Set.uIcc a b) := by
      intro E hE
      show E ^ (1 - 2 : ℝ) = E⁻¹
      rw [show (1 - 2 : ℝ) = -1 by norm_num, Real.rpow_neg_one]
    rw [intervalIntegral.integral_congr e', integral_inv hm, show (2:ℝ) = ((2:ℕ):ℝ) by norm_num, Real.rpow_natCast]
  · rw [integral_rpow (Or.inr ⟨by intro h; apply h2; linarith, hm⟩), show 1 - α + 1 = 2 - α by ring]
    ring

theorem pl_value (A α : ℝ) (e0 : Qty ℝ) (h0 : e0.PosEnergy) (u : PhysUnit) (E : ℝ) (hE0 : 0 < E) :
    (PowerLaw.toPDist ⟨fin A, e0.lift, fin α⟩ u).f E = fin (Spec.powerLaw A α (E / e0.phys)) := by
  have e1 := C22_power_law A α ⟨E, PhysUnit.erg⟩ e0 ⟨rfl, by simp [PhysUnit.erg], hE0⟩ h0
  rw [erg_phys] at e1
  show (match PowerLaw.call ⟨fin A, e0.lift, fin α⟩ (⟨E, PhysUnit.erg⟩ : Qty ℝ).lift with
    | .ok v => v
    | .error _ => nan) = _
  rw [e1]

theorem pl_continuous (A α E0 a b : ℝ) (h0 : 0 < E0) (ha : 0 < a) :
    ContinuousOn (fun E => Spec.powerLaw A α (E / E0)) (Set.Icc a b) := by
  unfold Spec.powerLaw
  apply ContinuousOn.mul continuousOn_const
  apply ContinuousOn.rpow_const (by fun_prop)
  intro E hE
  have hE0 : 0 < E := ha.trans_le hE.1
  exact Or.inl (by positivity)

theorem pl_bound (n a b : ℝ) (hn : 100 ≤ n) (ha : 0 < a) (hab : a < b) :
    Real.exp (0 * lnStep n a b ^ 2 / 8 + 1e-10 * lnStep n a b) ≤ 1 + 1e-10 := by
  obtain ⟨h0, h1⟩ := lnStep_any n a b hn ha hab
  exact (exp_small _ 2.6e-11 (by linarith) (by norm_num)).trans (by norm_num)

theorem nonneg_of_exp {x W I : ℝ} (hI : 0 ≤ I) (h : I ≤ Real.exp x * W) : 0 ≤ W := by
  by_contra hW
  push Not at hW
  have := mul_neg_of_pos_of_neg (Real.exp_pos x) hW
  linarith

/-- **C122 (power laws, electrons).** For a `PowerLaw`, whatever its index, and every range of energies,
`compute_We` is the closed form to a part in 10¹⁰. -/
theorem C122_power_law_We (m : ElModel) (hm : 100 ≤ m.nEed) (A α : ℝ) (hA : 0 < A) (e0 : Qty ℝ) (h0 : e0.PosEnergy)
    (u : PhysUnit) (hu : u.dim = Dim.diffEnergy) (hus : 0 < u.scale) (lo hi : Qty ℝ) (hlo : lo.PosEnergy)
    (hhi : hi.PosEnergy) (hlt : lo.phys < hi.phys) :
    ∃ W : ℝ, m.computeWe (PowerLaw.toPDist ⟨fin A, e0.lift, fin α⟩ u) (some lo) (some hi) = .ok (fin W) ∧
      W ≤ (1 + 1e-10) * powerLawContent (A * u.scale) α e0.phys lo.phys hi.phys ∧
      powerLawContent (A * u.scale) α e0.phys lo.phys hi.phys ≤ (1 + 1e-10) * W := by
  have ha := hlo.phys_pos
  have q0 := h0.phys_pos
  have hpos : ∀ E ∈ Set.Icc lo.phys hi.phys, 0 < Spec.powerLaw A α (E / e0.phys) := by
    intro E hE
    have hE0 : 0 < E := ha.trans_le hE.1
    unfold Spec.powerLaw; positivity
  obtain ⟨f1, r1⟩ := C92_power_law A α e0.phys lo.phys hi.phys hA q0 ha hlt
  obtain ⟨W, w1, w2, w3⟩ := C92_compute_We m (PowerLaw.toPDist ⟨fin A, e0.lift, fin α⟩ u) hu hus lo hi hlo hhi hlt
    (fun E => Spec.powerLaw A α (E / e0.phys)) (fun E hE => pl_value A α e0 h0 u E (ha.trans_le hE.1)) hpos
    (pl_continuous A α e0.phys _ _ q0 ha) m.nEed 0 (by linarith) le_rfl
  have hb := pl_bound m.nEed _ _ hm ha hlt
  have hI : 0 ≤ ∫ E in lo.phys..hi.phys, E * (Spec.powerLaw A α (E / e0.phys) * u.scale) := by
    apply intervalIntegral.integral_nonneg hlt.le
    intro E hE
    exact mul_nonneg (ha.le.trans hE.1) (mul_nonneg (hpos E hE).le hus.le)
  refine ⟨W, w1, ?_, ?_⟩
  · rw [← powerLawContent_eq A α _ _ _ u.scale q0 ha hlt]
    exact (w2 r1).trans (mul_le_mul_of_nonneg_right hb hI)
  · rw [← powerLawContent_eq A α _ _ _ u.scale q0 ha hlt]
    exact (w3 f1).trans (mul_le_mul_of_nonneg_right hb (nonneg_of_exp hI (w3 f1)))

/-- **C122 (power laws, protons).** The same for `compute_Wp`. -/
theorem C122_power_law_Wp (m : PrModel) (hm : 100 ≤ m.nEpd) (A α : ℝ) (hA : 0 < A) (e0 : Qty ℝ) (h0 : e0.PosEnergy)
    (u : PhysUnit) (hu : u.dim = Dim.diffEnergy) (hus : 0 < u.scale) (lo hi : Qty ℝ) (hlo : lo.PosEnergy)
    (hhi : hi.PosEnergy) (hlt : lo.phys < hi.phys) :
    ∃ W : ℝ, m.computeWp (PowerLaw.toPDist ⟨fin A, e0.lift, fin α⟩ u) (some lo) (some hi) = .ok (fin W) ∧
      W ≤ (1 + 1e-10) * powerLawContent (A * u.scale) α e0.phys lo.phys hi.phys ∧
      powerLawContent (A * u.scale) α e0.phys lo.phys hi.phys ≤ (1 + 1e-10) * W := by
  have ha := hlo.phys_pos
  have q0 := h0.phys_pos
  have hpos : ∀ E ∈ Set.Icc lo.phys hi.phys, 0 < Spec.powerLaw A α (E / e0.phys) := by
    intro E hE
    have hE0 : 0 < E := ha.trans_le hE.1
    unfold Spec.powerLaw; positivity
  obtain ⟨f1, r1⟩ := C92_power_law A α e0.phys lo.phys hi.phys hA q0 ha hlt
  obtain ⟨W, w1, w2, w3⟩ := C92_compute_Wp m (PowerLaw.toPDist ⟨fin A, e0.lift, fin α⟩ u) hu hus lo hi hlo hhi hlt
    (fun E => Spec.powerLaw A α (E / e0.phys)) (fun E hE => pl_value A α e0 h0 u E (ha.trans_le hE.1)) hpos
    (pl_continuous A α e0.phys _ _ q0 ha) m.nEpd 0 (by linarith) le_rfl
  have hb := pl_bound m.nEpd _ _ hm ha hlt
  have hI : 0 ≤ ∫ E in lo.phys..hi.phys, E * (Spec.powerLaw A α (E / e0.phys) * u.scale) := by
    apply intervalIntegral.integral_nonneg hlt.le
    intro E hE
    exact mul_nonneg (ha.le.trans hE.1) (mul_nonneg (hpos E hE).le hus.le)
  refine ⟨W, w1, ?_, ?_⟩
  · rw [← powerLawContent_eq A α _ _ _ u.scale q0 ha hlt]
    exact (w2 r1).trans (mul_le_mul_of_nonneg_right hb hI)
  · rw [← powerLawContent_eq A α _ _ _ u.scale q0 ha hlt]
    exact (w3 f1).trans (mul_le_mul_of_nonneg_right hb (nonneg_of_exp hI (w3 f1)))

/-! ### The hypotheses are met -/

theorem SlopeFallsAtMost.mono {K K' : ℝ} {f : ℝ → ℝ} {a b : ℝ} (h : SlopeFallsAtMost K f a b) (hk : K ≤ K') :
    SlopeFallsAtMost K' f a b := by
  have hx : ConvexOn ℝ (Set.Icc (Real.log a) (Real.log b)) (fun s : ℝ => (K' - K) / 2 * s ^ 2) := by
    have := (even_two.convexOn_pow (𝕜 := ℝ)).subset (Set.subset_univ _) (convex_Icc (Real.log a) (Real.log b))
    exact this.smul (c := (K' - K) / 2) (div_nonneg (sub_nonneg.2 hk) (by norm_num))
  refine (ConvexOn.add h hx).congr ?_
  intro s _
  simp only [Pi.add_apply]
  ring

/-- Electrons with `dN/dE = 10³³ (E/TeV)^-2.3 exp(-E/20 TeV)` per eV. -/
noncomputable def crabElectrons : PDist := ECPL.toPDist ⟨fin 1e33, (⟨1, PhysUnit.TeV⟩ : Qty ℝ).lift, fin 2.3,
  (⟨20, PhysUnit.TeV⟩ : Qty ℝ).lift, fin 1⟩ ⟨1 / cEV, Dim.diffEnergy⟩

/-- Electrons with `dN/dE = 10³³ (E/TeV)^-2.3 exp(-E/20 TeV)` per eV between 1 GeV and 100 TeV are `Smooth`. -/
theorem crab_smooth : Smooth crabElectrons
    (fun E => Spec.ecpl 1e33 2.3 1 (E / (⟨1, PhysUnit.TeV⟩ : Qty ℝ).phys) (E / (⟨20, PhysUnit.TeV⟩ : Qty ℝ).phys))
    (⟨1, PhysUnit.GeV⟩ : Qty ℝ).phys (⟨100, PhysUnit.TeV⟩ : Qty ℝ).phys := by
  unfold crabElectrons
  have hc := cEV_pos
  have hT : 0 < PhysUnit.TeV.scale := by simp [PhysUnit.TeV]; positivity
  have hG : 0 < PhysUnit.GeV.scale := by simp [PhysUnit.GeV]; positivity
  have h1 : (⟨1, PhysUnit.TeV⟩ : Qty ℝ).PosEnergy := ⟨rfl, hT, by norm_num⟩
  have h20 : (⟨20, PhysUnit.TeV⟩ : Qty ℝ).PosEnergy := ⟨rfl, hT, by norm_num⟩
  have hg : (⟨1, PhysUnit.GeV⟩ : Qty ℝ).PosEnergy := ⟨rfl, hG, by norm_num⟩
  have q1 := h1.phys_pos
  have q20 := h20.phys_pos
  have qg := hg.phys_pos
  have hab : (⟨1, PhysUnit.GeV⟩ : Qty ℝ).phys < (⟨100, PhysUnit.TeV⟩ : Qty ℝ).phys := by
    simp [Qty.phys, PhysUnit.GeV, PhysUnit.TeV]; linarith
  have hr : (⟨100, PhysUnit.TeV⟩ : Qty ℝ).phys / (⟨20, PhysUnit.TeV⟩ : Qty ℝ).phys = 5 := by
    simp only [Qty.phys]; field_simp; norm_num
  obtain ⟨f1, r1⟩ := C92_exponential_cutoff 1e33 2.3 1 _ _ _ _ (by norm_num) q1 q20 zero_le_one qg hab
  rw [hr, Real.rpow_one] at f1
  generalize (⟨1, PhysUnit.TeV⟩ : Qty ℝ) = e0 at *
  generalize (⟨20, PhysUnit.TeV⟩ : Qty ℝ) = ec at *
  refine ⟨rfl, (one_div_pos.2 hc : 0 < 1 / cEV), fun E hE => ?_, fun E hE => ?_, ?_, r1, f1.mono (by norm_num)⟩
  · have hE0 : 0 < E := qg.trans_le hE.1
    have e1 := C22_exponential_cutoff_power_law 1e33 2.3 1 ⟨E, PhysUnit.erg⟩ e0 ec ⟨rfl, by simp [PhysUnit.erg], hE0⟩ h1 h20
    rw [erg_phys] at e1
    show (match ECPL.call ⟨fin 1e33, e0.lift, fin 2.3, ec.lift, fin 1⟩ (⟨E, PhysUnit.erg⟩ : Qty ℝ).lift with
      | .ok v => v
      | .error _ => nan) = _
    rw [e1]
  · have hE0 : 0 < E := qg.trans_le hE.1
    unfold Spec.ecpl; positivity
  · unfold Spec.ecpl
    apply ContinuousOn.mul
    · apply ContinuousOn.mul continuousOn_const
      apply ContinuousOn.rpow_const (by fun_prop)
      intro E hE
      have hE0 : 0 < E := qg.trans_le hE.1
      exact Or.inl (by positivity)
    · simp only [Real.rpow_one]; fun_prop

/-- Non-vacuity: these electrons, below and above 1 TeV. -/
example (m : ElModel) (hm : m.nEed = 100) :
    ∃ W W₁ W₂ : ℝ, m.computeWe crabElectrons (some ⟨1, PhysUnit.GeV⟩) (some ⟨100, PhysUnit.TeV⟩) = .ok (fin W) ∧
      m.computeWe crabElectrons (some ⟨1, PhysUnit.GeV⟩) (some ⟨1, PhysUnit.TeV⟩) = .ok (fin W₁) ∧
      m.computeWe crabElectrons (some ⟨1, PhysUnit.TeV⟩) (some ⟨100, PhysUnit.TeV⟩) = .ok (fin W₂) ∧
      W ≤ 1.0011 * (W₁ + W₂) ∧ W₁ + W₂ ≤ 1.0011 * W := by
  have hc := cEV_pos
  have hT : 0 < PhysUnit.TeV.scale := by simp [PhysUnit.TeV]; positivity
  have hG : 0 < PhysUnit.GeV.scale := by simp [PhysUnit.GeV]; positivity
  exact C122_adjacent_We m (by rw [hm]) _ _ _ _ _ ⟨rfl, hG, by norm_num⟩ ⟨rfl, hT, by norm_num⟩ ⟨rfl, hT, by norm_num⟩
    (by simp [Qty.phys, PhysUnit.GeV, PhysUnit.TeV]; linarith) (by simp [Qty.phys, PhysUnit.TeV]; linarith) crab_smooth

/-- Non-vacuity: an E⁻² spectrum over six decades holds `ln(10⁶)` times `A E₀²`. -/
example (m : ElModel) (hm : m.nEed = 100) : ∃ W : ℝ,
    m.computeWe (PowerLaw.toPDist ⟨fin 3, (⟨1, PhysUnit.erg⟩ : Qty ℝ).lift, fin 2⟩ ⟨1, Dim.diffEnergy⟩)
      (some ⟨1, PhysUnit.erg⟩) (some ⟨10 ^ 6, PhysUnit.erg⟩) = .ok (fin W) ∧
    W ≤ (1 + 1e-10) * (3 * Real.log (10 ^ 6)) ∧ 3 * Real.log (10 ^ 6) ≤ (1 + 1e-10) * W := by
  have := C122_power_law_We m (by rw [hm]) 3 2 (by norm_num) ⟨1, PhysUnit.erg⟩ ⟨rfl, by simp [PhysUnit.erg], by norm_num⟩
    ⟨1, Dim.diffEnergy⟩ rfl (by norm_num) ⟨1, PhysUnit.erg⟩ ⟨10 ^ 6, PhysUnit.erg⟩ ⟨rfl, by simp [PhysUnit.erg], by norm_num⟩
    ⟨rfl, by simp [PhysUnit.erg], by norm_num⟩ (by rw [erg_phys, erg_phys]; norm_num)
  simp only [erg_phys, powerLawContent, if_true] at this
  simpa only [mul_one, one_pow, div_one] using this

end Naima.Props
