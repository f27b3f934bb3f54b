import Verif.Props.C132_Rounding

/-! # C132 (power laws): the integral and the energy content of a power law in floating-point arithmetic -/

namespace Naima.Props

open Naima XR Classical Naima.Spec

/-! ### Index -1: the other formula -/

/-- **C132 (index -1).** In a bin whose index is within 5e-11 of -1 the code takes the logarithmic formula
whatever the rounding errors, and the result has relative error at most 1e-10. -/
theorem C132_bin_log (F : Arith) (u : ℝ) (hF : F.Accurate u) (hu0 : 0 ≤ u) (p q : ℝ × ℝ) (h1 : 0 < p.1)
    (h12 : p.1 < q.1) (hy1 : 0 < p.2) (hy2 : 0 < q.2) (hL1 : Real.log (q.1 / p.1) ≤ 1)
    (hs : |localIndex p q + 1| ≤ 1 / 20000000000)
    (hη : u * (1 + |localIndex p q|) * (1 + 1 / Real.log (q.1 / p.1)) ≤ 1 / 200000000000) :
    |flBin F p.1 q.1 p.2 q.2 - powerLawIntegral p q| ≤ 1 / 10000000000 * powerLawIntegral p q := by
  have hb := local_index_log (p := p) (q := q) h1 h12
  have hL0 : 0 < Real.log (q.1 / p.1) := Real.log_pos ((one_lt_div h1).2 h12)
  obtain ⟨L, hL⟩ : ∃ L, L = Real.log (q.1 / p.1) := ⟨_, rfl⟩
  rw [← hL] at hb hL0 hL1 hη
  generalize hηd : u * (1 + |localIndex p q|) * (1 + 1 / L) = η at hη
  have hηn : 0 ≤ η := by rw [← hηd]; positivity
  obtain ⟨-, -, -, -, -, hc⟩ := Rounded.index_bound hF hu0 h1 h12 hy1 hy2 hL hb hηd.symm (by linarith)
  have hcs := abs_sub_abs_le_abs_sub (F.add (flIndex F p.1 q.1 p.2 q.2) 1) (localIndex p q + 1)
  have hI : powerLawIntegral p q = ∫ t in p.1..q.1, p.2 * (t / p.1) ^ localIndex p q := by
    unfold powerLawIntegral
    rw [if_neg (by push Not; exact ⟨hy1.ne', hy2.ne'⟩)]
  have ht : |(localIndex p q + 1) * L| ≤ 1 / 20000000000 := by
    rw [abs_mul, abs_of_pos hL0]
    have := mul_le_mul hs hL1 hL0.le (by norm_num)
    linarith
  have hnear := Rounded.integral_near h1 h12 hy1 hL (b := localIndex p q) (by linarith)
  rw [← hI] at hnear
  have g := Rounded.log_branch hF hu0 h1 h12 hy1 hy2 hL hb hηd.symm (by linarith) hnear
  have hA : 0 < p.1 * p.2 * L := by positivity
  have hfl : flBin F p.1 q.1 p.2 q.2 = F.mul (F.mul p.1 p.2) (F.log (F.div q.1 p.1)) := by
    unfold flBin flRaw
    rw [if_neg (by push Not; exact ⟨hy1.ne', hy2.ne', h12.ne⟩)]
    simp only
    rw [if_neg (by norm_num; norm_num at hs hη; linarith)]
  rw [hfl]
  generalize p.1 * p.2 * L = A at hnear g hA
  have hAI : A ≤ 1.01 * powerLawIntegral p q := by
    have := (abs_le.1 hnear).1
    nlinarith
  have hI0 := powerLawIntegral_nonneg (q := q) h1 h12 hy1.le
  refine g.trans ?_
  have h6 : 5.2 * η + |(localIndex p q + 1) * L| ≤ 8 / 100000000000 := by linarith
  calc (5.2 * η + |(localIndex p q + 1) * L|) * A ≤ 8 / 100000000000 * A :=
        mul_le_mul_of_nonneg_right h6 hA.le
    _ ≤ 8 / 100000000000 * (1.01 * powerLawIntegral p q) := mul_le_mul_of_nonneg_left hAI (by norm_num)
    _ ≤ _ := by linarith

/-! ### Samples of a power law -/

/-- `y₀ (x/x₀)^b` -/
noncomputable def plAt (y₀ x₀ b x : ℝ) : ℝ := y₀ * (x / x₀) ^ b

/-- The samples `(x, y)` are those of a power law, up to a relative error `η` of `y`. -/
def SampledFrom (y₀ x₀ b η : ℝ) (pts : List (ℝ × ℝ)) : Prop :=
  ∀ p ∈ pts, |p.2 - plAt y₀ x₀ b p.1| ≤ η * plAt y₀ x₀ b p.1

/-- Positive abscissae with steps between 1/200 and 1 in the logarithm. -/
def Steps : List (ℝ × ℝ) → Prop
  | p :: q :: rest => (0 < p.1 ∧ 1 / 200 ≤ Real.log (q.1 / p.1) ∧ Real.log (q.1 / p.1) ≤ 1) ∧ p.1 < q.1 ∧
      Steps (q :: rest)
  | _ => True

theorem plAt_pos {y₀ x₀ b x : ℝ} (hy : 0 < y₀) (hx0 : 0 < x₀) (hx : 0 < x) : 0 < plAt y₀ x₀ b x :=
  mul_pos hy (Real.rpow_pos_of_pos (div_pos hx hx0) _)

theorem plAt_log {y₀ x₀ b x : ℝ} (hy : 0 < y₀) (hx0 : 0 < x₀) (hx : 0 < x) :
    Real.log (plAt y₀ x₀ b x) = Real.log y₀ + b * Real.log (x / x₀) := by
  unfold plAt
  rw [Real.log_mul hy.ne' (Real.rpow_pos_of_pos (div_pos hx hx0) _).ne', Real.log_rpow (div_pos hx hx0)]

/-- the logarithm of a sample -/
theorem sample_log {y f η : ℝ} (hf : 0 < f) (hη0 : 0 ≤ η) (hη : η ≤ 1 / 100) (h : |y - f| ≤ η * f) :
    0 < y ∧ |Real.log y - Real.log f| ≤ 2 * η ∧ Real.log f + Real.log (1 - η) ≤ Real.log y ∧
      Real.log y ≤ Real.log f + Real.log (1 + η) := by
  have h' : |y - f| ≤ η * |f| := by rw [abs_of_pos hf]; exact h
  have a := (abs_le.1 h).1
  have b := (abs_le.1 h).2
  have hy : 0 < y := by nlinarith
  refine ⟨hy, Rounded.log_rel hf hη0 hη h', ?_, ?_⟩
  · rw [← Real.log_mul hf.ne' (by linarith)]
    exact Real.log_le_log (mul_pos hf (by linarith)) (by linarith)
  · rw [← Real.log_mul hf.ne' (by linarith)]
    exact Real.log_le_log hy (by linarith)

/-- the index between two samples -/
theorem index_near {y₀ x₀ b η : ℝ} (hy : 0 < y₀) (hx0 : 0 < x₀) (hη0 : 0 ≤ η) (hη : η ≤ 1 / 100) {p q : ℝ × ℝ}
    (h1 : 0 < p.1) (h12 : p.1 < q.1) (hL : 1 / 200 ≤ Real.log (q.1 / p.1))
    (hp : |p.2 - plAt y₀ x₀ b p.1| ≤ η * plAt y₀ x₀ b p.1) (hq : |q.2 - plAt y₀ x₀ b q.1| ≤ η * plAt y₀ x₀ b q.1) :
    |localIndex p q - b| ≤ 800 * η := by
  have h2 : 0 < q.1 := h1.trans h12
  obtain ⟨py, pl, -, -⟩ := sample_log (plAt_pos hy hx0 h1) hη0 hη hp
  obtain ⟨qy, ql, -, -⟩ := sample_log (plAt_pos hy hx0 h2) hη0 hη hq
  rw [plAt_log hy hx0 h1, Real.log_div h1.ne' hx0.ne'] at pl
  rw [plAt_log hy hx0 h2, Real.log_div h2.ne' hx0.ne'] at ql
  have hLd : Real.log (q.1 / p.1) = Real.log q.1 - Real.log p.1 := Real.log_div h2.ne' h1.ne'
  unfold localIndex
  rw [Real.log_div qy.ne' py.ne']
  rw [hLd] at hL ⊢
  generalize Real.log q.1 = a at *
  generalize Real.log p.1 = c at *
  have hpos : 0 < a - c := by linarith
  rw [show (Real.log q.2 - Real.log p.2) / (a - c) - b =
    ((Real.log q.2 - (Real.log y₀ + b * (a - Real.log x₀))) - (Real.log p.2 - (Real.log y₀ + b * (c - Real.log x₀)))) /
      (a - c) by field_simp; ring, abs_div, abs_of_pos hpos, div_le_iff₀ hpos]
  have := abs_sub (Real.log q.2 - (Real.log y₀ + b * (a - Real.log x₀))) (Real.log p.2 - (Real.log y₀ + b * (c - Real.log x₀)))
  have := mul_le_mul_of_nonneg_left hL (by linarith : 0 ≤ 800 * η)
  linarith

/-- between two samples the joining power law stays within the same relative error -/
theorem joined_near {y₀ x₀ b η : ℝ} (hy : 0 < y₀) (hx0 : 0 < x₀) (hη0 : 0 ≤ η) (hη : η ≤ 1 / 100) {p q : ℝ × ℝ}
    (h1 : 0 < p.1) (h12 : p.1 < q.1)
    (hp : |p.2 - plAt y₀ x₀ b p.1| ≤ η * plAt y₀ x₀ b p.1) (hq : |q.2 - plAt y₀ x₀ b q.1| ≤ η * plAt y₀ x₀ b q.1)
    (t : ℝ) (ht : t ∈ Set.Icc p.1 q.1) :
    (1 - η) * plAt y₀ x₀ b t ≤ p.2 * (t / p.1) ^ localIndex p q ∧
      p.2 * (t / p.1) ^ localIndex p q ≤ (1 + η) * plAt y₀ x₀ b t := by
  have h2 : 0 < q.1 := h1.trans h12
  have t0 : 0 < t := h1.trans_le ht.1
  obtain ⟨py, -, pl, pu⟩ := sample_log (plAt_pos hy hx0 h1) hη0 hη hp
  obtain ⟨qy, -, ql, qu⟩ := sample_log (plAt_pos hy hx0 h2) hη0 hη hq
  rw [plAt_log hy hx0 h1, Real.log_div h1.ne' hx0.ne'] at pl pu
  rw [plAt_log hy hx0 h2, Real.log_div h2.ne' hx0.ne'] at ql qu
  have g0 : 0 < p.2 * (t / p.1) ^ localIndex p q := mul_pos py (Real.rpow_pos_of_pos (div_pos t0 h1) _)
  have f0 := plAt_pos (b := b) hy hx0 t0
  have gl : Real.log (p.2 * (t / p.1) ^ localIndex p q) = Real.log p.2 + localIndex p q * (Real.log t - Real.log p.1) := by
    rw [Real.log_mul py.ne' (Real.rpow_pos_of_pos (div_pos t0 h1) _).ne', Real.log_rpow (div_pos t0 h1),
      Real.log_div t0.ne' h1.ne']
  have fl := plAt_log (b := b) hy hx0 t0
  rw [Real.log_div t0.ne' hx0.ne'] at fl
  have i := local_index_log (p := p) (q := q) h1 h12
  rw [Real.log_div h2.ne' h1.ne', Real.log_div qy.ne' py.ne'] at i
  have m1 := Real.log_le_log h1 ht.1
  have m2 := Real.log_le_log t0 ht.2
  have m3 := Real.log_lt_log h1 h12
  -- the fraction of the step
  obtain ⟨s, hs⟩ : ∃ s, s = (Real.log t - Real.log p.1) / (Real.log q.1 - Real.log p.1) := ⟨_, rfl⟩
  have s0 : 0 ≤ s := by rw [hs]; exact div_nonneg (by linarith) (by linarith)
  have s1 : s ≤ 1 := by rw [hs, div_le_one (by linarith)]; linarith
  have st : Real.log t - Real.log p.1 = s * (Real.log q.1 - Real.log p.1) := by
    rw [hs]; exact (div_mul_cancel₀ _ (by linarith)).symm
  have key : Real.log p.2 + localIndex p q * (Real.log t - Real.log p.1) =
      (1 - s) * Real.log p.2 + s * Real.log q.2 := by
    rw [st, show localIndex p q * (s * (Real.log q.1 - Real.log p.1)) =
      s * (localIndex p q * (Real.log q.1 - Real.log p.1)) by ring, i]
    ring
  have fkey : Real.log y₀ + b * (Real.log t - Real.log x₀) =
      (1 - s) * (Real.log y₀ + b * (Real.log p.1 - Real.log x₀)) + s * (Real.log y₀ + b * (Real.log q.1 - Real.log x₀)) := by
    rw [show Real.log t - Real.log x₀ = (Real.log t - Real.log p.1) + (Real.log p.1 - Real.log x₀) by ring, st]
    ring
  have u1 := mul_le_mul_of_nonneg_left pl (sub_nonneg.2 s1)
  have u2 := mul_le_mul_of_nonneg_left ql s0
  have v1 := mul_le_mul_of_nonneg_left pu (sub_nonneg.2 s1)
  have v2 := mul_le_mul_of_nonneg_left qu s0
  constructor
  · rw [← Real.log_le_log_iff (mul_pos (by linarith) f0) g0, Real.log_mul (by linarith) f0.ne', gl, fl, key, fkey]
    linarith
  · rw [← Real.log_le_log_iff g0 (mul_pos (by linarith) f0), Real.log_mul (by linarith) f0.ne', gl, fl, key, fkey]
    linarith

theorem plAt_continuousOn {y₀ x₀ b : ℝ} (hx0 : 0 < x₀) {lo hi : ℝ} (hlo : 0 < lo) (h : lo ≤ hi) :
    ContinuousOn (plAt y₀ x₀ b) (Set.uIcc lo hi) := by
  rw [Set.uIcc_of_le h]
  apply ContinuousOn.mul continuousOn_const
  apply ContinuousOn.rpow_const (continuousOn_id.div_const _)
  intro x hx
  exact Or.inl (div_pos (hlo.trans_le hx.1) hx0).ne'

/-- one bin of the joining function against the power law -/
theorem bin_near {y₀ x₀ b η : ℝ} (hy : 0 < y₀) (hx0 : 0 < x₀) (hη0 : 0 ≤ η) (hη : η ≤ 1 / 100) {p q : ℝ × ℝ}
    (h1 : 0 < p.1) (h12 : p.1 < q.1)
    (hp : |p.2 - plAt y₀ x₀ b p.1| ≤ η * plAt y₀ x₀ b p.1) (hq : |q.2 - plAt y₀ x₀ b q.1| ≤ η * plAt y₀ x₀ b q.1) :
    |powerLawIntegral p q - ∫ t in p.1..q.1, plAt y₀ x₀ b t| ≤ η * ∫ t in p.1..q.1, plAt y₀ x₀ b t := by
  obtain ⟨py, -⟩ := sample_log (plAt_pos hy hx0 h1) hη0 hη hp
  obtain ⟨qy, -⟩ := sample_log (plAt_pos hy hx0 (h1.trans h12)) hη0 hη hq
  have n := joined_near hy hx0 hη0 hη h1 h12 hp hq
  have cf := (plAt_continuousOn (y₀ := y₀) (b := b) hx0 h1 h12.le).intervalIntegrable (μ := MeasureTheory.volume)
  have cg : IntervalIntegrable (fun t => p.2 * (t / p.1) ^ localIndex p q) MeasureTheory.volume p.1 q.1 :=
    (plAt_continuousOn (y₀ := p.2) (b := localIndex p q) h1 h1 h12.le).intervalIntegrable
  unfold powerLawIntegral
  rw [if_neg (by push Not; exact ⟨py.ne', qy.ne'⟩)]
  have a : (1 - η) * (∫ t in p.1..q.1, plAt y₀ x₀ b t) ≤ ∫ t in p.1..q.1, p.2 * (t / p.1) ^ localIndex p q := by
    rw [← intervalIntegral.integral_const_mul]
    exact intervalIntegral.integral_mono_on h12.le (cf.const_mul (1 - η)) cg (fun t ht => (n t ht).1)
  have b : (∫ t in p.1..q.1, p.2 * (t / p.1) ^ localIndex p q) ≤ (1 + η) * ∫ t in p.1..q.1, plAt y₀ x₀ b t := by
    rw [← intervalIntegral.integral_const_mul]
    exact intervalIntegral.integral_mono_on h12.le cg (cf.const_mul (1 + η)) (fun t ht => (n t ht).2)
  rw [abs_le]
  constructor <;> linarith

/-- last abscissa -/
def lastX (x : ℝ) : List (ℝ × ℝ) → ℝ
  | [] => x
  | p :: rest => lastX p.1 rest

theorem steps_le : ∀ (p : ℝ × ℝ) (rest : List (ℝ × ℝ)), Steps (p :: rest) → p.1 ≤ lastX p.1 rest
  | _, [], _ => le_rfl
  | _, q :: rest, ⟨_, h12, hs⟩ => h12.le.trans (steps_le q rest hs)

theorem steps_samples {y₀ x₀ b η : ℝ} (hy : 0 < y₀) (hx0 : 0 < x₀) (hη0 : 0 ≤ η) (hη : η ≤ 1 / 100) :
    ∀ pts : List (ℝ × ℝ), Steps pts → SampledFrom y₀ x₀ b η pts → Samples pts
  | [], _, _ => trivial
  | [_], _, _ => trivial
  | p :: q :: rest, ⟨⟨h1, _, _⟩, h12, hs⟩, hf =>
    ⟨⟨h1, h12, (sample_log (plAt_pos hy hx0 h1) hη0 hη (hf p (by simp))).1.le,
      (sample_log (plAt_pos hy hx0 (h1.trans h12)) hη0 hη (hf q (by simp))).1.le⟩,
      steps_samples hy hx0 hη0 hη (q :: rest) hs (fun a ha => hf a (by simp [ha]))⟩

/-- the whole joining function against the power law -/
theorem joinedIntegral_near {y₀ x₀ b η : ℝ} (hy : 0 < y₀) (hx0 : 0 < x₀) (hη0 : 0 ≤ η) (hη : η ≤ 1 / 100) :
    ∀ (p : ℝ × ℝ) (rest : List (ℝ × ℝ)), 0 < p.1 → Steps (p :: rest) → SampledFrom y₀ x₀ b η (p :: rest) →
      |joinedIntegral (p :: rest) - ∫ t in p.1..lastX p.1 rest, plAt y₀ x₀ b t| ≤
        η * ∫ t in p.1..lastX p.1 rest, plAt y₀ x₀ b t
  | p, [], _, _, _ => by simp [joinedIntegral, lastX]
  | p, q :: rest, h0, ⟨_, h12, hs⟩, hf => by
    have ih := joinedIntegral_near hy hx0 hη0 hη q rest (h0.trans h12) hs (fun a ha => hf a (by simp [ha]))
    have hb := bin_near hy hx0 hη0 hη h0 h12 (hf p (by simp)) (hf q (by simp))
    have hle := steps_le q rest hs
    have i1 := (plAt_continuousOn (y₀ := y₀) (b := b) hx0 h0 h12.le).intervalIntegrable (μ := MeasureTheory.volume)
    have i2 := (plAt_continuousOn (y₀ := y₀) (b := b) hx0 (h0.trans h12) hle).intervalIntegrable (μ := MeasureTheory.volume)
    have hadd := intervalIntegral.integral_add_adjacent_intervals i1 i2
    simp only [joinedIntegral, lastX]
    rw [← hadd]
    have := abs_add_le (powerLawIntegral p q - ∫ t in p.1..q.1, plAt y₀ x₀ b t)
      (joinedIntegral (q :: rest) - ∫ t in q.1..lastX q.1 rest, plAt y₀ x₀ b t)
    rw [show powerLawIntegral p q - (∫ t in p.1..q.1, plAt y₀ x₀ b t) +
      (joinedIntegral (q :: rest) - ∫ t in q.1..lastX q.1 rest, plAt y₀ x₀ b t) =
      powerLawIntegral p q + joinedIntegral (q :: rest) -
        ((∫ t in p.1..q.1, plAt y₀ x₀ b t) + ∫ t in q.1..lastX q.1 rest, plAt y₀ x₀ b t) by ring] at this
    linarith

theorem everyBin_of_steps {y₀ x₀ b η : ℝ} (P : ℝ × ℝ → ℝ × ℝ → Prop)
    (hP : ∀ p q : ℝ × ℝ, 0 < p.1 → p.1 < q.1 → 1 / 200 ≤ Real.log (q.1 / p.1) → Real.log (q.1 / p.1) ≤ 1 →
      |p.2 - plAt y₀ x₀ b p.1| ≤ η * plAt y₀ x₀ b p.1 → |q.2 - plAt y₀ x₀ b q.1| ≤ η * plAt y₀ x₀ b q.1 → P p q) :
    ∀ pts : List (ℝ × ℝ), Steps pts → SampledFrom y₀ x₀ b η pts → EveryBin P pts
  | [], _, _ => trivial
  | [_], _, _ => trivial
  | p :: q :: rest, ⟨⟨h1, l1, l2⟩, h12, hs⟩, hf =>
    ⟨fun _ _ => hP p q h1 h12 l1 l2 (hf p (by simp)) (hf q (by simp)),
      everyBin_of_steps P hP (q :: rest) hs (fun a ha => hf a (by simp [ha]))⟩

/-- Adding up bins with relative error `e`. -/
theorem tree_error (F : Arith) (u e : ℝ) (hF : F.Accurate u) (hu0 : 0 ≤ u) (he : 0 ≤ e) (P : ℝ × ℝ → ℝ × ℝ → Prop)
    (hP : ∀ p q : ℝ × ℝ, 0 < p.1 → p.1 < q.1 → 0 < p.2 → 0 < q.2 → P p q →
      |flBin F p.1 q.1 p.2 q.2 - powerLawIntegral p q| ≤ e * powerLawIntegral p q) (pts : List (ℝ × ℝ))
    (hs : Samples pts) (hb : EveryBin P pts) (t : SumTree) (ht : t.leaves = flIntervals F pts) :
    |t.value F - joinedIntegral pts| ≤ (e + (1 + e) * ((1 + u) ^ t.depth - 1)) * joinedIntegral pts := by
  obtain ⟨i1, i2, i3⟩ := bins_error F e he P hP pts hs hb
  have hv := Rounded.tree_value hF hu0 t
  rw [ht] at hv
  have hp : 0 ≤ (1 + u) ^ t.depth - 1 := by
    have := one_le_pow₀ (n := t.depth) (by linarith : (1 : ℝ) ≤ 1 + u)
    linarith
  have e1 := mul_le_mul_of_nonneg_left i3 hp
  have e2 := abs_add_le (t.value F - (flIntervals F pts).sum) ((flIntervals F pts).sum - joinedIntegral pts)
  rw [sub_add_sub_cancel] at e2
  linarith

/-- **C132 (power laws).** The samples of a power law of index `b`, each with a relative error of at most 5e-14, on
any grid of positive abscissae with steps between 1/200 and 1 in the logarithm, the arithmetic accurate to
2^-52 and at most 10000 additions one after the other: if `b` is -1 or else between -19 and 19 and not within 0.02
of -1, `trapz_loglog` gives the integral of the power law over the range to 1.1 parts in 10^8. -/
theorem C132_power_law (F : Arith) (u : ℝ) (hu : u = 1 / 2 ^ 52) (hF : F.Accurate u) (y₀ x₀ b : ℝ) (hy : 0 < y₀)
    (hx0 : 0 < x₀) (hb : b = -1 ∨ (|b| ≤ 19 ∧ 1 / 50 ≤ |b + 1|)) (p : ℝ × ℝ) (rest : List (ℝ × ℝ)) (h0 : 0 < p.1)
    (hs : Steps (p :: rest)) (hf : SampledFrom y₀ x₀ b (1 / (2 * 10 ^ 13)) (p :: rest))
    (t : SumTree) (ht : t.leaves = flIntervals F (p :: rest)) (hd : t.depth ≤ 10000) :
    |t.value F - ∫ x in p.1..lastX p.1 rest, plAt y₀ x₀ b x| ≤
      1.1 / 10 ^ 8 * ∫ x in p.1..lastX p.1 rest, plAt y₀ x₀ b x := by
  have hη0 : (0 : ℝ) ≤ 1 / (2 * 10 ^ 13) := by norm_num
  have hη : (1 : ℝ) / (2 * 10 ^ 13) ≤ 1 / 100 := by norm_num
  have hS := steps_samples hy hx0 hη0 hη _ hs hf
  have hJ := joinedIntegral_near hy hx0 hη0 hη p rest h0 hs hf
  have hidx : ∀ p q : ℝ × ℝ, 0 < p.1 → p.1 < q.1 → 1 / 200 ≤ Real.log (q.1 / p.1) → Real.log (q.1 / p.1) ≤ 1 →
      |p.2 - plAt y₀ x₀ b p.1| ≤ 1 / (2 * 10 ^ 13) * plAt y₀ x₀ b p.1 →
      |q.2 - plAt y₀ x₀ b q.1| ≤ 1 / (2 * 10 ^ 13) * plAt y₀ x₀ b q.1 → |localIndex p q - b| ≤ 1 / 25000000000 := by
    intro p q a1 a2 a3 _ a5 a6
    have := index_near hy hx0 hη0 hη a1 a2 a3 a5 a6
    norm_num at this ⊢
    exact this
  have main : |t.value F - joinedIntegral (p :: rest)| ≤ 1 / 10 ^ 8 * joinedIntegral (p :: rest) := by
    rcases hb with hb | ⟨hb1, hb2⟩
    · have hu0 : 0 ≤ u := by rw [hu]; positivity
      have hu1 : u * 603 ≤ 1 / 200000000000 := by rw [hu]; norm_num
      have hu2 : ((10000 : ℕ) : ℝ) * u ≤ 1 / 100000000000 := by rw [hu]; norm_num
      clear hu
      have key := tree_error F u (1 / 10000000000) hF hu0 (by norm_num)
        (fun p q => |localIndex p q + 1| ≤ 1 / 20000000000 ∧ 1 / 200 ≤ Real.log (q.1 / p.1) ∧ Real.log (q.1 / p.1) ≤ 1)
        (by
          rintro p q a1 a2 a3 a4 ⟨c1, c2, c3⟩
          refine C132_bin_log F u hF hu0 p q a1 a2 a3 a4 c3 c1 ?_
          have i1 : |localIndex p q| ≤ 2 := by
            have := abs_sub_abs_le_abs_sub (localIndex p q) (-1)
            rw [sub_neg_eq_add, abs_neg, abs_one] at this
            linarith
          have i2 : 1 / Real.log (q.1 / p.1) ≤ 200 := by
            rw [div_le_iff₀ (by linarith)]; linarith
          have i3 : 0 ≤ 1 / Real.log (q.1 / p.1) := by
            apply div_nonneg zero_le_one; linarith
          have : (1 + |localIndex p q|) * (1 + 1 / Real.log (q.1 / p.1)) ≤ 3 * 201 :=
            mul_le_mul (by linarith) (by linarith) (by linarith) (by norm_num)
          have := mul_le_mul_of_nonneg_left this hu0
          rw [mul_assoc]
          linarith) _ hS
        (everyBin_of_steps _ (by
          intro p q a1 a2 a3 a4 a5 a6
          have i := hidx p q a1 a2 a3 a4 a5 a6
          rw [hb, sub_neg_eq_add] at i
          exact ⟨i.trans (by norm_num), a3, a4⟩) _ hs hf) t ht
      have hpow := pow_small u 10000 t.depth hu0 hd _ hu2 (by norm_num)
      have hp0 : 0 ≤ (1 + u) ^ t.depth - 1 := by
        have := one_le_pow₀ (n := t.depth) (by linarith : (1 : ℝ) ≤ 1 + u)
        linarith
      generalize (1 + u) ^ t.depth - 1 = w at key hpow hp0
      refine key.trans (mul_le_mul_of_nonneg_right ?_ (joined_nonneg _ hS))
      have hw : w ≤ 2 * (1 / 100000000000) := hpow
      norm_num at hw ⊢
      linarith
    · refine C132_double F u hu hF _ hS (everyBin_of_steps _ ?_ _ hs hf) t ht hd
      intro p q a1 a2 a3 a4 a5 a6
      have i := hidx p q a1 a2 a3 a4 a5 a6
      have e1 := abs_sub_abs_le_abs_sub (localIndex p q) b
      have e2 := abs_sub_abs_le_abs_sub (b + 1) (localIndex p q + 1)
      rw [show b + 1 - (localIndex p q + 1) = -(localIndex p q - b) by ring, abs_neg] at e2
      exact ⟨a3, a4, by linarith, by linarith⟩
  generalize (∫ x in p.1..lastX p.1 rest, plAt y₀ x₀ b x) = I at *
  generalize joinedIntegral (p :: rest) = J at *
  have j1 := (abs_le.1 hJ).1
  have j2 := (abs_le.1 hJ).2
  have := abs_add_le (t.value F - J) (J - I)
  rw [sub_add_sub_cancel] at this
  norm_num at hJ main j1 j2 ⊢
  linarith

/-- **C132 (energy content).** The energy content of a power law of particles, `A (E/E₀)^(-α)`, computed in double
precision from samples `(E, E N(E))` as `compute_We` and `compute_Wp` do, on any grid with at most 460 points
per decade: to 1.1 parts in 10^8 the integral of `E N(E)` over the range, for `α` = 2 and for every
`α` between -18 and 20 not within 0.02 of it. -/
theorem C132_energy_content (F : Arith) (u : ℝ) (hu : u = 1 / 2 ^ 52) (hF : F.Accurate u) (A E₀ α : ℝ) (hA : 0 < A)
    (hE : 0 < E₀) (hα : α = 2 ∨ (-18 ≤ α ∧ α ≤ 20 ∧ 1 / 50 ≤ |α - 2|)) (p : ℝ × ℝ) (rest : List (ℝ × ℝ)) (h0 : 0 < p.1)
    (hs : Steps (p :: rest))
    (hf : ∀ q ∈ p :: rest, |q.2 - q.1 * (A * (q.1 / E₀) ^ (-α))| ≤ 1 / (2 * 10 ^ 13) * (q.1 * (A * (q.1 / E₀) ^ (-α))))
    (t : SumTree) (ht : t.leaves = flIntervals F (p :: rest)) (hd : t.depth ≤ 10000) :
    |t.value F - ∫ E in p.1..lastX p.1 rest, E * (A * (E / E₀) ^ (-α))| ≤
      1.1 / 10 ^ 8 * ∫ E in p.1..lastX p.1 rest, E * (A * (E / E₀) ^ (-α)) := by
  have e : ∀ E : ℝ, 0 < E → E * (A * (E / E₀) ^ (-α)) = plAt (A * E₀) E₀ (1 - α) E := by
    intro E h
    unfold plAt
    rw [sub_eq_add_neg, Real.rpow_add (div_pos h hE), Real.rpow_one]
    field_simp
  have hx : ∀ (p : ℝ × ℝ) (rest : List (ℝ × ℝ)), 0 < p.1 → Steps (p :: rest) → ∀ q ∈ p :: rest, 0 < q.1 := by
    intro p rest
    induction rest generalizing p with
    | nil => intro h _ q hq; simp at hq; rw [hq]; exact h
    | cons r rest ih =>
      intro h hs q hq
      rcases List.mem_cons.1 hq with rfl | hq
      · exact h
      · exact ih r (h.trans hs.2.1) hs.2.2 q hq
  have key := C132_power_law F u hu hF (A * E₀) E₀ (1 - α) (mul_pos hA hE) hE ?_ p rest h0 hs ?_ t ht hd
  · rw [intervalIntegral.integral_congr (g := plAt (A * E₀) E₀ (1 - α)) (fun E h => by
      rw [Set.uIcc_of_le (steps_le p rest hs)] at h
      exact e E (h0.trans_le h.1))]
    exact key
  · rcases hα with h | ⟨h1, h2, h3⟩
    · left; rw [h]; norm_num
    · right
      refine ⟨abs_le.2 ⟨by linarith, by linarith⟩, ?_⟩
      rw [show 1 - α + 1 = -(α - 2) by ring, abs_neg]
      exact h3
  · intro q hq
    rw [← e _ (hx p rest h0 hs q hq)]
    exact hf q hq

/-! ### The hypotheses are met -/

/-- `α = 2`, three samples one of them a little off, exact additions and a rounding power. -/
example : |(SumTree.node (.leaf (flBin (powUp (1 / 2 ^ 52)) 1 2 1 ((1 + 1 / 10 ^ 14) / 2)))
      (.leaf (flBin (powUp (1 / 2 ^ 52)) 2 4 ((1 + 1 / 10 ^ 14) / 2) (1 / 4)))).value (powUp (1 / 2 ^ 52)) -
        ∫ E in (1 : ℝ)..4, E * (1 * (E / 1) ^ (-(2 : ℝ)))| ≤
    1.1 / 10 ^ 8 * ∫ E in (1 : ℝ)..4, E * (1 * (E / 1) ^ (-(2 : ℝ))) := by
  have h2 : (0.6931471803 : ℝ) < Real.log 2 := Real.log_two_gt_d9
  have h3 : Real.log 2 < 0.6931471808 := Real.log_two_lt_d9
  refine C132_energy_content (powUp (1 / 2 ^ 52)) _ rfl (powUp_accurate _ (by positivity)) 1 1 2 one_pos one_pos
    (Or.inl rfl) (1, 1) [(2, (1 + 1 / 10 ^ 14) / 2), (4, 1 / 4)] one_pos ?_ ?_ _ rfl (by simp [SumTree.depth])
  · refine ⟨⟨one_pos, ?_, ?_⟩, by norm_num, ⟨by norm_num, ?_, ?_⟩, by norm_num, trivial⟩
    · simp only [div_one]; linarith
    · simp only [div_one]; linarith
    · rw [show (4 : ℝ) / 2 = 2 by norm_num]; linarith
    · rw [show (4 : ℝ) / 2 = 2 by norm_num]; linarith
  · have r : ∀ x : ℝ, 0 < x → (x / 1) ^ (-(2 : ℝ)) = 1 / (x * x) := by
      intro x hx
      rw [div_one, Real.rpow_neg hx.le, show (2 : ℝ) = ((2 : ℕ) : ℝ) by norm_num, Real.rpow_natCast, pow_two, one_div]
    intro q hq
    simp only [List.mem_cons, List.not_mem_nil, or_false] at hq
    rcases hq with rfl | rfl | rfl
    · simp only; rw [r 1 one_pos]; norm_num
    · simp only; rw [r 2 (by norm_num)]
      rw [abs_of_nonneg (by norm_num)]; norm_num
    · simp only; rw [r 4 (by norm_num)]; norm_num

end Naima.Props
