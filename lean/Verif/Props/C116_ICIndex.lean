import Verif.Props.C103_SyncShape
import Verif.Props.C105_ICPower

/-!
# C116: photon index of inverse Compton emission in the Thomson regime

Electrons with a power law of index `α > -1` in a thermal photon field: for photon energies well above those of
the seed photons and below the Klein–Nishina regime the spectrum is a power law of index `(α+1)/2`, proportional
to the energy density of the field, to `T^((α-3)/2)` and, for a field seen under an angle `θ`, to
`(1 - cos θ)^((α+1)/2)`.
-/

namespace Naima.Props

open Naima XR Classical MeasureTheory Filter Topology

/-! ### The integral over electron energies in scaled variables -/

/-- The integrand in `s = γ / sqrt(ε/w)`: `κ = ε sqrt(w/ε)` measures the Klein–Nishina suppression, `lam` is the
scaled electron rest energy. -/
noncomputable def icShape (α : ℝ) (A B : ℝ → ℝ) (κ lam s : ℝ) : ℝ :=
  if κ < s ∧ lam < s then
    s ^ (-α - 2) * ((κ / s) ^ 2 / (2 * (1 - κ / s)) * A (1 / (s ^ 2 * (1 - κ / s))) + B (1 / (s ^ 2 * (1 - κ / s))))
  else 0

/-- what is used of the two functions of a thermal kernel -/
structure ICFun (A : ℝ → ℝ) : Prop where
  meas : Measurable A
  cont : ContinuousOn A (Set.Ioi 0)
  bound : ∀ x, 0 < x → 0 < A x ∧ A x ≤ (Real.pi ^ 2 / 6 + x) * Real.exp (-x)

theorem exp_half (x : ℝ) (hx : 0 < x) :
    (Real.pi ^ 2 / 6 + x) * Real.exp (-x) ≤ 2 * Real.exp (-(x / 2)) ∧
    x * ((Real.pi ^ 2 / 6 + x) * Real.exp (-x)) ≤ 8 * Real.exp (-(x / 2)) := by
  have hp : Real.pi ^ 2 / 6 ≤ 2 := by nlinarith [Real.pi_lt_d2, Real.pi_pos]
  have h1 : x / 2 + 1 ≤ Real.exp (x / 2) := Real.add_one_le_exp _
  have h2 : 1 + x / 2 + (x / 2) ^ 2 / 2 ≤ Real.exp (x / 2) := Real.quadratic_le_exp_of_nonneg (by positivity)
  have e : Real.exp (-x) = Real.exp (-(x / 2)) * Real.exp (-(x / 2)) := by rw [← Real.exp_add]; congr 1; ring
  have e1 : Real.exp (-(x / 2)) * Real.exp (x / 2) = 1 := by rw [← Real.exp_add]; simp
  have hE : 0 < Real.exp (-(x / 2)) := Real.exp_pos _
  rw [e]
  constructor
  · have : (Real.pi ^ 2 / 6 + x) * Real.exp (-(x / 2)) ≤ 2 := by
      calc (Real.pi ^ 2 / 6 + x) * Real.exp (-(x / 2)) ≤ (2 * Real.exp (x / 2)) * Real.exp (-(x / 2)) :=
            mul_le_mul_of_nonneg_right (by linarith) hE.le
        _ = 2 * (Real.exp (-(x / 2)) * Real.exp (x / 2)) := by ring
        _ = 2 := by rw [e1, mul_one]
    calc _ = (Real.pi ^ 2 / 6 + x) * Real.exp (-(x / 2)) * Real.exp (-(x / 2)) := by ring
      _ ≤ _ := mul_le_mul_of_nonneg_right this hE.le
  · have hq : x * (Real.pi ^ 2 / 6 + x) ≤ 8 * Real.exp (x / 2) := by nlinarith
    have : x * (Real.pi ^ 2 / 6 + x) * Real.exp (-(x / 2)) ≤ 8 := by
      calc x * (Real.pi ^ 2 / 6 + x) * Real.exp (-(x / 2)) ≤ (8 * Real.exp (x / 2)) * Real.exp (-(x / 2)) :=
            mul_le_mul_of_nonneg_right hq hE.le
        _ = 8 * (Real.exp (-(x / 2)) * Real.exp (x / 2)) := by ring
        _ = 8 := by rw [e1, mul_one]
    calc _ = x * (Real.pi ^ 2 / 6 + x) * Real.exp (-(x / 2)) * Real.exp (-(x / 2)) := by ring
      _ ≤ _ := mul_le_mul_of_nonneg_right this hE.le

theorem icShape_bound (α : ℝ) (A B : ℝ → ℝ) (hA : ICFun A) (hB : ICFun B) (κ lam s : ℝ) (hκ : 0 < κ) (hκ1 : κ ≤ 1)
    (hs : 0 < s) : 0 ≤ icShape α A B κ lam s ∧
      icShape α A B κ lam s ≤ 6 * (s ^ (-α - 2) * Real.exp (-(1 / (2 * s ^ 2)))) := by
  have hp : 0 < s ^ (-α - 2) := Real.rpow_pos_of_pos hs _
  have he := Real.exp_pos (-(1 / (2 * s ^ 2)))
  unfold icShape
  split
  · rename_i h
    have hz : κ / s < 1 := by rw [div_lt_one hs]; exact h.1
    have h1 : 0 < 1 - κ / s := by linarith
    have hz0 : 0 < κ / s := by positivity
    set x := 1 / (s ^ 2 * (1 - κ / s)) with hx
    have hx0 : 0 < x := by rw [hx]; positivity
    obtain ⟨a0, a1⟩ := hA.bound x hx0
    obtain ⟨b0, b1⟩ := hB.bound x hx0
    obtain ⟨e1, e2⟩ := exp_half x hx0
    have e3 : (κ / s) ^ 2 / (2 * (1 - κ / s)) * A x = κ ^ 2 / 2 * (x * A x) := by
      rw [hx]; field_simp
    have hxs : 1 / (2 * s ^ 2) ≤ x / 2 := by
      rw [hx, div_div, div_le_div_iff₀ (by positivity) (by positivity)]
      nlinarith [pow_pos hs 2, mul_pos (pow_pos hs 2) hz0]
    have hexp : Real.exp (-(x / 2)) ≤ Real.exp (-(1 / (2 * s ^ 2))) := Real.exp_le_exp.2 (by linarith)
    have hxA : x * A x ≤ 8 * Real.exp (-(x / 2)) := (mul_le_mul_of_nonneg_left a1 hx0.le).trans e2
    have hk2 : κ ^ 2 / 2 ≤ 1 / 2 := by nlinarith
    have hfirst : κ ^ 2 / 2 * (x * A x) ≤ 4 * Real.exp (-(x / 2)) := by
      calc κ ^ 2 / 2 * (x * A x) ≤ 1 / 2 * (8 * Real.exp (-(x / 2))) :=
            mul_le_mul hk2 hxA (by positivity) (by norm_num)
        _ = _ := by ring
    rw [e3]
    refine ⟨by positivity, ?_⟩
    calc s ^ (-α - 2) * (κ ^ 2 / 2 * (x * A x) + B x) ≤ s ^ (-α - 2) * (6 * Real.exp (-(1 / (2 * s ^ 2)))) := by
          apply mul_le_mul_of_nonneg_left _ hp.le
          linarith [b1.trans e1]
      _ = _ := by ring
  · exact ⟨le_rfl, by positivity⟩

/-- the same for the Thomson limit -/
theorem thomsonShape_bound (α : ℝ) (B : ℝ → ℝ) (hB : ICFun B) (s : ℝ) (hs : 0 < s) :
    0 < s ^ (-α - 2) * B (1 / s ^ 2) ∧
      s ^ (-α - 2) * B (1 / s ^ 2) ≤ 6 * (s ^ (-α - 2) * Real.exp (-(1 / (2 * s ^ 2)))) := by
  have hp : 0 < s ^ (-α - 2) := Real.rpow_pos_of_pos hs _
  have he := Real.exp_pos (-(1 / (2 * s ^ 2)))
  have hx : 0 < 1 / s ^ 2 := by positivity
  obtain ⟨b0, b1⟩ := hB.bound _ hx
  obtain ⟨e1, -⟩ := exp_half _ hx
  refine ⟨by positivity, ?_⟩
  have e : 1 / s ^ 2 / 2 = 1 / (2 * s ^ 2) := by rw [div_div, mul_comm]
  rw [e] at e1
  calc s ^ (-α - 2) * B (1 / s ^ 2) ≤ s ^ (-α - 2) * (6 * Real.exp (-(1 / (2 * s ^ 2)))) := by
        apply mul_le_mul_of_nonneg_left _ hp.le
        linarith [b1.trans e1]
    _ = _ := by ring

theorem envelope_integrable (α : ℝ) (hα : -1 < α) :
    IntegrableOn (fun s : ℝ => 6 * (s ^ (-α - 2) * Real.exp (-(1 / (2 * s ^ 2))))) (Set.Ioi 0) := by
  apply Integrable.const_mul
  have h := integrableOn_rpow_mul_exp_neg_mul_rpow (p := 2) (s := α) (b := 1 / 2) hα (by norm_num) (by norm_num)
  rw [← integrableOn_Ioi_comp_rpow_iff' _ (p := -1) (by norm_num)] at h
  refine h.congr_fun ?_ measurableSet_Ioi
  intro s hs
  have hs0 : (0:ℝ) < s := hs
  simp only [smul_eq_mul]
  have e1 : (s ^ (-1 : ℝ)) ^ α = s ^ (-α) := by rw [← Real.rpow_mul hs0.le]; congr 1; ring
  have e2 : (s ^ (-1 : ℝ)) ^ (2 : ℝ) = 1 / s ^ 2 := by
    rw [← Real.rpow_mul hs0.le, show (-1 : ℝ) * 2 = -(2 : ℝ) by norm_num, Real.rpow_neg hs0.le, one_div]
    congr 1
    exact Real.rpow_ofNat s 2
  rw [e1, e2, ← mul_assoc, ← Real.rpow_add hs0]
  congr 2
  · ring
  · rw [one_div, one_div, one_div, mul_inv]; ring

theorem icShape_measurable (α : ℝ) (A B : ℝ → ℝ) (hA : ICFun A) (hB : ICFun B) (κ lam : ℝ) :
    Measurable (icShape α A B κ lam) := by
  have hm := hA.meas
  have hm' := hB.meas
  unfold icShape
  apply Measurable.ite
  · exact (measurableSet_lt measurable_const measurable_id).inter (measurableSet_lt measurable_const measurable_id)
  · have hx : Measurable (fun s : ℝ => 1 / (s ^ 2 * (1 - κ / s))) := by fun_prop
    have h1 := hm.comp hx
    have h2 := hm'.comp hx
    have h3 : Measurable (fun s : ℝ => s ^ (-α - 2)) := by fun_prop
    have h4 : Measurable (fun s : ℝ => (κ / s) ^ 2 / (2 * (1 - κ / s))) := by fun_prop
    exact h3.mul ((h4.mul h1).add h2)
  · exact measurable_const

theorem icShape_integrable (α : ℝ) (hα : -1 < α) (A B : ℝ → ℝ) (hA : ICFun A) (hB : ICFun B) (κ lam : ℝ) (hκ : 0 < κ)
    (hκ1 : κ ≤ 1) : IntegrableOn (icShape α A B κ lam) (Set.Ioi 0) := by
  apply Integrable.mono' (envelope_integrable α hα) (icShape_measurable α A B hA hB κ lam).aestronglyMeasurable
  filter_upwards [ae_restrict_mem measurableSet_Ioi] with s hs
  obtain ⟨h0, h1⟩ := icShape_bound α A B hA hB κ lam s hκ hκ1 hs
  rw [Real.norm_eq_abs, abs_of_nonneg h0]
  exact h1

theorem thomson_integral_pos (α : ℝ) (hα : -1 < α) (B : ℝ → ℝ) (hB : ICFun B) :
    0 < ∫ s in Set.Ioi (0:ℝ), s ^ (-α - 2) * B (1 / s ^ 2) := by
  have hint : IntegrableOn (fun s : ℝ => s ^ (-α - 2) * B (1 / s ^ 2)) (Set.Ioi 0) := by
    apply Integrable.mono' (envelope_integrable α hα)
    · have h1 : Measurable (fun s : ℝ => B (1 / s ^ 2)) := hB.meas.comp (by fun_prop)
      have h3 : Measurable (fun s : ℝ => s ^ (-α - 2)) := by fun_prop
      exact (h3.mul h1).aestronglyMeasurable
    · filter_upwards [ae_restrict_mem measurableSet_Ioi] with s hs
      obtain ⟨h0, h1⟩ := thomsonShape_bound α B hB s hs
      rw [Real.norm_eq_abs, abs_of_pos h0]
      exact h1
  rw [setIntegral_pos_iff_support_of_nonneg_ae _ hint]
  · have : Set.Ioi (0:ℝ) ⊆ Function.support (fun s : ℝ => s ^ (-α - 2) * B (1 / s ^ 2)) :=
      fun s hs => (thomsonShape_bound α B hB s hs).1.ne'
    rw [Set.inter_eq_right.2 this]
    simp
  · filter_upwards [ae_restrict_mem measurableSet_Ioi] with s hs
    exact (thomsonShape_bound α B hB s hs).1.le

/-- In the limit of seed photons of low energy, and of photon energies far above them. -/
theorem icShape_limit (α : ℝ) (hα : -1 < α) (A B : ℝ → ℝ) (hA : ICFun A) (hB : ICFun B) :
    Tendsto (fun q : ℝ × ℝ => ∫ s in Set.Ioi 0, icShape α A B q.1 q.2 s) (𝓝[>] 0 ×ˢ 𝓝[>] 0)
      (𝓝 (∫ s in Set.Ioi (0:ℝ), s ^ (-α - 2) * B (1 / s ^ 2))) := by
  have hpos : ∀ᶠ q : ℝ × ℝ in 𝓝[>] 0 ×ˢ 𝓝[>] 0, 0 < q.1 := tendsto_fst.eventually self_mem_nhdsWithin
  have hlt : ∀ s : ℝ, 0 < s → ∀ᶠ q : ℝ × ℝ in 𝓝[>] 0 ×ˢ 𝓝[>] 0, q.1 < s ∧ q.2 < s := by
    intro s hs
    have h : ∀ᶠ k : ℝ in 𝓝[>] 0, k < s := mem_nhdsWithin_of_mem_nhds (Iio_mem_nhds hs)
    exact (tendsto_fst.eventually h).and (tendsto_snd.eventually h)
  have h1 : Tendsto (fun q : ℝ × ℝ => q.1) (𝓝[>] 0 ×ˢ 𝓝[>] 0) (𝓝 0) := tendsto_fst.mono_right nhdsWithin_le_nhds
  apply tendsto_integral_filter_of_dominated_convergence _ _ _ (envelope_integrable α hα)
  · filter_upwards [ae_restrict_mem measurableSet_Ioi] with s hs
    have hs0 : (0:ℝ) < s := hs
    have hc : Tendsto (fun q : ℝ × ℝ => q.1 / s) (𝓝[>] 0 ×ˢ 𝓝[>] 0) (𝓝 0) := by
      simpa using h1.div_const s
    have h1c : Tendsto (fun q : ℝ × ℝ => 1 - q.1 / s) (𝓝[>] 0 ×ˢ 𝓝[>] 0) (𝓝 1) := by
      simpa using hc.const_sub 1
    have hx : Tendsto (fun q : ℝ × ℝ => 1 / (s ^ 2 * (1 - q.1 / s))) (𝓝[>] 0 ×ˢ 𝓝[>] 0) (𝓝 (1 / s ^ 2)) := by
      have := (h1c.const_mul (s ^ 2)).inv₀ (by positivity)
      simpa using this
    have cA : ContinuousAt A (1 / s ^ 2) := hA.cont.continuousAt (Ioi_mem_nhds (by positivity))
    have cB : ContinuousAt B (1 / s ^ 2) := hB.cont.continuousAt (Ioi_mem_nhds (by positivity))
    have hz : Tendsto (fun q : ℝ × ℝ => (q.1 / s) ^ 2 / (2 * (1 - q.1 / s))) (𝓝[>] 0 ×ˢ 𝓝[>] 0) (𝓝 0) := by
      have h : Tendsto (fun q : ℝ × ℝ => (q.1 / s) ^ 2 / (2 * (1 - q.1 / s))) (𝓝[>] 0 ×ˢ 𝓝[>] 0)
          (𝓝 (0 ^ 2 / (2 * 1))) := (hc.pow 2).div (h1c.const_mul 2) (by norm_num)
      simpa using h
    have hall := ((hz.mul (cA.tendsto.comp hx)).add (cB.tendsto.comp hx)).const_mul (s ^ (-α - 2))
    rw [zero_mul, zero_add] at hall
    refine hall.congr' ?_
    filter_upwards [hlt s hs0] with q hq
    unfold icShape
    rw [if_pos hq]
    rfl
  · exact Eventually.of_forall fun q => (icShape_measurable α A B hA hB q.1 q.2).aestronglyMeasurable
  · filter_upwards [hpos, (hlt 1 one_pos)] with q hq hq1
    filter_upwards [ae_restrict_mem measurableSet_Ioi] with s hs
    obtain ⟨b0, b1⟩ := icShape_bound α A B hA hB q.1 q.2 s hq hq1.1.le hs
    rw [Real.norm_eq_abs, abs_of_nonneg b0]
    exact b1

/-! ### The functions of the two kernels -/

theorem F34_icFun (α a β b c : ℝ) (ha : 0 ≤ a) (hb : 0 ≤ b) (hc : 0 ≤ c) : ICFun (Spec.F34 α a β b c) where
  meas := by unfold Spec.F34 Spec.gFactor; fun_prop
  cont := F34_continuousOn α a β b c ha hb hc
  bound := fun x hx => by
    refine ⟨?_, (F34_bounds α a β b c x hx ha hb hc).2⟩
    have := gFactor_pos α a β b x hx ha hb
    have := Real.pi_pos
    unfold Spec.F34
    positivity

theorem F12_icFun (α a β b : ℝ) (ha : 0 ≤ a) (hb : 0 ≤ b) : ICFun (Spec.F12 α a β b) where
  meas := by unfold Spec.F12 Spec.gFactor; fun_prop
  cont := F12_continuousOn α a β b ha hb
  bound := fun x hx => by
    refine ⟨?_, (F12_bounds α a β b x hx ha hb).2⟩
    have := gFactor_pos α a β b x hx ha hb
    have := Real.pi_pos
    unfold Spec.F12
    positivity

/-- the common form of both thermal rates -/
noncomputable def shapeRate (A B : ℝ → ℝ) (t w ε γ : ℝ) : ℝ :=
  if ε < γ ∧ 1 < γ then
    Spec.thermalNorm * t ^ 2 / γ ^ 2 *
      ((ε / γ) ^ 2 / (2 * (1 - ε / γ)) * A (ε / γ / ((1 - ε / γ) * (w * γ))) + B (ε / γ / ((1 - ε / γ) * (w * γ))))
  else 0

theorem thermalRate_iso_shape (T γ ε : ℝ) : thermalRate T none γ ε =
    shapeRate (Spec.F34 0.606 0.443 1.481 0.540 0.319) (Spec.F34 0.461 0.726 1.457 0.382 6.620)
      (1.6863699549e-10 * T) (4 * (1.6863699549e-10 * T)) ε γ := by
  unfold thermalRate shapeRate Spec.isoThermal
  simp only [show (4 * γ * (1.6863699549e-10 * T) : ℝ) = 4 * (1.6863699549e-10 * T) * γ by ring]

theorem thermalRate_ani_shape (T θ γ ε : ℝ) : thermalRate T (some θ) γ ε =
    shapeRate (Spec.F12 0.857 0.153 1.840 0.254) (Spec.F12 0.691 1.330 1.668 0.534)
      (1.6863699549e-10 * T) (2 * (1 - Real.cos θ) * (1.6863699549e-10 * T)) ε γ := by
  unfold thermalRate shapeRate Spec.aniThermal
  simp only [show (2 * γ * (1.6863699549e-10 * T) * (1 - Real.cos θ) : ℝ) =
    2 * (1 - Real.cos θ) * (1.6863699549e-10 * T) * γ by ring]

theorem shapeRate_scaled (A B : ℝ → ℝ) (α t w ε r s : ℝ) (hw : 0 < w) (hε : 0 < ε) (hr : 0 < r) (hr2 : r ^ 2 = ε / w)
    (hs : 0 < s) :
    s ^ (-α) * shapeRate A B t w ε (r * s) = Spec.thermalNorm * t ^ 2 / r ^ 2 * icShape α A B (ε / r) (1 / r) s := by
  have c1 : (ε < r * s ∧ 1 < r * s) ↔ (ε / r < s ∧ 1 / r < s) := by
    rw [div_lt_iff₀ hr, div_lt_iff₀ hr, mul_comm s r]
  have hz : ε / (r * s) = ε / r / s := by rw [div_div]
  unfold shapeRate icShape
  by_cases h : ε / r < s ∧ 1 / r < s
  · rw [if_pos (c1.2 h), if_pos h, hz]
    have h1 : 0 < 1 - ε / r / s := by
      have : ε / r / s < 1 := by rw [div_lt_one hs]; exact h.1
      linarith
    have hx : ε / r / s / ((1 - ε / r / s) * (w * (r * s))) = 1 / (s ^ 2 * (1 - ε / r / s)) := by
      set q := 1 - ε / r / s with hq
      have hwr : w * r ^ 2 = ε := by rw [hr2]; field_simp
      clear_value q
      rw [← hwr]
      field_simp
    rw [hx]
    have hp : s ^ (-α - 2) = s ^ (-α) / s ^ 2 := by
      rw [Real.rpow_sub hs, Real.rpow_ofNat]
    rw [hp]
    generalize (ε / r / s) ^ 2 / (2 * (1 - ε / r / s)) * A (1 / (s ^ 2 * (1 - ε / r / s))) +
      B (1 / (s ^ 2 * (1 - ε / r / s))) = u
    rw [mul_pow]
    field_simp
  · rw [if_neg h, if_neg (fun h' => h (c1.1 h')), mul_zero, mul_zero]

/-- The integral over all electron energies. -/
theorem shapeRate_integral (A B : ℝ → ℝ) (hA : ICFun A) (hB : ICFun B) (α K E₀ sc t w ε r c : ℝ) (hα : -1 < α)
    (hE₀ : 0 < E₀) (hw : 0 < w) (hε : 0 < ε) (hr : 0 < r) (hr2 : r ^ 2 = ε / w)
    (hc : 0 < c) (hκ : ε / r ≤ 1) :
    IntegrableOn (fun E => K * (E / E₀) ^ (-α) * sc * shapeRate A B t w ε (E / c)) (Set.Ioi 0) ∧
    ∫ E in Set.Ioi 0, K * (E / E₀) ^ (-α) * sc * shapeRate A B t w ε (E / c) =
      c * r * (K * (c * r / E₀) ^ (-α) * sc * (Spec.thermalNorm * t ^ 2 / r ^ 2)) *
        ∫ s in Set.Ioi 0, icShape α A B (ε / r) (1 / r) s := by
  set f : ℝ → ℝ := fun E => K * (E / E₀) ^ (-α) * sc * shapeRate A B t w ε (E / c) with hf
  have hcr : 0 < c * r := mul_pos hc hr
  have hpt : Set.EqOn (fun s => f (c * r * s))
      (fun s => K * (c * r / E₀) ^ (-α) * sc * (Spec.thermalNorm * t ^ 2 / r ^ 2) * icShape α A B (ε / r) (1 / r) s)
      (Set.Ioi 0) := by
    intro s hs
    have hs0 : (0:ℝ) < s := hs
    simp only [hf]
    have e1 : c * r * s / E₀ = c * r / E₀ * s := by ring
    have e2 : c * r * s / c = r * s := by field_simp
    rw [e1, e2, Real.mul_rpow (by positivity) hs0.le]
    have h := shapeRate_scaled A B α t w ε r s hw hε hr hr2 hs0
    calc _ = K * (c * r / E₀) ^ (-α) * sc * (s ^ (-α) * shapeRate A B t w ε (r * s)) := by ring
      _ = _ := by rw [h]; ring
  constructor
  · have h1 := integrableOn_Ioi_comp_mul_left_iff f 0 hcr
    rw [mul_zero] at h1
    rw [← h1, integrableOn_congr_fun hpt measurableSet_Ioi]
    exact (icShape_integrable α hα A B hA hB (ε / r) (1 / r) (by positivity) hκ).const_mul _
  · have h1 := integral_comp_mul_left_Ioi f 0 hcr
    rw [mul_zero, smul_eq_mul, setIntegral_congr_fun measurableSet_Ioi hpt, integral_const_mul] at h1
    rw [mul_assoc, h1]
    field_simp

theorem exists_corner (P : ℝ → ℝ → Prop) (h : ∀ᶠ q : ℝ × ℝ in 𝓝[>] 0 ×ˢ 𝓝[>] 0, P q.1 q.2) :
    ∃ η > 0, ∀ x y, 0 < x → x < η → 0 < y → y < η → P x y := by
  obtain ⟨⟨i, j⟩, ⟨hi, hj⟩, hij⟩ := ((nhdsGT_basis (0:ℝ)).prod (nhdsGT_basis (0:ℝ))).eventually_iff.1 h
  refine ⟨min i j, lt_min hi hj, fun x y h1 h2 h3 h4 => ?_⟩
  exact @hij (x, y) ⟨⟨h1, h2.trans_le (min_le_left _ _)⟩, ⟨h3, h4.trans_le (min_le_right _ _)⟩⟩

/-- the value for an unlimited range of electron energies -/
theorem index_value (C₁ S₁ V₁ c K E₀ α u N k T dens e v r : ℝ) (hC : 0 < C₁) (hS : 0 < S₁) (hc : 0 < c) (hE₀ : 0 < E₀)
    (hk : 0 < k) (hT : 0 < T) (he : 0 < e) (hv : 0 < v) (hr : 0 < r) (hr2 : r ^ 2 = e / c / (v * (k * T))) :
    dens / (4 * S₁ / C₁ * T ^ 4) * V₁ / c * (c * r * (K * (c * r / E₀) ^ (-α) * u * (N * (k * T) ^ 2 / r ^ 2))) =
      C₁ / (4 * S₁) * V₁ * (K * (c / E₀) ^ (-α) * u * (N * k ^ 2)) * (c * k) ^ ((α + 1) / 2) *
        (dens / T ^ 2 * (v * T / e) ^ ((α + 1) / 2)) := by
  have e1 : (c * r / E₀) ^ (-α) = (c / E₀) ^ (-α) * r ^ (-α) := by
    rw [← Real.mul_rpow (by positivity) hr.le]; congr 1; ring
  have e2 : r * r ^ (-α) / r ^ 2 = r ^ (-α - 1) := by
    rw [Real.rpow_sub hr, Real.rpow_one]; field_simp
  have e3 : r ^ (-α - 1) = (c * k) ^ ((α + 1) / 2) * (v * T / e) ^ ((α + 1) / 2) := by
    have h1 : r ^ (-α - 1) = (r ^ 2) ^ (-((α + 1) / 2)) := by
      rw [← Real.rpow_natCast, ← Real.rpow_mul hr.le]; congr 1; push_cast; ring
    rw [h1, hr2, ← Real.mul_rpow (by positivity) (by positivity), Real.rpow_neg (by positivity),
      ← Real.inv_rpow (by positivity)]
    congr 1
    field_simp
  calc _ = dens / (4 * S₁ / C₁ * T ^ 4) * V₁ * (K * (c / E₀) ^ (-α) * u * (N * (k * T) ^ 2)) *
        (r * r ^ (-α) / r ^ 2) := by
        rw [e1]; field_simp
    _ = _ := by
        rw [e2, e3]
        generalize (c * k) ^ ((α + 1) / 2) = y1
        generalize (v * T / e) ^ ((α + 1) / 2) = y2
        generalize (c / E₀) ^ (-α) = y3
        field_simp

set_option maxHeartbeats 1000000 in
/-- Both theorems of this file, for kernels of the common form. -/
theorem thermal_index (A B : ℝ → ℝ) (hA : ICFun A) (hB : ICFun B) (pd : PDist) (hu : pd.unit.dim = Dim.diffEnergy)
    (hus : 0 < pd.unit.scale) (K E₀ α : ℝ) (hK : 0 < K) (hE₀ : 0 < E₀) (hα : -1 < α)
    (hpd : ∀ E > 0, pd.f E = fin (K * (E / E₀) ^ (-α))) :
    ∃ C > 0, ∀ δ > 0, ∃ κ > 0, ∀ T > 0, ∀ dens > 0, ∀ e > 0, ∀ v > 0, ∀ θ : Option ℝ, v ≤ 4 →
      (∀ x, θ = some x → Real.cos x ≠ 1) →
      (∀ γ ε, thermalRate T θ γ ε = shapeRate A B (1.6863699549e-10 * T) (v * (1.6863699549e-10 * T)) ε γ) →
      kBoltzmann * T * e ≤ κ * (cMe * cC ^ 2) ^ 2 → kBoltzmann * T ≤ κ * e →
      ∃ a₀ > 0, ∃ b₀ > 0, ∀ m : ElModel, m.Eemin.PosEnergy → m.Eemax.PosEnergy →
        m.Eemin.phys < m.Eemax.phys → m.Eemin.phys < a₀ → b₀ < m.Eemax.phys →
        ∀ᶠ n in atTop, ∃ S, icSpectrum { m with nEed := n } [.thermal T dens θ] pd [e] = .ok [fin S] ∧
          |S - C * (dens / T ^ 2 * (v * T / e) ^ ((α + 1) / 2))| ≤
            δ * (C * (dens / T ^ 2 * (v * T / e) ^ ((α + 1) / 2))) := by
  have hev := cEV_pos
  have hm : 0 < cMe * cC ^ 2 := cMec2_pos
  have q1 := cC_pos
  have q3 : 0 < cSigma := by unfold cSigma; norm_num
  have hn : 0 < Spec.thermalNorm := by unfold Spec.thermalNorm; norm_num
  have hkB : 0 < kBoltzmann := by unfold kBoltzmann; norm_num
  set c := cMe * cC ^ 2 with hcdef
  set k := (1.6863699549e-10 : ℝ) with hk
  have hk0 : 0 < k := by rw [hk]; norm_num
  have hkk : k ≤ 2 * (kBoltzmann / c) := by rw [hk, hcdef]; unfold kBoltzmann cMe cC; norm_num
  have hI := thomson_integral_pos α hα B hB
  have hlim := icShape_limit α hα A B hA hB
  set I := ∫ s in Set.Ioi (0:ℝ), s ^ (-α - 2) * B (1 / s ^ 2) with hIdef
  set D := cC / (4 * cSigma) * cEV * (K * (c / E₀) ^ (-α) * pd.unit.scale * (Spec.thermalNorm * k ^ 2)) *
    (c * k) ^ ((α + 1) / 2) with hD
  have hcE : 0 < (c / E₀) ^ (-α) := Real.rpow_pos_of_pos (div_pos hm hE₀) _
  have hck : 0 < (c * k) ^ ((α + 1) / 2) := Real.rpow_pos_of_pos (mul_pos hm hk0) _
  have hD0 : 0 < D := by rw [hD]; positivity
  refine ⟨D * I, mul_pos hD0 hI, fun δ hδ => ?_⟩
  obtain ⟨η, hη, hcor⟩ := exists_corner (fun x y => |(∫ s in Set.Ioi 0, icShape α A B x y s) - I| < δ / 3 * I)
    ((Metric.tendsto_nhds.1 hlim) (δ / 3 * I) (by positivity))
  set η' := min η 1 with hη'
  have hη0 : 0 < η' := lt_min hη one_pos
  refine ⟨η' ^ 2 / 16, by positivity, fun T hT dens hdens e he v hv θ hv4 hθ hrate h1 h2 => ?_⟩
  set t := k * T with ht
  have ht0 : 0 < t := by rw [ht]; positivity
  have htk : t * c ≤ 2 * (kBoltzmann * T) := by
    have := mul_le_mul_of_nonneg_right hkk (mul_pos hT hm).le
    calc t * c = k * (T * c) := by rw [ht]; ring
      _ ≤ 2 * (kBoltzmann / c) * (T * c) := this
      _ = _ := by field_simp
  set w := v * t with hw
  have hw0 : 0 < w := by rw [hw]; positivity
  set ε := e / c with hε
  have hε0 : 0 < ε := by rw [hε]; positivity
  set r := Real.sqrt (ε / w) with hr
  have hr0 : 0 < r := Real.sqrt_pos.2 (by positivity)
  have hr2 : r ^ 2 = ε / w := Real.sq_sqrt (by positivity)
  have hwc : w * c ≤ 8 * (kBoltzmann * T) := by
    calc w * c = v * (t * c) := by rw [hw]; ring
      _ ≤ 4 * (2 * (kBoltzmann * T)) := mul_le_mul hv4 htk (by positivity) (by norm_num)
      _ = _ := by ring
  have hκ2 : (ε / r) ^ 2 < η' ^ 2 := by
    have e1 : (ε / r) ^ 2 = w * c * e / c ^ 2 := by
      rw [div_pow, hr2, hε]; field_simp
    rw [e1, div_lt_iff₀ (by positivity)]
    have := mul_le_mul_of_nonneg_right hwc he.le
    have h3 : 0 < η' ^ 2 * c ^ 2 := by positivity
    nlinarith
  have hl2 : (1 / r) ^ 2 < η' ^ 2 := by
    have e1 : (1 / r) ^ 2 = w * c / e := by
      rw [div_pow, hr2, hε]; field_simp
    rw [e1, div_lt_iff₀ he]
    have h3 : 0 < η' ^ 2 * e := by positivity
    nlinarith
  have hκ : ε / r < η' := lt_of_pow_lt_pow_left₀ 2 hη0.le hκ2
  have hl : 1 / r < η' := lt_of_pow_lt_pow_left₀ 2 hη0.le hl2
  have hclose := hcor (ε / r) (1 / r) (by positivity) (hκ.trans_le (min_le_left _ _)) (by positivity)
    (hl.trans_le (min_le_left _ _))
  obtain ⟨hint, hval⟩ := shapeRate_integral A B hA hB α K E₀ pd.unit.scale t w ε r c hα hE₀ hw0 hε0 hr0 hr2 hm
    (hκ.le.trans (min_le_right _ _))
  set J := ∫ s in Set.Ioi 0, icShape α A B (ε / r) (1 / r) s with hJ
  set P := dens / (4 * cSigma / cC * T ^ 4) * cEV / c with hP
  have hP0 : 0 < P := by rw [hP]; positivity
  set V := dens / T ^ 2 * (v * T / e) ^ ((α + 1) / 2) with hV
  have hV0 : 0 < V := by
    have : 0 < (v * T / e) ^ ((α + 1) / 2) := Real.rpow_pos_of_pos (by positivity) _
    rw [hV]; positivity
  -- the value for an unlimited range of electron energies
  have hfin : P * (c * r * (K * (c * r / E₀) ^ (-α) * pd.unit.scale * (Spec.thermalNorm * t ^ 2 / r ^ 2))) = D * V := by
    rw [hD, hV, hP]
    exact index_value cC cSigma cEV c K E₀ α pd.unit.scale Spec.thermalNorm k T dens e v r q1 q3 hm hE₀ hk0 hT he hv hr0
      (by rw [hr2, hw, ht])
  have hDV : 0 < D * V := mul_pos hD0 hV0
  have hDVI : 0 < D * V * I := mul_pos hDV hI
  obtain ⟨a₀, ha₀, b₀, hb₀, hrange⟩ := range_limit _ hint (δ / 3 * (D * V * I) / P) (by positivity)
  refine ⟨a₀, ha₀, b₀, hb₀, fun m hlo hhi hlt h3 h4 => ?_⟩
  have hpos : ∀ E ∈ Set.Icc m.Eemin.phys m.Eemax.phys, 0 < E := fun E hE => hlo.phys_pos.trans_le hE.1
  have hs : Spectrum (fun E => K * (E / E₀) ^ (-α)) m.Eemin.phys m.Eemax.phys := by
    apply Spectrum.of_continuous
    · intro E hE
      have := Real.rpow_pos_of_pos (div_pos (hpos E hE) hE₀) (-α)
      positivity
    · apply ContinuousOn.mul continuousOn_const
      apply ContinuousOn.rpow_const (continuousOn_id.div_const _)
      intro E hE
      exact Or.inl (div_pos (hpos E hE) hE₀).ne'
  obtain ⟨L, hL, hT'⟩ := C83_inverse_compton m pd hu hus hlo hhi hlt T dens θ hT hθ _
    (fun E hE => hpd E (hpos E hE)) hs [e] (by simpa using he)
  have hT' := hT' e (by simp)
  simp only [hrate] at hT'
  rw [Metric.tendsto_nhds] at hT'
  filter_upwards [hT' (δ / 3 * (D * V * I)) (by positivity)] with n hn
  refine ⟨L n e, by simpa using hL n, ?_⟩
  rw [Real.dist_eq] at hn
  have hr' := hrange m.Eemin.phys m.Eemax.phys hlo.phys_pos h3 h4 hlt.le
  rw [hval, lt_div_iff₀ hP0, ← abs_of_pos hP0, ← abs_mul] at hr'
  set X := ∫ E in m.Eemin.phys..m.Eemax.phys, K * (E / E₀) ^ (-α) * pd.unit.scale * shapeRate A B t w ε (E / c) with hX
  have e1 : (X - c * r * (K * (c * r / E₀) ^ (-α) * pd.unit.scale * (Spec.thermalNorm * t ^ 2 / r ^ 2)) * J) * P =
      P * X - D * V * J := by rw [← hfin]; ring
  rw [e1] at hr'
  have hc' : |D * V * J - D * V * I| ≤ D * V * (δ / 3 * I) := by
    rw [← mul_sub, abs_mul, abs_of_pos hDV]
    exact mul_le_mul_of_nonneg_left hclose.le hDV.le
  have t1 := abs_add_le (L n e - P * X) (P * X - D * V * J)
  have t2 := abs_add_le (L n e - P * X + (P * X - D * V * J)) (D * V * J - D * V * I)
  have e2 : L n e - P * X + (P * X - D * V * J) + (D * V * J - D * V * I) = L n e - D * I * V := by ring
  rw [e2] at t2
  have e3 : δ * (D * I * V) = δ / 3 * (D * V * I) + δ / 3 * (D * V * I) + D * V * (δ / 3 * I) := by ring
  rw [e3]
  have hn' : |L n e - P * X| < δ / 3 * (D * V * I) := hn
  linarith

/-- **C116 (isotropic field).** Electrons with a power law of index `α > -1` in an isotropic thermal field of
temperature `T` and energy density `dens`: in the Thomson regime the spectrum is `C · dens · T^-2 · (T/E)^((α+1)/2)`
with the same `C > 0` in all fields and at all photon energies: for every relative accuracy `δ` there is a `κ` such that
this holds wherever `kT · E ≤ κ (mc²)²` and `kT ≤ κ E`, once the range of electron energies is wide enough and the grid
fine enough. -/
theorem C116_isotropic (pd : PDist) (hu : pd.unit.dim = Dim.diffEnergy)
    (hus : 0 < pd.unit.scale) (K E₀ α : ℝ) (hK : 0 < K) (hE₀ : 0 < E₀) (hα : -1 < α)
    (hpd : ∀ E > 0, pd.f E = fin (K * (E / E₀) ^ (-α))) :
    ∃ C > 0, ∀ δ > 0, ∃ κ > 0, ∀ T > 0, ∀ dens > 0, ∀ e > 0,
      kBoltzmann * T * e ≤ κ * (cMe * cC ^ 2) ^ 2 → kBoltzmann * T ≤ κ * e →
      ∃ a₀ > 0, ∃ b₀ > 0, ∀ m : ElModel, m.Eemin.PosEnergy → m.Eemax.PosEnergy →
        m.Eemin.phys < m.Eemax.phys → m.Eemin.phys < a₀ → b₀ < m.Eemax.phys →
        ∀ᶠ n in atTop, ∃ S, icSpectrum { m with nEed := n } [.thermal T dens none] pd [e] = .ok [fin S] ∧
          |S - C * (dens / T ^ 2 * (T / e) ^ ((α + 1) / 2))| ≤ δ * (C * (dens / T ^ 2 * (T / e) ^ ((α + 1) / 2))) := by
  obtain ⟨C, hC, h⟩ := thermal_index _ _ (F34_icFun 0.606 0.443 1.481 0.540 0.319 (by norm_num) (by norm_num) (by norm_num))
    (F34_icFun 0.461 0.726 1.457 0.382 6.620 (by norm_num) (by norm_num) (by norm_num)) pd hu hus K E₀ α hK hE₀ hα hpd
  have h4 : (0:ℝ) < 4 ^ ((α + 1) / 2) := Real.rpow_pos_of_pos (by norm_num) _
  refine ⟨C * 4 ^ ((α + 1) / 2), mul_pos hC h4, fun δ hδ => ?_⟩
  obtain ⟨κ, hκ, h⟩ := h δ hδ
  refine ⟨κ, hκ, fun T hT dens hd e he h1 h2 => ?_⟩
  have h := h T hT dens hd e he 4 (by norm_num) none le_rfl (by simp) (thermalRate_iso_shape T) h1 h2
  have e1 : C * (dens / T ^ 2 * (4 * T / e) ^ ((α + 1) / 2)) =
      C * 4 ^ ((α + 1) / 2) * (dens / T ^ 2 * (T / e) ^ ((α + 1) / 2)) := by
    rw [mul_div_assoc, Real.mul_rpow (by norm_num) (by positivity)]; ring
  rw [e1] at h
  exact h

/-- **C116 (field seen under an angle).** The same for thermal photons that all arrive at an angle `θ`; the flux is
proportional to `(1 - cos θ)^((α+1)/2)`, and the regime in which the formula holds does not depend on the angle. -/
theorem C116_angle (pd : PDist) (hu : pd.unit.dim = Dim.diffEnergy)
    (hus : 0 < pd.unit.scale) (K E₀ α : ℝ) (hK : 0 < K) (hE₀ : 0 < E₀) (hα : -1 < α)
    (hpd : ∀ E > 0, pd.f E = fin (K * (E / E₀) ^ (-α))) :
    ∃ C > 0, ∀ δ > 0, ∃ κ > 0, ∀ T > 0, ∀ dens > 0, ∀ e > 0, ∀ θ : ℝ, Real.cos θ ≠ 1 →
      kBoltzmann * T * e ≤ κ * (cMe * cC ^ 2) ^ 2 → kBoltzmann * T ≤ κ * e →
      ∃ a₀ > 0, ∃ b₀ > 0, ∀ m : ElModel, m.Eemin.PosEnergy → m.Eemax.PosEnergy →
        m.Eemin.phys < m.Eemax.phys → m.Eemin.phys < a₀ → b₀ < m.Eemax.phys →
        ∀ᶠ n in atTop, ∃ S, icSpectrum { m with nEed := n } [.thermal T dens (some θ)] pd [e] = .ok [fin S] ∧
          |S - C * (dens / T ^ 2 * ((1 - Real.cos θ) * T / e) ^ ((α + 1) / 2))| ≤
            δ * (C * (dens / T ^ 2 * ((1 - Real.cos θ) * T / e) ^ ((α + 1) / 2))) := by
  obtain ⟨C, hC, h⟩ := thermal_index _ _ (F12_icFun 0.857 0.153 1.840 0.254 (by norm_num) (by norm_num))
    (F12_icFun 0.691 1.330 1.668 0.534 (by norm_num) (by norm_num)) pd hu hus K E₀ α hK hE₀ hα hpd
  have h4 : (0:ℝ) < 2 ^ ((α + 1) / 2) := Real.rpow_pos_of_pos (by norm_num) _
  refine ⟨C * 2 ^ ((α + 1) / 2), mul_pos hC h4, fun δ hδ => ?_⟩
  obtain ⟨κ, hκ, h⟩ := h δ hδ
  refine ⟨κ, hκ, fun T hT dens hd e he θ hθ h1 h2 => ?_⟩
  have hc : 0 < 1 - Real.cos θ := by
    rcases lt_or_eq_of_le (Real.cos_le_one θ) with h | h
    · linarith
    · exact absurd h hθ
  have h := h T hT dens hd e he (2 * (1 - Real.cos θ)) (by positivity) (some θ)
    (by linarith [Real.neg_one_le_cos θ]) (by rintro x hx; cases hx; exact hθ) (thermalRate_ani_shape T θ) h1 h2
  have e1 : C * (dens / T ^ 2 * (2 * (1 - Real.cos θ) * T / e) ^ ((α + 1) / 2)) =
      C * 2 ^ ((α + 1) / 2) * (dens / T ^ 2 * ((1 - Real.cos θ) * T / e) ^ ((α + 1) / 2)) := by
    rw [mul_assoc 2, mul_div_assoc, Real.mul_rpow (by norm_num) (by positivity)]; ring
  rw [e1] at h
  exact h

/-! ### The hypotheses are met -/

/-- Electrons of index 2.2 in the microwave background: photon index 1.6 within 1 % over some range of energies that
reaches up to any multiple of its lower end, for a wide enough gap between `kT` and `mc²`. -/
example : ∃ C > 0, ∃ κ > 0, ∀ T > 0, ∀ e > 0,
      kBoltzmann * T * e ≤ κ * (cMe * cC ^ 2) ^ 2 → kBoltzmann * T ≤ κ * e →
      ∃ a₀ > 0, ∃ b₀ > 0, ∀ m : ElModel, m.Eemin.PosEnergy → m.Eemax.PosEnergy →
        m.Eemin.phys < m.Eemax.phys → m.Eemin.phys < a₀ → b₀ < m.Eemax.phys →
        ∀ᶠ n in atTop, ∃ S, icSpectrum { m with nEed := n } [.thermal T 4.2e-13 none]
          (PowerLaw.toPDist ⟨fin 1e33, (⟨1, PhysUnit.TeV⟩ : Qty ℝ).lift, fin 2.2⟩ ⟨1 / cEV, Dim.diffEnergy⟩) [e] =
            .ok [fin S] ∧
          |S - C * (4.2e-13 / T ^ 2 * (T / e) ^ (((2.2 : ℝ) + 1) / 2))| ≤
            0.01 * (C * (4.2e-13 / T ^ 2 * (T / e) ^ (((2.2 : ℝ) + 1) / 2))) := by
  have := cEV_pos
  have h0 : (⟨1, PhysUnit.TeV⟩ : Qty ℝ).PosEnergy := ⟨rfl, by simp [PhysUnit.TeV]; positivity, by norm_num⟩
  obtain ⟨C, hC, h⟩ := C116_isotropic (PowerLaw.toPDist ⟨fin 1e33, (⟨1, PhysUnit.TeV⟩ : Qty ℝ).lift, fin 2.2⟩
    ⟨1 / cEV, Dim.diffEnergy⟩) rfl (by simp only [PowerLaw.toPDist]; positivity) 1e33 _ 2.2 (by norm_num) h0.phys_pos
    (by norm_num) (fun E hE => powerLaw_pdist 1e33 2.2 _ h0 _ E hE)
  obtain ⟨κ, hκ, h⟩ := h 0.01 (by norm_num)
  exact ⟨C, hC, κ, hκ, fun T hT e he => h T hT 4.2e-13 (by norm_num) e he⟩

/-- The same with all photons arriving head on, twice as large a `T/E` in effect. -/
example : ∃ C > 0, ∃ κ > 0, ∀ T > 0, ∀ e > 0,
      kBoltzmann * T * e ≤ κ * (cMe * cC ^ 2) ^ 2 → kBoltzmann * T ≤ κ * e →
      ∃ a₀ > 0, ∃ b₀ > 0, ∀ m : ElModel, m.Eemin.PosEnergy → m.Eemax.PosEnergy →
        m.Eemin.phys < m.Eemax.phys → m.Eemin.phys < a₀ → b₀ < m.Eemax.phys →
        ∀ᶠ n in atTop, ∃ S, icSpectrum { m with nEed := n } [.thermal T 4.2e-13 (some Real.pi)]
          (PowerLaw.toPDist ⟨fin 1e33, (⟨1, PhysUnit.TeV⟩ : Qty ℝ).lift, fin 2.2⟩ ⟨1 / cEV, Dim.diffEnergy⟩) [e] =
            .ok [fin S] ∧
          |S - C * (4.2e-13 / T ^ 2 * (2 * T / e) ^ (((2.2 : ℝ) + 1) / 2))| ≤
            0.01 * (C * (4.2e-13 / T ^ 2 * (2 * T / e) ^ (((2.2 : ℝ) + 1) / 2))) := by
  have := cEV_pos
  have h0 : (⟨1, PhysUnit.TeV⟩ : Qty ℝ).PosEnergy := ⟨rfl, by simp [PhysUnit.TeV]; positivity, by norm_num⟩
  obtain ⟨C, hC, h⟩ := C116_angle (PowerLaw.toPDist ⟨fin 1e33, (⟨1, PhysUnit.TeV⟩ : Qty ℝ).lift, fin 2.2⟩
    ⟨1 / cEV, Dim.diffEnergy⟩) rfl (by simp only [PowerLaw.toPDist]; positivity) 1e33 _ 2.2 (by norm_num) h0.phys_pos
    (by norm_num) (fun E hE => powerLaw_pdist 1e33 2.2 _ h0 _ E hE)
  obtain ⟨κ, hκ, h⟩ := h 0.01 (by norm_num)
  refine ⟨C, hC, κ, hκ, fun T hT e he h1 h2 => ?_⟩
  have h := h T hT 4.2e-13 (by norm_num) e he Real.pi (by rw [Real.cos_pi]; norm_num) h1 h2
  rw [Real.cos_pi, show (1 - (-1) : ℝ) = 2 by norm_num] at h
  exact h

/-- Photon energies in the regime exist whenever `kT ≤ κ mc²`: the electron rest energy is one. -/
example (κ T : ℝ) (h : kBoltzmann * T ≤ κ * (cMe * cC ^ 2)) :
    kBoltzmann * T * (cMe * cC ^ 2) ≤ κ * (cMe * cC ^ 2) ^ 2 ∧ kBoltzmann * T ≤ κ * (cMe * cC ^ 2) := by
  refine ⟨?_, h⟩
  have := mul_le_mul_of_nonneg_right h (show (0:ℝ) ≤ cMe * cC ^ 2 from cMec2_pos.le)
  linarith [this, show κ * (cMe * cC ^ 2) * (cMe * cC ^ 2) = κ * (cMe * cC ^ 2) ^ 2 by ring]

end Naima.Props
