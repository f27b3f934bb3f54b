import Verif.Proof.TrapzBounds
import Verif.Proof.Electron

/-! Refining the logarithmic grid: limits of the log-log sums -/

namespace Naima

open XR Filter Topology

theorem logspace_mem (a b : ℝ) (n : ℕ) (hab : a ≤ b) :
    ∀ x ∈ logspace a b n, (10 : ℝ) ^ a ≤ x ∧ x ≤ (10 : ℝ) ^ b := by
  intro x hx
  simp only [logspace, List.mem_map, List.mem_range] at hx
  obtain ⟨i, hi, rfl⟩ := hx
  have hi1 : ((i : ℝ)) ≤ (n : ℝ) - 1 := by
    have : ((i + 1 : ℕ) : ℝ) ≤ n := by exact_mod_cast hi
    push_cast at this; linarith
  have hn0 : 0 ≤ (n : ℝ) - 1 := le_trans (Nat.cast_nonneg i) hi1
  have hk : (0:ℝ) ≤ i * ((b - a) / ((n : ℝ) - 1)) :=
    mul_nonneg (Nat.cast_nonneg i) (div_nonneg (by linarith) hn0)
  have hk2 : (i : ℝ) * ((b - a) / ((n : ℝ) - 1)) ≤ b - a := by
    rcases eq_or_lt_of_le hn0 with h | h
    · rw [← h]; simp; exact hab
    · calc (i : ℝ) * ((b - a) / ((n : ℝ) - 1)) ≤ ((n : ℝ) - 1) * ((b - a) / ((n : ℝ) - 1)) :=
            mul_le_mul_of_nonneg_right hi1 (div_nonneg (by linarith) hn0)
        _ = b - a := by field_simp
  exact ⟨Real.rpow_le_rpow_of_exponent_le (by norm_num) (by linarith),
    Real.rpow_le_rpow_of_exponent_le (by norm_num) (by linarith)⟩

/-- the steps of a logarithmic grid -/
theorem logspace_step (a b : ℝ) (n : ℕ) (hab : a ≤ b) (hn : 10 ≤ n) (i : ℕ) (x y : ℝ)
    (hx : (logspace a b n)[i]? = some x) (hy : (logspace a b n)[i + 1]? = some y) :
    x ≤ y ∧ y - x ≤ (10 : ℝ) ^ b * ((10 : ℝ) ^ ((b - a) / ((n : ℝ) - 1)) - 1) ∧
      y = x * (10 : ℝ) ^ ((b - a) / ((n : ℝ) - 1)) := by
  have hn1 : (0 : ℝ) < (n : ℝ) - 1 := by
    have : (10 : ℝ) ≤ n := by exact_mod_cast hn
    linarith
  have hs : 0 ≤ (b - a) / ((n : ℝ) - 1) := div_nonneg (by linarith) hn1.le
  have hxm := logspace_mem a b n hab x (List.mem_of_getElem? hx)
  obtain ⟨_, ex⟩ := logspace_get a b n i x hx
  obtain ⟨_, ey⟩ := logspace_get a b n (i + 1) y hy
  have e : y = x * (10 : ℝ) ^ ((b - a) / ((n : ℝ) - 1)) := by
    rw [ex, ey, ← Real.rpow_add (by norm_num)]
    congr 1
    push_cast
    ring
  have hq : (1 : ℝ) ≤ (10 : ℝ) ^ ((b - a) / ((n : ℝ) - 1)) := Real.one_le_rpow (by norm_num) hs
  have hx0 : 0 < x := lt_of_lt_of_le (by positivity) hxm.1
  refine ⟨by rw [e]; nlinarith, ?_, e⟩
  rw [e]
  nlinarith [hxm.2]

theorem mesh_tendsto (d B : ℝ) (K : ℝ → ℕ) (hK : Tendsto K atTop atTop) :
    Tendsto (fun n => B * ((10 : ℝ) ^ (d / ((K n : ℝ) - 1)) - 1)) atTop (𝓝 0) := by
  have h1 : Tendsto (fun n => (K n : ℝ) - 1) atTop atTop :=
    tendsto_atTop_add_const_right _ _ (tendsto_natCast_atTop_atTop.comp hK)
  have h2 : Tendsto (fun n => d / ((K n : ℝ) - 1)) atTop (𝓝 0) := Tendsto.const_div_atTop h1 d
  have h3 : Tendsto (fun n => (10 : ℝ) ^ (d / ((K n : ℝ) - 1))) atTop (𝓝 ((10 : ℝ) ^ (0 : ℝ))) :=
    (Real.continuousAt_const_rpow (by norm_num)).tendsto.comp h2
  have h4 := (h3.sub_const 1).const_mul B
  simpa using h4

/-- **Grid limit.** The log-log sum of a bounded non-negative function, continuous but for
finitely many points, over logarithmic grids from
`c·10^la` to `c·10^lb` with more and more points tends to its integral. -/
theorem grid_tendsto (F : ℝ → ℝ) (c la lb : ℝ) (hc : 0 < c) (hab : la < lb)
    (S : Finset ℝ) (M : ℝ)
    (hF : ContinuousOn F (Set.Icc ((10 : ℝ) ^ la * c) ((10 : ℝ) ^ lb * c) \ S))
    (hM : ∀ t ∈ Set.Icc ((10 : ℝ) ^ la * c) ((10 : ℝ) ^ lb * c), F t ≤ M)
    (h0 : ∀ t ∈ Set.Icc ((10 : ℝ) ^ la * c) ((10 : ℝ) ^ lb * c), 0 ≤ F t)
    (K : ℝ → ℕ) (hK : Tendsto K atTop atTop) (h10 : ∀ n, 10 ≤ K n) :
    Tendsto (fun n => binSum rbin (((logspace la lb (K n)).map (· * c)).map (fun x => (x, F x)))) atTop
      (𝓝 (∫ t in ((10 : ℝ) ^ la * c)..((10 : ℝ) ^ lb * c), F t)) := by
  have hle : (10 : ℝ) ^ la * c ≤ (10 : ℝ) ^ lb * c :=
    mul_le_mul_of_nonneg_right (Real.rpow_le_rpow_of_exponent_le (by norm_num) hab.le) hc.le
  rw [Metric.tendsto_atTop]
  intro ε hε
  obtain ⟨δ, hδ, hconv⟩ := binSum_converges F _ _ M (by positivity) hle S hF h0 hM ε hε
  have hmesh := mesh_tendsto (lb - la) ((10 : ℝ) ^ lb * c) K hK
  have hev := (hmesh.eventually (gt_mem_nhds hδ))
  obtain ⟨N, hN⟩ := eventually_atTop.1 hev
  refine ⟨N, fun n hn => ?_⟩
  rw [Real.dist_eq]
  have lg := logspace_logGrid la lb (K n) hab (h10 n)
  apply hconv
  · rw [List.head?_map, lg.first]; rfl
  · rw [List.getLast?_map, lg.last]; rfl
  · intro x hx
    obtain ⟨g, hg, rfl⟩ := List.mem_map.1 hx
    have := logspace_mem la lb (K n) hab.le g hg
    exact ⟨mul_le_mul_of_nonneg_right this.1 hc.le, mul_le_mul_of_nonneg_right this.2 hc.le⟩
  · apply Adj_of_get
    intro i a b ha hb
    rw [List.getElem?_map, Option.map_eq_some_iff] at ha hb
    obtain ⟨x, hx, rfl⟩ := ha
    obtain ⟨y, hy, rfl⟩ := hb
    obtain ⟨s1, s2, -⟩ := logspace_step la lb (K n) hab.le (h10 n) i x y hx hy
    refine ⟨mul_le_mul_of_nonneg_right s1 hc.le, ?_⟩
    have := hN n hn
    nlinarith

/-- the number of grid points of the code -/
noncomputable def gridK (d n : ℝ) : ℕ := (max 10 (if 0 ≤ n * d then ⌊n * d⌋ else ⌈n * d⌉)).toNat

theorem gridK_ten (d n : ℝ) : 10 ≤ gridK d n := by
  unfold gridK
  have : (10 : ℤ) ≤ max 10 (if 0 ≤ n * d then ⌊n * d⌋ else ⌈n * d⌉) := le_max_left _ _
  omega

theorem gridK_tendsto (d : ℝ) (hd : 0 < d) : Tendsto (gridK d) atTop atTop := by
  rw [tendsto_atTop]
  intro b
  rw [eventually_atTop]
  refine ⟨b / d, fun n hn => ?_⟩
  rw [div_le_iff₀ hd] at hn
  have h0 : 0 ≤ n * d := le_trans (Nat.cast_nonneg b) hn
  unfold gridK
  rw [if_pos h0]
  have : (b : ℤ) ≤ ⌊n * d⌋ := by rw [Int.le_floor]; exact_mod_cast hn
  have : (b : ℤ) ≤ max 10 ⌊n * d⌋ := this.trans (le_max_right _ _)
  omega

end Naima
