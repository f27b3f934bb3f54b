import Verif.Props.C84_C85_Order
import Mathlib.Analysis.Complex.ExponentialBounds
import Mathlib.Analysis.Calculus.Deriv.MeanValue

/-! # C120: nuclear enhancement of the pion-decay spectrum -/

namespace Naima.Props

open Naima XR Classical

/-! ### The inelastic cross section -/

/-- `σinel` in mb as a function of `ln(T / Tth)`. -/
noncomputable def sigL (L : ℝ) : ℝ := (30.7 - 0.96 * L + 0.18 * L ^ 2) * (1 - Real.exp (-1.9 * L)) ^ 3

theorem sigL_deriv (L : ℝ) : HasDerivAt sigL ((1 - Real.exp (-1.9 * L)) ^ 2 *
    ((-0.96 + 0.36 * L) * (1 - Real.exp (-1.9 * L)) +
      5.7 * (30.7 - 0.96 * L + 0.18 * L ^ 2) * Real.exp (-1.9 * L))) L := by
  have h1 : HasDerivAt (fun L : ℝ => 30.7 - 0.96 * L + 0.18 * L ^ 2) (-0.96 + 0.36 * L) L := by
    have := (((hasDerivAt_id L).const_mul (0.96:ℝ)).const_sub 30.7).add (((hasDerivAt_id L).pow 2).const_mul (0.18:ℝ))
    exact this.congr_deriv (by simp; ring)
  have h2 : HasDerivAt (fun L : ℝ => 1 - Real.exp (-1.9 * L)) (1.9 * Real.exp (-1.9 * L)) L := by
    have := (((hasDerivAt_id L).const_mul (-1.9:ℝ)).exp).const_sub 1
    exact this.congr_deriv (by simp; ring)
  have h3 := h1.mul (h2.pow 3)
  exact h3.congr_deriv (by simp; ring)

theorem exp51 : Real.exp 5.1 < 170 := by
  have h : Real.exp 5.1 ^ 10 < 170 ^ 10 := by
    rw [← Real.exp_nat_mul]
    have : ((10:ℕ):ℝ) * 5.1 = ((51:ℕ):ℝ) * 1 := by norm_num
    rw [this, Real.exp_nat_mul]
    calc Real.exp 1 ^ 51 < 2.7182818286 ^ 51 :=
          pow_lt_pow_left₀ Real.exp_one_lt_d9 (Real.exp_pos 1).le (by norm_num)
      _ < 170 ^ 10 := by norm_num
  exact lt_of_pow_lt_pow_left₀ 10 (by norm_num) h

theorem sigL_mono : MonotoneOn sigL (Set.Ici 0) := by
  refine monotoneOn_of_deriv_nonneg (convex_Ici 0) (fun L _ => (sigL_deriv L).continuousAt.continuousWithinAt)
    (fun L _ => (sigL_deriv L).differentiableAt.differentiableWithinAt) fun L hL => ?_
  rw [interior_Ici] at hL
  have hL : 0 < L := hL
  rw [(sigL_deriv L).deriv]
  have hP : 29 ≤ 30.7 - 0.96 * L + 0.18 * L ^ 2 := by nlinarith [_root_.sq_nonneg (L - 8 / 3)]
  have he := Real.exp_pos (-1.9 * L)
  have he1 : Real.exp (-1.9 * L) ≤ 1 := Real.exp_le_one_iff.2 (by nlinarith)
  refine mul_nonneg (_root_.sq_nonneg _) ?_
  by_cases c : 8 / 3 ≤ L
  · have h1 : 0 ≤ -0.96 + 0.36 * L := by norm_num at *; linarith
    have h2 : 0 ≤ (-0.96 + 0.36 * L) * (1 - Real.exp (-1.9 * L)) := mul_nonneg h1 (by linarith)
    have h3 : 0 ≤ 5.7 * (30.7 - 0.96 * L + 0.18 * L ^ 2) * Real.exp (-1.9 * L) :=
      mul_nonneg (mul_nonneg (by norm_num) (by linarith)) he.le
    linarith
  · have hlow : 1 / 170 ≤ Real.exp (-1.9 * L) := by
      have e1 : Real.exp (-5.1) ≤ Real.exp (-1.9 * L) := Real.exp_le_exp.2 (by norm_num at *; linarith)
      have e2 : 1 / 170 ≤ Real.exp (-5.1) := by
        rw [Real.exp_neg, ← one_div]
        exact one_div_le_one_div_of_le (Real.exp_pos _) exp51.le
      exact e2.trans e1
    have h2 : -0.96 ≤ (-0.96 + 0.36 * L) * (1 - Real.exp (-1.9 * L)) := by
      have : (-0.96 + 0.36 * L) * (1 - Real.exp (-1.9 * L)) =
        -0.96 + 0.36 * L * (1 - Real.exp (-1.9 * L)) + 0.96 * Real.exp (-1.9 * L) := by ring
      rw [this]
      have := mul_nonneg (mul_nonneg (by norm_num : (0:ℝ) ≤ 0.36) hL.le) (by linarith : 0 ≤ 1 - Real.exp (-1.9 * L))
      have : 0 ≤ 0.96 * Real.exp (-1.9 * L) := mul_nonneg (by norm_num) he.le
      linarith
    have h3 : 5.7 * 29 * (1 / 170) ≤ 5.7 * (30.7 - 0.96 * L + 0.18 * L ^ 2) * Real.exp (-1.9 * L) :=
      mul_le_mul (mul_le_mul_of_nonneg_left hP (by norm_num)) hlow (by norm_num)
        (mul_nonneg (by norm_num) (by linarith))
    norm_num at h2 h3 ⊢
    linarith

theorem σinel_sigL (T : ℝ) (hT : 0 < T) : Kafexhiu.σinel T = sigL (Real.log (T / Kafexhiu.Tth)) * Kafexhiu.mb := by
  have ht : 0 < Kafexhiu.Tth := by norm_num [Kafexhiu.Tth]
  have : (Kafexhiu.Tth / T) ^ (1.9 : ℝ) = Real.exp (-1.9 * Real.log (T / Kafexhiu.Tth)) := by
    rw [Real.rpow_def_of_pos (by positivity), ← inv_div, Real.log_inv]
    congr 1; ring
  unfold Kafexhiu.σinel sigL
  rw [this]

/-- **C120 (inelastic cross section).** The inelastic cross section of two protons in `PionDecay` grows with their energy. -/
theorem C120_sigma_inel_mono (T T' : ℝ) (h : Kafexhiu.Tth < T) (hle : T ≤ T') :
    ∃ s s' : ℝ, sigmaInel T = fin s ∧ sigmaInel T' = fin s' ∧ 0 < s ∧ s ≤ s' := by
  have ht : 0 < Kafexhiu.Tth := by norm_num [Kafexhiu.Tth]
  have hT : 0 < T := ht.trans h
  refine ⟨_, _, sigmaInel_eq T h, sigmaInel_eq T' (h.trans_le hle), σinel_pos T h, ?_⟩
  rw [σinel_sigL T hT, σinel_sigL T' (hT.trans_le hle)]
  refine mul_le_mul_of_nonneg_right (sigL_mono ?_ ?_ ?_) (by norm_num [Kafexhiu.mb])
  · exact Real.log_nonneg ((one_le_div ht).2 h.le)
  · exact Real.log_nonneg ((one_le_div ht).2 (h.le.trans hle))
  · exact Real.log_le_log (by positivity) (div_le_div_of_nonneg_right hle ht.le)

theorem σinel_mono {T T' : ℝ} (h : Kafexhiu.Tth < T) (hle : T ≤ T') : Kafexhiu.σinel T ≤ Kafexhiu.σinel T' := by
  obtain ⟨s, s', e, e', -, hs⟩ := C120_sigma_inel_mono T T' h hle
  rw [sigmaInel_eq T h, fin_inj] at e
  rw [sigmaInel_eq T' (h.trans_le hle), fin_inj] at e'
  rw [e, e']; exact hs

/-- The energy-dependent part of the factor decreases with the cross section. -/
theorem G_anti {s s' s0 : ℝ} (h : 0 < s) (hs : s ≤ s') (h0 : 0 < s0) :
    (1 + Real.log (max 1 (s' / s0))) / s' ≤ (1 + Real.log (max 1 (s / s0))) / s := by
  have hs' : 0 < s' := h.trans_le hs
  rw [div_le_div_iff₀ hs' h]
  -- log(max 1 (s'/s0)) ≤ log(max 1 (s/s0)) + log (s'/s), and s log(s'/s) ≤ s' - s
  have h1 : Real.log (max 1 (s' / s0)) ≤ Real.log (max 1 (s / s0)) + Real.log (s' / s) := by
    rw [← Real.log_mul (by positivity) (by positivity)]
    refine Real.log_le_log (by positivity) (max_le ?_ ?_)
    · exact one_le_mul_of_one_le_of_one_le (le_max_left _ _) ((one_le_div h).2 hs)
    · calc s' / s0 = s / s0 * (s' / s) := by field_simp
        _ ≤ max 1 (s / s0) * (s' / s) := mul_le_mul_of_nonneg_right (le_max_right _ _) (by positivity)
  have h2 : s * Real.log (s' / s) ≤ s' - s := by
    have := Real.log_le_sub_one_of_pos (show 0 < s' / s by positivity)
    calc s * Real.log (s' / s) ≤ s * (s' / s - 1) := mul_le_mul_of_nonneg_left this h.le
      _ = s' - s := by field_simp
  have h3 : 0 ≤ Real.log (max 1 (s / s0)) := Real.log_nonneg (le_max_left _ _)
  nlinarith

theorem Tth_pow : 0.08883 < Kafexhiu.Tth ^ (1.9 : ℝ) ∧ Kafexhiu.Tth ^ (1.9 : ℝ) < 0.08884 := by
  have ht : 0 < Kafexhiu.Tth := by norm_num [Kafexhiu.Tth]
  have e : (Kafexhiu.Tth ^ (1.9 : ℝ)) ^ 10 = Kafexhiu.Tth ^ 19 := by
    rw [← Real.rpow_natCast, ← Real.rpow_mul ht.le, ← Real.rpow_natCast]
    norm_num
  have hp : 0 < Kafexhiu.Tth ^ (1.9 : ℝ) := Real.rpow_pos_of_pos ht _
  constructor
  · refine lt_of_pow_lt_pow_left₀ 10 hp.le ?_
    rw [e]; norm_num [Kafexhiu.Tth]
  · refine lt_of_pow_lt_pow_left₀ 10 (by norm_num) ?_
    rw [e]; norm_num [Kafexhiu.Tth]

theorem log_Tth : 1.274 < Real.log (1 / Kafexhiu.Tth) ∧ Real.log (1 / Kafexhiu.Tth) < 1.2742 := by
  have ht : 0 < 1 / Kafexhiu.Tth := by norm_num [Kafexhiu.Tth]
  constructor
  · rw [Real.lt_log_iff_exp_lt ht]
    have h := Real.exp_bound' (x := 0.637) (by norm_num) (by norm_num) (n := 9) (by norm_num)
    have e : Real.exp 1.274 = Real.exp 0.637 ^ 2 := by rw [← Real.exp_nat_mul]; norm_num
    have h2 : Real.exp 0.637 ≤ 1.89082 := h.trans (by norm_num [Finset.sum_range_succ, Nat.factorial])
    rw [e]
    calc Real.exp 0.637 ^ 2 ≤ 1.89082 ^ 2 := pow_le_pow_left₀ (Real.exp_pos _).le h2 2
      _ < 1 / Kafexhiu.Tth := by norm_num [Kafexhiu.Tth]
  · rw [Real.log_lt_iff_lt_exp ht]
    have h := Real.sum_le_exp_of_nonneg (x := 1.2742) (by norm_num) 14
    refine lt_of_lt_of_le ?_ h
    norm_num [Finset.sum_range_succ, Nat.factorial, Kafexhiu.Tth]

theorem σinel_one : 22.5185 * Kafexhiu.mb < Kafexhiu.σinel 1 ∧ Kafexhiu.σinel 1 < 22.522 * Kafexhiu.mb := by
  obtain ⟨p1, p2⟩ := Tth_pow
  obtain ⟨l1, l2⟩ := log_Tth
  have hmb : 0 < Kafexhiu.mb := by norm_num [Kafexhiu.mb]
  set L := Real.log (1 / Kafexhiu.Tth) with hL
  set w := Kafexhiu.Tth ^ (1.9 : ℝ) with hw
  have e : Kafexhiu.σinel 1 = (30.7 - 0.96 * L + 0.18 * L ^ 2) * (1 - w) ^ 3 * Kafexhiu.mb := by
    unfold Kafexhiu.σinel; rw [div_one]
  have hP1 : 29.769 ≤ 30.7 - 0.96 * L + 0.18 * L ^ 2 := by norm_num at *; nlinarith
  have hP2 : 30.7 - 0.96 * L + 0.18 * L ^ 2 ≤ 29.7692 := by norm_num at *; nlinarith
  have hw1 : (1 - 0.08884) ^ 3 ≤ (1 - w) ^ 3 := pow_le_pow_left₀ (by norm_num) (by linarith) 3
  have hw2 : (1 - w) ^ 3 ≤ (1 - 0.08883) ^ 3 := pow_le_pow_left₀ (by norm_num at *; linarith) (by linarith) 3
  rw [e]
  constructor
  · refine mul_lt_mul_of_pos_right ?_ hmb
    calc (22.5185:ℝ) < 29.769 * (1 - 0.08884) ^ 3 := by norm_num
      _ ≤ _ := mul_le_mul hP1 hw1 (by norm_num) (by linarith)
  · refine mul_lt_mul_of_pos_right ?_ hmb
    calc _ ≤ 29.7692 * (1 - 0.08883) ^ 3 := mul_le_mul hP2 hw2 (pow_nonneg (by norm_num at *; linarith) 3) (by norm_num)
      _ < (22.522:ℝ) := by norm_num

theorem nuclear_one : 1.914 < Kafexhiu.nuclear 1 ∧ Kafexhiu.nuclear 1 < 1.9141 := by
  obtain ⟨s1, s2⟩ := σinel_one
  have hmb : 0 < Kafexhiu.mb := by norm_num [Kafexhiu.mb]
  have h1 : 0 < Kafexhiu.σinel 1 := σinel_pos 1 (by norm_num [pTth])
  have h3 : Kafexhiu.σinel 1 ≤ Kafexhiu.σinel 1000 := σinel_mono (by norm_num [Kafexhiu.Tth]) (by norm_num)
  have e : Kafexhiu.nuclear 1 = 1.37 + 0.39 * (10 * Real.pi * Kafexhiu.mb) / Kafexhiu.σinel 1 := by
    unfold Kafexhiu.nuclear
    rw [if_neg (lt_irrefl _), max_eq_left ((div_le_one (h1.trans_le h3)).2 h3)]
    simp
  have hp1 := Real.pi_gt_d6
  have hp2 := Real.pi_lt_d6
  rw [e]
  constructor
  · have : 0.544 < 0.39 * (10 * Real.pi * Kafexhiu.mb) / Kafexhiu.σinel 1 := by
      rw [lt_div_iff₀ h1]
      calc 0.544 * Kafexhiu.σinel 1 < 0.544 * (22.522 * Kafexhiu.mb) := mul_lt_mul_of_pos_left s2 (by norm_num)
        _ = 12.251968 * Kafexhiu.mb := by ring
        _ ≤ (3.9 * Real.pi) * Kafexhiu.mb := mul_le_mul_of_nonneg_right (by norm_num at *; linarith) hmb.le
        _ = _ := by ring
    norm_num at *; linarith
  · have : 0.39 * (10 * Real.pi * Kafexhiu.mb) / Kafexhiu.σinel 1 < 0.5441 := by
      rw [div_lt_iff₀ h1]
      calc 0.39 * (10 * Real.pi * Kafexhiu.mb) = (3.9 * Real.pi) * Kafexhiu.mb := by ring
        _ ≤ (0.5441 * 22.5185) * Kafexhiu.mb := mul_le_mul_of_nonneg_right (by norm_num at *; linarith) hmb.le
        _ = 0.5441 * (22.5185 * Kafexhiu.mb) := by ring
        _ < _ := mul_lt_mul_of_pos_left s1 (by norm_num)
    norm_num at *; linarith

/-- **C120 (factor).** For every proton above threshold the enhancement factor lies between 1.37 and 1.9141; it never grows with
the energy of the proton; and at 1 GeV, where its definition changes, it jumps by less than `10⁻⁴`. -/
theorem C120_factor (T T' : ℝ) (h : Kafexhiu.Tth < T) (hle : T ≤ T') :
    ∃ n n' : ℝ, nuclearFactor T = fin n ∧ nuclearFactor T' = fin n' ∧ 1.37 < n' ∧ n' ≤ n ∧ n ≤ 1.9141 ∧
      (T < 1 → T' = 1 → n - n' < 1e-4) := by
  have hT' := h.trans_le hle
  have low : ∀ t, Kafexhiu.Tth < t → 1.37 < Kafexhiu.nuclear t := by
    intro t ht
    unfold Kafexhiu.nuclear
    by_cases c : t < 1
    · rw [if_pos c]; norm_num
    · rw [if_neg c]
      have h1 : 0 < Kafexhiu.σinel t := σinel_pos t ht
      have h2 : 0 ≤ Real.log (max 1 (Kafexhiu.σinel t / Kafexhiu.σinel 1000)) := Real.log_nonneg (le_max_left _ _)
      have hmb : 0 < Kafexhiu.mb := by norm_num [Kafexhiu.mb]
      have hpi := Real.pi_pos
      have : 0 < 0.39 * (10 * Real.pi * Kafexhiu.mb) *
          (1 + Real.log (max 1 (Kafexhiu.σinel t / Kafexhiu.σinel 1000))) / Kafexhiu.σinel t :=
        div_pos (mul_pos (mul_pos (by norm_num) (by positivity)) (by linarith)) h1
      linarith
  have anti : ∀ t t', 1 ≤ t → t ≤ t' → Kafexhiu.nuclear t' ≤ Kafexhiu.nuclear t := by
    intro t t' h1 h2
    have hth : Kafexhiu.Tth < t := lt_of_lt_of_le (by norm_num [Kafexhiu.Tth]) h1
    unfold Kafexhiu.nuclear
    rw [if_neg (not_lt.2 h1), if_neg (not_lt.2 (h1.trans h2))]
    have hmb : 0 < Kafexhiu.mb := by norm_num [Kafexhiu.mb]
    have hpi := Real.pi_pos
    have hG := G_anti (σinel_pos t hth) (σinel_mono hth h2)
      (σinel_pos 1000 (by norm_num [pTth]))
    rw [mul_div_assoc, mul_div_assoc]
    have := mul_le_mul_of_nonneg_left hG (show 0 ≤ 0.39 * (10 * Real.pi * Kafexhiu.mb) from
      mul_nonneg (by norm_num) (by positivity))
    linarith
  obtain ⟨o1, o2⟩ := nuclear_one
  have top : ∀ t, Kafexhiu.Tth < t → Kafexhiu.nuclear t ≤ 1.9141 := by
    intro t _
    by_cases c : t < 1
    · unfold Kafexhiu.nuclear; rw [if_pos c]
    · exact (anti 1 t le_rfl (not_lt.1 c)).trans o2.le
  refine ⟨_, _, nuclearFactor_eq T h, nuclearFactor_eq T' hT', low T' hT', ?_, top T h, ?_⟩
  · by_cases c : T < 1
    · have : Kafexhiu.nuclear T = 1.9141 := by unfold Kafexhiu.nuclear; rw [if_pos c]
      rw [this]; exact top T' hT'
    · exact anti T T' (not_lt.1 c) hle
  · rintro - rfl
    have := top T h
    norm_num at *; linarith

/-! ### The spectrum -/

/-- The protons, weighted with the enhancement factor. -/
noncomputable def withNuclei (pd : PDist) : PDist :=
  ⟨pd.unit, fun E => pd.f E * fin (Kafexhiu.nuclear (E / (1e9 * cEV) - mProton))⟩

theorem spectrum_withNuclei (m : PionModel) (pd : PDist) (N : ℝ → ℝ) (hN : Population pd N m.Epmin.phys m.Epmax.phys)
    (hlo : m.Epmin.PosEnergy) (hhi : m.Epmax.PosEnergy)
    (hle : m.Epmin.phys ≤ m.Epmax.phys) (hth : Kafexhiu.Tth < m.Epmin.phys / (1e9 * cEV) - mProton)
    (hn : m.nh.unit.dim = Dim.numDensity) (tbl : FTable) (hr : Reachable tbl)
    (es : List ℝ) (hne : es ≠ []) (hes : ∀ e ∈ es, 0 < e) :
    (PionModel.spectrum { m with nuc := true } pd tbl es).map Prod.snd =
      (PionModel.spectrum { m with nuc := false } (withNuclei pd) tbl es).map Prod.snd := by
  have hG : PhysUnit.GeV.scale = 1e9 * cEV := by unfold PhysUnit.GeV cEV; norm_num
  have hm : 0 < 1e9 * cEV := hG ▸ GeV_pos
  obtain ⟨ep, h1, hb, h2⟩ := C73_spectrum { m with nuc := true } pd hN.dim hlo hhi hle hth hn tbl hr es hne hes
  obtain ⟨ep', h1', -, h2'⟩ := C73_spectrum { m with nuc := false } (withNuclei pd) hN.dim hlo hhi hle hth hn tbl hr es hne hes
  have : ep' = ep := by
    have h := h1.symm.trans h1'
    injection h with h
    exact h.symm
  subst this
  have hmem : ∀ g ∈ ep', g * (1e9 * cEV) ∈ Set.Icc m.Epmin.phys m.Epmax.phys := by
    rw [← hG]
    exact ep_mem m.nEpd m.Epmin m.Epmax hlo hhi hle ep' ((epGrid_eq_Ep m.toPrModel hlo hhi).trans h1)
  rw [h2, h2']
  congr 1
  apply List.map_congr_left
  intro E hE
  congr 3
  apply List.map_congr_left
  intro g hg
  obtain ⟨r, e1, -, -⟩ := hN.value _ (hmem g hg)
  have e2 : g * (1e9 * cEV) / (1e9 * cEV) = g := mul_div_cancel_right₀ _ hm.ne'
  unfold protons withNuclei Kafexhiu.dσ
  simp only [e1, e2, mul_fin, if_true]
  congr 2
  simp
  ring

/-- **C120 (spectrum).** For every proton distribution, target density, grid, high-energy model and history, with the grid above
threshold: with nuclear enhancement the spectrum is at every photon energy between 1.37 and 1.9141 times what it is without, up to
the relative rounding `(E_max/E_min)^(2·10⁻¹⁰) - 1` of the rule for slopes near -1; in particular both vanish at the same photon
energies. -/
theorem C120_spectrum (m : PionModel) (hlo : m.Epmin.PosEnergy) (hhi : m.Epmax.PosEnergy)
    (hle : m.Epmin.phys ≤ m.Epmax.phys) (hth : Kafexhiu.Tth < m.Epmin.phys / (1e9 * cEV) - mProton)
    (hn : m.nh.unit.dim = Dim.numDensity) (hnh : 0 ≤ m.nh.phys) (tbl : FTable) (hr : Reachable tbl)
    (es : List ℝ) (hne : es ≠ []) (hes : ∀ e ∈ es, 0 < e)
    (pd : PDist) (N : ℝ → ℝ) (hN : Population pd N m.Epmin.phys m.Epmax.phys) :
    ∃ S S' : ℝ → ℝ,
      (PionModel.spectrum { m with nuc := false } pd tbl es).map Prod.snd = .ok (es.map (fun e => fin (S e))) ∧
      (PionModel.spectrum { m with nuc := true } pd tbl es).map Prod.snd = .ok (es.map (fun e => fin (S' e))) ∧
      ∀ e ∈ es, 0 ≤ S e ∧ 0 ≤ S' e ∧
        1.37 * S e ≤ (m.Epmax.phys / m.Epmin.phys) ^ (2e-10 : ℝ) * S' e ∧
        S' e ≤ 1.9141 * (m.Epmax.phys / m.Epmin.phys) ^ (2e-10 : ℝ) * S e := by
  have hG : PhysUnit.GeV.scale = 1e9 * cEV := by unfold PhysUnit.GeV cEV; norm_num
  have hm : 0 < 1e9 * cEV := hG ▸ GeV_pos
  have hfac : ∀ E ∈ Set.Icc m.Epmin.phys m.Epmax.phys,
      1.37 < Kafexhiu.nuclear (E / (1e9 * cEV) - mProton) ∧ Kafexhiu.nuclear (E / (1e9 * cEV) - mProton) ≤ 1.9141 := by
    intro E hE
    have ht : Kafexhiu.Tth < E / (1e9 * cEV) - mProton := by
      have : m.Epmin.phys / (1e9 * cEV) ≤ E / (1e9 * cEV) := div_le_div_of_nonneg_right hE.1 hm.le
      linarith
    obtain ⟨n, n', h1, h2, h3, h4, h5, -⟩ := C120_factor _ _ ht le_rfl
    rw [nuclearFactor_eq _ ht, fin_inj] at h1
    rw [h1]
    have : n' = n := by
      rw [nuclearFactor_eq _ ht, fin_inj] at h2; rw [← h2, h1]
    exact ⟨this ▸ h3, h5⟩
  have pop1 : Population (withNuclei pd) (fun E => N E * Kafexhiu.nuclear (E / (1e9 * cEV) - mProton))
      m.Epmin.phys m.Epmax.phys := by
    refine ⟨hN.dim, hN.scale, fun E hE => ?_⟩
    obtain ⟨r, e1, e2, e3⟩ := hN.value E hE
    refine ⟨r * Kafexhiu.nuclear (E / (1e9 * cEV) - mProton), ?_, ?_, ?_⟩
    · unfold withNuclei; simp only [e1, mul_fin]
    · exact mul_nonneg e2 (by have := (hfac E hE).1; norm_num at *; linarith)
    · rw [← e3]; unfold withNuclei; simp only; ring
  have popc : ∀ c : ℝ, 0 < c → Population (pd.scale c) (fun E => c * N E) m.Epmin.phys m.Epmax.phys := by
    intro c hc
    refine ⟨hN.dim, hN.scale, fun E hE => ?_⟩
    obtain ⟨r, e1, e2, e3⟩ := hN.value E hE
    refine ⟨c * r, by unfold PDist.scale; simp only [e1, mul_fin], mul_nonneg hc.le e2, ?_⟩
    rw [← e3]; unfold PDist.scale; simp only; ring
  have Nnn : ∀ E ∈ Set.Icc m.Epmin.phys m.Epmax.phys, 0 ≤ N E := by
    intro E hE
    obtain ⟨r, -, e2, e3⟩ := hN.value E hE
    rw [← e3]; exact mul_nonneg e2 hN.scale.le
  have rep := rep_pion { m with nuc := false } hlo hhi hle hth hn hnh tbl hr es hne hes
  obtain ⟨S0, T0, hS0, hT0, hb0⟩ := rep.mono' hlo.phys_pos pd pd N N hN hN (fun _ _ => le_rfl)
  have hscale : ∀ c : ℝ, 0 < c → (PionModel.spectrum { m with nuc := false } (pd.scale c) tbl es).map Prod.snd =
      .ok (es.map (fun e => fin (c * S0 e))) := by
    intro c hc
    have h := C08_pion { m with nuc := false } c hc pd (pd.scale c) ⟨rfl, fun _ => rfl⟩ tbl tbl hr hr es
    unfold ScaledOutcome photons at h
    rw [h, hS0]
    simp only [Except.map, List.map_map]
    congr 1
  obtain ⟨A, B, hA, hB, hAB⟩ := rep.mono' hlo.phys_pos (pd.scale 1.37) (withNuclei pd) _ _ (popc 1.37 (by norm_num)) pop1
    (fun E hE => by
      have := mul_le_mul_of_nonneg_left (hfac E hE).1.le (Nnn E hE)
      linarith)
  obtain ⟨B', C, hB', hC, hBC⟩ := rep.mono' hlo.phys_pos (withNuclei pd) (pd.scale 1.9141) _ _ pop1 (popc 1.9141 (by norm_num))
    (fun E hE => by
      have := mul_le_mul_of_nonneg_left (hfac E hE).2 (Nnn E hE)
      linarith)
  have eq_of : ∀ f g : ℝ → ℝ, (Except.ok (es.map (fun e => fin (f e))) : Except PyErr (List XR)) =
      .ok (es.map (fun e => fin (g e))) → ∀ e ∈ es, f e = g e := by
    intro f g h e he
    injection h with h
    have := List.map_inj_left.1 h e he
    rwa [fin_inj] at this
  have eA := eq_of _ _ ((hscale 1.37 (by norm_num)).symm.trans hA)
  have eC := eq_of _ _ ((hscale 1.9141 (by norm_num)).symm.trans hC)
  have eB := eq_of _ _ (hB.symm.trans hB')
  refine ⟨S0, B, hS0, ?_, fun e he => ⟨(hb0 e he).1, ?_, ?_, ?_⟩⟩
  · rw [spectrum_withNuclei m pd N hN hlo hhi hle hth hn tbl hr es hne hes]; exact hB
  · rw [eB e he]; exact (hBC e he).1
  · rw [eA e he]; exact (hAB e he).2
  · rw [eB e he]
    refine (hBC e he).2.trans (le_of_eq ?_)
    rw [← eC e he]; ring

theorem log_ten_le : Real.log 10 ≤ 3 := by
  rw [Real.log_le_iff_le_exp (by norm_num)]
  have := Real.exp_one_gt_d9
  have e : Real.exp 3 = Real.exp 1 ^ 3 := by rw [← Real.exp_nat_mul]; norm_num
  rw [e]
  calc (10:ℝ) ≤ 2.7 ^ 3 := by norm_num
    _ ≤ Real.exp 1 ^ 3 := pow_le_pow_left₀ (by norm_num) (by norm_num at *; linarith) 3

theorem exp_span : Real.exp (30 * Real.log 10 * 2e-10) ≤ 1 + 2e-8 := by
  have h3 := log_ten_le
  have h4 : Real.exp (30 * Real.log 10 * 2e-10) ≤ Real.exp (1.8e-8) := by
    refine Real.exp_le_exp.2 ?_
    have := mul_le_mul_of_nonneg_left h3 (by norm_num : (0:ℝ) ≤ 30 * 2e-10)
    norm_num at *; linarith
  have h5 := Real.exp_bound' (x := 1.8e-8) (by norm_num) (by norm_num) (n := 2) (by norm_num)
  refine h4.trans (h5.trans ?_)
  norm_num [Finset.sum_range_succ, Nat.factorial]

theorem rounding_le (x : ℝ) (h0 : 0 < x) (h : x ≤ 10 ^ 30) : x ^ (2e-10 : ℝ) ≤ 1 + 2e-8 := by
  have hq : (0:ℝ) ≤ 2e-10 := by norm_num
  generalize hqe : (2e-10 : ℝ) = q at hq ⊢
  have h1 : x ^ q ≤ ((10:ℝ) ^ 30) ^ q := Real.rpow_le_rpow h0.le h hq
  refine h1.trans ?_
  rw [Real.rpow_def_of_pos (pow_pos (by norm_num) 30), Real.log_pow, ← hqe]
  exact exp_span

/-- **C120 (any practical grid).** If the proton energies span at most thirty decades, as the default limits (1.22 GeV to 10 PeV) do,
nuclear enhancement multiplies the spectrum at every photon energy by 1.3699 to 1.9142. -/
theorem C120_ratio (m : PionModel) (hlo : m.Epmin.PosEnergy) (hhi : m.Epmax.PosEnergy)
    (hle : m.Epmin.phys ≤ m.Epmax.phys) (hspan : m.Epmax.phys ≤ 10 ^ 30 * m.Epmin.phys)
    (hth : Kafexhiu.Tth < m.Epmin.phys / (1e9 * cEV) - mProton)
    (hn : m.nh.unit.dim = Dim.numDensity) (hnh : 0 ≤ m.nh.phys) (tbl : FTable) (hr : Reachable tbl)
    (es : List ℝ) (hne : es ≠ []) (hes : ∀ e ∈ es, 0 < e)
    (pd : PDist) (N : ℝ → ℝ) (hN : Population pd N m.Epmin.phys m.Epmax.phys) :
    ∃ S S' : ℝ → ℝ,
      (PionModel.spectrum { m with nuc := false } pd tbl es).map Prod.snd = .ok (es.map (fun e => fin (S e))) ∧
      (PionModel.spectrum { m with nuc := true } pd tbl es).map Prod.snd = .ok (es.map (fun e => fin (S' e))) ∧
      ∀ e ∈ es, 0 ≤ S e ∧ 1.3699 * S e ≤ S' e ∧ S' e ≤ 1.9142 * S e := by
  obtain ⟨S, S', h1, h2, h3⟩ := C120_spectrum m hlo hhi hle hth hn hnh tbl hr es hne hes pd N hN
  refine ⟨S, S', h1, h2, fun e he => ?_⟩
  obtain ⟨a, b, c, d⟩ := h3 e he
  have hp := hlo.phys_pos
  have hr := rounding_le (m.Epmax.phys / m.Epmin.phys) (div_pos (hp.trans_le hle) hp)
    ((div_le_iff₀ hp).2 hspan)
  refine ⟨a, ?_, ?_⟩
  · have h := c.trans (mul_le_mul_of_nonneg_right hr b)
    have : S' e * 1.3699 * (1 + 2e-8) ≤ S' e * 1.37 := by
      rw [mul_assoc]; exact mul_le_mul_of_nonneg_left (by norm_num) b
    have h' : 1.37 * (1.3699 * S e) ≤ 1.37 * S' e := by
      have := mul_le_mul_of_nonneg_left h (by norm_num : (0:ℝ) ≤ 1.3699)
      linarith
    exact le_of_mul_le_mul_left h' (by norm_num)
  · refine d.trans ?_
    refine mul_le_mul_of_nonneg_right ?_ a
    refine (mul_le_mul_of_nonneg_left hr (by norm_num)).trans (by norm_num)

/-- Non-vacuity: the default limits, an `E⁻²` distribution, one proton per cm³, photons of 1 GeV and 1 TeV. -/
noncomputable def exNuclear : PionModel :=
  ⟨⟨⟨1.22, PhysUnit.GeV⟩, ⟨1e7, PhysUnit.GeV⟩, 100⟩, ⟨1, perCm3⟩, true, .pythia8⟩

example : ∃ S S' : ℝ → ℝ,
    (PionModel.spectrum { exNuclear with nuc := false } ⟨⟨1 / cEV, Dim.diffEnergy⟩, fun E => fin (E ^ (-2 : ℝ))⟩ fmpInit
      [1e9 * cEV, 1e12 * cEV]).map Prod.snd = .ok ([1e9 * cEV, 1e12 * cEV].map (fun e => fin (S e))) ∧
    (PionModel.spectrum { exNuclear with nuc := true } ⟨⟨1 / cEV, Dim.diffEnergy⟩, fun E => fin (E ^ (-2 : ℝ))⟩ fmpInit
      [1e9 * cEV, 1e12 * cEV]).map Prod.snd = .ok ([1e9 * cEV, 1e12 * cEV].map (fun e => fin (S' e))) ∧
    ∀ e ∈ [1e9 * cEV, 1e12 * cEV], 0 ≤ S e ∧ 1.3699 * S e ≤ S' e ∧ S' e ≤ 1.9142 * S e := by
  have hc := cEV_pos
  have hG := GeV_pos
  have hGe : PhysUnit.GeV.scale = 1e9 * cEV := by unfold PhysUnit.GeV cEV; norm_num
  have hpm := pM_lt
  rw [pM_eq] at hpm
  refine C120_ratio exNuclear ⟨rfl, hG, by norm_num [exNuclear]⟩ ⟨rfl, hG, by norm_num [exNuclear]⟩ ?_ ?_ ?_ rfl
    (by simp [exNuclear, Qty.phys, perCm3]) fmpInit .fresh _ (by simp) (by
      intro e he; simp only [List.mem_cons, List.not_mem_nil, or_false] at he
      rcases he with rfl | rfl <;> positivity) _ (fun E => E ^ (-2 : ℝ) * (1 / cEV)) ?_
  · simp only [exNuclear, Qty.phys]
    exact mul_le_mul_of_nonneg_right (by norm_num) hG.le
  · simp only [exNuclear, Qty.phys]
    rw [← mul_assoc]
    exact mul_le_mul_of_nonneg_right (by norm_num) hG.le
  · simp only [exNuclear, Qty.phys, hGe]
    rw [mul_div_assoc, div_self (by positivity), mul_one]
    unfold Kafexhiu.Tth
    norm_num at *
    linarith
  · refine ⟨rfl, by positivity, fun E hE => ⟨_, rfl, ?_, rfl⟩⟩
    have : 0 < E := lt_of_lt_of_le (by simp only [exNuclear, Qty.phys]; exact mul_pos (by norm_num) hG) hE.1
    positivity

end Naima.Props
