import Verif.Props.C83_Arrays
import Verif.Props.C29_C30_Trapz
import Verif.Props.C75_Spectrum

/-!
# C125: photon tables listed from high to low energy

Spec: reversing the rows of a table does not change the photon field, so it should not change the spectrum.
-/

namespace Naima.Props

open Naima XR Classical

/-! ### Reversal of the log-log rule -/

theorem pow_locIdx (x1 x2 y1 y2 : ℝ) (h1 : 0 < x1) (h12 : x1 < x2) (hy1 : 0 < y1) (hy2 : 0 < y2) :
    (x2 / x1) ^ locIdx x1 x2 y1 y2 = y2 / y1 := by
  have h2 := h1.trans h12
  have hl : Real.log (x2 / x1) ≠ 0 := (Real.log_pos (by rwa [one_lt_div h1])).ne'
  rw [locIdx_log, Real.rpow_def_of_pos (div_pos h2 h1), mul_div_cancel₀ _ hl, Real.exp_log (div_pos hy2 hy1)]

theorem locIdx_rev (x1 x2 y1 y2 : ℝ) : locIdx x2 x1 y2 y1 = locIdx x1 x2 y1 y2 := by
  rw [locIdx_log, locIdx_log, ← inv_div y2 y1, ← inv_div x2 x1, Real.log_inv, Real.log_inv, neg_div_neg_eq]

/-- one bin read backwards -/
theorem realBin_rev (x1 x2 y1 y2 : ℝ) (h1 : 0 < x1) (h12 : x1 < x2) (hy1 : 0 < y1) (hy2 : 0 < y2) :
    ∃ w, realBin x2 x1 y2 y1 = -w ∧ (x2 / x1) ^ (-(1e-10) : ℝ) * realBin x1 x2 y1 y2 ≤ w ∧
      w ≤ (x2 / x1) ^ (1e-10 : ℝ) * realBin x1 x2 y1 y2 ∧
      (1e-10 < |locIdx x1 x2 y1 y2 + 1| → w = realBin x1 x2 y1 y2) := by
  have h2 := h1.trans h12
  have hr1 : 1 ≤ x2 / x1 := (one_le_div h1).2 h12.le
  have hlog : 0 < Real.log (x2 / x1) := Real.log_pos (by rwa [one_lt_div h1])
  have e1 := pow_locIdx x1 x2 y1 y2 h1 h12 hy1 hy2
  have e2 : (x1 / x2) ^ locIdx x1 x2 y1 y2 = y1 / y2 := by
    rw [← inv_div x2 x1, Real.inv_rpow (div_pos h2 h1).le, e1, inv_div]
  have hb := locIdx_rev x1 x2 y1 y2
  have f : realBin x1 x2 y1 y2 = if 1e-10 < |locIdx x1 x2 y1 y2 + 1| then
      (y1 * (x2 * (x2 / x1) ^ locIdx x1 x2 y1 y2 - x1)) / (locIdx x1 x2 y1 y2 + 1)
      else x1 * y1 * Real.log (x2 / x1) := rfl
  have g : realBin x2 x1 y2 y1 = if 1e-10 < |locIdx x2 x1 y2 y1 + 1| then
      (y2 * (x1 * (x1 / x2) ^ locIdx x2 x1 y2 y1 - x2)) / (locIdx x2 x1 y2 y1 + 1)
      else x2 * y2 * Real.log (x1 / x2) := rfl
  rw [hb, e2] at g
  rw [e1] at f
  generalize locIdx x1 x2 y1 y2 = b at *
  by_cases h : 1e-10 < |b + 1|
  · rw [if_pos h] at f g
    have hb0 : b + 1 ≠ 0 := by
      intro h0; rw [h0, abs_zero] at h; norm_num at h
    have hneg : realBin x2 x1 y2 y1 = -realBin x1 x2 y1 y2 := by
      rw [f, g]; field_simp; ring
    have hnn : 0 ≤ realBin x1 x2 y1 y2 := by
      obtain ⟨r, hr, e, -⟩ := trapzBin_nonneg x1 x2 y1 y2 h1 h12.le hy1.le hy2.le
      rw [trapzBin_fin x1 x2 y1 y2 h1 h2 h12.ne hy1.ne' (div_pos hy2 hy1), fin_inj] at e
      rw [e]; exact hr
    refine ⟨_, hneg, ?_, ?_, fun _ => rfl⟩
    · exact mul_le_of_le_one_left hnn (Real.rpow_le_one_of_one_le_of_nonpos hr1 (by norm_num))
    · exact le_mul_of_one_le_left hnn (Real.one_le_rpow hr1 (by norm_num))
  · rw [if_neg h] at f g
    have hy : x2 * y2 = x1 * y1 * (x2 / x1) ^ (b + 1) := by
      rw [Real.rpow_add (div_pos h2 h1), e1, Real.rpow_one]; field_simp
    obtain ⟨k1, k2⟩ := rpow_near (x2 / x1) (x2 / x1) (b + 1) hr1 hr1 le_rfl (not_lt.1 h)
    have hlr : Real.log (x1 / x2) = -Real.log (x2 / x1) := by rw [← Real.log_inv, inv_div]
    have hp : 0 ≤ x1 * y1 * Real.log (x2 / x1) := by positivity
    refine ⟨x2 * y2 * Real.log (x2 / x1), by rw [g, hlr]; ring, ?_, ?_, fun h' => absurd h' h⟩
    · rw [f, hy]
      calc _ ≤ (x2 / x1) ^ (b + 1) * (x1 * y1 * Real.log (x2 / x1)) := mul_le_mul_of_nonneg_right k1 hp
        _ = _ := by ring
    · rw [f, hy]
      calc _ = (x2 / x1) ^ (b + 1) * (x1 * y1 * Real.log (x2 / x1)) := by ring
        _ ≤ _ := mul_le_mul_of_nonneg_right k2 hp

theorem trapzBin_rev (x1 x2 y1 y2 lo hi : ℝ) (hlo : 0 < lo) (h1 : lo ≤ x1) (h12 : x1 ≤ x2) (h2 : x2 ≤ hi)
    (hy1 : 0 ≤ y1) (hy2 : 0 ≤ y2) :
    ∃ w, trapzBin (fin x2) (fin x1) (fin y2) (fin y1) = fin (-w) ∧
      ((hi / lo) ^ (1e-10 : ℝ))⁻¹ * rbin x1 x2 y1 y2 ≤ w ∧ w ≤ (hi / lo) ^ (1e-10 : ℝ) * rbin x1 x2 y1 y2 := by
  have h1' := hlo.trans_le h1
  by_cases hz : y1 = 0 ∨ y2 = 0 ∨ x1 = x2
  · refine ⟨0, ?_, ?_, ?_⟩
    · rw [neg_zero]
      apply trapzBin_zero
      rcases hz with h | h | h
      · exact Or.inr (Or.inl (by simpa using h))
      · exact Or.inl (by simpa using h)
      · exact Or.inr (Or.inr (by simpa using h.symm))
    · unfold rbin; rw [if_pos hz]; simp
    · unfold rbin; rw [if_pos hz]; simp
  · have e : rbin x1 x2 y1 y2 = realBin x1 x2 y1 y2 := by unfold rbin; rw [if_neg hz]
    push Not at hz
    obtain ⟨a, b, c⟩ := hz
    have y1p := lt_of_le_of_ne hy1 (Ne.symm a)
    have y2p := lt_of_le_of_ne hy2 (Ne.symm b)
    have hlt := lt_of_le_of_ne h12 c
    obtain ⟨w, w1, w2, w3, -⟩ := realBin_rev x1 x2 y1 y2 h1' hlt y1p y2p
    have hnn : 0 ≤ realBin x1 x2 y1 y2 := by
      obtain ⟨r, hr, e, -⟩ := trapzBin_nonneg x1 x2 y1 y2 h1' h12 hy1 hy2
      rw [trapzBin_fin x1 x2 y1 y2 h1' (h1'.trans hlt) c a (div_pos y2p y1p), fin_inj] at e
      rw [e]; exact hr
    have hq : x2 / x1 ≤ hi / lo := div_le_div₀ (by linarith) h2 hlo h1
    have hq0 : 0 < x2 / x1 := div_pos (h1'.trans hlt) h1'
    have hpow : (x2 / x1) ^ (1e-10 : ℝ) ≤ (hi / lo) ^ (1e-10 : ℝ) := Real.rpow_le_rpow hq0.le hq (by norm_num)
    have hpow0 : 0 < (x2 / x1) ^ (1e-10 : ℝ) := Real.rpow_pos_of_pos hq0 _
    refine ⟨w, ?_, ?_, ?_⟩
    · rw [trapzBin_fin x2 x1 y2 y1 (h1'.trans hlt) h1' (Ne.symm c) b (div_pos y1p y2p), w1]
    · rw [e]
      rw [Real.rpow_neg hq0.le] at w2
      exact le_trans (mul_le_mul_of_nonneg_right (inv_anti₀ hpow0 hpow) hnn) w2
    · rw [e]
      exact w3.trans (mul_le_mul_of_nonneg_right hpow hnn)

/-- **C125 (the rule itself).** `trapz_loglog` over the samples of an ascending positive grid with non-negative values,
and over the same samples listed from the last to the first: the second is minus the first, up to a factor
(x_max/x_min)^(±10⁻¹⁰). -/
theorem C125_reverse (lo hi : ℝ) (hlo : 0 < lo) (pts : List (ℝ × ℝ)) (hx : ∀ p ∈ pts, p.1 ∈ Set.Icc lo hi)
    (hy : ∀ p ∈ pts, 0 ≤ p.2) (hs : (pts.map (·.1)).Pairwise (· ≤ ·)) :
    ∃ v w : ℝ, trapzLL (pts.map (fun p => (fin p.1, fin p.2))) = fin v ∧
      trapzLL (pts.reverse.map (fun p => (fin p.1, fin p.2))) = fin (-w) ∧ 0 ≤ v ∧
      ((hi / lo) ^ (1e-10 : ℝ))⁻¹ * v ≤ w ∧ w ≤ (hi / lo) ^ (1e-10 : ℝ) * v := by
  obtain ⟨v, hv, ev⟩ := C30_nonneg pts (fun p hp => hlo.trans_le (hx p hp).1) hy hs
  have e := trapzLL_rbin pts (fun p hp => hlo.trans_le (hx p hp).1) hy hs
  rw [e, fin_inj] at ev
  refine ⟨v, ?_⟩
  suffices h : ∃ w : ℝ, trapzLL (pts.reverse.map (fun p => (fin p.1, fin p.2))) = fin (-w) ∧
      ((hi / lo) ^ (1e-10 : ℝ))⁻¹ * binSum rbin pts ≤ w ∧ w ≤ (hi / lo) ^ (1e-10 : ℝ) * binSum rbin pts by
    obtain ⟨w, a, b, c⟩ := h
    rw [ev] at b c
    exact ⟨w, by rw [e, ev], a, hv, b, c⟩
  clear ev e hv
  induction pts with
  | nil => exact ⟨0, by simp [trapzLL, trapzIntervals], by simp [binSum], by simp [binSum]⟩
  | cons p rest ih =>
    cases rest with
    | nil => exact ⟨0, by simp [trapzLL, trapzIntervals], by simp [binSum], by simp [binSum]⟩
    | cons q rest =>
      obtain ⟨w, a, b, c⟩ := ih (fun r hr => hx r (by simp [hr])) (fun r hr => hy r (by simp [hr]))
        (List.Pairwise.of_cons (by simpa using hs))
      have hpq : p.1 ≤ q.1 := by
        simp only [List.map_cons, List.pairwise_cons] at hs
        exact hs.1 q.1 (by simp)
      obtain ⟨w', a', b', c'⟩ := trapzBin_rev p.1 q.1 p.2 q.2 lo hi hlo (hx p (by simp)).1 hpq (hx q (by simp)).2
        (hy p (by simp)) (hy q (by simp))
      refine ⟨w + w', ?_, ?_, ?_⟩
      · have split := C30_splits (rest.reverse.map (fun p => (fin p.1, fin p.2))) [(fin p.1, fin p.2)] (fin q.1, fin q.2)
        have e1 : ((p :: q :: rest).reverse.map (fun p => (fin p.1, fin p.2))) =
            rest.reverse.map (fun p => (fin p.1, fin p.2)) ++ (fin q.1, fin q.2) :: [(fin p.1, fin p.2)] := by simp
        have e2 : ((q :: rest).reverse.map (fun p => (fin p.1, fin p.2))) =
            rest.reverse.map (fun p => (fin p.1, fin p.2)) ++ [(fin q.1, fin q.2)] := by simp
        rw [e1, split, ← e2, a]
        have e3 : trapzLL [(fin q.1, fin q.2), (fin p.1, fin p.2)] = fin (-w') := by
          simp [trapzLL, trapzIntervals, a']
        rw [e3, add_fin]
        congr 1; ring
      · show _ * (rbin p.1 q.1 p.2 q.2 + binSum rbin (q :: rest)) ≤ _
        rw [mul_add]; linarith
      · show _ ≤ _ * (rbin p.1 q.1 p.2 q.2 + binSum rbin (q :: rest))
        rw [mul_add]; linarith

/-- samples of the opposite sign give the opposite integral -/
theorem trapzLL_neg (pts : List (ℝ × ℝ)) (hx : ∀ p ∈ pts, 0 < p.1) (hy : ∀ p ∈ pts, 0 ≤ p.2)
    (hs : (pts.map (·.1)).Pairwise (· ≤ ·)) :
    trapzLL (pts.map (fun p => (fin p.1, fin (-p.2)))) = fin (-binSum rbin pts) := by
  induction pts with
  | nil => simp [trapzLL, trapzIntervals, binSum]
  | cons p rest ih =>
    cases rest with
    | nil => simp [trapzLL, trapzIntervals, binSum]
    | cons q rest =>
      have e := ih (fun a ha => hx a (by simp [ha])) (fun a ha => hy a (by simp [ha]))
        (List.Pairwise.of_cons (by simpa using hs))
      have hpq : p.1 ≤ q.1 := by
        simp only [List.map_cons, List.pairwise_cons] at hs
        exact hs.1 q.1 (by simp)
      have e2 : trapzBin (fin p.1) (fin q.1) (fin (-p.2)) (fin (-q.2)) = fin (-rbin p.1 q.1 p.2 q.2) := by
        have h1 := hx p (by simp)
        by_cases hz : p.2 = 0 ∨ q.2 = 0 ∨ p.1 = q.1
        · unfold rbin
          rw [if_pos hz, neg_zero]
          apply trapzBin_zero
          simpa using hz
        · unfold rbin
          rw [if_neg hz]
          push Not at hz
          obtain ⟨a, b, c⟩ := hz
          have y1p := lt_of_le_of_ne (hy p (by simp)) (Ne.symm a)
          have y2p := lt_of_le_of_ne (hy q (by simp)) (Ne.symm b)
          rw [trapzBin_fin _ _ _ _ h1 (hx q (by simp)) c (neg_ne_zero.2 a)
            (by rw [neg_div_neg_eq]; exact div_pos y2p y1p), fin_inj]
          unfold realBin
          rw [neg_div_neg_eq]
          split_ifs <;> ring
      unfold trapzLL at e ⊢
      simp only [List.map_cons, trapzIntervals, sum_cons, binSum] at e ⊢
      rw [e, e2, add_fin]
      congr 1; ring

/-! ### The spectrum -/

/-- **C125 (what a table listed downwards gives).** For every electron distribution and range, every photon field given
as two or more ascending energies with non-negative densities, and every photon energy requested: listing the rows of the
table from the highest energy to the lowest is accepted, and the spectrum is *minus* the spectrum of the ascending table,
up to a factor (E_max/E_min)^(2·10⁻¹⁰)·(ε_max/ε_min)^(10⁻¹⁰): never positive, and negative wherever the right one is
positive. -/
theorem C125_descending_partial (m : ElModel) (pd : PDist) (hu : pd.unit.dim = Dim.diffEnergy)
    (hus : 0 < pd.unit.scale) (hlo : m.Eemin.PosEnergy) (hhi : m.Eemax.PosEnergy)
    (hle : m.Eemin.phys ≤ m.Eemax.phys) (field : List (ℝ × ℝ)) (h2 : 2 ≤ field.length)
    (hs : (field.map (·.1)).Pairwise (· ≤ ·)) (εmin εmax : ℝ) (hmin : 0 < εmin)
    (hr : ∀ q ∈ field, q.1 ∈ Set.Icc εmin εmax ∧ 0 ≤ q.2) (θ : Option ℝ)
    (hp : ∀ E ∈ Set.Icc m.Eemin.phys m.Eemax.phys, ∃ r : ℝ, pd.f E = fin r ∧ 0 ≤ r) (es : List ℝ) (hes : ∀ e ∈ es, 0 < e) :
    ∃ v w : ℝ → ℝ,
      icSpectrum m [.array (field.map (·.1)) (field.map (fun q => fin q.2)) θ] pd es =
        .ok (es.map (fun e => fin (v e))) ∧
      icSpectrum m [.array (field.reverse.map (·.1)) (field.reverse.map (fun q => fin q.2)) θ] pd es =
        .ok (es.map (fun e => fin (-w e))) ∧
      ∀ e ∈ es, 0 ≤ v e ∧
        ((m.Eemax.phys / m.Eemin.phys) ^ (2e-10 : ℝ) * (εmax / εmin) ^ (1e-10 : ℝ))⁻¹ * v e ≤ w e ∧
        w e ≤ (m.Eemax.phys / m.Eemin.phys) ^ (2e-10 : ℝ) * (εmax / εmin) ^ (1e-10 : ℝ) * v e := by
  have hm := cMec2_pos
  have hev := cEV_pos
  have h0 : ∀ q ∈ field, 0 < q.1 := fun q hq => hmin.trans_le (hr q hq).1.1
  have hA : 0 < (εmax / εmin) ^ (1e-10 : ℝ) := by
    obtain ⟨q, hq⟩ := List.exists_mem_of_ne_nil field (by rintro rfl; simp at h2)
    exact Real.rpow_pos_of_pos (div_pos (hmin.trans_le ((hr q hq).1.1.trans (hr q hq).1.2)) hmin) _
  have hR : 0 < (m.Eemax.phys / m.Eemin.phys) ^ (2e-10 : ℝ) :=
    Real.rpow_pos_of_pos (div_pos hhi.phys_pos hlo.phys_pos) _
  obtain ⟨gam, hg, hgp, hf⟩ := C71_spectral m pd hu hlo hhi hle field h2 h0 θ es hes
  obtain ⟨gam', hg', -, hb⟩ := C71_spectral m pd hu hlo hhi hle field.reverse (by simpa using h2)
    (fun q hq => h0 q (by simpa using hq)) θ es hes
  rw [hg] at hg'
  injection hg' with hg'
  subst hg'
  have hmem := gam_mem m.nEed m.Eemin m.Eemax hlo hhi hle gam hg
  have hsort : gam.Pairwise (· ≤ ·) := by
    obtain ⟨g', e, -, hs'⟩ := gamGrid_facts m.nEed m.Eemin m.Eemax hlo hhi hle
    have : m.gam = .ok g' := e
    rw [hg] at this
    injection this with this
    rw [this]; exact hs'
  have hmem2 : ∀ g ∈ gam, g ∈ Set.Icc (m.Eemin.phys / cMec2) (m.Eemax.phys / cMec2) := by
    intro g hgm
    have := hmem g hgm
    exact ⟨by rw [div_le_iff₀ hm]; exact this.1, by rw [le_div_iff₀ hm]; exact this.2⟩
  have hratio : m.Eemax.phys / cMec2 / (m.Eemin.phys / cMec2) = m.Eemax.phys / m.Eemin.phys := by
    have := hlo.phys_pos
    field_simp
  have hmm : cMe * cC ^ 2 = cMec2 := rfl
  simp only [hmm] at hf hb
  -- the electrons
  have hel : ∀ g, ∃ N : ℝ, g ∈ gam → (electrons pd g = fin N ∧ 0 ≤ N) := by
    intro g
    by_cases hgm : g ∈ gam
    · obtain ⟨r, e1, e2⟩ := hp _ (hmem g hgm)
      refine ⟨r * (pd.unit.scale * cMec2), fun _ => ⟨?_, by positivity⟩⟩
      show pd.f (g * cMec2) * fin (pd.unit.scale * cMec2) = _
      rw [e1, mul_fin]
    · exact ⟨0, fun h => absurd h hgm⟩
  choose N hN using hel
  -- the photons
  have hph : ∀ e g, ∃ k l : ℝ, e ∈ es → g ∈ gam →
      (trapzLL (field.map (fun p => (fin p.1, fin (p.2 * monoRate g p.1 (e / cMec2))))) = fin k ∧
       trapzLL (field.reverse.map (fun p => (fin p.1, fin (p.2 * monoRate g p.1 (e / cMec2))))) = fin (-l) ∧
       0 ≤ k ∧ ((εmax / εmin) ^ (1e-10 : ℝ))⁻¹ * k ≤ l ∧ l ≤ (εmax / εmin) ^ (1e-10 : ℝ) * k) := by
    intro e g
    by_cases h : e ∈ es ∧ g ∈ gam
    · obtain ⟨k, l, h1, h2, h3⟩ := C125_reverse εmin εmax hmin
        (field.map (fun p => (p.1, p.2 * monoRate g p.1 (e / cMec2))))
        (by intro x hx; obtain ⟨q, hq, rfl⟩ := List.mem_map.1 hx; exact (hr q hq).1)
        (by
          intro x hx; obtain ⟨q, hq, rfl⟩ := List.mem_map.1 hx
          exact mul_nonneg (hr q hq).2 (monoRate_nonneg _ _ _ (h0 q hq) (hgp g h.2) (div_pos (hes e h.1) hm)))
        (by simpa [List.map_map, Function.comp_def] using hs)
      rw [List.map_map] at h1
      rw [← List.map_reverse, List.map_map] at h2
      exact ⟨k, l, fun _ _ => ⟨h1, h2, h3⟩⟩
    · exact ⟨0, 0, fun h1 h2 => absurd ⟨h1, h2⟩ h⟩
  choose k l hkl using hph
  have hl0 : ∀ e ∈ es, ∀ g ∈ gam, 0 ≤ l e g := fun e he g hgm => by
    obtain ⟨-, -, a, b, -⟩ := hkl e g he hgm
    exact le_trans (by positivity) b
  refine ⟨fun e => cEV / cMec2 * binSum rbin (gam.map (fun g => (g, N g * k e g))),
    fun e => cEV / cMec2 * binSum rbin (gam.map (fun g => (g, N g * l e g))), ?_, ?_, ?_⟩
  · rw [hf]
    congr 1
    apply List.map_congr_left
    intro e he
    have e3 := trapzLL_rbin (gam.map (fun g => (g, N g * k e g)))
      (by intro x hx; obtain ⟨g, hgm, rfl⟩ := List.mem_map.1 hx; exact hgp g hgm)
      (by intro x hx; obtain ⟨g, hgm, rfl⟩ := List.mem_map.1 hx
          exact mul_nonneg (hN g hgm).2 (hkl e g he hgm).2.2.1)
      (by simpa [List.map_map, Function.comp_def] using hsort)
    rw [← mul_fin, ← e3, List.map_map]
    congr 2
    apply List.map_congr_left
    intro g hgm
    simp only [Function.comp_apply, Prod.mk.injEq, true_and]
    rw [(hkl e g he hgm).1, (hN g hgm).1, mul_fin]
  · rw [hb]
    congr 1
    apply List.map_congr_left
    intro e he
    have e3 := trapzLL_neg (gam.map (fun g => (g, N g * l e g)))
      (by intro x hx; obtain ⟨g, hgm, rfl⟩ := List.mem_map.1 hx; exact hgp g hgm)
      (by intro x hx; obtain ⟨g, hgm, rfl⟩ := List.mem_map.1 hx
          exact mul_nonneg (hN g hgm).2 (hl0 e he g hgm))
      (by simpa [List.map_map, Function.comp_def] using hsort)
    rw [← mul_neg, ← mul_fin, ← e3, List.map_map]
    congr 2
    apply List.map_congr_left
    intro g hgm
    simp only [Function.comp_apply, Prod.mk.injEq, true_and]
    rw [(hkl e g he hgm).2.1, (hN g hgm).1, mul_fin, mul_neg]
  · intro e he
    have hy0 : ∀ g ∈ gam, 0 ≤ N g * k e g := fun g hgm => mul_nonneg (hN g hgm).2 (hkl e g he hgm).2.2.1
    have hz0 : ∀ g ∈ gam, 0 ≤ N g * l e g := fun g hgm => mul_nonneg (hN g hgm).2 (hl0 e he g hgm)
    have hlo' : 0 < m.Eemin.phys / cMec2 := div_pos hlo.phys_pos hm
    have n1 := binSum_nonneg _ _ hlo' gam hmem2 hsort (fun g => N g * k e g) hy0
    have hc : 0 < cEV / cMec2 := by positivity
    have b1 := binSum_mono _ _ hlo' gam hmem2 hsort (fun g => ((εmax / εmin) ^ (1e-10 : ℝ))⁻¹ * (N g * k e g))
      (fun g => N g * l e g) (fun g hgm => mul_nonneg (by positivity) (hy0 g hgm)) (fun g hgm => by
        have := mul_le_mul_of_nonneg_left (hkl e g he hgm).2.2.2.1 (hN g hgm).2
        calc _ = N g * (((εmax / εmin) ^ (1e-10 : ℝ))⁻¹ * k e g) := by ring
          _ ≤ _ := this)
    have b2 := binSum_mono _ _ hlo' gam hmem2 hsort (fun g => N g * l e g)
      (fun g => (εmax / εmin) ^ (1e-10 : ℝ) * (N g * k e g)) hz0 (fun g hgm => by
        have := mul_le_mul_of_nonneg_left (hkl e g he hgm).2.2.2.2 (hN g hgm).2
        calc _ ≤ N g * ((εmax / εmin) ^ (1e-10 : ℝ) * k e g) := this
          _ = _ := by ring)
    rw [hratio, binSum_rbin_scale _ (by positivity) gam _ hgp hsort hy0] at b1 b2
    beta_reduce
    generalize (εmax / εmin) ^ (1e-10 : ℝ) = A at *
    generalize (m.Eemax.phys / m.Eemin.phys) ^ (2e-10 : ℝ) = R at *
    generalize binSum rbin (gam.map (fun g => (g, N g * k e g))) = v at *
    generalize binSum rbin (gam.map (fun g => (g, N g * l e g))) = w at *
    refine ⟨mul_nonneg hc.le n1, ?_, ?_⟩
    · have : (R * A)⁻¹ * v ≤ w := by
        rw [mul_inv, mul_assoc, inv_mul_le_iff₀ hR]; exact b1
      calc _ = cEV / cMec2 * ((R * A)⁻¹ * v) := by ring
        _ ≤ _ := mul_le_mul_of_nonneg_left this hc.le
    · calc _ ≤ cEV / cMec2 * (R * (A * v)) := mul_le_mul_of_nonneg_left b2 hc.le
        _ = _ := by ring

/-! ### A field for which it shows -/

theorem isoMono_pos_strict (q G : ℝ) (hq : 0 < q) (hq1 : q < 1) (hG : 0 < G) :
    0 < 2 * q * Real.log q + (1 + 2 * q) * (1 - q) + (G * q) ^ 2 * (1 - q) / (2 * (1 + G * q)) := by
  have h3 : 0 ≤ (G * q) ^ 2 * (1 - q) / (2 * (1 + G * q)) := by
    have : 0 ≤ 1 - q := by linarith
    positivity
  have hs : 0 < Real.sqrt q := Real.sqrt_pos.2 hq
  have hs1 : Real.sqrt q < 1 := by rw [Real.sqrt_lt' one_pos]; simpa using hq1
  have hsq : Real.sqrt q ^ 2 = q := Real.sq_sqrt hq.le
  have hlog : Real.log q = 2 * Real.log (Real.sqrt q) := by
    conv_lhs => rw [← hsq]
    rw [Real.log_pow]; norm_num
  set s := Real.sqrt q with hsdef
  have hl : 1 - s⁻¹ ≤ Real.log s := Real.one_sub_inv_le_log_of_pos hs
  have h4 : 4 * s ^ 2 - 4 * s ≤ 2 * q * Real.log q := by
    rw [hlog, ← hsq]
    have := mul_le_mul_of_nonneg_left hl (show 0 ≤ 4 * s ^ 2 by positivity)
    calc _ = 4 * s ^ 2 * (1 - s⁻¹) := by field_simp
      _ ≤ _ := this
      _ = _ := by ring
  have h5 : 0 < (1 - s) * ((1 - s) * (1 - 2 * s) + 2 * s ^ 3) := by
    apply mul_pos (by linarith)
    nlinarith [sq_nonneg (s - 1 / 2), sq_nonneg (2 * s - 1), mul_pos hs hs, mul_nonneg hs.le (sq_nonneg (s - 1 / 2)),
      sq_nonneg (4 * s - 3)]
  rw [← hsq] at h4 ⊢
  rw [← hsq] at h3
  nlinarith

/-- scattering by `γ ≥ 10³` of photons of 10⁻³–2·10⁻³ mc² to the energy mc² is possible -/
theorem monoRate_pos (γ ε₀ : ℝ) (hγ : 1000 ≤ γ) (h0 : 1e-3 ≤ ε₀) (h1 : ε₀ ≤ 2e-3) : 0 < monoRate γ ε₀ 1 := by
  have h0' : 0 < ε₀ := lt_of_lt_of_le (by norm_num) h0
  have hγ0 : 0 < γ := by linarith
  have hd : 0 < 4 * ε₀ * γ * (γ - 1) := by
    have : 0 < γ - 1 := by linarith
    positivity
  have hq0 : 0 < Spec.kinQ γ ε₀ 1 := div_pos one_pos hd
  have hq1 : Spec.kinQ γ ε₀ 1 < 1 := by
    unfold Spec.kinQ
    rw [div_lt_one hd]
    have : (1e-3 : ℝ) * 1000 ≤ ε₀ * γ := mul_le_mul h0 hγ (by norm_num) h0'.le
    nlinarith
  have hq2 : 1 / (4 * γ ^ 2) < Spec.kinQ γ ε₀ 1 := by
    unfold Spec.kinQ
    apply one_div_lt_one_div_of_lt hd
    have : ε₀ * (γ - 1) < γ := by nlinarith
    nlinarith
  unfold monoRate
  rw [if_pos (by linarith)]
  have hsT : 0 < sigmaT := by unfold sigmaT; norm_num
  have hcC := cC_pos
  have hstep : ∀ x : ℝ, 0 < x → 0 < step x := by
    intro x hx
    unfold step
    rw [if_neg (not_lt.2 hx.le), if_pos hx]
    norm_num
  have := isoMono_pos_strict (Spec.kinQ γ ε₀ 1) (4 * ε₀ * γ) hq0 hq1 (by positivity)
  have h2 := hstep (1 - Spec.kinQ γ ε₀ 1) (by linarith)
  have h3 := hstep (Spec.kinQ γ ε₀ 1 - 1 / (4 * γ ^ 2)) (by linarith)
  have h4 : 0 < Spec.isoMono γ ε₀ 1 := this
  positivity

/-- positive samples on a strictly ascending grid have a positive integral -/
theorem trapzLL_pos_strict (pts : List (ℝ × ℝ)) (h2 : 2 ≤ pts.length) (hx : ∀ p ∈ pts, 0 < p.1) (hy : ∀ p ∈ pts, 0 < p.2)
    (hs : (pts.map (·.1)).Pairwise (· < ·)) :
    ∃ r : ℝ, 0 < r ∧ trapzLL (pts.map (fun p => (fin p.1, fin p.2))) = fin r := by
  match pts, h2 with
  | p :: q :: rest, _ =>
    have hpq : p.1 < q.1 := by
      simp only [List.map_cons, List.pairwise_cons] at hs
      exact hs.1 q.1 (by simp)
    obtain ⟨a, ha, ea⟩ := C30_positive_bin p.1 q.1 p.2 q.2 (hx p (by simp)) hpq (hy p (by simp)) (hy q (by simp))
    obtain ⟨b, hb, eb⟩ := C30_nonneg (q :: rest) (fun r hr => hx r (by simp [hr])) (fun r hr => (hy r (by simp [hr])).le)
      ((List.Pairwise.of_cons (by simpa using hs)).imp le_of_lt)
    refine ⟨a + b, by linarith, ?_⟩
    have split := C30_splits [(fin p.1, fin p.2)] (rest.map (fun p => (fin p.1, fin p.2))) (fin q.1, fin q.2)
    simp only [List.cons_append, List.nil_append] at split
    simp only [List.map_cons] at eb ⊢
    rw [split, ea, eb, add_fin]

/-- **C125 (finding).** The spectrum of a tabulated photon field depends on the direction in which the table is listed:
for every electron population above 1000 mc², two photon energies 10⁻³ and 2·10⁻³ mc² of unit density give a positive
spectrum at the energy mc², and the same two rows in the other order a negative one. -/
theorem C125_false_order (m : ElModel) (pd : PDist) (hu : pd.unit.dim = Dim.diffEnergy)
    (hus : 0 < pd.unit.scale) (hlo : m.Eemin.PosEnergy) (hhi : m.Eemax.PosEnergy)
    (hlt : m.Eemin.phys < m.Eemax.phys) (h1000 : 1000 * (cMe * cC ^ 2) ≤ m.Eemin.phys)
    (hp : ∀ E ∈ Set.Icc m.Eemin.phys m.Eemax.phys, ∃ r : ℝ, pd.f E = fin r ∧ 0 < r) (θ : Option ℝ) :
    ∃ v w : ℝ, 0 < v ∧ 0 < w ∧
      icSpectrum m [.array [1e-3, 2e-3] [fin 1, fin 1] θ] pd [cMe * cC ^ 2] = .ok [fin v] ∧
      icSpectrum m [.array [2e-3, 1e-3] [fin 1, fin 1] θ] pd [cMe * cC ^ 2] = .ok [fin (-w)] := by
  have hm : 0 < cMe * cC ^ 2 := cMec2_pos
  have hev := cEV_pos
  obtain ⟨v, w, e1, e2, e3⟩ := C125_descending_partial m pd hu hus hlo hhi hlt.le [(1e-3, 1), (2e-3, 1)] (by simp)
    (by norm_num) 1e-3 2e-3 (by norm_num) (by
      intro q hq
      simp only [List.mem_cons, List.not_mem_nil, or_false] at hq
      rcases hq with rfl | rfl <;> norm_num) θ (fun E hE => by
      obtain ⟨r, a, b⟩ := hp E hE; exact ⟨r, a, b.le⟩) [cMe * cC ^ 2] (by simpa using hm)
  obtain ⟨-, k1, -⟩ := e3 (cMe * cC ^ 2) (by simp)
  obtain ⟨gam, hg, hgp, hf⟩ := C71_spectral m pd hu hlo hhi hlt.le [(1e-3, 1), (2e-3, 1)] (by simp)
    (by intro q hq
        simp only [List.mem_cons, List.not_mem_nil, or_false] at hq
        rcases hq with rfl | rfl <;> norm_num) θ [cMe * cC ^ 2] (by simpa using hm)
  have hmem := gam_mem m.nEed m.Eemin m.Eemax hlo hhi hlt.le gam hg
  have hlog : LogGrid gam (m.Eemin.phys / cMec2) (m.Eemax.phys / cMec2) := by
    obtain ⟨g', e, hs'⟩ := gamGrid_logGrid m.nEed m.Eemin m.Eemax hlo hhi hlt
    have : m.gam = .ok g' := e
    rw [hg] at this
    injection this with this
    rw [this]; exact hs'
  have hy : ∀ g, ∃ y : ℝ, g ∈ gam → (0 < y ∧ electrons pd g * trapzLL ([((1e-3 : ℝ), (1 : ℝ)), (2e-3, 1)].map (fun p => (fin p.1,
      fin (p.2 * monoRate g p.1 (cMe * cC ^ 2 / (cMe * cC ^ 2)))))) = fin y) := by
    intro g
    by_cases hgm : g ∈ gam
    · have hge := hmem g hgm
      have hg1 : 1000 ≤ g := by
        have h := h1000.trans hge.1
        have : 1000 * cMec2 ≤ g * cMec2 := h
        exact le_of_mul_le_mul_right this cMec2_pos
      obtain ⟨r, a, b⟩ := hp _ hge
      have m1 := monoRate_pos g 1e-3 hg1 le_rfl (by norm_num)
      have m2 := monoRate_pos g 2e-3 hg1 (by norm_num) le_rfl
      obtain ⟨x, hx, ex⟩ := C30_positive_bin 1e-3 2e-3 (monoRate g 1e-3 1) (monoRate g 2e-3 1) (by norm_num) (by norm_num) m1 m2
      refine ⟨r * (pd.unit.scale * cMec2) * x, fun _ => ⟨?_, ?_⟩⟩
      · have := cMec2_pos
        positivity
      · rw [div_self hm.ne']
        simp only [List.map_cons, List.map_nil, one_mul]
        rw [ex]
        show pd.f (g * cMec2) * fin (pd.unit.scale * cMec2) * _ = _
        rw [a, mul_fin, mul_fin]
    · exact ⟨1, fun h => absurd h hgm⟩
  choose y hy using hy
  obtain ⟨r, hr, er⟩ := trapzLL_pos_strict (gam.map (fun g => (g, y g))) (by
      have := hlog.ten; simp only [List.length_map]; omega)
    (by intro x hx; obtain ⟨g, hgm, rfl⟩ := List.mem_map.1 hx; exact hgp g hgm)
    (by intro x hx; obtain ⟨g, hgm, rfl⟩ := List.mem_map.1 hx; exact (hy g hgm).1)
    (by simpa [List.map_map, Function.comp_def] using hlog.increasing)
  have hv : v (cMe * cC ^ 2) = cEV / (cMe * cC ^ 2) * r := by
    rw [hf] at e1
    simp only [List.map_cons (f := fun e => fin (v e)), List.map_nil, Except.ok.injEq] at e1
    rw [List.map_cons, List.map_nil] at e1
    have e1' := (List.cons.inj e1).1
    rw [← fin_inj, ← e1', ← mul_fin, ← er, List.map_map]
    congr 2
    apply List.map_congr_left
    intro g hgm
    simp only [Function.comp_apply, Prod.mk.injEq, true_and]
    exact (hy g hgm).2
  have hv0 : 0 < v (cMe * cC ^ 2) := by rw [hv]; positivity
  refine ⟨v (cMe * cC ^ 2), w (cMe * cC ^ 2), hv0, ?_, ?_, ?_⟩
  · refine lt_of_lt_of_le (mul_pos (inv_pos.2 ?_) hv0) k1
    exact mul_pos (Real.rpow_pos_of_pos (div_pos hhi.phys_pos hlo.phys_pos) _) (Real.rpow_pos_of_pos (by norm_num) _)
  · simpa using e1
  · simpa using e2

/-! ### The hypotheses are met -/

/-- Three energies, from 10⁻⁹ to 10⁻⁷ mc², and the default electrons. -/
example := C125_descending_partial exEl exPd rfl one_pos exEl_lo exEl_hi exEl_lt.le
  [((1e-9 : ℝ), (1 : ℝ)), (1e-8, 3), (1e-7, 0)] (by simp) (by norm_num) 1e-9 1e-7 (by norm_num) (by
    intro q hq
    simp only [List.mem_cons, List.not_mem_nil, or_false] at hq
    rcases hq with rfl | rfl | rfl <;> norm_num) none (fun E hE => by
    obtain ⟨r, a, b⟩ := exPd_f E (exEl_lo.phys_pos.trans_le hE.1); exact ⟨r, b, a.le⟩) exEs exEs_pos

example := C125_false_order exEl exPd rfl one_pos exEl_lo exEl_hi exEl_lt
  (by simp only [exEl, Qty.phys, PhysUnit.GeV, cMe, cC]; norm_num) (fun E hE => by
    obtain ⟨r, a, b⟩ := exPd_f E (exEl_lo.phys_pos.trans_le hE.1); exact ⟨r, b, a⟩) none

example := C125_reverse 1 4 one_pos [(1, 3), (2, 0), (2, 5), (4, 1)] (by
    intro q hq
    simp only [List.mem_cons, List.not_mem_nil, or_false] at hq
    rcases hq with rfl | rfl | rfl | rfl <;> norm_num) (by
    intro q hq
    simp only [List.mem_cons, List.not_mem_nil, or_false] at hq
    rcases hq with rfl | rfl | rfl | rfl <;> norm_num) (by norm_num)

end Naima.Props
