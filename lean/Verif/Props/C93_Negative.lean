import Verif.Props.C93_Brems
import Verif.Props.C84_C85_Order
import Verif.Proof.Examples

/-! # C93: bremsstrahlung at photon energies within the electron range

The claim fails there: the spectrum is negative just below every energy of the electron grid. -/

namespace Naima.Props

open Naima XR Classical Topology

theorem bin_signs (x1 x2 y1 y2 : ℝ) (h1 : 0 < x1) (h12 : x1 < x2) (hy1 : y1 ≤ 0) (hy2 : 0 < y2) :
    trapzBin (fin x1) (fin x2) (fin y1) (fin y2) = fin (x1 * y1 * Real.log (x2 / x1)) := by
  rcases hy1.eq_or_lt with rfl | hy1
  · rw [trapzBin_zero _ _ _ _ (by simp)]; congr 1; ring
  · have hr : 1 < x2 / x1 := by rwa [one_lt_div h1]
    have hd : y2 / y1 < 0 := div_neg_of_pos_of_neg hy2 hy1
    have e1 : log10 (fin (y2 / y1)) = nan := by simp [log10, hd]
    have e5 : trapzIndex (fin x1) (fin x2) (fin y1) (fin y2) = nan := by
      unfold trapzIndex; rw [div_fin _ _ hy1.ne, e1]; rfl
    unfold trapzBin
    rw [if_neg]
    · unfold trapzRaw
      simp only [e5]
      have e7 : (nan + fin 1 : XR) = nan := rfl
      have e8 : XR.abs nan = nan := rfl
      rw [e7, e8, if_neg (show ¬ ((fin 1e-10 : XR) < nan) from fun h => h), div_fin _ _ h1.ne', mul_fin]
      have : XR.log (fin (x2 / x1)) = fin (Real.log (x2 / x1)) := by
        simp only [XR.log]; rw [if_neg (by linarith), if_neg (by linarith)]
      rw [this, mul_fin]
    · simp only [eqv]
      push Not
      exact ⟨hy1.ne, hy2.ne', h12.ne⟩

/-- an integral whose ordinates are zero up to a point with a negative one -/
theorem trapz_sign_change (pre post : List ℝ) (g g' lo hi : ℝ) (y z : ℝ → ℝ) (hg : 0 < g) (hlt : g < g')
    (hlo : 0 < lo) (hmem : ∀ x ∈ g' :: post, x ∈ Set.Icc lo hi) (hs : (g' :: post).Pairwise (· ≤ ·))
    (hpre : ∀ x ∈ pre, y x = 0) (hyg : y g ≤ 0) (hy : ∀ x ∈ g' :: post, 0 < y x ∧ y x ≤ z x) :
    ∃ T, trapzLL ((pre ++ g :: g' :: post).map (fun x => (fin x, fin (y x)))) =
        fin (g * y g * Real.log (g' / g) + T) ∧
      T ≤ (hi / lo) ^ (2e-10 : ℝ) * binSum rbin ((g' :: post).map (fun x => (x, z x))) := by
  refine ⟨binSum rbin ((g' :: post).map (fun x => (x, y x))), ?_,
    binSum_mono lo hi hlo _ hmem hs y z (fun x hx => (hy x hx).1.le) (fun x hx => (hy x hx).2)⟩
  have hpost := trapzLL_rbin ((g' :: post).map (fun x => (x, y x))) ?_ ?_ ?_
  · rw [List.map_map] at hpost
    induction pre with
    | nil =>
      unfold trapzLL at hpost ⊢
      simp only [List.nil_append, List.map_cons, trapzIntervals, sum_cons, Function.comp_def] at hpost ⊢
      rw [hpost, bin_signs g g' _ _ hg hlt hyg (hy g' (by simp)).1, add_fin]
    | cons a pre ih =>
      have ih := ih (fun x hx => hpre x (by simp [hx]))
      have ha := hpre a (by simp)
      cases pre with
      | nil =>
        unfold trapzLL at ih ⊢
        simp only [List.nil_append, List.cons_append, List.map_cons, trapzIntervals, sum_cons] at ih ⊢
        rw [ih, ha, trapzBin_zero _ _ _ _ (by simp), add_fin, zero_add]
      | cons b pre =>
        unfold trapzLL at ih ⊢
        simp only [List.cons_append, List.map_cons, trapzIntervals, sum_cons] at ih ⊢
        rw [ih, ha, trapzBin_zero _ _ _ _ (by simp), add_fin, zero_add]
  · intro p hp
    simp only [List.mem_map] at hp
    obtain ⟨x, hx, rfl⟩ := hp
    exact hlo.trans_le (hmem x hx).1
  · intro p hp
    simp only [List.mem_map] at hp
    obtain ⟨x, hx, rfl⟩ := hp
    exact (hy x hx).1.le
  · rw [List.map_map]
    simpa [Function.comp_def] using hs

/-! Bounds -/

theorem r02alpha_pos : 0 < r02alpha := by unfold r02alpha cE cMe cC; have := cAlpha_pos; positivity

theorem baring1_le (γ ε g : ℝ) (hg : 0 < g) (hε : g / 2 ≤ ε) (h : ε < γ)
    (hs : Real.exp (1 / 2) * ε ≤ 2 * γ * (γ - ε)) :
    baring1 γ ε ≤ 4 * r02alpha / (g / 2) * (4 / 3) * (4 * γ ^ 2 / g) := by
  have hr := r02alpha_pos
  have hε0 : 0 < ε := by linarith
  have hγ : 0 < γ := hε0.trans h
  have hd : 0 < γ - ε := by linarith
  set x := ε / γ with hx
  have x0 : 0 < x := by positivity
  have x1 : x < 1 := by rw [hx, div_lt_one hγ]; exact h
  have hL : 0 ≤ Real.log (2 * γ * (γ - ε) / ε) - 1 / 2 := by
    rw [sub_nonneg, Real.le_log_iff_exp_le (by positivity), le_div_iff₀ hε0]; exact hs
  have hL2 : Real.log (2 * γ * (γ - ε) / ε) - 1 / 2 ≤ 4 * γ ^ 2 / g := by
    have a : Real.log (2 * γ * (γ - ε) / ε) ≤ 2 * γ * (γ - ε) / ε := by
      have := Real.log_le_sub_one_of_pos (show 0 < 2 * γ * (γ - ε) / ε by positivity)
      linarith
    have b : 2 * γ * (γ - ε) / ε ≤ 4 * γ ^ 2 / g := by
      rw [div_le_div_iff₀ hε0 hg]
      nlinarith [mul_pos hγ hγ, mul_pos hγ hε0]
    linarith
  have hs2 : 1 + (1 / 3 - x) * (1 - x) ≤ 4 / 3 := by nlinarith
  have hs2' : 0 ≤ 1 + (1 / 3 - x) * (1 - x) := (sigma1_s2_pos x).le
  unfold baring1
  rw [← hx]
  have h4 : 4 * r02alpha / ε ≤ 4 * r02alpha / (g / 2) := div_le_div_of_nonneg_left (by positivity) (by positivity) hε
  apply mul_le_mul (mul_le_mul h4 hs2 hs2' (by positivity)) hL2 hL (by positivity)

theorem baring2_le (γ ε g : ℝ) (hg : 0 < g) (hε : g / 2 ≤ ε) (h2 : 1 / 2 < ε) (h : ε ≤ γ) :
    baring2 γ ε ≤ r02alpha / (3 * (g / 2)) * (2 / (g / 2) * (8 * γ)) := by
  have hr := r02alpha_pos
  have hε0 : 0 < ε := by linarith
  have hγ : 0 < γ := hε0.trans_le h
  unfold baring2
  rw [if_neg (not_le.2 h2)]
  set u := 1 / ε with hu
  have u0 : 0 < u := by positivity
  have u2 : u < 2 := by rw [hu, div_lt_iff₀ hε0]; linarith
  have e1 : 1 / (4 * ε ^ 2) = u ^ 2 / 4 := by rw [hu]; field_simp
  have e2 : 2 / ε = 2 * u := by rw [hu]; ring
  have e3 : 5 / (8 * ε ^ 2) = 5 * u ^ 2 / 8 := by rw [hu]; field_simp
  have hlog0 : 0 ≤ Real.log (2 * γ) := Real.log_nonneg (by linarith)
  have hlog : Real.log (2 * γ) ≤ 2 * γ := by
    have := Real.log_le_sub_one_of_pos (show 0 < 2 * γ by positivity)
    linarith
  have hb : (4 - u + 1 / (4 * ε ^ 2)) * Real.log (2 * γ) - 2 + 2 / ε - 5 / (8 * ε ^ 2) ≤ 8 * γ := by
    rw [e1, e2, e3]
    have c1 : 4 - u + u ^ 2 / 4 ≤ 4 := by nlinarith
    have c2 : -2 + 2 * u - 5 * u ^ 2 / 8 ≤ 0 := by nlinarith [sq_nonneg (u - 8 / 5)]
    have c3 := mul_le_mul_of_nonneg_right c1 hlog0
    linarith
  have k1 : 2 / ε ≤ 2 / (g / 2) := div_le_div_of_nonneg_left (by positivity) (by positivity) hε
  have k2 : r02alpha / (3 * ε) ≤ r02alpha / (3 * (g / 2)) :=
    div_le_div_of_nonneg_left (by positivity) (by positivity) (by linarith)
  have k3 : 2 / ε * ((4 - u + 1 / (4 * ε ^ 2)) * Real.log (2 * γ) - 2 + 2 / ε - 5 / (8 * ε ^ 2)) ≤
      2 / (g / 2) * (8 * γ) := by
    refine (mul_le_mul_of_nonneg_left hb (by positivity)).trans ?_
    exact mul_le_mul_of_nonneg_right k1 (by positivity)
  refine (mul_le_mul_of_nonneg_left k3 (by positivity)).trans ?_
  exact mul_le_mul_of_nonneg_right k2 (by positivity)

theorem baringA_le (γ ε : ℝ) (hγ : 1 ≤ γ) (hε : 0 < ε) : baringA γ ε ≤ 1 := by
  unfold baringA
  have : 0 ≤ γ - 1 := by linarith
  have : 0 ≤ 8 / 3 * (γ - 1) ^ ((1 : ℝ) / 5) / (γ + 1) * (ε / γ) ^ ((1 : ℝ) / 3) := by positivity
  linarith

theorem baring1_pos (γ ε : ℝ) (hε : 0 < ε) (h : ε < γ) (hs : Real.exp (1 / 2) * ε < 2 * γ * (γ - ε)) :
    0 < baring1 γ ε := by
  have hγ : 0 < γ := hε.trans h
  have h1 : 0 < γ - ε := by linarith
  have hr := r02alpha_pos
  unfold baring1
  apply mul_pos
  · have := sigma1_s2_pos (ε / γ); positivity
  · rw [sub_pos, Real.lt_log_iff_exp_lt (by positivity), lt_div_iff₀ hε]; exact hs

theorem baringA_pos (γ ε : ℝ) (hγ : 3 ≤ γ) (hε : 0 < ε) (h : ε < γ) : 0 < baringA γ ε := by
  unfold baringA
  have hγ0 : 0 < γ := by linarith
  have h1 : (γ - 1) ^ ((1 : ℝ) / 5) ≤ (γ + 3) / 5 := by
    have := rpow_one_add_le_one_add_mul_self (s := γ - 2) (p := 1 / 5) (by linarith) (by norm_num) (by norm_num)
    rw [show 1 + (γ - 2) = γ - 1 by ring] at this
    linarith
  have h2 : (ε / γ) ^ ((1 : ℝ) / 3) ≤ 1 :=
    Real.rpow_le_one (by positivity) (by rw [div_le_one hγ0]; exact h.le) (by norm_num)
  have h3 : 0 ≤ (ε / γ) ^ ((1 : ℝ) / 3) := by positivity
  have h4 : 8 / 3 * (γ - 1) ^ ((1 : ℝ) / 5) / (γ + 1) < 1 := by
    rw [div_lt_one (by linarith)]; linarith
  have h5 : 0 ≤ 8 / 3 * (γ - 1) ^ ((1 : ℝ) / 5) / (γ + 1) := by
    have : 0 ≤ γ - 1 := by linarith
    positivity
  nlinarith

/-- just below the electron energy the cross section is as negative as one likes -/
theorem baring1_neg (g ε M : ℝ) (hg : 0 < g) (hM : 0 ≤ M) (hε : g / 2 ≤ ε) (h : ε < g)
    (hδ : g - ε ≤ Real.exp (-M) / 4) : baring1 g ε ≤ 4 * r02alpha / g * (8 / 9) * (-M) := by
  have hr := r02alpha_pos
  have hε0 : 0 < ε := by linarith
  have hd : 0 < g - ε := by linarith
  have hL : Real.log (2 * g * (g - ε) / ε) - 1 / 2 ≤ -M := by
    have a : 2 * g * (g - ε) / ε ≤ Real.exp (-M) := by
      rw [div_le_iff₀ hε0]
      nlinarith [Real.exp_pos (-M)]
    have b := Real.log_le_log (by positivity) a
    rw [Real.log_exp] at b
    linarith
  have hs2 : 8 / 9 ≤ 1 + (1 / 3 - ε / g) * (1 - ε / g) := by nlinarith [sq_nonneg (ε / g - 2 / 3)]
  have h4 : 4 * r02alpha / g ≤ 4 * r02alpha / ε := div_le_div_of_nonneg_left (by positivity) hε0 h.le
  unfold baring1
  have k : 4 * r02alpha / g * (8 / 9) ≤ 4 * r02alpha / ε * (1 + (1 / 3 - ε / g) * (1 - ε / g)) :=
    mul_le_mul h4 hs2 (by norm_num) (by positivity)
  have k0 : 0 ≤ 4 * r02alpha / ε * (1 + (1 / 3 - ε / g) * (1 - ε / g)) := le_trans (by positivity) k
  refine (mul_le_mul_of_nonneg_left hL k0).trans ?_
  nlinarith

/-- the electron grid is a geometric sequence -/
theorem gamGrid_geom (n : ℝ) (lo hi : Qty ℝ) (hn : 0 ≤ n) (hlo : lo.PosEnergy) (hhi : hi.PosEnergy)
    (hlt : lo.phys < hi.phys) : ∃ K : ℕ, 10 ≤ K ∧
      gamGrid n lo hi = .ok ((List.range K).map (fun i : ℕ =>
        lo.phys / cMec2 * Real.exp (lnStep n lo.phys hi.phys) ^ i)) ∧
      Real.exp (lnStep n lo.phys hi.phys) ^ (K - 1) = hi.phys / lo.phys := by
  have hm := cMec2_pos
  have ha := hlo.phys_pos
  have hb := hhi.phys_pos
  set la := Real.logb 10 (lo.phys / cMec2) with hla
  set lb := Real.logb 10 (hi.phys / cMec2) with hlb
  have hk := gridK_ten (lb - la) n
  have e : gamGrid n lo hi = .ok (logspace la lb (gridK (lb - la) n)) := gamGrid_eq n lo hi hlo hhi
  have hstep := lnStep_gridK n lo.phys hi.phys cMec2 hn ha hlt hm
  rw [← hla, ← hlb] at hstep
  have hK1 : (0:ℝ) < (gridK (lb - la) n : ℝ) - 1 := by
    have : (10 : ℝ) ≤ gridK (lb - la) n := by exact_mod_cast hk
    linarith
  have hlog : (lb - la) * Real.log 10 = Real.log (hi.phys / lo.phys) := by
    rw [hla, hlb, ← Real.logb_div (div_pos hb hm).ne' (div_pos ha hm).ne', div_div_div_cancel_right₀ hm.ne',
      Real.logb]
    have : Real.log 10 ≠ 0 := Real.log_ne_zero_of_pos_of_ne_one (by norm_num) (by norm_num)
    field_simp
  refine ⟨gridK (lb - la) n, hk, ?_, ?_⟩
  · rw [e]
    unfold logspace
    congr 1
    apply List.map_congr_left
    intro i _
    rw [Real.rpow_add (by norm_num), hla, ten_rpow_logb _ (div_pos ha hm), ← hstep, ← Real.exp_nat_mul,
      Real.rpow_def_of_pos (by norm_num), ← hlog, ← hla]
    congr 2
    ring
  · rw [← Real.exp_nat_mul, ← hstep, Nat.cast_sub (by omega)]
    push_cast
    rw [mul_div_cancel₀ _ hK1.ne', Real.exp_log (div_pos hb ha)]

theorem cancel_mc (a b s c : ℝ) (hc : 0 < c) : a * (b * c) * (s / c) = a * b * s := by field_simp

set_option maxHeartbeats 1000000 in
/-- **C93 fails just below every grid energy.** For every electron spectrum positive on its range above 2 MeV,
every positive density and positive weights: let `r` be the ratio of consecutive energies of the electron grid,
whose points are `Eemin rⁱ`, and let `Eemin r` be out of the sliver where the published cross section at
photon energy `Eemin` is negative. Then the spectrum is negative at all photon energies in an interval that ends
at any grid energy but the last. -/
theorem C93_false_negative (m : BremsModel) (pd : PDist) (hu : pd.unit.dim = Dim.diffEnergy)
    (hus : 0 < pd.unit.scale) (hlo : m.Eemin.PosEnergy) (hhi : m.Eemax.PosEnergy)
    (hlt : m.Eemin.phys < m.Eemax.phys) (h2m : 2e6 * cEV < m.Eemin.phys) (hne : 0 ≤ m.nEed)
    (hn : m.n0.unit.dim = Dim.numDensity) (hs0 : 0 < m.n0.unit.scale) (hn0 : 0 < m.n0.value)
    (w1 : 0 < m.wee) (w2 : 0 < m.wep)
    (p : ℝ → ℝ) (hp : ∀ E ∈ Set.Icc m.Eemin.phys m.Eemax.phys, pd.f E = fin (p E))
    (hpos : ∀ E ∈ Set.Icc m.Eemin.phys m.Eemax.phys, 0 < p E) (r : ℝ)
    (hr : r = Real.exp (lnStep m.nEed m.Eemin.phys m.Eemax.phys))
    (hout : Real.exp (1 / 2) < 2 * (m.Eemin.phys / (cMe * cC ^ 2)) * r * (r - 1))
    (i : ℕ) (hi : m.Eemin.phys * r ^ (i + 1) ≤ m.Eemax.phys) :
    ∃ δ > 0, ∀ e, m.Eemin.phys * r ^ i - δ < e → e < m.Eemin.phys * r ^ i →
      ∃ v < 0, m.spectrum pd [e] = .ok [fin v] := by
  have hm : 0 < cMe * cC ^ 2 := cMec2_pos
  have hra := r02alpha_pos
  have h39 := γTwoMeV_gt
  have hEp := hlo.phys_pos
  have hr1 : 1 < r := by rw [hr]; exact Real.one_lt_exp_iff.2 (lnStep_pos _ _ _ hEp hlt)
  have hr0 : 0 < r := by linarith
  obtain ⟨K, hK, hgeo, hlast⟩ := gamGrid_geom m.nEed m.Eemin m.Eemax hne hlo hhi hlt
  rw [← hr] at hgeo hlast
  obtain ⟨gam, hg, hgp, hsp⟩ := C72_spectrum_partial m pd hu hlo hhi hlt.le hn hs0 w1.ne' w2.ne'
  have hmem := gam_mem m.nEed m.Eemin m.Eemax hlo hhi hlt.le gam hg
  have hgam : gam = (List.range K).map (fun j : ℕ => m.Eemin.phys / (cMe * cC ^ 2) * r ^ j) := by
    have : m.toElModel.gam = _ := hgeo
    rw [hg] at this
    injection this
  set γ₁ := m.Eemin.phys / (cMe * cC ^ 2) with hγ₁
  have hγ2 : γTwoMeV < γ₁ := by unfold γTwoMeV; exact div_lt_div_of_pos_right h2m hm
  have hγ0 : 0 < γ₁ := by linarith
  -- the index of the grid point
  have hiK : i + 2 ≤ K := by
    have h1 : r ^ (i + 1) ≤ r ^ (K - 1) := by
      rw [hlast, le_div_iff₀ hEp]; linarith
    have := (pow_le_pow_iff_right₀ hr1).1 h1
    omega
  obtain ⟨b, rfl⟩ := Nat.exists_eq_add_of_le hiK
  set f : ℕ → ℝ := fun j => γ₁ * r ^ j with hf
  have fmono : ∀ j k, j ≤ k → f j ≤ f k := fun j k hjk =>
    mul_le_mul_of_nonneg_left (pow_le_pow_right₀ hr1.le hjk) hγ0.le
  have fsmono : ∀ j k, j < k → f j < f k := fun j k hjk =>
    mul_lt_mul_of_pos_left (pow_lt_pow_right₀ hr1 hjk) hγ0
  set pre := (List.range i).map f with hpre
  set post := (List.range b).map (fun k => f (i + 2 + k)) with hpost
  have hsplit : gam = pre ++ f i :: f (i + 1) :: post := by
    rw [hgam, List.range_add, List.range_add]
    simp [hpre, hpost, List.range_succ, Function.comp_def, add_assoc]
  have hpostmem : ∀ x ∈ f (i + 1) :: post, f (i + 1) ≤ x := by
    intro x hx
    rcases List.mem_cons.1 hx with rfl | hx
    · exact le_rfl
    · obtain ⟨k, -, rfl⟩ := List.mem_map.1 hx
      exact fmono _ _ (by omega)
  have hsorted : (f (i + 1) :: post).Pairwise (· ≤ ·) := by
    refine List.pairwise_cons.2 ⟨fun x hx => hpostmem x (by simp [hx]), ?_⟩
    rw [hpost, List.pairwise_map]
    exact List.pairwise_lt_range.imp (fun h => fmono _ _ (by omega))
  have hgmem : ∀ x ∈ f (i + 1) :: post, x ∈ gam := fun x hx => by
    rw [hsplit]; simp only [List.mem_append, List.mem_cons] at hx ⊢; tauto
  have hpregam : ∀ x ∈ pre, x ∈ gam := fun x hx => by rw [hsplit]; simp [hx]
  have higam : f i ∈ gam := by rw [hsplit]; simp
  -- electrons
  set N : ℝ → ℝ := fun x => p (x * (cMe * cC ^ 2)) * pd.unit.scale with hN
  have hNpos : ∀ x ∈ gam, 0 < N x := fun x hx => mul_pos (hpos _ (hmem x hx)) hus
  have hel : ∀ x ∈ gam, ∀ s : ℝ, electrons pd x * fin (s / (cMe * cC ^ 2)) = fin (N x * s) := by
    intro x hx s
    unfold electrons
    rw [hp (x * (cMe * cC ^ 2)) (hmem x hx), mul_fin, mul_fin]
    congr 1
    exact cancel_mc _ _ _ _ hm
  set g := f i with hgdef
  set g' := f (i + 1) with hg'def
  have hg0 : 0 < g := hgp _ higam
  have hγg : γ₁ ≤ g := by have := fmono 0 i (by omega); simpa [hf] using this
  have hgg : g < g' := fsmono _ _ (by omega)
  have hg'r : g' = g * r := by rw [hg'def, hgdef, hf]; ring
  have hlog : 0 < Real.log (g' / g) := Real.log_pos (by rwa [one_lt_div hg0])
  have hNg := hNpos _ higam
  -- later points are out of the sliver
  have hout' : ∀ x, g' ≤ x → ∀ ε, 0 < ε → ε ≤ g → Real.exp (1 / 2) * ε < 2 * x * (x - ε) := by
    intro x hx ε hε hεg
    have a1 : Real.exp (1 / 2) * ε ≤ Real.exp (1 / 2) * g := mul_le_mul_of_nonneg_left hεg (Real.exp_pos _).le
    have a2 : Real.exp (1 / 2) * g < 2 * γ₁ * r * (r - 1) * g := mul_lt_mul_of_pos_right hout hg0
    have a3 : 2 * γ₁ * r * (r - 1) * g ≤ 2 * g * r * (r - 1) * g := by
      have h0 : 0 ≤ r * (r - 1) * g := by
        have : 0 < r - 1 := by linarith
        positivity
      have := mul_le_mul_of_nonneg_right hγg h0
      linarith
    have a4 : 2 * g * r * (r - 1) * g = 2 * g' * (g' - g) := by rw [hg'r]; ring
    have a5 : 2 * g' * (g' - g) ≤ 2 * x * (x - ε) := by
      apply mul_le_mul <;> linarith
    linarith
  have hprele : ∀ x ∈ pre, x ≤ g * (1 / r) := by
    intro x hx
    obtain ⟨j, hj, rfl⟩ := List.mem_map.1 hx
    have hj : j < i := List.mem_range.1 hj
    have h1 : f j * r ≤ g := by
      have := fmono (j + 1) i (by omega)
      have e1 : f (j + 1) = f j * r := by simp only [hf]; ring
      rwa [e1] at this
    rw [mul_one_div, le_div_iff₀ hr0]; exact h1
  have hEg : m.Eemin.phys * r ^ i = g * (cMe * cC ^ 2) := by
    rw [hgdef, hf, hγ₁]
    show _ = m.Eemin.phys / (cMe * cC ^ 2) * r ^ i * (cMe * cC ^ 2)
    rw [mul_right_comm, div_mul_cancel₀ _ hm.ne']
  clear_value N g g' f pre post
  -- bounds of the later points
  set zp : ℝ → ℝ := fun x => N x * (4 * r02alpha / (g / 2) * (4 / 3) * (4 * x ^ 2 / g)) with hzp
  set ze : ℝ → ℝ := fun x => N x * (4 * r02alpha / (g / 2) * (4 / 3) * (4 * x ^ 2 / g) +
    r02alpha / (3 * (g / 2)) * (2 / (g / 2) * (8 * x))) with hze
  set R := (m.Eemax.phys / (cMe * cC ^ 2) / γ₁) ^ (2e-10 : ℝ) with hR
  set Kp := R * binSum rbin ((g' :: post).map (fun x => (x, zp x))) with hKp
  set Ke := R * binSum rbin ((g' :: post).map (fun x => (x, ze x))) with hKe
  have hzp' : ∀ x, N x * (4 * r02alpha / (g / 2) * (4 / 3) * (4 * x ^ 2 / g)) = zp x := fun _ => rfl
  have hze' : ∀ x, N x * (4 * r02alpha / (g / 2) * (4 / 3) * (4 * x ^ 2 / g) +
    r02alpha / (3 * (g / 2)) * (2 / (g / 2) * (8 * x))) = ze x := fun _ => rfl
  clear_value zp ze
  have hIcc : ∀ x ∈ g' :: post, x ∈ Set.Icc γ₁ (m.Eemax.phys / (cMe * cC ^ 2)) := by
    intro x hx
    have := hmem x (hgmem x hx)
    constructor
    · rw [hγ₁, div_le_iff₀ hm]; exact this.1
    · rw [le_div_iff₀ hm]; exact this.2
  -- the distance to the grid energy
  set B2 := r02alpha / (3 * (g / 2)) * (2 / (g / 2) * (8 * g)) with hB2
  have hB2p : 0 < B2 := by positivity
  set q := 4 * r02alpha / g * (8 / 9) with hq
  have hqp : 0 < q := by positivity
  set M := B2 / q + (m.wee * |Ke| + m.wep * |Kp| + 1) / (m.wep * (g * (N g * q) * Real.log (g' / g))) with hM
  have hden : 0 < m.wep * (g * (N g * q) * Real.log (g' / g)) := by positivity
  have hM0 : 0 ≤ M := by positivity
  clear_value M q B2 Kp Ke
  have hri : 0 < g * (1 - 1 / r) := by
    have : 1 / r < 1 := by rw [div_lt_one hr0]; exact hr1
    have : 0 < 1 - 1 / r := by linarith
    positivity
  set d := min (g * (1 - 1 / r)) (min (g / 2) (Real.exp (-M) / 4)) with hd
  have hdp : 0 < d := lt_min hri (lt_min (by positivity) (by positivity))
  refine ⟨d * (cMe * cC ^ 2), by positivity, fun e he1 he2 => ?_⟩
  set ε := e / (cMe * cC ^ 2) with hε
  rw [hEg] at he1 he2
  have hεg : ε < g := by rw [hε, div_lt_iff₀ hm]; exact he2
  have hεd : g - ε < d := by
    have : (g - d) * (cMe * cC ^ 2) < e := by linarith
    rw [← lt_div_iff₀ hm] at this
    linarith
  have hd0 : g - ε < g * (1 - 1 / r) := hεd.trans_le (min_le_left _ _)
  have hd1 : g - ε < g / 2 := hεd.trans_le ((min_le_right _ _).trans (min_le_left _ _))
  have hd2 : g - ε < Real.exp (-M) / 4 := hεd.trans_le ((min_le_right _ _).trans (min_le_right _ _))
  have hεh : g / 2 ≤ ε := by linarith
  have hε0 : 0 < ε := by linarith
  have hε2 : 1 / 2 < ε := by linarith
  have he0 : 0 < e := by
    have := mul_pos hε0 hm
    rwa [hε, div_mul_cancel₀ _ hm.ne'] at this
  have hb1 := baring1_neg g ε M hg0 hM0 hεh hεg hd2.le
  have hb2 := baring2_le g ε g hg0 hεh hε2 hεg.le
  rw [← hq] at hb1
  rw [← hB2] at hb2
  -- the points below
  have hbelow : ∀ x ∈ pre, x < ε := by
    intro x hx
    have := hprele x hx
    linarith
  -- not a grid energy
  have hnot : ∀ x ∈ gam, ε ≠ x := by
    intro x hx
    rw [hsplit] at hx
    rcases List.mem_append.1 hx with hx | hx
    · exact (hbelow x hx).ne'
    · rcases List.mem_cons.1 hx with rfl | hx
      · exact hεg.ne
      · exact (hεg.trans (hgg.trans_le (hpostmem x hx))).ne
  have hγall : ∀ x ∈ gam, γTwoMeV < x := by
    intro x hx
    have := (hmem x hx).1
    refine hγ2.trans_le ?_
    rw [hγ₁, div_le_iff₀ hm]; exact this
  -- electron-proton
  have hep : ∃ T, trapzLL (gam.map (fun x => (fin x, fin (N x * baringEp x ε)))) =
      fin (g * (N g * baringEp g ε) * Real.log (g' / g) + T) ∧ T ≤ Kp := by
    rw [hKp, hR]
    rw [hsplit]
    refine trapz_sign_change pre post g g' γ₁ _ (fun x => N x * baringEp x ε) zp hg0 hgg hγ0 hIcc hsorted
      ?_ ?_ ?_
    · intro x hx
      show N x * baringEp x ε = 0
      unfold baringEp
      rw [if_neg (not_lt.2 (hbelow x hx).le), mul_zero]
    · show N g * baringEp g ε ≤ 0
      unfold baringEp
      rw [if_pos hεg]
      have : 0 ≤ q * M := by positivity
      exact mul_nonpos_of_nonneg_of_nonpos hNg.le (by linarith)
    · intro x hx
      simp only [← hzp']
      have hxg := hpostmem x hx
      have hεx : ε < x := hεg.trans (hgg.trans_le hxg)
      have hx0 := hout' x hxg ε hε0 hεg.le
      have hNx := hNpos x (hgmem x hx)
      show 0 < N x * baringEp x ε ∧ N x * baringEp x ε ≤ _
      unfold baringEp
      rw [if_pos hεx]
      exact ⟨mul_pos hNx (baring1_pos x ε hε0 hεx hx0),
        mul_le_mul_of_nonneg_left (baring1_le x ε g hg0 hεh hεx hx0.le) hNx.le⟩
  -- electron-electron
  have hee : ∃ T, trapzLL (gam.map (fun x => (fin x, fin (N x * baringEe x ε)))) =
      fin (g * (N g * baringEe g ε) * Real.log (g' / g) + T) ∧ T ≤ Ke ∧ N g * baringEe g ε ≤ 0 := by
    rw [hKe, hR]
    have hyg : N g * baringEe g ε ≤ 0 := by
      unfold baringEe
      rw [if_neg (not_le.2 (hγall g higam)), if_pos hεg]
      have hA := baringA_nonneg g ε (by linarith) hε0 hεg
      have h1 : baring1 g ε + baring2 g ε ≤ 0 := by
        have : B2 ≤ q * M := by
          rw [hM, mul_add, mul_div_cancel₀ _ hqp.ne']
          have : 0 ≤ q * ((m.wee * |Ke| + m.wep * |Kp| + 1) / (m.wep * (g * (N g * q) * Real.log (g' / g)))) := by
            positivity
          linarith
        linarith
      exact mul_nonpos_of_nonneg_of_nonpos hNg.le (mul_nonpos_of_nonpos_of_nonneg h1 hA)
    have := trapz_sign_change pre post g g' γ₁ _ (fun x => N x * baringEe x ε) ze hg0 hgg hγ0 hIcc hsorted ?_ hyg ?_
    · rw [hsplit]
      obtain ⟨T, a1, a2⟩ := this
      exact ⟨T, a1, a2, hyg⟩
    · intro x hx
      show N x * baringEe x ε = 0
      unfold baringEe
      rw [if_neg (not_le.2 (hγall x (hpregam x hx))), if_neg (not_lt.2 (hbelow x hx).le), mul_zero]
    · intro x hx
      simp only [← hze']
      have hxg := hpostmem x hx
      have hεx : ε < x := hεg.trans (hgg.trans_le hxg)
      have hx0 := hout' x hxg ε hε0 hεg.le
      have hNx := hNpos x (hgmem x hx)
      have hγx := hγall x (hgmem x hx)
      have k1 := baring1_pos x ε hε0 hεx hx0
      have k2 := baring2_nonneg x ε (by linarith) hε0 hεx hε2.ne'
      have k3 := baringA_pos x ε (by linarith) hε0 hεx
      have k4 := baringA_le x ε (by linarith) hε0
      have k5 := baring1_le x ε g hg0 hεh hεx hx0.le
      have k6 := baring2_le x ε g hg0 hεh hε2 hεx.le
      show 0 < N x * baringEe x ε ∧ N x * baringEe x ε ≤ _
      unfold baringEe
      rw [if_neg (not_le.2 hγx), if_pos hεx]
      refine ⟨mul_pos hNx (mul_pos (by linarith) k3), mul_le_mul_of_nonneg_left ?_ hNx.le⟩
      have : (baring1 x ε + baring2 x ε) * baringA x ε ≤ (baring1 x ε + baring2 x ε) * 1 :=
        mul_le_mul_of_nonneg_left k4 (by linarith)
      linarith
  obtain ⟨Tp, ep1, ep2⟩ := hep
  obtain ⟨Te, ee1, ee2, ee3⟩ := hee
  have hspec := hsp [e] (by
    intro E hE
    obtain rfl : E = e := by simpa using hE
    exact ⟨he0, hε2.ne', fun x hx => hnot x hx⟩)
  have m1 : ∀ S : ℝ → ℝ → ℝ, gam.map (fun x => (fin x, electrons pd x * fin (S x ε / (cMe * cC ^ 2)))) =
      gam.map (fun x => (fin x, fin (N x * S x ε))) := fun S =>
    List.map_congr_left (fun x hx => by rw [hel x hx])
  have hfinal : m.spectrum pd [e] = .ok [fin (m.n0.phys * cEV *
      (m.wee * (cC * (g * (N g * baringEe g ε) * Real.log (g' / g) + Te)) +
        m.wep * (cC * (g * (N g * baringEp g ε) * Real.log (g' / g) + Tp))))] := by
    rw [hspec]
    simp only [List.map_cons, List.map_nil, ← hε]
    rw [m1 baringEe, m1 baringEp, ee1, ep1]
    simp only [mul_fin, add_fin]
  refine ⟨_, ?_, hfinal⟩
  have hEp' : baringEp g ε ≤ q * -M := by unfold baringEp; rw [if_pos hεg]; exact hb1
  have hn0' : 0 < m.n0.phys * cEV := by
    have : 0 < m.n0.phys := mul_pos hn0 hs0
    have : 0 < cEV := by unfold cEV; norm_num
    positivity
  have hcC : 0 < cC := by unfold cC; norm_num
  apply mul_neg_of_pos_of_neg hn0'
  have t1 : g * (N g * baringEe g ε) * Real.log (g' / g) ≤ 0 :=
    mul_nonpos_of_nonpos_of_nonneg (mul_nonpos_of_nonneg_of_nonpos hg0.le ee3) hlog.le
  have t2 : g * (N g * baringEp g ε) * Real.log (g' / g) ≤ -(M * (g * (N g * q) * Real.log (g' / g))) := by
    have : g * (N g * baringEp g ε) * Real.log (g' / g) ≤ g * (N g * (q * -M)) * Real.log (g' / g) := by
      apply mul_le_mul_of_nonneg_right _ hlog.le
      apply mul_le_mul_of_nonneg_left _ hg0.le
      exact mul_le_mul_of_nonneg_left hEp' hNg.le
    linarith
  have t3 : m.wee * |Ke| + m.wep * |Kp| + 1 ≤ m.wep * (M * (g * (N g * q) * Real.log (g' / g))) := by
    have : (m.wee * |Ke| + m.wep * |Kp| + 1) / (m.wep * (g * (N g * q) * Real.log (g' / g))) ≤ M := by
      rw [hM]
      have : 0 ≤ B2 / q := by positivity
      linarith
    rw [div_le_iff₀ hden] at this
    linarith
  have s1 : m.wee * (g * (N g * baringEe g ε) * Real.log (g' / g) + Te) ≤ m.wee * |Ke| :=
    mul_le_mul_of_nonneg_left (by linarith [le_abs_self Ke]) w1.le
  have s2 : m.wep * (g * (N g * baringEp g ε) * Real.log (g' / g) + Tp) ≤
      m.wep * (-(M * (g * (N g * q) * Real.log (g' / g))) + |Kp|) :=
    mul_le_mul_of_nonneg_left (by linarith [le_abs_self Kp]) w2.le
  have s3 : m.wee * (g * (N g * baringEe g ε) * Real.log (g' / g) + Te) +
      m.wep * (g * (N g * baringEp g ε) * Real.log (g' / g) + Tp) < 0 := by linarith
  have s4 := mul_neg_of_pos_of_neg hcC s3
  linarith

/-! ### The hypotheses are met -/

/-- The default `Bremsstrahlung` (300 points per decade from 100 MeV, 1 cm⁻³) of electrons with an `E⁻²` spectrum up
to 510 TeV: the flux is negative just below 100 MeV. -/
example : ∃ δ > 0, ∀ e, 1e8 * cEV - δ < e → e < 1e8 * cEV → ∃ v < 0,
    BremsModel.spectrum ⟨⟨⟨100, ⟨1e6 * cEV, Dim.energy⟩⟩, ⟨510, PhysUnit.TeV⟩, 300⟩, ⟨1, ⟨1, Dim.numDensity⟩⟩,
      1.088, 1.263⟩ exPd [e] = .ok [fin v] := by
  have hlo : (⟨100, ⟨1e6 * cEV, Dim.energy⟩⟩ : Qty ℝ).PosEnergy :=
    ⟨rfl, by unfold cEV; norm_num, by norm_num⟩
  have hl : (⟨100, ⟨1e6 * cEV, Dim.energy⟩⟩ : Qty ℝ).phys = 1e8 * cEV := by simp only [Qty.phys]; ring
  have hh : (⟨510, PhysUnit.TeV⟩ : Qty ℝ).phys = 5.1e14 * cEV := by
    simp only [Qty.phys, PhysUnit.TeV, cEV]; norm_num
  have hev : 0 < cEV := by unfold cEV; norm_num
  have h := C93_false_negative ⟨⟨⟨100, ⟨1e6 * cEV, Dim.energy⟩⟩, ⟨510, PhysUnit.TeV⟩, 300⟩,
    ⟨1, ⟨1, Dim.numDensity⟩⟩, 1.088, 1.263⟩ exPd rfl (by norm_num [exPd]) hlo exEl_hi (by rw [hl, hh]; linarith)
    (by rw [hl]; linarith) (by norm_num) rfl (by norm_num) (by norm_num) (by norm_num) (by norm_num)
    (fun E => E ^ (-2 : ℝ)) (fun _ _ => rfl)
    (fun E hE => Real.rpow_pos_of_pos (hlo.phys_pos.trans_le hE.1) _) _ rfl
    (by
      rw [hl, hh]
      exact default_grid_out (1e8 * cEV) (5.1e14 * cEV) (by positivity) (by linarith)) 0
    (by
      rw [hl, hh, zero_add, pow_one]
      have hab : (1e8 * cEV : ℝ) < 5.1e14 * cEV := by linarith
      have h1 : lnStep 300 (1e8 * cEV) (5.1e14 * cEV) ≤ Real.log (5.1e14 * cEV / (1e8 * cEV)) := by
        unfold lnStep
        apply div_le_self
        · exact Real.log_nonneg (by rw [one_le_div (by positivity)]; exact hab.le)
        · have : (10 : ℝ) ≤ ((max 10 ⌊300 * Real.logb 10 (5.1e14 * cEV / (1e8 * cEV))⌋ : ℤ) : ℝ) := by
            exact_mod_cast le_max_left _ _
          linarith
      have h2 := Real.exp_le_exp.2 h1
      rw [Real.exp_log (by positivity), le_div_iff₀ (by positivity)] at h2
      show 1e8 * cEV * Real.exp (lnStep 300 (1e8 * cEV) (5.1e14 * cEV)) ≤ _
      linarith)
  simpa only [hl, pow_zero, mul_one] using h

end Naima.Props
