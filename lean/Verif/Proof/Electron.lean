import Verif.Model.Electron
import Verif.Proof.Trapz
import Verif.Spec.Electron

namespace Naima

open XR Classical

theorem cMe_pos : 0 < cMe := by unfold cMe; norm_num
theorem cMp_pos : 0 < cMp := by unfold cMp; norm_num
theorem cC_pos : 0 < cC := by unfold cC; norm_num
theorem cE_pos : 0 < cE := by unfold cE; norm_num
theorem cHbar_pos : 0 < cHbar := by unfold cHbar; norm_num
theorem cSigma_pos : 0 < cSigma := by unfold cSigma; norm_num
theorem cAlpha_pos : 0 < cAlpha := by unfold cAlpha; norm_num
theorem cMec2_pos : 0 < cMec2 := mul_pos cMe_pos (pow_pos cC_pos 2)
theorem cAr_pos : 0 < cAr := div_pos (mul_pos (by norm_num) cSigma_pos) cC_pos
theorem cR0_pos : 0 < cR0 := div_pos (pow_pos cE_pos 2) cMec2_pos
theorem cEV_pos : 0 < cEV := by unfold cEV; norm_num
theorem GeV_pos : 0 < PhysUnit.GeV.scale := by simp only [PhysUnit.GeV]; norm_num

theorem gridSize_fin (n d : ℝ) :
    gridSize (fin n) (fin d) =
      .ok (max 10 (if 0 ≤ n * d then ⌊n * d⌋ else ⌈n * d⌉)).toNat := rfl

theorem gridSize_ok (n d : ℝ) : ∃ k, gridSize (fin n) (fin d) = .ok k ∧ 10 ≤ k := by
  refine ⟨_, gridSize_fin n d, ?_⟩
  have : (10 : ℤ) ≤ max 10 (if 0 ≤ n * d then ⌊n * d⌋ else ⌈n * d⌉) := le_max_left _ _
  omega

theorem logspace_length (a b : ℝ) (n : ℕ) : (logspace a b n).length = n := by simp [logspace]

theorem logspace_get (a b : ℝ) (n i : ℕ) (x : ℝ) (h : (logspace a b n)[i]? = some x) :
    i < n ∧ x = (10 : ℝ) ^ (a + i * ((b - a) / ((n : ℝ) - 1))) := by
  unfold logspace at h
  rw [List.getElem?_map] at h
  by_cases hi : i < n
  · rw [List.getElem?_range hi] at h
    simp at h
    exact ⟨hi, h.symm⟩
  · rw [List.getElem?_eq_none (by simpa using hi)] at h
    simp at h

theorem logspace_pos (a b : ℝ) (n : ℕ) : ∀ x ∈ logspace a b n, 0 < x := by
  intro x hx
  simp only [logspace, List.mem_map] at hx
  obtain ⟨i, _, rfl⟩ := hx
  exact Real.rpow_pos_of_pos (by norm_num) _

theorem logspace_logGrid (a b : ℝ) (n : ℕ) (hab : a < b) (hn : 10 ≤ n) :
    LogGrid (logspace a b n) ((10 : ℝ) ^ a) ((10 : ℝ) ^ b) := by
  have hn1 : (0 : ℝ) < (n : ℝ) - 1 := by
    have : (10 : ℝ) ≤ n := by exact_mod_cast hn
    linarith
  have hs : 0 < (b - a) / ((n : ℝ) - 1) := div_pos (by linarith) hn1
  refine ⟨by rw [logspace_length]; exact hn, ?_, ?_, ?_, ?_⟩
  · rw [List.head?_eq_getElem?]
    unfold logspace
    rw [List.getElem?_map, List.getElem?_range (by omega)]
    simp
  · rw [List.getLast?_eq_getElem?, logspace_length]
    unfold logspace
    rw [List.getElem?_map, List.getElem?_range (by omega)]
    simp only [Option.map_some]
    have : ((n - 1 : ℕ) : ℝ) = (n : ℝ) - 1 := by
      rw [Nat.cast_sub (by omega)]; simp
    rw [this]
    congr 2
    field_simp
    ring
  · unfold logspace
    rw [List.pairwise_map]
    refine List.Pairwise.imp ?_ (List.pairwise_lt_range (n := n))
    intro i j hij
    apply Real.rpow_lt_rpow_of_exponent_lt (by norm_num)
    have : (i : ℝ) < j := by exact_mod_cast hij
    have := mul_lt_mul_of_pos_right this hs
    linarith
  · refine ⟨(10 : ℝ) ^ ((b - a) / ((n : ℝ) - 1)), Real.one_lt_rpow (by norm_num) hs, ?_⟩
    intro i x y hx hy
    obtain ⟨_, rfl⟩ := logspace_get a b n i x hx
    obtain ⟨_, rfl⟩ := logspace_get a b n (i + 1) y hy
    rw [← Real.rpow_add (by norm_num)]
    congr 1
    push_cast
    ring

theorem logspace_pairwise (a b : ℝ) (n : ℕ) (hab : a ≤ b) :
    (logspace a b n).Pairwise (· ≤ ·) := by
  unfold logspace
  rw [List.pairwise_map]
  rcases Nat.eq_zero_or_pos n with h0 | h0
  · subst h0; simp
  have hn1 : (0 : ℝ) ≤ (n : ℝ) - 1 := by
    have : (1 : ℝ) ≤ n := by exact_mod_cast h0
    linarith
  have hs : 0 ≤ (b - a) / ((n : ℝ) - 1) := div_nonneg (by linarith) hn1
  refine List.Pairwise.imp ?_ (List.pairwise_lt_range (n := n))
  intro i j hij
  apply Real.rpow_le_rpow_of_exponent_le (by norm_num)
  have : (i : ℝ) ≤ j := by exact_mod_cast hij.le
  have := mul_le_mul_of_nonneg_right this hs
  linarith

/-- value of an energy in units of `size` -/
theorem phys_ratio (q : Qty ℝ) (size : ℝ) : q.value * (q.unit.scale / size) = q.phys / size := by
  unfold Qty.phys; ring

theorem log10Ratio_ok (q : Qty ℝ) (h : q.PosEnergy) (size : ℝ) (hs : 0 < size) :
    log10Ratio q size = .ok (fin (Real.logb 10 (q.phys / size))) := by
  unfold log10Ratio
  rw [if_pos h.isEnergy, phys_ratio, log10_fin _ (div_pos h.phys_pos hs)]

/-- the electron grid between positive energies -/
theorem gamGrid_eq (n : ℝ) (lo hi : Qty ℝ) (hlo : lo.PosEnergy) (hhi : hi.PosEnergy) :
    gamGrid n lo hi = .ok (logspace (Real.logb 10 (lo.phys / cMec2))
      (Real.logb 10 (hi.phys / cMec2))
      (max 10 (if 0 ≤ n * (Real.logb 10 (hi.phys / cMec2) - Real.logb 10 (lo.phys / cMec2)) then
        ⌊n * (Real.logb 10 (hi.phys / cMec2) - Real.logb 10 (lo.phys / cMec2))⌋
        else ⌈n * (Real.logb 10 (hi.phys / cMec2) - Real.logb 10 (lo.phys / cMec2))⌉)).toNat) := by
  unfold gamGrid logGrid
  rw [log10Ratio_ok _ hlo _ cMec2_pos, log10Ratio_ok _ hhi _ cMec2_pos]
  simp only [bind, Except.bind, sub_fin, gridSize_fin]
  rfl

theorem inGeV_ok (q : Qty ℝ) (h : q.PosEnergy) :
    inGeV q = .ok (q.phys / PhysUnit.GeV.scale) := by
  unfold inGeV Qty.toReal
  rw [if_pos (by rw [h.isEnergy]; rfl), phys_ratio]

theorem logb_quot (lo hi : Qty ℝ) (hlo : lo.PosEnergy) (hhi : hi.PosEnergy) (s : ℝ) (hs : 0 < s) :
    Real.logb 10 (hi.phys / s) - Real.logb 10 (lo.phys / s) = Real.logb 10 (hi.phys / lo.phys) := by
  rw [Real.logb_div hhi.phys_pos.ne' hs.ne', Real.logb_div hlo.phys_pos.ne' hs.ne',
    Real.logb_div hhi.phys_pos.ne' hlo.phys_pos.ne']
  ring

/-- the proton grids of `_Ep` and `compute_Wp` are the same -/
theorem epGrid_eq_Ep (m : PrModel) (hlo : m.Epmin.PosEnergy) (hhi : m.Epmax.PosEnergy) :
    epGrid m.nEpd m.Epmin m.Epmax = m.Ep := by
  unfold epGrid PrModel.Ep
  rw [inGeV_ok _ hlo, inGeV_ok _ hhi]
  simp only [bind, Except.bind]
  have h1 := div_pos hlo.phys_pos GeV_pos
  have h2 := div_pos hhi.phys_pos GeV_pos
  unfold logGrid
  rw [log10_fin _ h1, log10_fin _ h2, sub_fin, logb_quot _ _ hlo hhi _ GeV_pos]
  have : decadesRatio m.Epmin m.Epmax = fin (Real.logb 10 (m.Epmax.phys / m.Epmin.phys)) := by
    unfold decadesRatio
    change log10 (fin m.Epmax.phys / fin m.Epmin.phys) = _
    rw [div_fin _ _ (hlo.phys_pos).ne', log10_fin _ (div_pos hhi.phys_pos hlo.phys_pos)]
  rw [this, gridSize_fin]
  simp only [bind, Except.bind, pure, Except.pure]
  rw [if_neg h1.not_ge]
  rfl

theorem ten_rpow_logb (x : ℝ) (h : 0 < x) : (10 : ℝ) ^ Real.logb 10 x = x :=
  Real.rpow_logb (by norm_num) (by norm_num) h

theorem gamGrid_logGrid (n : ℝ) (lo hi : Qty ℝ) (hlo : lo.PosEnergy) (hhi : hi.PosEnergy)
    (h : lo.phys < hi.phys) :
    ∃ l, gamGrid n lo hi = .ok l ∧ LogGrid l (lo.phys / cMec2) (hi.phys / cMec2) := by
  refine ⟨_, gamGrid_eq n lo hi hlo hhi, ?_⟩
  have e := logspace_logGrid (Real.logb 10 (lo.phys / cMec2)) (Real.logb 10 (hi.phys / cMec2))
    (max 10 (if 0 ≤ n * (Real.logb 10 (hi.phys / cMec2) - Real.logb 10 (lo.phys / cMec2)) then
        ⌊n * (Real.logb 10 (hi.phys / cMec2) - Real.logb 10 (lo.phys / cMec2))⌋
        else ⌈n * (Real.logb 10 (hi.phys / cMec2) - Real.logb 10 (lo.phys / cMec2))⌉)).toNat
    (Real.logb_lt_logb (by norm_num) (div_pos hlo.phys_pos cMec2_pos)
      (div_lt_div_of_pos_right h cMec2_pos)) (by
      have := le_max_left (10:ℤ) (if 0 ≤ n * (Real.logb 10 (hi.phys / cMec2) - Real.logb 10 (lo.phys / cMec2)) then
        ⌊n * (Real.logb 10 (hi.phys / cMec2) - Real.logb 10 (lo.phys / cMec2))⌋
        else ⌈n * (Real.logb 10 (hi.phys / cMec2) - Real.logb 10 (lo.phys / cMec2))⌉)
      omega)
  rwa [ten_rpow_logb _ (div_pos hlo.phys_pos cMec2_pos),
    ten_rpow_logb _ (div_pos hhi.phys_pos cMec2_pos)] at e

theorem epGrid_eq (n : ℝ) (lo hi : Qty ℝ) (hlo : lo.PosEnergy) (hhi : hi.PosEnergy) :
    ∃ k, 10 ≤ k ∧ epGrid n lo hi = .ok (logspace (Real.logb 10 (lo.phys / PhysUnit.GeV.scale))
      (Real.logb 10 (hi.phys / PhysUnit.GeV.scale)) k) := by
  have h1 := div_pos hlo.phys_pos GeV_pos
  have h2 := div_pos hhi.phys_pos GeV_pos
  obtain ⟨k, hk, h10⟩ := gridSize_ok n (Real.logb 10 (hi.phys / PhysUnit.GeV.scale) -
    Real.logb 10 (lo.phys / PhysUnit.GeV.scale))
  refine ⟨k, h10, ?_⟩
  unfold epGrid
  rw [inGeV_ok _ hlo, inGeV_ok _ hhi]
  simp only [bind, Except.bind]
  unfold logGrid
  rw [log10_fin _ h1, log10_fin _ h2, sub_fin, hk]
  rfl

theorem epGrid_logGrid (n : ℝ) (lo hi : Qty ℝ) (hlo : lo.PosEnergy) (hhi : hi.PosEnergy)
    (h : lo.phys < hi.phys) :
    ∃ l, epGrid n lo hi = .ok l ∧
      LogGrid l (lo.phys / PhysUnit.GeV.scale) (hi.phys / PhysUnit.GeV.scale) := by
  obtain ⟨k, h10, e⟩ := epGrid_eq n lo hi hlo hhi
  refine ⟨_, e, ?_⟩
  have e := logspace_logGrid _ _ k (Real.logb_lt_logb (by norm_num : (1:ℝ) < 10)
    (div_pos hlo.phys_pos GeV_pos) (div_lt_div_of_pos_right h GeV_pos)) h10
  rwa [ten_rpow_logb _ (div_pos hlo.phys_pos GeV_pos),
    ten_rpow_logb _ (div_pos hhi.phys_pos GeV_pos)] at e

/-! ### homogeneity of the energy content -/

/-- the distribution multiplied by a number -/
noncomputable def PDist.scale (pd : PDist) (c : ℝ) : PDist := ⟨pd.unit, fun e => fin c * pd.f e⟩

theorem trapz_scale_y (c : ℝ) (hc : 0 < c) (y x : List XR) :
    trapz (y.map (fun a => fin c * a)) x = fin c * trapz y x := by
  unfold trapz
  rw [← trapzLL_scale_y c hc]
  congr 1
  induction x generalizing y with
  | nil => simp
  | cons a x ih =>
    cases y with
    | nil => simp
    | cons b y => simp [ih]

theorem mul_left_swap (c : ℝ) (hc : 0 < c) (a b : XR) : a * (fin c * b) = fin c * (a * b) := by
  rw [mul_comm' a, scale_mul c hc, mul_comm' b]

theorem valuesIn_scale (pd : PDist) (c : ℝ) (hc : 0 < c) (u : PhysUnit) (es : List ℝ) :
    (pd.scale c).valuesIn u es = (pd.valuesIn u es).map (List.map (fun a => fin c * a)) := by
  unfold PDist.valuesIn PDist.scale
  by_cases h : pd.unit.dim = u.dim
  · simp [h, Except.map, scale_mul c hc]
  · simp [h, Except.map]

theorem weOf_scale (c : ℝ) (hc : 0 < c) (gam : List ℝ) (n : List XR) :
    weOf gam (n.map (fun a => fin c * a)) = fin c * weOf gam n := by
  unfold weOf
  rw [← trapz_scale_y c hc]
  congr 1
  rw [List.map_zipWith, List.zipWith_map_right]
  congr 1
  funext g a
  exact mul_left_swap c hc _ _

theorem wpOf_scale (c : ℝ) (hc : 0 < c) (ep : List ℝ) (n : List XR) :
    wpOf ep (n.map (fun a => fin c * a)) = fin c * wpOf ep n := by
  unfold wpOf
  have : List.zipWith (fun e n => fin e * n) ep (n.map (fun a => fin c * a)) =
      (List.zipWith (fun e n => fin e * n) ep n).map (fun a => fin c * a) := by
    rw [List.map_zipWith, List.zipWith_map_right]
    congr 1
    funext g a
    exact mul_left_swap c hc _ _
  rw [this, trapz_scale_y c hc, scale_mul c hc]

theorem wpQty_scale (c : ℝ) (hc : 0 < c) (ep : List ℝ) (pd : PDist) :
    wpQty ep (pd.scale c) = (wpQty ep pd).map (fun a => fin c * a) := by
  unfold wpQty PDist.scale
  by_cases h : pd.unit.dim = Dim.diffEnergy
  · simp only [h, if_true, Except.map]
    congr 1
    rw [← scale_mul c hc, ← trapz_scale_y c hc]
    congr 2
    rw [List.map_map]
    apply List.map_congr_left
    intro e _
    exact mul_left_swap c hc _ _
  · simp [h, Except.map]

theorem computeWe_scale (m : ElModel) (pd : PDist) (c : ℝ) (hc : 0 < c) (lo hi : Option (Qty ℝ)) :
    m.computeWe (pd.scale c) lo hi = (m.computeWe pd lo hi).map (fun a => fin c * a) := by
  have key : ∀ g : Except PyErr (List ℝ),
      (g.bind fun gam => (nelecOf (pd.scale c) gam).bind fun n => .ok (weOf gam n)) =
      Except.map (fun a => fin c * a)
        (g.bind fun gam => (nelecOf pd gam).bind fun n => .ok (weOf gam n)) := by
    intro g
    cases g with
    | error e => rfl
    | ok gam =>
      simp only [Except.bind]
      unfold nelecOf
      rw [valuesIn_scale _ _ hc]
      cases pd.valuesIn perMec2 (gam.map (· * cMec2)) with
      | error e => rfl
      | ok n => simp [Except.map, weOf_scale c hc]
  have hWe : m.We (pd.scale c) = (m.We pd).map (fun a => fin c * a) := by
    have := key m.gam
    unfold ElModel.We ElModel.nelec
    cases hg : m.gam with
    | error e => rfl
    | ok gam =>
      rw [hg] at this
      exact this
  cases lo with
  | none =>
    cases hi with
    | none => exact hWe
    | some hi => exact key _
  | some lo => exact key _

theorem computeWp_scale (m : PrModel) (pd : PDist) (c : ℝ) (hc : 0 < c) (lo hi : Option (Qty ℝ)) :
    m.computeWp (pd.scale c) lo hi = (m.computeWp pd lo hi).map (fun a => fin c * a) := by
  have key : ∀ g : Except PyErr (List ℝ),
      (g.bind fun ep => wpQty ep (pd.scale c)) =
      Except.map (fun a => fin c * a) (g.bind fun ep => wpQty ep pd) := by
    intro g
    cases g with
    | error e => rfl
    | ok ep => exact wpQty_scale c hc ep pd
  have hWp : m.Wp (pd.scale c) = (m.Wp pd).map (fun a => fin c * a) := by
    unfold PrModel.Wp PrModel.J protOf
    cases m.Ep with
    | error e => rfl
    | ok ep =>
      simp only [bind, Except.bind, valuesIn_scale _ _ hc]
      cases pd.valuesIn perGeV (ep.map (· * PhysUnit.GeV.scale)) with
      | error e => rfl
      | ok n => simp [Except.map, wpOf_scale c hc, pure, Except.pure]
  cases lo with
  | none =>
    cases hi with
    | none => exact hWp
    | some hi => exact key _
  | some lo => exact key _

/-- `Wp` (numbers converted to 1/GeV first) and `compute_Wp` (quantities) agree. -/
theorem wpQty_eq (ep : List ℝ) (pd : PDist) (hu : 0 < pd.unit.scale) :
    wpQty ep pd = (protOf pd ep).map (wpOf ep) := by
  unfold wpQty protOf PDist.valuesIn
  by_cases h : pd.unit.dim = Dim.diffEnergy
  · rw [if_pos h, if_pos (by rw [h]; rfl)]
    simp only [Except.map]
    congr 1
    unfold wpOf
    have hG := GeV_pos
    have hk : 0 < pd.unit.scale / perGeV.scale := by
      apply div_pos hu
      simp only [perGeV]
      positivity
    have e1 : List.zipWith (fun e n => fin e * n) ep
        ((ep.map (· * PhysUnit.GeV.scale)).map
          (fun e => pd.f e * fin (pd.unit.scale / perGeV.scale))) =
        (ep.map (fun e => fin e * pd.f (e * PhysUnit.GeV.scale))).map
          (fun a => fin (pd.unit.scale / perGeV.scale) * a) := by
      induction ep with
      | nil => simp
      | cons a l ih =>
        simp only [List.map_cons, List.zipWith_cons_cons, ih]
        congr 1
        rw [mul_comm' (pd.f _), mul_left_swap _ hk]
    rw [e1, trapz_scale_y _ hk, scale_mul _ hk, ← mul_left_swap _ hk, mul_fin]
    congr 2
    simp only [perGeV]
    field_simp
  · rw [if_neg h, if_neg (by exact h)]
    rfl

end Naima
