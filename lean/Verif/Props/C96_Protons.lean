import Verif.Props.C96_Limits
import Verif.Model.ProtonGrid
import Verif.Proof.Examples

/-! # C96: proton limits, every sign -/

namespace Naima.Props

open Naima XR Classical

theorem logspaceX_nan (a b : XR) (n : ℕ) (h : a = nan) : logspaceX a b n = List.replicate n nan := by
  subst h
  unfold logspaceX
  rw [List.eq_replicate_iff]
  refine ⟨by simp, fun x hx => ?_⟩
  obtain ⟨i, -, rfl⟩ := List.mem_map.1 hx
  show pow (fin 10) nan = nan
  simp [pow]

theorem trapz_nan (n : ℕ) : trapz (List.replicate (n + 2) nan) (List.replicate (n + 2) nan) = nan := by
  unfold trapz trapzLL
  simp only [List.replicate_succ, List.zip_cons_cons, trapzIntervals, sum_cons]
  have : trapzBin nan nan nan nan = nan := by
    unfold trapzBin
    rw [if_neg (by simp [eqv])]
    unfold trapzRaw
    rw [if_neg (fun h => by exact h)]
    rfl
  rw [this]; rfl

theorem logspaceX_fin (a b : ℝ) (n : ℕ) (hn : 2 ≤ n) :
    logspaceX (fin a) (fin b) n = (logspace a b n).map fin := by
  unfold logspaceX logspace
  rw [List.map_map]
  apply List.map_congr_left
  intro i _
  have h : ((n : ℝ) - 1) ≠ 0 := by
    have : (2 : ℝ) ≤ n := by exact_mod_cast hn
    linarith
  simp only [Function.comp_apply, sub_fin, div_fin _ _ h, mul_fin, add_fin]
  show powFin _ _ = _
  unfold powFin
  split_ifs with h1 h2
  · rw [h1, Real.rpow_zero]
  · rfl
  all_goals exact absurd (by norm_num : (10:ℝ) > 0) h2

/-- **C96 (protons: every limit).** The energy content `Wp` of a proton model with any two limits, for a distribution
that returns NaN at a NaN energy: computed as elsewhere if both are positive; the errors of
`C96_proton_limits_partial` if one of them is not; but if both are negative nothing is refused and the result
is NaN. -/
theorem C96_proton_limits_all (m : PrModel) (pd : PDist) (hu : pd.unit.dim = Dim.diffEnergy) (hn : 0 < m.nEpd)
    (lo hi : Qty ℝ) (hlo : AnyEnergy lo) (hhi : AnyEnergy hi) :
    (0 < lo.value → 0 < hi.value → PrModel.WpX { m with Epmin := lo, Epmax := hi } pd nan =
      PrModel.Wp { m with Epmin := lo, Epmax := hi } pd) ∧
    (∀ e, limitsError lo.value hi.value = some e → ¬ (lo.value < 0 ∧ hi.value ≤ 0) →
      PrModel.WpX { m with Epmin := lo, Epmax := hi } pd nan = .error e) ∧
    (lo.value < 0 → hi.value = 0 →
      PrModel.WpX { m with Epmin := lo, Epmax := hi } pd nan = .error .overflowError) ∧
    (lo.value < 0 → hi.value < 0 →
      PrModel.WpX { m with Epmin := lo, Epmax := hi } pd nan = .ok nan) := by
  have hG : 0 < PhysUnit.GeV.scale := GeV_pos
  have gl : inGeV lo = .ok (lo.value * (lo.unit.scale / PhysUnit.GeV.scale)) := by
    unfold inGeV Qty.toReal; rw [if_pos (by rw [hlo.isEnergy]; rfl)]
  have gh : inGeV hi = .ok (hi.value * (hi.unit.scale / PhysUnit.GeV.scale)) := by
    unfold inGeV Qty.toReal; rw [if_pos (by rw [hhi.isEnergy]; rfl)]
  have hls := hlo.proper
  have hhs := hhi.proper
  have hdim : pd.unit.dim = perGeV.dim := hu
  have err : ∀ e, gridSize (fin m.nEpd) (decadesRatio lo hi) = .error e →
      PrModel.WpX { m with Epmin := lo, Epmax := hi } pd nan = .error e := by
    intro e he
    unfold PrModel.WpX PrModel.EpX
    simp only [gl, gh, he, bind, Except.bind]
  have hsize : 0 < hi.value * hi.unit.scale / (lo.value * lo.unit.scale) → lo.value ≠ 0 →
      ∃ k, gridSize (fin m.nEpd) (decadesRatio lo hi) = .ok k ∧ 10 ≤ k := by
    intro h h0
    unfold decadesRatio
    rw [div_fin _ _ (mul_ne_zero h0 hls.ne')]
    simp only [log10]
    rw [if_neg (not_lt.2 h.le), if_neg h.ne']
    exact gridSize_ok _ _
  refine ⟨fun h1 h2 => ?_, fun e he hnn => err e (ratioSize_class _ hn _ _ hlo hhi e he hnn), fun h1 h2 => ?_,
    fun h1 h2 => ?_⟩
  · obtain ⟨k, hk, hk10⟩ := hsize (by positivity) h1.ne'
    have l1 : 0 < lo.value * (lo.unit.scale / PhysUnit.GeV.scale) := by positivity
    have l2 : 0 < hi.value * (hi.unit.scale / PhysUnit.GeV.scale) := by positivity
    have e1 : PrModel.EpX { m with Epmin := lo, Epmax := hi } = .ok ((logspace
        (Real.logb 10 (lo.value * (lo.unit.scale / PhysUnit.GeV.scale)))
        (Real.logb 10 (hi.value * (hi.unit.scale / PhysUnit.GeV.scale))) k).map fin) := by
      unfold PrModel.EpX
      simp only [gl, gh, hk, bind, Except.bind, pure, Except.pure, log10]
      rw [if_neg (not_lt.2 l1.le), if_neg l1.ne', if_neg (not_lt.2 l2.le), if_neg l2.ne',
        logspaceX_fin _ _ _ (by omega)]
    have e2 : PrModel.Ep { m with Epmin := lo, Epmax := hi } = .ok (logspace
        (Real.logb 10 (lo.value * (lo.unit.scale / PhysUnit.GeV.scale)))
        (Real.logb 10 (hi.value * (hi.unit.scale / PhysUnit.GeV.scale))) k) := by
      unfold PrModel.Ep
      simp only [gl, gh, hk, bind, Except.bind, pure, Except.pure]
      rw [if_neg (not_le.2 l1)]
    unfold PrModel.WpX PrModel.Wp PrModel.J
    rw [e1, e2]
    simp only [bind, Except.bind, protOf, PDist.valuesIn]
    rw [if_pos hdim, if_pos hdim]
    simp only [pure, Except.pure, wpOf, List.zipWith_map_left, List.map_map, Function.comp_def, mul_fin,
      PDist.fX]
  · apply err
    unfold decadesRatio
    rw [div_fin _ _ (mul_neg_of_neg_of_pos h1 hls).ne, h2,
      show log10 (fin (0 * hi.unit.scale / (lo.value * lo.unit.scale))) = ninf by simp [log10]]
    exact gridSize_ninf _ hn
  · obtain ⟨k, hk, hk10⟩ := hsize (div_pos_of_neg_of_neg (mul_neg_of_neg_of_pos h2 hhs)
      (mul_neg_of_neg_of_pos h1 hls)) h1.ne
    have l1 : log10 (fin (lo.value * (lo.unit.scale / PhysUnit.GeV.scale))) = nan :=
      (log10_class lo.value _ (by positivity)).1 h1
    have e1 : PrModel.EpX { m with Epmin := lo, Epmax := hi } = .ok (List.replicate k nan) := by
      unfold PrModel.EpX
      simp only [gl, gh, hk, bind, Except.bind, pure, Except.pure]
      rw [logspaceX_nan _ _ _ l1]
    unfold PrModel.WpX
    rw [e1]
    simp only [bind, Except.bind]
    rw [if_pos hdim]
    obtain ⟨b, rfl⟩ := Nat.exists_eq_add_of_le hk10
    have z : List.zipWith (fun e n : XR => e * n) (List.replicate (10 + b) nan)
        ((List.replicate (10 + b) nan).map (fun e => pd.fX nan (e * fin PhysUnit.GeV.scale) *
          fin (pd.unit.scale / perGeV.scale))) = List.replicate (10 + b) nan := by
      rw [List.map_replicate, List.zipWith_replicate, min_self]
      rfl
    rw [z, show 10 + b = (8 + b) + 2 by omega, trapz_nan]
    rfl

/-- Limits of -1 TeV and -1 GeV, an `E⁻²` distribution: NaN. -/
example : PrModel.WpX ⟨⟨-1, PhysUnit.TeV⟩, ⟨-1, PhysUnit.GeV⟩, 100⟩ exPd nan = .ok nan :=
  (C96_proton_limits_all exPr exPd rfl (by norm_num [exPr]) ⟨-1, PhysUnit.TeV⟩ ⟨-1, PhysUnit.GeV⟩
    ⟨rfl, by simp only [PhysUnit.TeV]; norm_num⟩ ⟨rfl, GeV_pos⟩).2.2.2 (by norm_num) (by norm_num)

end Naima.Props
