import Verif.Props.C09_C11_Energy
import Verif.Props.C14_Synchrotron
import Verif.Proof.Synchrotron

/-! # C96: limits of the particle energies that do not make a range -/

namespace Naima.Props

open XR Classical

/-! ## Spec -/

/-- A quantity with a proper unit of energy; the number may be anything. -/
structure AnyEnergy (q : Qty ℝ) : Prop where
  isEnergy : q.unit.dim = Dim.energy
  proper : 0 < q.unit.scale

/-- Which error two limits of an energy range give: none if both are positive, OverflowError if one is zero
and the other positive, ValueError otherwise. -/
noncomputable def limitsError (lo hi : ℝ) : Option PyErr :=
  if 0 < lo ∧ 0 < hi then none
  else if (lo = 0 ∧ 0 < hi) ∨ (0 < lo ∧ hi = 0) then some .overflowError
  else some .valueError

/-! ## helpers -/

theorem AnyEnergy.pos {q : Qty ℝ} (h : AnyEnergy q) (hv : 0 < q.value) : q.PosEnergy :=
  ⟨h.isEnergy, h.proper, hv⟩

/-- `log10` of a number times a positive factor -/
theorem log10_class (x s : ℝ) (hs : 0 < s) :
    (x < 0 → log10 (fin (x * s)) = nan) ∧ (x = 0 → log10 (fin (x * s)) = ninf) ∧
    (0 < x → log10 (fin (x * s)) = fin (Real.logb 10 (x * s))) := by
  refine ⟨fun h => ?_, fun h => ?_, fun h => ?_⟩
  · simp [log10, mul_neg_of_neg_of_pos h hs]
  · simp [log10, h]
  · exact log10_fin _ (mul_pos h hs)

theorem gridSize_nan (n : XR) : gridSize n nan = .error .valueError := by
  cases n <;> rfl

theorem gridSize_pinf (n : ℝ) (hn : 0 < n) : gridSize (fin n) pinf = .error .overflowError := by
  unfold gridSize; rw [scale_pinf n hn]; rfl

theorem scale_ninf' (c : ℝ) (hc : 0 < c) : (fin c * ninf : XR) = ninf := by
  have : ¬ c < 0 := hc.le.not_gt
  have h0 : c ≠ 0 := hc.ne'
  simp [mul_def, mul, infMul, hc, this]

theorem gridSize_ninf (n : ℝ) (hn : 0 < n) : gridSize (fin n) ninf = .error .overflowError := by
  unfold gridSize; rw [scale_ninf' n hn]; rfl

/-- the grid between two logarithms of numbers times positive factors -/
theorem logGrid_class (n : ℝ) (hn : 0 < n) (x y s t : ℝ) (hs : 0 < s) (ht : 0 < t) (e : PyErr)
    (he : limitsError x y = some e) :
    logGrid (log10 (fin (x * s))) (log10 (fin (y * t))) (fin n) = .error e := by
  obtain ⟨a1, a2, a3⟩ := log10_class x s hs
  obtain ⟨b1, b2, b3⟩ := log10_class y t ht
  unfold limitsError at he
  split_ifs at he with h1 h2
  · cases he
    unfold logGrid
    rcases h2 with ⟨hx, hy⟩ | ⟨hx, hy⟩
    · rw [a2 hx, b3 hy, show (fin (Real.logb 10 (y * t)) - ninf : XR) = pinf from rfl, gridSize_pinf n hn]; rfl
    · rw [a3 hx, b2 hy, show (ninf - fin (Real.logb 10 (x * s)) : XR) = ninf from rfl, gridSize_ninf n hn]; rfl
  · cases he
    unfold logGrid
    have : log10 (fin (y * t)) - log10 (fin (x * s)) = nan := by
      rcases lt_trichotomy x 0 with hx | hx | hx
      · rw [a1 hx]; cases log10 (fin (y * t)) <;> rfl
      · rcases lt_trichotomy y 0 with hy | hy | hy
        · rw [b1 hy]; rfl
        · rw [a2 hx, b2 hy]; rfl
        · exact absurd (Or.inl ⟨hx, hy⟩) h2
      · rcases lt_trichotomy y 0 with hy | hy | hy
        · rw [b1 hy]; rfl
        · exact absurd (Or.inr ⟨hx, hy⟩) h2
        · exact absurd ⟨hx, hy⟩ h1
    rw [this, gridSize_nan]; rfl

theorem gamGrid_class (n : ℝ) (hn : 0 < n) (lo hi : Qty ℝ) (hlo : AnyEnergy lo) (hhi : AnyEnergy hi) (e : PyErr)
    (he : limitsError lo.value hi.value = some e) : gamGrid n lo hi = .error e := by
  unfold gamGrid log10Ratio
  rw [if_pos hlo.isEnergy, if_pos hhi.isEnergy]
  exact logGrid_class n hn _ _ _ _ (div_pos hlo.proper cMec2_pos) (div_pos hhi.proper cMec2_pos) e he

theorem epGrid_class (n : ℝ) (hn : 0 < n) (lo hi : Qty ℝ) (hlo : AnyEnergy lo) (hhi : AnyEnergy hi) (e : PyErr)
    (he : limitsError lo.value hi.value = some e) : epGrid n lo hi = .error e := by
  unfold epGrid inGeV Qty.toReal
  rw [if_pos (by rw [hlo.isEnergy]; rfl), if_pos (by rw [hhi.isEnergy]; rfl)]
  exact logGrid_class n hn _ _ _ _ (div_pos hlo.proper GeV_pos) (div_pos hhi.proper GeV_pos) e he

/-! ## Limits that are not positive are refused -/

/-- **C96 (electrons: limits not positive).** For every electron model (`nEed > 0`), distribution in proper units
and pair of energies: `compute_We(lo, hi)`, and the synchrotron spectrum of a model with these limits and a
magnetic field in proper units, return something exactly if both limits are positive; if one is zero and the other
positive OverflowError is raised, otherwise ValueError. Limits that are not energies raise TypeError. -/
theorem C96_electron_limits (m : SyncModel) (pd : PDist) (hu : pd.unit.dim = Dim.diffEnergy) (hn : 0 < m.nEed)
    (hB : m.B.unit.dim = Dim.magFluxDensity) (lo hi : Qty ℝ) (es : List ℝ) :
    (AnyEnergy lo → AnyEnergy hi →
      (∀ e, limitsError lo.value hi.value = some e →
        m.toElModel.computeWe pd (some lo) (some hi) = .error e ∧
        ({ m with Eemin := lo, Eemax := hi } : SyncModel).spectrum pd es = .error e) ∧
      (limitsError lo.value hi.value = none →
        (∃ w, m.toElModel.computeWe pd (some lo) (some hi) = .ok w) ∧
        ∃ out, ({ m with Eemin := lo, Eemax := hi } : SyncModel).spectrum pd es = .ok out)) ∧
    (lo.unit.dim ≠ Dim.energy ∨ hi.unit.dim ≠ Dim.energy →
      m.toElModel.computeWe pd (some lo) (some hi) = .error .typeError ∧
      ({ m with Eemin := lo, Eemax := hi } : SyncModel).spectrum pd es = .error .typeError) := by
  have hb : m.B.toReal gauss = .ok (m.B.value * (m.B.unit.scale / gauss.scale)) := by
    unfold Qty.toReal; rw [if_pos (by rw [hB]; rfl)]
  have spec : ∀ e, gamGrid m.nEed lo hi = .error e →
      m.toElModel.computeWe pd (some lo) (some hi) = .error e ∧
      ({ m with Eemin := lo, Eemax := hi } : SyncModel).spectrum pd es = .error e := by
    intro e he
    constructor
    · unfold ElModel.computeWe
      simp only [Option.getD_some, bind, Except.bind]
      rw [he]
    · have hg : ({ m with Eemin := lo, Eemax := hi } : SyncModel).toElModel.gam = .error e := he
      rw [SyncModel.spectrum_eq, hb, hg]; rfl
  refine ⟨fun hlo hhi => ⟨fun e he => spec e (gamGrid_class _ hn _ _ hlo hhi e he), fun h0 => ?_⟩, fun h => ?_⟩
  · unfold limitsError at h0
    split_ifs at h0 with h1
    have g := gamGrid_eq m.nEed lo hi (hlo.pos h1.1) (hhi.pos h1.2)
    constructor
    · unfold ElModel.computeWe
      simp only [Option.getD_some, bind, Except.bind]
      rw [g]
      simp only [nelecOf, PDist.valuesIn]
      rw [if_pos (by rw [hu]; rfl)]
      exact ⟨_, rfl⟩
    · have hg : ({ m with Eemin := lo, Eemax := hi } : SyncModel).toElModel.gam = .ok _ := g
      rw [SyncModel.spectrum_eq, hb, hg, nelec_eq _ pd hu _ hg]
      exact ⟨_, rfl⟩
  · apply spec
    unfold gamGrid log10Ratio
    rcases h with h | h
    · rw [if_neg h]; rfl
    · by_cases hl : lo.unit.dim = Dim.energy
      · rw [if_pos hl, if_neg h]; rfl
      · rw [if_neg hl]; rfl

/-- the number of proton energies cannot be computed unless both limits have the same sign -/
theorem ratioSize_class (n : ℝ) (hn : 0 < n) (lo hi : Qty ℝ) (hlo : AnyEnergy lo) (hhi : AnyEnergy hi) (e : PyErr)
    (he : limitsError lo.value hi.value = some e) (hnn : ¬ (lo.value < 0 ∧ hi.value ≤ 0)) :
    gridSize (fin n) (decadesRatio lo hi) = .error e := by
  have hls := hlo.proper
  have hhs := hhi.proper
  unfold limitsError at he
  unfold decadesRatio
  split_ifs at he with h1 h2
  · cases he
    rcases h2 with ⟨hx, hy⟩ | ⟨hx, hy⟩
    · have : (fin (hi.value * hi.unit.scale) / fin (lo.value * lo.unit.scale) : XR) = pinf := by
        have h0 := mul_pos hy hhs
        rw [hx, zero_mul]; simp [div_def, div, infMul, h0]
      rw [this]; exact gridSize_pinf _ hn
    · have : (fin (hi.value * hi.unit.scale) / fin (lo.value * lo.unit.scale) : XR) = fin 0 := by
        rw [div_fin _ _ (mul_pos hx hls).ne', hy]; simp
      rw [this, show log10 (fin 0) = ninf by simp [log10]]; exact gridSize_ninf _ hn
  · cases he
    have : log10 (fin (hi.value * hi.unit.scale) / fin (lo.value * lo.unit.scale) : XR) = nan := by
      rcases lt_trichotomy lo.value 0 with hx | hx | hx
      · have hy : 0 < hi.value := by
          by_contra hc; exact hnn ⟨hx, not_lt.1 hc⟩
        have hx' := mul_neg_of_neg_of_pos hx hls
        rw [div_fin _ _ hx'.ne]
        simp [log10, div_neg_of_pos_of_neg (mul_pos hy hhs) hx']
      · rcases lt_trichotomy hi.value 0 with hy | hy | hy
        · have h0 := mul_neg_of_neg_of_pos hy hhs
          have : (fin (hi.value * hi.unit.scale) / fin (lo.value * lo.unit.scale) : XR) = ninf := by
            rw [hx, zero_mul]; simp [div_def, div, infMul, h0, h0.le.not_gt]
          rw [this]; rfl
        · have : (fin (hi.value * hi.unit.scale) / fin (lo.value * lo.unit.scale) : XR) = nan := by
            rw [hx, hy, zero_mul, zero_mul]; simp [div_def, div, infMul]
          rw [this]; rfl
        · exact absurd (Or.inl ⟨hx, hy⟩) h2
      · rcases lt_trichotomy hi.value 0 with hy | hy | hy
        · rw [div_fin _ _ (mul_pos hx hls).ne']
          simp [log10, div_neg_of_neg_of_pos (mul_neg_of_neg_of_pos hy hhs) (mul_pos hx hls)]
        · exact absurd (Or.inr ⟨hx, hy⟩) h2
        · exact absurd ⟨hx, hy⟩ h1
    rw [this]; exact gridSize_nan _

/-- **C96 (protons: limits not positive; partial).** `compute_Wp(lo, hi)` treats limits as `compute_We` does, except
that limits that are not energies raise UnitConversionError. The energy content `Wp` of a model with these limits, and
with it every spectrum, agrees if at least one of them is zero or positive, except that a negative lower limit with a
zero upper one gives OverflowError. Missing: both limits negative, where the code goes on with an array of NaN
(the model has ValueError; see `C96_proton_limits_all`). -/
theorem C96_proton_limits_partial (m : PrModel) (pd : PDist) (hu : pd.unit.dim = Dim.diffEnergy) (hn : 0 < m.nEpd)
    (lo hi : Qty ℝ) :
    (AnyEnergy lo → AnyEnergy hi →
      (∀ e, limitsError lo.value hi.value = some e → m.computeWp pd (some lo) (some hi) = .error e) ∧
      (limitsError lo.value hi.value = none → ∃ w, m.computeWp pd (some lo) (some hi) = .ok w) ∧
      (∀ e, limitsError lo.value hi.value = some e → ¬ (lo.value < 0 ∧ hi.value ≤ 0) →
        PrModel.Wp { m with Epmin := lo, Epmax := hi } pd = .error e) ∧
      (lo.value < 0 → hi.value = 0 →
        PrModel.Wp { m with Epmin := lo, Epmax := hi } pd = .error .overflowError) ∧
      (limitsError lo.value hi.value = none →
        ∃ w, PrModel.Wp { m with Epmin := lo, Epmax := hi } pd = .ok w)) ∧
    (lo.unit.dim ≠ Dim.energy ∨ hi.unit.dim ≠ Dim.energy →
      m.computeWp pd (some lo) (some hi) = .error .unitConversionError ∧
      PrModel.Wp { m with Epmin := lo, Epmax := hi } pd = .error .unitConversionError) := by
  have cw : ∀ e, epGrid m.nEpd lo hi = .error e → m.computeWp pd (some lo) (some hi) = .error e := by
    intro e he
    unfold PrModel.computeWp
    simp only [Option.getD_some, bind, Except.bind]
    rw [he]
  have ww : ∀ e, PrModel.Ep { m with Epmin := lo, Epmax := hi } = .error e →
      PrModel.Wp { m with Epmin := lo, Epmax := hi } pd = .error e := by
    intro e he
    unfold PrModel.Wp
    rw [he]; rfl
  refine ⟨fun hlo hhi => ?_, fun h => ⟨cw _ ?_, ww _ ?_⟩⟩
  · have gl : inGeV lo = .ok (lo.value * (lo.unit.scale / PhysUnit.GeV.scale)) := by
      unfold inGeV Qty.toReal; rw [if_pos (by rw [hlo.isEnergy]; rfl)]
    have gh : inGeV hi = .ok (hi.value * (hi.unit.scale / PhysUnit.GeV.scale)) := by
      unfold inGeV Qty.toReal; rw [if_pos (by rw [hhi.isEnergy]; rfl)]
    have ep : ∀ e, gridSize (fin m.nEpd) (decadesRatio lo hi) = .error e →
        PrModel.Ep { m with Epmin := lo, Epmax := hi } = .error e := by
      intro e he
      unfold PrModel.Ep
      simp only [gl, gh, he, bind, Except.bind]
    have hls := hlo.proper
    have hhs := hhi.proper
    refine ⟨fun e he => cw e (epGrid_class _ hn _ _ hlo hhi e he), fun h0 => ?_, fun e he hnn => ?_,
      fun h1 h2 => ?_, fun h0 => ?_⟩
    · unfold limitsError at h0
      split_ifs at h0 with h1
      obtain ⟨k, -, g⟩ := epGrid_eq m.nEpd lo hi (hlo.pos h1.1) (hhi.pos h1.2)
      unfold PrModel.computeWp
      simp only [Option.getD_some, bind, Except.bind]
      rw [g]
      simp only [wpQty]
      rw [if_pos hu]
      exact ⟨_, rfl⟩
    · exact ww e (ep e (ratioSize_class _ hn _ _ hlo hhi e he hnn))
    · apply ww; apply ep
      unfold decadesRatio
      rw [div_fin _ _ (mul_neg_of_neg_of_pos h1 hls).ne, h2,
        show log10 (fin (0 * hi.unit.scale / (lo.value * lo.unit.scale))) = ninf by simp [log10]]
      exact gridSize_ninf _ hn
    · unfold limitsError at h0
      split_ifs at h0 with h1
      obtain ⟨k, -, g⟩ := epGrid_eq m.nEpd lo hi (hlo.pos h1.1) (hhi.pos h1.2)
      rw [show epGrid m.nEpd lo hi = _ from epGrid_eq_Ep { m with Epmin := lo, Epmax := hi }
        (hlo.pos h1.1) (hhi.pos h1.2)] at g
      unfold PrModel.Wp PrModel.J
      rw [g]
      simp only [bind, Except.bind, protOf, PDist.valuesIn]
      rw [if_pos (by rw [hu]; rfl)]
      exact ⟨_, rfl⟩
  · unfold epGrid inGeV Qty.toReal
    rcases h with h | h
    · simp only [if_neg (show ¬ lo.unit.dim = PhysUnit.GeV.dim from h)]; rfl
    · by_cases hl : lo.unit.dim = Dim.energy
      · simp only [if_pos (show lo.unit.dim = PhysUnit.GeV.dim from hl),
          if_neg (show ¬ hi.unit.dim = PhysUnit.GeV.dim from h)]; rfl
      · simp only [if_neg (show ¬ lo.unit.dim = PhysUnit.GeV.dim from hl)]; rfl
  · unfold PrModel.Ep inGeV Qty.toReal
    rcases h with h | h
    · simp only [if_neg (show ¬ lo.unit.dim = PhysUnit.GeV.dim from h)]; rfl
    · by_cases hl : lo.unit.dim = Dim.energy
      · simp only [if_pos (show lo.unit.dim = PhysUnit.GeV.dim from hl),
          if_neg (show ¬ hi.unit.dim = PhysUnit.GeV.dim from h)]; rfl
      · simp only [if_neg (show ¬ lo.unit.dim = PhysUnit.GeV.dim from hl)]; rfl

/-! ## Limits in the wrong order -/

/-- A finite number that is not positive. -/
def FiniteNonpos (a : XR) : Prop := ∃ r : ℝ, r ≤ 0 ∧ a = fin r

theorem realBin_neg (x1 x2 y1 y2 : ℝ) (h2 : 0 < x2) (h12 : x2 < x1) (hy1 : 0 < y1) :
    realBin x1 x2 y1 y2 < 0 := by
  have h1 : 0 < x1 := h2.trans h12
  have hr : x2 / x1 < 1 := by rwa [div_lt_one h1]
  have hr0 : 0 < x2 / x1 := div_pos h2 h1
  unfold realBin
  set b := Real.logb 10 (y2 / y1) / Real.logb 10 (x2 / x1)
  split_ifs with h
  · have hbne : b + 1 ≠ 0 := by intro h'; rw [h'] at h; norm_num at h
    have e : x2 * (x2 / x1) ^ b - x1 = x1 * ((x2 / x1) ^ (b + 1) - 1) := by
      rw [Real.rpow_add_one hr0.ne']; field_simp
    rw [e]
    rcases lt_or_gt_of_ne hbne with hb | hb
    · have : 1 < (x2 / x1) ^ (b + 1) := Real.one_lt_rpow_of_pos_of_lt_one_of_neg hr0 hr hb
      apply div_neg_of_pos_of_neg _ hb
      apply mul_pos hy1 (mul_pos h1 _)
      linarith
    · have : (x2 / x1) ^ (b + 1) < 1 := Real.rpow_lt_one hr0.le hr hb
      apply div_neg_of_neg_of_pos _ hb
      apply mul_neg_of_pos_of_neg hy1
      apply mul_neg_of_pos_of_neg h1
      linarith
  · exact mul_neg_of_pos_of_neg (mul_pos h1 hy1) (Real.log_neg hr0 hr)

theorem trapzBin_nonpos (x1 x2 y1 y2 : ℝ) (h2 : 0 < x2) (h12 : x2 ≤ x1) (hy1 : 0 ≤ y1) (hy2 : 0 ≤ y2) :
    ∃ r : ℝ, r ≤ 0 ∧ trapzBin (fin x1) (fin x2) (fin y1) (fin y2) = fin r ∧
      (x2 < x1 → 0 < y1 → 0 < y2 → r < 0) := by
  by_cases hz : y1 = 0 ∨ y2 = 0 ∨ x1 = x2
  · refine ⟨0, le_refl _, trapzBin_zero _ _ _ _ (by simpa using hz), ?_⟩
    intro a b c
    rcases hz with h | h | h
    · exact absurd h b.ne'
    · exact absurd h c.ne'
    · exact absurd h a.ne'
  · push Not at hz
    obtain ⟨a, b, c⟩ := hz
    have y1p : 0 < y1 := lt_of_le_of_ne hy1 (Ne.symm a)
    have y2p : 0 < y2 := lt_of_le_of_ne hy2 (Ne.symm b)
    have hlt : x2 < x1 := lt_of_le_of_ne h12 (Ne.symm c)
    have hp := realBin_neg x1 x2 y1 y2 h2 hlt y1p
    exact ⟨_, hp.le, trapzBin_fin _ _ _ _ (h2.trans hlt) h2 c a (div_pos y2p y1p), fun _ _ _ => hp⟩

/-- the integral of non-negative finite values over a decreasing grid of positive abscissae -/
theorem trapzLL_nonpos {α : Type} (gs : List α) (x : α → ℝ) (y : α → XR) (hx : ∀ g ∈ gs, 0 < x g)
    (hs : (gs.map x).Pairwise (· > ·)) (hy : ∀ g ∈ gs, NN (y g)) :
    ∃ r : ℝ, r ≤ 0 ∧ trapzLL (gs.map (fun g => (fin (x g), y g))) = fin r ∧
      (2 ≤ gs.length → (∀ g ∈ gs, y g ≠ fin 0) → r < 0) := by
  induction gs with
  | nil => exact ⟨0, le_refl _, by simp [trapzLL, trapzIntervals], by simp⟩
  | cons p rest ih =>
    cases rest with
    | nil => exact ⟨0, le_refl _, by simp [trapzLL, trapzIntervals], by simp⟩
    | cons q rest =>
      have hs' := List.pairwise_cons.1 (by simpa only [List.map_cons] using hs)
      obtain ⟨r, hr, e, -⟩ := ih (fun a ha => hx a (by simp [ha]))
        (by simpa only [List.map_cons] using hs'.2) (fun a ha => hy a (by simp [ha]))
      have hpq : x q < x p := hs'.1 (x q) (by simp)
      obtain ⟨yp, yp0, ep⟩ := hy p (by simp)
      obtain ⟨yq, yq0, eq⟩ := hy q (by simp)
      obtain ⟨s, hs0, e2, hst⟩ := trapzBin_nonpos (x p) (x q) yp yq (hx q (by simp)) hpq.le yp0 yq0
      refine ⟨s + r, by linarith, ?_, ?_⟩
      · unfold trapzLL at e ⊢
        simp only [List.map_cons, trapzIntervals, sum_cons] at e ⊢
        rw [e, ep, eq, e2, add_fin]
      · intro _ hne
        have h1 : yp ≠ 0 := by rintro rfl; exact hne p (by simp) ep
        have h2 : yq ≠ 0 := by rintro rfl; exact hne q (by simp) eq
        have := hst hpq (lt_of_le_of_ne yp0 (Ne.symm h1)) (lt_of_le_of_ne yq0 (Ne.symm h2))
        linarith

theorem logspace_decreasing (a b : ℝ) (n : ℕ) (hab : b < a) (hn : 10 ≤ n) :
    (logspace a b n).Pairwise (· > ·) := by
  unfold logspace
  rw [List.pairwise_map]
  have hn1 : (0 : ℝ) < (n : ℝ) - 1 := by
    have : (10 : ℝ) ≤ n := by exact_mod_cast hn
    linarith
  have hs : (b - a) / ((n : ℝ) - 1) < 0 := div_neg_of_neg_of_pos (by linarith) hn1
  refine List.Pairwise.imp ?_ (List.pairwise_lt_range (n := n))
  intro i j hij
  apply Real.rpow_lt_rpow_of_exponent_lt (by norm_num)
  have : (i : ℝ) < j := by exact_mod_cast hij
  have := mul_lt_mul_of_neg_right this hs
  linarith

theorem gamGrid_reversed (n : ℝ) (lo hi : Qty ℝ) (hlo : lo.PosEnergy) (hhi : hi.PosEnergy)
    (hlt : hi.phys < lo.phys) :
    ∃ gam, gamGrid n lo hi = .ok gam ∧ (∀ g ∈ gam, 0 < g) ∧ gam.Pairwise (· > ·) ∧ 10 ≤ gam.length := by
  refine ⟨_, gamGrid_eq n lo hi hlo hhi, logspace_pos _ _ _, ?_, ?_⟩
  · apply logspace_decreasing
    · exact Real.logb_lt_logb (by norm_num) (div_pos hhi.phys_pos cMec2_pos)
        (div_lt_div_of_pos_right hlt cMec2_pos)
    · omega
  · rw [logspace_length]; omega

theorem epGrid_reversed (n : ℝ) (lo hi : Qty ℝ) (hlo : lo.PosEnergy) (hhi : hi.PosEnergy)
    (hlt : hi.phys < lo.phys) :
    ∃ ep, epGrid n lo hi = .ok ep ∧ (∀ g ∈ ep, 0 < g) ∧ ep.Pairwise (· > ·) ∧ 10 ≤ ep.length := by
  obtain ⟨k, hk, e⟩ := epGrid_eq n lo hi hlo hhi
  refine ⟨_, e, logspace_pos _ _ _, ?_, ?_⟩
  · apply logspace_decreasing _ _ _ _ hk
    exact Real.logb_lt_logb (by norm_num) (div_pos hhi.phys_pos GeV_pos)
        (div_lt_div_of_pos_right hlt GeV_pos)
  · rw [logspace_length]; exact hk

/-- **C96 is false of the code: limits in the wrong order are accepted.** For every electron model, every positive
distribution and all limits with `lo > hi > 0`, `compute_We(lo, hi)` returns a negative energy. -/
theorem C96_false_reversed_We (m : ElModel) (pd : PDist) (p : ℝ → ℝ)
    (hu : pd.unit.dim = Dim.diffEnergy) (hus : 0 < pd.unit.scale)
    (lo hi : Qty ℝ) (hlo : lo.PosEnergy) (hhi : hi.PosEnergy) (hlt : hi.phys < lo.phys)
    (hp : ∀ e, 0 < e → pd.f e = fin (p e) ∧ 0 < p e) :
    ∃ w : ℝ, w < 0 ∧ m.computeWe pd (some lo) (some hi) = .ok (fin w) := by
  obtain ⟨gam, hg, hpos, hdec, hlen⟩ := gamGrid_reversed m.nEed lo hi hlo hhi hlt
  have hm := cMec2_pos
  set k := pd.unit.scale / perMec2.scale with hk
  have hk0 : 0 < k := by
    apply div_pos hus
    simp only [perMec2]; positivity
  have hn : nelecOf pd gam = .ok (gam.map (fun g => fin (p (g * cMec2) * k))) := by
    unfold nelecOf PDist.valuesIn
    rw [if_pos (by rw [hu]; rfl), List.map_map]
    congr 1
    apply List.map_congr_left
    intro g hgm
    simp only [Function.comp_apply]
    rw [(hp _ (mul_pos (hpos g hgm) hm)).1, mul_fin]
  have hy : ∀ g ∈ gam, 0 < g * (p (g * cMec2) * k) := fun g hgm =>
    mul_pos (hpos g hgm) (mul_pos (hp _ (mul_pos (hpos g hgm) hm)).2 hk0)
  obtain ⟨r, -, e, hr⟩ := trapzLL_nonpos gam (fun g => g * cMec2) (fun g => fin (g * (p (g * cMec2) * k)))
    (fun g hgm => mul_pos (hpos g hgm) hm)
    (by rw [List.pairwise_map]; exact hdec.imp (fun h => mul_lt_mul_of_pos_right h hm))
    (fun g hgm => ⟨_, (hy g hgm).le, rfl⟩)
  refine ⟨r, hr (by omega) (fun g hgm h => (hy g hgm).ne' (by injection h)), ?_⟩
  unfold ElModel.computeWe
  simp only [Option.getD_some, hg, bind, Except.bind, hn, pure, Except.pure]
  congr 1
  unfold weOf trapz
  rw [← e]
  congr 1
  rw [List.zipWith_map_right, List.zipWith_self, List.zip_map']
  apply List.map_congr_left
  intro g _
  simp

/-- **C96 is false of the code: limits in the wrong order are accepted (protons).** -/
theorem C96_false_reversed_Wp (m : PrModel) (pd : PDist) (p : ℝ → ℝ)
    (hu : pd.unit.dim = Dim.diffEnergy) (hus : 0 < pd.unit.scale)
    (lo hi : Qty ℝ) (hlo : lo.PosEnergy) (hhi : hi.PosEnergy) (hlt : hi.phys < lo.phys)
    (hp : ∀ e, 0 < e → pd.f e = fin (p e) ∧ 0 < p e) :
    ∃ w : ℝ, w < 0 ∧ m.computeWp pd (some lo) (some hi) = .ok (fin w) := by
  obtain ⟨ep, hg, hpos, hdec, hlen⟩ := epGrid_reversed m.nEpd lo hi hlo hhi hlt
  have hG := GeV_pos
  have hy : ∀ g ∈ ep, 0 < g * p (g * PhysUnit.GeV.scale) := fun g hgm =>
    mul_pos (hpos g hgm) (hp _ (mul_pos (hpos g hgm) hG)).2
  obtain ⟨r, -, e, hr⟩ := trapzLL_nonpos ep (fun g => g) (fun g => fin (g * p (g * PhysUnit.GeV.scale)))
    hpos (by simpa using hdec) (fun g hgm => ⟨_, (hy g hgm).le, rfl⟩)
  have hr' := hr (by omega) (fun g hgm h => (hy g hgm).ne' (by injection h))
  refine ⟨r * (PhysUnit.GeV.scale * pd.unit.scale * PhysUnit.GeV.scale),
    mul_neg_of_neg_of_pos hr' (by positivity), ?_⟩
  unfold PrModel.computeWp
  simp only [Option.getD_some, hg, bind, Except.bind, wpQty]
  rw [if_pos hu, ← mul_fin r, ← e]
  congr 2
  unfold trapz
  rw [List.zip_map']
  congr 1
  apply List.map_congr_left
  intro g hgm
  rw [(hp _ (mul_pos (hpos g hgm) hG)).1, mul_fin]

/-- **C96 is false of the code: negative spectra.** With `Eemin > Eemax > 0`, a positive magnetic field and a finite
non-negative distribution, the synchrotron spectrum is computed at every list of positive photon energies, and none
of its values is positive. -/
theorem C96_false_reversed_synchrotron (m : SyncModel) (pd : PDist) (hu : pd.unit.dim = Dim.diffEnergy)
    (hus : 0 < pd.unit.scale) (hpd : ∀ e, 0 < e → FiniteNonneg (pd.f e))
    (hlo : m.Eemin.PosEnergy) (hhi : m.Eemax.PosEnergy) (hlt : m.Eemax.phys < m.Eemin.phys)
    (hB : m.B.unit.dim = Dim.magFluxDensity) (hBp : 0 < m.B.phys) (es : List ℝ) (hes : ∀ e ∈ es, 0 < e) :
    ∃ out, m.spectrum pd es = .ok out ∧ out.length = es.length ∧ ∀ a ∈ out, FiniteNonpos a := by
  obtain ⟨gam, hg, hpos, hdec, -⟩ := gamGrid_reversed m.nEed m.Eemin m.Eemax hlo hhi hlt
  have hg : m.toElModel.gam = .ok gam := hg
  have hb : m.B.toReal gauss = .ok (m.B.phys / 0.1) := by
    unfold Qty.toReal
    rw [if_pos (by rw [hB]; rfl), phys_ratio]; rfl
  have hb0 : 0 < m.B.phys / 0.1 := by positivity
  have hn := nelec_eq m.toElModel pd hu gam hg
  set n := (gam.map (· * cMec2)).map (fun e => pd.f e * XR.fin (pd.unit.scale / perMec2.scale)) with hnd
  have hnn : ∀ a ∈ n, NN a := by
    intro a ha
    simp only [hnd, List.map_map, List.mem_map, Function.comp_apply] at ha
    obtain ⟨g, hg, rfl⟩ := ha
    apply NN.mul (hpd _ (mul_pos (hpos g hg) cMec2_pos))
    have := cMec2_pos
    apply NN.fin
    simp only [perMec2]; positivity
  refine ⟨es.map (syncAt (m.B.phys / 0.1) (gam.zip n)), by rw [m.spectrum_eq, hb, hg, hn]; rfl, by simp, ?_⟩
  intro a ha
  obtain ⟨e, he, rfl⟩ := List.mem_map.1 ha
  obtain ⟨r, hr, er, -⟩ := trapzLL_nonpos (gam.zip n) (fun p => p.1)
    (fun p => p.2 * syncKernel (m.B.phys / 0.1) p.1 e)
    (fun p hp => hpos _ (List.of_mem_zip hp).1)
    (by rw [List.map_fst_zip (by simp [hnd])]; exact hdec)
    (fun p hp => NN.mul (hnn _ (List.of_mem_zip hp).2)
      (syncKernel_NN _ _ _ hb0 (hpos _ (List.of_mem_zip hp).1) (hes e he)))
  unfold syncAt
  rw [er, mul_fin]
  exact ⟨_, mul_nonpos_of_nonpos_of_nonneg hr cEV_pos.le, rfl⟩

/-- **C96 is false of the code: negative normalisation.** After `set_We(W, lo, hi)` with `W > 0` and limits in the
wrong order, the amplitude has changed its sign: it has been multiplied by a negative number. -/
theorem C96_false_reversed_set_We (m : ElModel) (pdOf : Dict String (Qty XR) → PDist) (p : ℝ → ℝ)
    (o : DistObj) (h : Store) (r : Nat) (hr : o.attrs.get? "amplitude" = some r)
    (hu : (pdOf (o.vals h)).unit.dim = Dim.diffEnergy) (hus : 0 < (pdOf (o.vals h)).unit.scale)
    (lo hi : Qty ℝ) (hlo : lo.PosEnergy) (hhi : hi.PosEnergy) (hlt : hi.phys < lo.phys)
    (hp : ∀ e, 0 < e → (pdOf (o.vals h)).f e = fin (p e) ∧ 0 < p e) (W : Qty ℝ) (hW : W.PosEnergy) :
    ∃ (c : ℝ) (h' : Store), c < 0 ∧
      setEnergy (fun v => m.computeWe (pdOf v) (some lo) (some hi)) o h W.lift none = .ok (o, h') ∧
      ∀ q, h[r]? = some q → h'[r]? = some ⟨q.value * fin c, q.unit⟩ := by
  obtain ⟨w, hw, hold⟩ := C96_false_reversed_We m (pdOf (o.vals h)) p hu hus lo hi hlo hhi hlt hp
  refine ⟨W.phys / w, h.modify r (fun q => ⟨q.value * fin (W.phys / w), q.unit⟩),
    div_neg_of_pos_of_neg hW.phys_pos hw, ?_, ?_⟩
  · unfold setEnergy
    rw [if_neg (by simpa [Qty.lift] using hW.isEnergy)]
    simp only [bind, Except.bind, hold]
    have hrat : weRatio W.lift (fin w) = fin (W.phys / w) := by
      unfold weRatio Qty.lift Qty.phys
      rw [mul_fin, div_fin _ _ hw.ne]
    rw [hrat]
    simp only [rescale, hr, pure, Except.pure]
  · intro q hq
    rw [List.getElem?_modify, hq]
    simp

/-- Non-vacuity: 1 TeV and 1 GeV in the wrong order. -/
example : ∃ w : ℝ, w < 0 ∧
    (⟨⟨1, PhysUnit.GeV⟩, ⟨510, PhysUnit.TeV⟩, 100⟩ : ElModel).computeWe ⟨⟨1, Dim.diffEnergy⟩, fun e => fin (e ^ (-2 : ℝ))⟩
      (some ⟨1, PhysUnit.TeV⟩) (some ⟨1, PhysUnit.GeV⟩) = .ok (fin w) := by
  apply C96_false_reversed_We _ _ (fun e => e ^ (-2 : ℝ)) rfl (by norm_num)
  · exact ⟨rfl, by simp only [PhysUnit.TeV]; norm_num, by norm_num⟩
  · exact ⟨rfl, by simp only [PhysUnit.GeV]; norm_num, by norm_num⟩
  · simp only [Qty.phys, PhysUnit.TeV, PhysUnit.GeV]; norm_num
  · intro e he; exact ⟨rfl, Real.rpow_pos_of_pos he _⟩

/-- Non-vacuity: zero, negative and ordinary limits. -/
example : limitsError 0 1 = some .overflowError ∧ limitsError (-1) 1 = some .valueError ∧
    limitsError 1 2 = none := by
  refine ⟨?_, ?_, ?_⟩ <;> norm_num [limitsError]

end Naima.Props
