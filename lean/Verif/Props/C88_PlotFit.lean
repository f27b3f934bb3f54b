import Verif.Model.PlotFit
import Verif.Props.C33_Sed
import Verif.Props.C80_PlotData

/-! # C88: what `plot_fit` shows -/

namespace Naima.Props

open Naima XR Classical

/-! ### Specification -/

/-- Both flux-like, both luminosity-like, or both total energies; differential or not. -/
def SameSpectralKind (a b : Dim) : Prop :=
  (a ∈ [Dim.flux, Dim.diffFlux] ∧ b ∈ [Dim.flux, Dim.diffFlux]) ∨
  (a ∈ [Dim.power, Dim.diffPower] ∧ b ∈ [Dim.power, Dim.diffPower]) ∨
  (a ∈ [Dim.energy, Dim.diffEnergy] ∧ b ∈ [Dim.energy, Dim.diffEnergy])

/-- whether the figure shows the data -/
def _root_.Naima.FitFigure.showsData : FitFigure → Bool
  | .dataOnly => true
  | .model _ d _ _ => d

/-- whether the figure shows the residuals -/
def _root_.Naima.FitFigure.showsResiduals : FitFigure → Bool
  | .dataOnly => false
  | .model _ _ r _ => r

/-- whether the figure shows the model, and how -/
def _root_.Naima.FitFigure.layer : FitFigure → Option ModelLayer
  | .dataOnly => none
  | .model l _ _ _ => some l

/-- whether the maximum likelihood parameters are printed -/
def _root_.Naima.FitFigure.info : FitFigure → Bool
  | .dataOnly => false
  | .model _ _ _ i => i

/-- the model is asked for as bands or as samples -/
def asked (a : FitArgs) : Prop := a.confs ≠ none ∨ ∃ n, a.nSamples = some n ∧ 0 < n

/-! ### Lemmas -/

theorem sed_dim_eq_iff (u v : PhysUnit) (hu : SpectralType u.dim) (hv : SpectralType v.dim) (sed : Bool)
    (fu fv : PhysUnit) (s s' : SedFactor) (h1 : sedConversion u sed = .ok (fu, s))
    (h2 : sedConversion v sed = .ok (fv, s')) : fu.dim = fv.dim ↔ SameSpectralKind u.dim v.dim := by
  obtain ⟨a, d⟩ := u
  obtain ⟨b, e⟩ := v
  simp only at hu hv
  rcases hu with rfl | rfl | rfl | rfl | rfl | rfl <;> rcases hv with rfl | rfl | rfl | rfl | rfl | rfl <;>
    cases sed <;>
    · simp [sedConversion, Dim.diffFlux, Dim.diffPower, Dim.diffEnergy, Dim.flux, Dim.power, Dim.energy,
        Dim.diffNumDensity] at h1 h2
      obtain ⟨rfl, rfl⟩ := h1
      obtain ⟨rfl, rfl⟩ := h2
      simp [SameSpectralKind, perTeV, perSTeV, perSTeVCm2, PhysUnit.erg, ergPerS, ergPerSCm2,
        Dim.diffFlux, Dim.diffPower, Dim.diffEnergy, Dim.flux, Dim.power, Dim.energy]

theorem truthy_iff (n : Option ℕ) : truthy n = true ↔ ∃ k, n = some k ∧ 0 < k := by
  cases n with
  | none => simp [truthy]
  | some k => simp [truthy, Nat.pos_iff_ne_zero]

theorem asked_iff (a : FitArgs) : asked a ↔ (a.confs.isSome || truthy a.nSamples) = true := by
  unfold asked
  rw [Bool.or_eq_true, truthy_iff]
  cases a.confs <;> simp

/-! ### The layers -/

/-- **C88 (layers).** Whatever the arguments, for data and model of spectral types (differential or SED, flux,
luminosity or energy; the model with any number of points):
the data are shown if asked for, and by default if the model has as many points as the table and is of the
same kind; the residuals are shown if the data are and they are asked for, by default if bands or samples
are; bands take precedence over samples, the best model alone is shown if neither is asked for, except that
then, with the data but without residuals, only the data are shown; the parameters are printed if asked for
together with bands or samples. Missing: the documented defaults, see `C88_false_default_data`,
`C88_false_no_bands`, `C88_false_residuals_alone`. -/
theorem C88_layers_partial (a : FitArgs) (m : FitModel) (t : FitTable) (hm : SpectralType m.fU.dim)
    (ht : SpectralType t.fU.dim) :
    ∃ fig, fitFigure a (some m) t = .ok fig ∧
      (fig.showsData = true ↔ a.plotdata = some true ∨
        (a.plotdata = none ∧ m.pts.length = t.rows.length ∧ SameSpectralKind m.fU.dim t.fU.dim)) ∧
      (fig.showsResiduals = true ↔ fig.showsData = true ∧
        (a.plotresiduals = some true ∨ (a.plotresiduals = none ∧ asked a))) ∧
      (∀ c, a.confs = some c → fig.layer = some (.bands c)) ∧
      (∀ n, a.confs = none → a.nSamples = some n → 0 < n → fig.layer = some (.samples n)) ∧
      (¬ asked a → fig.layer = if fig.showsData = true ∧ a.plotresiduals ≠ some true then none else some .best) ∧
      (fig.info = true ↔ a.mlInfo = true ∧ asked a) := by
  obtain ⟨mu, ms, hmu, -⟩ := C33_dimensions m.fU hm a.sed
  obtain ⟨tu, ts, htu, -⟩ := C33_dimensions t.fU ht a.sed
  have hk := sed_dim_eq_iff m.fU t.fU hm ht a.sed mu tu ms ts hmu htu
  obtain ⟨pd, hpd, hpd'⟩ : ∃ pd, fitPlotdata a (some m) t = .ok pd ∧ (pd = true ↔ a.plotdata = some true ∨
        (a.plotdata = none ∧ m.pts.length = t.rows.length ∧ SameSpectralKind m.fU.dim t.fU.dim)) := by
    unfold fitPlotdata
    cases hp : a.plotdata with
    | some b => exact ⟨b, rfl, by simp⟩
    | none =>
      simp only [hmu, htu]
      by_cases hl : m.pts.length = t.rows.length
      · rw [if_pos hl]
        refine ⟨_, rfl, ?_⟩
        rw [decide_eq_true_iff, hk]
        simp [hl]
      · rw [if_neg hl]
        exact ⟨false, rfl, by simp [hl]⟩
  have hask := asked_iff a
  by_cases had : asked a
  · have h1 := hask.1 had
    have hnot : (a.confs.isNone && !truthy a.nSamples && pd && !fitPlotresiduals a pd) = false := by
      cases hc : a.confs with
      | some c => rfl
      | none =>
        rw [hc] at h1
        have : truthy a.nSamples = true := by simpa using h1
        simp [this]
    refine ⟨.model (match a.confs with
        | some c => ModelLayer.bands c
        | none => if truthy a.nSamples then .samples (a.nSamples.getD 0) else .best) pd
        (pd && fitPlotresiduals a pd) (a.mlInfo && (a.confs.isSome || truthy a.nSamples)), ?_, ?_, ?_, ?_, ?_, ?_, ?_⟩
    · unfold fitFigure
      rw [hpd]
      simp only [hnot, Bool.false_eq_true, if_false]
      rfl
    · exact hpd'
    · simp only [FitFigure.showsResiduals, FitFigure.showsData]
      unfold fitPlotresiduals
      cases hr : a.plotresiduals with
      | none => simp [h1, had]
      | some b => simp
    · intro c hc
      simp only [FitFigure.layer, hc]
    · intro n hc hn hpos
      have : truthy a.nSamples = true := (truthy_iff _).2 ⟨n, hn, hpos⟩
      simp only [FitFigure.layer, hc, hn, Option.getD_some]
      rw [hn] at this
      rw [if_pos this]
    · intro h; exact absurd had h
    · simp only [FitFigure.info, h1, Bool.and_true]
      exact ⟨fun h => ⟨h, had⟩, fun h => h.1⟩
  · have h1 : (a.confs.isSome || truthy a.nSamples) = false := by
      rw [← Bool.not_eq_true]; exact fun h => had (hask.2 h)
    have hc : a.confs = none := by
      cases hc : a.confs with
      | none => rfl
      | some c => rw [hc] at h1; simp at h1
    have hn : truthy a.nSamples = false := by
      rw [hc] at h1; simpa using h1
    by_cases hd : pd = true ∧ fitPlotresiduals a pd = false
    · refine ⟨.dataOnly, ?_, ?_, ?_, ?_, ?_, ?_, ?_⟩
      · unfold fitFigure
        rw [hpd]
        simp [hc, hn, hd.1]
        rw [hd.1] at hd
        simp [hd.2]
      · rw [← hpd', hd.1]; simp [FitFigure.showsData]
      · simp only [FitFigure.showsResiduals, FitFigure.showsData, Bool.false_eq_true, true_and, false_iff]
        rintro (h | h)
        · have := hd.2
          unfold fitPlotresiduals at this
          rw [h] at this
          cases this
        · exact had h.2
      · intro c h; rw [hc] at h; cases h
      · intro n _ h hp
        have := (truthy_iff a.nSamples).2 ⟨n, h, hp⟩
        rw [hn] at this; cases this
      · intro _
        rw [if_pos]
        · rfl
        · refine ⟨rfl, fun h => ?_⟩
          have := hd.2
          unfold fitPlotresiduals at this
          rw [h] at this
          cases this
      · simp only [FitFigure.info, Bool.false_eq_true, false_iff]
        exact fun h => had h.2
    · have hnot : (a.confs.isNone && !truthy a.nSamples && pd && !fitPlotresiduals a pd) = false := by
        by_contra h
        rw [Bool.not_eq_false] at h
        simp only [Bool.and_eq_true, Bool.not_eq_true'] at h
        exact hd ⟨h.1.2, h.2⟩
      refine ⟨.model .best pd (pd && fitPlotresiduals a pd) false, ?_, ?_, ?_, ?_, ?_, ?_, ?_⟩
      · unfold fitFigure
        rw [hpd]
        simp only [hnot, Bool.false_eq_true, if_false]
        simp only [hc, hn, Bool.false_eq_true, if_false, Option.isSome_none, Bool.or_self, Bool.and_false]
      · exact hpd'
      · simp only [FitFigure.showsResiduals, FitFigure.showsData]
        unfold fitPlotresiduals
        cases hr : a.plotresiduals with
        | none => simp [h1, had]
        | some b => simp
      · intro c h; rw [hc] at h; cases h
      · intro n _ h hp
        have := (truthy_iff a.nSamples).2 ⟨n, h, hp⟩
        rw [hn] at this; cases this
      · intro _
        rw [if_neg]
        · rfl
        · rintro ⟨h, h'⟩
          apply hd
          refine ⟨h, ?_⟩
          unfold fitPlotresiduals
          cases hr : a.plotresiduals with
          | none => simp only [h1, Bool.and_false]
          | some b =>
            cases b with
            | false => rfl
            | true => exact absurd hr h'
      · simp only [FitFigure.info, Bool.false_eq_true, false_iff]
        exact fun h => had h.2

/-- **C88 is false** of the documented default of `plotdata` ("True if the physical types of the data and the
model match"): with a model of the same physical type and another number of points, they are not shown. -/
theorem C88_false_default_data (m : FitModel) (t : FitTable) (hm : SpectralType m.fU.dim)
    (ht : m.fU.dim = t.fU.dim) (hl : m.pts.length ≠ t.rows.length) :
    ∃ fig, fitFigure {} (some m) t = .ok fig ∧ fig.showsData = false := by
  obtain ⟨fig, h, hd, -⟩ := C88_layers_partial {} m t hm (ht ▸ hm)
  refine ⟨fig, h, ?_⟩
  rw [← Bool.not_eq_true, hd]
  rintro (h | h)
  · cases h
  · exact hl h.2.1

/-- **C88 is false** of the documented meaning of `n_samples=None` ("confidence bands will be plotted instead
of samples"): there are no bands, and for a model of the kind of the data and as many points there is no
model at all. -/
theorem C88_false_no_bands (m : FitModel) (t : FitTable) (hm : SpectralType m.fU.dim)
    (ht : SpectralType t.fU.dim) :
    ∃ fig, fitFigure { nSamples := none } (some m) t = .ok fig ∧ (∀ c, fig.layer ≠ some (.bands c)) ∧
      (m.pts.length = t.rows.length → SameSpectralKind m.fU.dim t.fU.dim → fig.layer = none) := by
  obtain ⟨fig, h, hd, -, -, -, hl, -⟩ := C88_layers_partial { nSamples := none } m t hm ht
  have hna : ¬ asked ({ nSamples := none } : FitArgs) := by
    rintro (h | ⟨n, h, -⟩)
    · exact h rfl
    · cases h
  refine ⟨fig, h, ?_, ?_⟩
  · intro c
    rw [hl hna]
    split_ifs
    · exact fun h => by cases h
    · exact fun h => by cases h
  · intro h1 h2
    rw [hl hna, if_pos]
    exact ⟨hd.2 (Or.inr ⟨rfl, h1, h2⟩), fun h => by cases h⟩

/-- **C88 is false** for `plotresiduals=True` without data: no residuals are shown, and nothing is raised. -/
theorem C88_false_residuals_alone (m : FitModel) (t : FitTable) (hm : SpectralType m.fU.dim)
    (ht : SpectralType t.fU.dim) :
    ∃ fig, fitFigure { plotdata := some false, plotresiduals := some true } (some m) t = .ok fig ∧
      fig.showsResiduals = false := by
  obtain ⟨fig, h, hd, hr, -⟩ := C88_layers_partial { plotdata := some false, plotresiduals := some true } m t hm ht
  refine ⟨fig, h, ?_⟩
  rw [← Bool.not_eq_true, hr, hd]
  rintro ⟨h | h, -⟩
  · cases h
  · cases h.1

/-! ### The limits of the axes -/

/-- **C88 (axis with data).** For every table with at least one row whose horizontal bars lie within positive
energies, every unit of the axis and every `e_range`: the axis shows the horizontal bar of every point and
all of `e_range`, and extends over less than a decade more than needed. -/
theorem C88_axis_data (ax : Axis) (eU : PhysUnit) (t : FitTable) (err : FitRow → ℝ × ℝ) (m : FitModel)
    (sed : Bool) (eRange : Option (ℝ × ℝ)) (hU : 0 < eU.scale) (htU : 0 < t.eU.scale)
    (hne : t.rows ≠ []) (hpos : ∀ r ∈ t.rows, 0 < r.e - (err r).1 ∧ 0 < r.e + (err r).2) :
    ∃ a, fitAxis ax eU t err m sed true eRange = .ok a ∧
      (∀ r ∈ t.rows, a.xmin * eU.scale ≤ (r.e - (err r).1) * t.eU.scale ∧
        (r.e + (err r).2) * t.eU.scale ≤ a.xmax * eU.scale) ∧
      (∀ lo hi, eRange = some (lo, hi) → a.xmin ≤ lo ∧ hi ≤ a.xmax) ∧
      ((∃ r ∈ t.rows, (r.e - (err r).1) * t.eU.scale < 10 * a.xmin * eU.scale) ∨
        ∃ lo hi, eRange = some (lo, hi) ∧ a.xmin = lo) ∧
      ((∃ r ∈ t.rows, a.xmax * eU.scale < 10 * ((r.e + (err r).2) * t.eU.scale)) ∨
        ∃ lo hi, eRange = some (lo, hi) ∧ a.xmax = hi) ∧
      a.ymin = ax.ymin ∧ a.ymax = ax.ymax := by
  obtain ⟨mlo, hlo1, hlo2, hlo3⟩ := npMinArr_ok (t.rows.map (fun r => r.e - (err r).1)) (by simpa using hne)
  obtain ⟨mhi, hhi1, hhi2, hhi3⟩ := npMaxArr_ok (t.rows.map (fun r => r.e + (err r).2)) (by simpa using hne)
  have hk : 0 < t.eU.scale / eU.scale := div_pos htU hU
  obtain ⟨rlo, hrlo, elo⟩ := List.mem_map.1 hlo1
  obtain ⟨rhi, hrhi, ehi⟩ := List.mem_map.1 hhi1
  have hlop : 0 < mlo * (t.eU.scale / eU.scale) := by
    rw [← elo]; exact mul_pos (hpos rlo hrlo).1 hk
  have hhip : 0 < mhi * (t.eU.scale / eU.scale) := by
    rw [← ehi]; exact mul_pos (hpos rhi hrhi).2 hk
  set L := mlo * (t.eU.scale / eU.scale) with hL
  set H := mhi * (t.eU.scale / eU.scale) with hH
  have hx : drawXlim eU t.eU err t.rows = .ok (some
      ((10:ℝ) ^ ⌊Real.logb 10 L⌋, (10:ℝ) ^ ⌈Real.logb 10 H⌉)) := by
    unfold drawXlim
    simp only [hlo2, hhi2, bind, Except.bind, pure, Except.pure]
    rw [if_neg (by push Not; exact ⟨hlop.le, hhip.le⟩),
      if_neg (by push Not; exact ⟨hlop.ne', hhip.ne'⟩)]
  have hax : fitAxis ax eU t err m sed true eRange = .ok (fitErange
      { ax with xmin := (10:ℝ) ^ ⌊Real.logb 10 L⌋, xmax := (10:ℝ) ^ ⌈Real.logb 10 H⌉ } eRange) := by
    unfold fitAxis fitXlimData
    simp only [if_true, hx]
  have z10 : ∀ (k : ℤ), (10:ℝ) ^ k = (10:ℝ) ^ (k : ℝ) := fun k => (Real.rpow_intCast 10 k).symm
  have l1 : (10:ℝ) ^ ⌊Real.logb 10 L⌋ ≤ L := by
    rw [z10, ← Real.le_logb_iff_rpow_le (by norm_num) hlop]
    exact Int.floor_le _
  have l2 : L < 10 * (10:ℝ) ^ ⌊Real.logb 10 L⌋ := by
    have : L < (10:ℝ) ^ ((⌊Real.logb 10 L⌋ : ℝ) + 1) := by
      rw [← Real.logb_lt_iff_lt_rpow (by norm_num) hlop]
      exact Int.lt_floor_add_one _
    rw [Real.rpow_add (by norm_num), Real.rpow_one, ← z10] at this
    linarith
  have u1 : H ≤ (10:ℝ) ^ ⌈Real.logb 10 H⌉ := by
    rw [z10, ← Real.logb_le_iff_le_rpow (by norm_num) hhip]
    exact Int.le_ceil _
  have u2 : (10:ℝ) ^ ⌈Real.logb 10 H⌉ < 10 * H := by
    have : (10:ℝ) ^ ((⌈Real.logb 10 H⌉ : ℝ) - 1) < H := by
      rw [← Real.lt_logb_iff_rpow_lt (by norm_num) hhip]
      have := Int.ceil_lt_add_one (Real.logb 10 H)
      linarith
    rw [Real.rpow_sub (by norm_num), Real.rpow_one, ← z10] at this
    rw [div_lt_iff₀ (by norm_num)] at this
    linarith
  have lowb : ∀ r ∈ t.rows, L * eU.scale ≤ (r.e - (err r).1) * t.eU.scale := by
    intro r hr
    have := hlo3 _ (List.mem_map_of_mem hr)
    rw [hL, mul_assoc, div_mul_cancel₀ _ hU.ne']
    exact mul_le_mul_of_nonneg_right this htU.le
  have upb : ∀ r ∈ t.rows, (r.e + (err r).2) * t.eU.scale ≤ H * eU.scale := by
    intro r hr
    have := hhi3 _ (List.mem_map_of_mem hr)
    rw [hH, mul_assoc, div_mul_cancel₀ _ hU.ne']
    exact mul_le_mul_of_nonneg_right this htU.le
  have lowe : (rlo.e - (err rlo).1) * t.eU.scale = L * eU.scale := by
    rw [hL, mul_assoc, div_mul_cancel₀ _ hU.ne', ← elo]
  have upe : (rhi.e + (err rhi).2) * t.eU.scale = H * eU.scale := by
    rw [hH, mul_assoc, div_mul_cancel₀ _ hU.ne', ← ehi]
  have tl : (rlo.e - (err rlo).1) * t.eU.scale < 10 * (10:ℝ) ^ ⌊Real.logb 10 L⌋ * eU.scale := by
    rw [lowe]; exact mul_lt_mul_of_pos_right l2 hU
  have tu : (10:ℝ) ^ ⌈Real.logb 10 H⌉ * eU.scale < 10 * ((rhi.e + (err rhi).2) * t.eU.scale) := by
    rw [upe, ← mul_assoc]; exact mul_lt_mul_of_pos_right u2 hU
  refine ⟨_, hax, ?_⟩
  cases eRange with
  | none =>
    refine ⟨fun r hr => ⟨?_, ?_⟩, fun lo hi h => (by cases h), Or.inl ⟨rlo, hrlo, tl⟩, Or.inl ⟨rhi, hrhi, tu⟩, rfl, rfl⟩
    · exact (mul_le_mul_of_nonneg_right l1 hU.le).trans (lowb r hr)
    · exact (upb r hr).trans (mul_le_mul_of_nonneg_right u1 hU.le)
  | some p =>
    obtain ⟨lo, hi⟩ := p
    refine ⟨fun r hr => ⟨?_, ?_⟩, ?_, ?_, ?_, rfl, rfl⟩
    · exact (mul_le_mul_of_nonneg_right ((min_le_left _ _).trans l1) hU.le).trans (lowb r hr)
    · exact (upb r hr).trans (mul_le_mul_of_nonneg_right (u1.trans (le_max_left _ _)) hU.le)
    · intro lo' hi' h
      cases h
      exact ⟨min_le_right _ _, le_max_right _ _⟩
    · rcases min_choice ((10:ℝ) ^ ⌊Real.logb 10 L⌋) lo with h | h
      · left
        refine ⟨rlo, hrlo, ?_⟩
        show _ < 10 * (min _ _) * _
        rw [h]; exact tl
      · right; exact ⟨lo, hi, rfl, h⟩
    · rcases max_choice ((10:ℝ) ^ ⌈Real.logb 10 H⌉) hi with h | h
      · left
        refine ⟨rhi, hrhi, ?_⟩
        show (max _ _) * _ < _
        rw [h]; exact tu
      · right; exact ⟨lo, hi, rfl, h⟩

/-- **C88 (axis without data).** For every model with positive energies, if some point of it is above the
lower limit: the range shown spans at most 10 decades (20 for a differential spectrum), every point of the
model above its lower limit is left of the right limit, as is all of `e_range`, and the right limit is less
than a decade above the last such point. Missing: models without such a point, see `C88_false_zero_model`. -/
theorem C88_axis_model_partial (ax : Axis) (eU : PhysUnit) (t : FitTable) (err : FitRow → ℝ × ℝ) (m : FitModel)
    (sed : Bool) (eRange : Option (ℝ × ℝ)) (hU : 0 < eU.scale) (hmU : 0 < m.eU.scale)
    (fu : PhysUnit) (s : SedFactor) (hs : sedConversion m.fU sed = .ok (fu, s))
    (hpos : ∀ p ∈ m.pts, 0 < p.1)
    (hvis : ∃ p ∈ m.pts, fin (max ax.ymin (ax.ymax / 10 ^ (if sed then 10 else 20))) <
      p.2 * fin (s.phys (p.1 * m.eU.scale) * (m.fU.scale / fu.scale))) :
    ∃ a, fitAxis ax eU t err m sed false eRange = .ok a ∧
      a.ymax / 10 ^ (if sed then 10 else 20) ≤ a.ymin ∧ ax.ymin ≤ a.ymin ∧ a.ymax = ax.ymax ∧
      (∀ p ∈ m.pts, fin a.ymin < p.2 * fin (s.phys (p.1 * m.eU.scale) * (m.fU.scale / fu.scale)) →
        p.1 * m.eU.scale ≤ a.xmax * eU.scale) ∧
      (∀ lo hi, eRange = some (lo, hi) → a.xmin ≤ lo ∧ hi ≤ a.xmax) ∧
      ((∃ p ∈ m.pts, fin a.ymin < p.2 * fin (s.phys (p.1 * m.eU.scale) * (m.fU.scale / fu.scale)) ∧
          a.xmax * eU.scale < 10 * (p.1 * m.eU.scale)) ∨
        ∃ lo hi, eRange = some (lo, hi) ∧ a.xmax = hi) := by
  set ymin := max ax.ymin (ax.ymax / 10 ^ (if sed then 10 else 20)) with hymin
  set vis := ((m.pts.map (fitPoint m eU fu s)).filter (fun q => decide (fin ymin < q.2))).map (·.1) with hvisdef
  have hmemvis : ∀ x, x ∈ vis ↔ ∃ p ∈ m.pts, fin ymin <
      p.2 * fin (s.phys (p.1 * m.eU.scale) * (m.fU.scale / fu.scale)) ∧ x = p.1 * (m.eU.scale / eU.scale) := by
    intro x
    simp only [hvisdef, List.mem_map, List.mem_filter, decide_eq_true_eq]
    constructor
    · rintro ⟨q, ⟨⟨p, hp, rfl⟩, hq⟩, rfl⟩
      exact ⟨p, hp, hq, rfl⟩
    · rintro ⟨p, hp, hv, rfl⟩
      exact ⟨_, ⟨⟨p, hp, rfl⟩, hv⟩, rfl⟩
  have hne : vis ≠ [] := by
    obtain ⟨p, hp, hv⟩ := hvis
    exact List.ne_nil_of_mem ((hmemvis _).2 ⟨p, hp, hv, rfl⟩)
  obtain ⟨X, hX1, hX2, hX3⟩ := npMaxArr_ok vis hne
  have hk : 0 < m.eU.scale / eU.scale := div_pos hmU hU
  obtain ⟨p0, hp0, hv0, hXe⟩ := (hmemvis X).1 hX1
  have hXp : 0 < X := by rw [hXe]; exact mul_pos (hpos p0 hp0) hk
  have z10 : ∀ (k : ℤ), (10:ℝ) ^ k = (10:ℝ) ^ (k : ℝ) := fun k => (Real.rpow_intCast 10 k).symm
  have u1 : X ≤ (10:ℝ) ^ ⌈Real.logb 10 X⌉ := by
    rw [z10, ← Real.logb_le_iff_le_rpow (by norm_num) hXp]
    exact Int.le_ceil _
  have u2 : (10:ℝ) ^ ⌈Real.logb 10 X⌉ < 10 * X := by
    have : (10:ℝ) ^ ((⌈Real.logb 10 X⌉ : ℝ) - 1) < X := by
      rw [← Real.lt_logb_iff_rpow_lt (by norm_num) hXp]
      have := Int.ceil_lt_add_one (Real.logb 10 X)
      linarith
    rw [Real.rpow_sub (by norm_num), Real.rpow_one, ← z10] at this
    rw [div_lt_iff₀ (by norm_num)] at this
    linarith
  have hax : fitAxis ax eU t err m sed false eRange = .ok (fitErange
      { ax with ymin := ymin, xmax := (10:ℝ) ^ ⌈Real.logb 10 X⌉ } eRange) := by
    unfold fitAxis fitAxisModel
    simp only [Bool.false_eq_true, if_false, hs]
    rw [← hymin, ← hvisdef, hX2]
  have hin : ∀ p ∈ m.pts, fin ymin < p.2 * fin (s.phys (p.1 * m.eU.scale) * (m.fU.scale / fu.scale)) →
      p.1 * m.eU.scale ≤ X * eU.scale := by
    intro p hp hv
    have := hX3 _ ((hmemvis _).2 ⟨p, hp, hv, rfl⟩)
    have h2 := mul_le_mul_of_nonneg_right this hU.le
    rwa [mul_assoc, div_mul_cancel₀ _ hU.ne'] at h2
  have htop : (10:ℝ) ^ ⌈Real.logb 10 X⌉ * eU.scale < 10 * (p0.1 * m.eU.scale) := by
    have := mul_lt_mul_of_pos_right u2 hU
    rwa [hXe, mul_assoc 10, mul_assoc, div_mul_cancel₀ _ hU.ne', ← hXe] at this
  refine ⟨_, hax, ?_⟩
  cases eRange with
  | none =>
    refine ⟨le_max_right _ _, le_max_left _ _, rfl, fun p hp hv => ?_, fun lo hi h => (by cases h), Or.inl ⟨p0, hp0, hv0, htop⟩⟩
    exact (hin p hp hv).trans (mul_le_mul_of_nonneg_right u1 hU.le)
  | some q =>
    obtain ⟨lo, hi⟩ := q
    refine ⟨le_max_right _ _, le_max_left _ _, rfl, fun p hp hv => ?_, ?_, ?_⟩
    · exact (hin p hp hv).trans (mul_le_mul_of_nonneg_right (u1.trans (le_max_left _ _)) hU.le)
    · intro lo' hi' h
      cases h
      exact ⟨min_le_right _ _, le_max_right _ _⟩
    · rcases max_choice ((10:ℝ) ^ ⌈Real.logb 10 X⌉) hi with h | h
      · left
        refine ⟨p0, hp0, hv0, ?_⟩
        show (max _ _) * _ < _
        rw [h]; exact htop
      · right; exact ⟨lo, hi, rfl, h⟩

/-- **C88 is false** for a model that is nowhere positive, for instance zero everywhere: without data
`plot_fit` raises ValueError (`np.max` of an empty array). -/
theorem C88_false_zero_model (ax : Axis) (eU : PhysUnit) (t : FitTable) (err : FitRow → ℝ × ℝ) (m : FitModel)
    (sed : Bool) (eRange : Option (ℝ × ℝ)) (hm : SpectralType m.fU.dim) (hax : 0 < ax.ymin)
    (hz : ∀ p ∈ m.pts, p.2 = fin 0) :
    fitAxis ax eU t err m sed false eRange = .error .valueError := by
  obtain ⟨fu, s, hs, -⟩ := C33_dimensions m.fU hm sed
  have hv : ((m.pts.map (fitPoint m eU fu s)).filter (fun q => decide
      (fin (max ax.ymin (ax.ymax / 10 ^ (if sed then 10 else 20))) < q.2))) = [] := by
    rw [List.filter_eq_nil_iff]
    intro q hq
    obtain ⟨p, hp, rfl⟩ := List.mem_map.1 hq
    rw [decide_eq_true_iff]
    unfold fitPoint
    rw [hz p hp]
    intro h
    have h' : max ax.ymin (ax.ymax / 10 ^ (if sed then 10 else 20)) <
        0 * (s.phys (p.1 * m.eU.scale) * (m.fU.scale / fu.scale)) := h
    rw [zero_mul] at h'
    exact absurd (hax.le.trans (le_max_left _ _)) (not_le.2 h')
  unfold fitAxis fitAxisModel
  simp only [Bool.false_eq_true, if_false, hs, hv]
  rfl

/-! ### Hypotheses are met -/

/-- a table and a model with two points, in flux -/
noncomputable def twoPoints : FitTable where
  eU := PhysUnit.TeV
  fU := ⟨1, Dim.diffFlux⟩
  loU := ⟨1, Dim.diffFlux⟩
  hiU := ⟨1, Dim.diffFlux⟩
  rows := [⟨1, 3, 1, 1, false, 0⟩, ⟨10, 2, 1, 1, false, 0⟩]

noncomputable def twoModel : FitModel where
  eU := PhysUnit.TeV
  fU := ⟨1, Dim.flux⟩
  pts := [(1, fin 3), (10, fin 2)]

example : SpectralType twoModel.fU.dim ∧ SpectralType twoPoints.fU.dim ∧
    twoModel.pts.length = twoPoints.rows.length ∧ SameSpectralKind twoModel.fU.dim twoPoints.fU.dim := by
  refine ⟨?_, ?_, rfl, ?_⟩ <;>
    simp [SpectralType, SameSpectralKind, twoModel, twoPoints]

example : (0:ℝ) < PhysUnit.GeV.scale ∧ 0 < twoPoints.eU.scale ∧ twoPoints.rows ≠ [] ∧
    ∀ r ∈ twoPoints.rows, 0 < r.e - r.e / 2 ∧ 0 < r.e + r.e := by
  refine ⟨by norm_num [PhysUnit.GeV], by norm_num [twoPoints, PhysUnit.TeV], by simp [twoPoints], ?_⟩
  intro r hr
  simp only [twoPoints, List.mem_cons, List.not_mem_nil, or_false] at hr
  rcases hr with rfl | rfl <;> norm_num

/-- a model that is visible above 1 erg/s/cm2 -/
example : ∃ fu s, sedConversion twoModel.fU true = .ok (fu, s) ∧ (∀ p ∈ twoModel.pts, 0 < p.1) ∧
    ∃ p ∈ twoModel.pts, fin (max 1 ((10:ℝ) / 10 ^ 10)) <
      p.2 * fin (s.phys (p.1 * twoModel.eU.scale) * (twoModel.fU.scale / fu.scale)) := by
  refine ⟨ergPerSCm2, .ones, ?_, ?_, (1, fin 3), by simp [twoModel], ?_⟩
  · simp [sedConversion, twoModel, Dim.diffFlux, Dim.diffPower, Dim.diffEnergy, Dim.flux, Dim.power, Dim.energy,
      Dim.diffNumDensity]
  · simp [twoModel]
  · show max 1 ((10:ℝ) / 10 ^ 10) < 3 * (1 * (1 / ergPerSCm2.scale))
    norm_num [ergPerSCm2]

end Naima.Props
