import Verif.Model.PlotData
import Verif.Props.C77_Residuals
import Mathlib.Analysis.SpecialFunctions.Log.Base

/-! # C80: what is drawn for a data table -/

namespace Naima.Props

open Naima Classical

/-! ### Specification -/

/-- A value `v` (cgs) of a spectrum of type `d` at energy `E` (erg), as a value of an SED or of a
differential spectrum. -/
noncomputable def asPlotted (sed : Bool) (d : Dim) (E v : ℝ) : ℝ :=
  if sed = true ∧ ¬ IsSedType d then v * E ^ 2
  else if sed = false ∧ IsSedType d then v / E ^ 2
  else v

/-- Energy, flux and uncertainties of a row, in cgs. -/
noncomputable def rowE (t : FitTable) (r : FitRow) : ℝ := r.e * t.eU.scale
noncomputable def rowF (t : FitTable) (r : FitRow) : ℝ := r.f * t.fU.scale
noncomputable def rowLo (t : FitTable) (r : FitRow) : ℝ := r.elo * t.loU.scale
noncomputable def rowHi (t : FitTable) (r : FitRow) : ℝ := r.ehi * t.hiU.scale

/-- The lower end of the error bar: the flux minus its lower uncertainty if that is positive, otherwise
a ten millionth of the flux, so that it exists on a logarithmic axis. -/
noncomputable def lowerEnd (t : FitTable) (r : FitRow) : ℝ :=
  if rowLo t r < rowF t r then rowF t r - rowLo t r else 1e-7 * rowF t r

/-- The measured point: energy in the unit of the plot, value of the SED (or differential spectrum) in
the unit `fu`, and a bar from the lower end to the flux plus its upper uncertainty. -/
noncomputable def pointSpec (t : FitTable) (sed : Bool) (eU fu : PhysUnit) (r : FitRow) : Bar where
  x := rowE t r / eU.scale
  y := asPlotted sed t.fU.dim (rowE t r) (rowF t r) / fu.scale
  lo := (asPlotted sed t.fU.dim (rowE t r) (rowF t r) -
    asPlotted sed t.fU.dim (rowE t r) (lowerEnd t r)) / fu.scale
  hi := (asPlotted sed t.fU.dim (rowE t r) (rowF t r + rowHi t r) -
    asPlotted sed t.fU.dim (rowE t r) (rowF t r)) / fu.scale

/-- The upper limit: energy, value and an arrow from there down to three quarters of the value. -/
noncomputable def limitSpec (t : FitTable) (sed : Bool) (eU fu : PhysUnit) (r : FitRow) : LimitMark where
  x := rowE t r / eU.scale
  y := asPlotted sed t.fU.dim (rowE t r) (rowF t r) / fu.scale
  arrow := asPlotted sed t.fU.dim (rowE t r) (rowF t r) / fu.scale -
    3 / 4 * (asPlotted sed t.fU.dim (rowE t r) (rowF t r) / fu.scale)

/-- The horizontal bar of a row, for errors `err` in the unit of its energy. -/
noncomputable def hbarSpec (t : FitTable) (err : FitRow → ℝ × ℝ) (eU : PhysUnit) (r : FitRow) : ℝ × ℝ :=
  ((err r).1 * t.eU.scale / eU.scale, (err r).2 * t.eU.scale / eU.scale)

/-- A table that can be drawn: proper units, positive energies, fluxes, limits and uncertainties that
are not negative, at least one row; horizontal bars within positive energies; and if some measured point
is compatible with zero there is another that is not. -/
structure Drawable (t : FitTable) (err : FitRow → ℝ × ℝ) : Prop where
  eDim : t.eU.dim = Dim.energy
  ePos : 0 < t.eU.scale
  fType : SpectralType t.fU.dim
  fPos : 0 < t.fU.scale
  loDim : t.loU.dim = t.fU.dim
  loPos : 0 < t.loU.scale
  hiDim : t.hiU.dim = t.fU.dim
  hiPos : 0 < t.hiU.scale
  nonempty : t.rows ≠ []
  rowPos : ∀ r ∈ t.rows, 0 < r.e
  fluxNN : ∀ r ∈ t.rows, r.ul = false → 0 ≤ r.f ∧ 0 ≤ r.elo ∧ 0 ≤ r.ehi
  limNN : ∀ r ∈ t.rows, r.ul = true → 0 ≤ r.f
  bars : ∀ r ∈ t.rows, 0 ≤ (err r).1 ∧ 0 < r.e - (err r).1 ∧ 0 ≤ (err r).2
  one : (∃ r ∈ t.rows, r.ul = false ∧ rowF t r ≤ rowLo t r) →
    ∃ r ∈ t.rows, r.ul = false ∧ rowLo t r < rowF t r

/-! ### Proof -/

theorem foldl_min_le (l : List ℝ) (a : ℝ) : l.foldl min a ≤ a ∧ ∀ x ∈ l, l.foldl min a ≤ x := by
  induction l generalizing a with
  | nil => simp
  | cons b l ih =>
    obtain ⟨h1, h2⟩ := ih (min a b)
    rw [List.foldl_cons]
    refine ⟨h1.trans (min_le_left _ _), ?_⟩
    intro x hx
    rcases List.mem_cons.1 hx with rfl | hx
    · exact h1.trans (min_le_right _ _)
    · exact h2 x hx

theorem foldl_min_mem (l : List ℝ) (a : ℝ) : l.foldl min a ∈ a :: l := by
  induction l generalizing a with
  | nil => simp
  | cons b l ih =>
    rw [List.foldl_cons]
    have := ih (min a b)
    rcases List.mem_cons.1 this with h | h
    · rw [h]
      rcases min_choice a b with h | h <;> rw [h] <;> simp
    · simp [h]

theorem npMinArr_ok (l : List ℝ) (h : l ≠ []) :
    ∃ m ∈ l, npMinArr l = .ok m ∧ ∀ x ∈ l, m ≤ x := by
  cases l with
  | nil => exact absurd rfl h
  | cons a l =>
    refine ⟨_, foldl_min_mem l a, rfl, ?_⟩
    intro x hx
    rcases List.mem_cons.1 hx with rfl | hx
    · exact (foldl_min_le l x).1
    · exact (foldl_min_le l a).2 x hx

theorem npMaxArr_ok (l : List ℝ) (h : l ≠ []) :
    ∃ m ∈ l, npMaxArr l = .ok m ∧ ∀ x ∈ l, x ≤ m := by
  cases l with
  | nil => exact absurd rfl h
  | cons a l =>
    have hm : ∀ (l : List ℝ) (a : ℝ), l.foldl max a ∈ a :: l := by
      intro l
      induction l with
      | nil => simp
      | cons b l ih =>
        intro a
        rw [List.foldl_cons]
        rcases List.mem_cons.1 (ih (max a b)) with h | h
        · rw [h]; rcases max_choice a b with h | h <;> rw [h] <;> simp
        · simp [h]
    have hle : ∀ (l : List ℝ) (a : ℝ), a ≤ l.foldl max a ∧ ∀ x ∈ l, x ≤ l.foldl max a := by
      intro l
      induction l with
      | nil => simp
      | cons b l ih =>
        intro a
        obtain ⟨h1, h2⟩ := ih (max a b)
        rw [List.foldl_cons]
        refine ⟨(le_max_left _ _).trans h1, ?_⟩
        intro x hx
        rcases List.mem_cons.1 hx with rfl | hx
        · exact (le_max_right _ _).trans h1
        · exact h2 x hx
    refine ⟨_, hm l a, rfl, ?_⟩
    intro x hx
    rcases List.mem_cons.1 hx with rfl | hx
    · exact (hle l x).1
    · exact (hle l a).2 x hx

theorem phys_asPlotted (u : PhysUnit) (h : SpectralType u.dim) (sed : Bool) (fu : PhysUnit)
    (s : SedFactor) (hs : s = (if sed then (if IsSedType u.dim then .ones else .esq)
         else (if IsSedType u.dim then .invEsq else .ones))) (E v : ℝ) :
    v * s.phys E = asPlotted sed u.dim E v := by
  subst hs
  unfold asPlotted
  by_cases hd : IsSedType u.dim <;> cases sed <;> simp [hd, SedFactor.phys, div_eq_mul_inv]

theorem asPlotted_pos (sed : Bool) (d : Dim) (E v : ℝ) (hE : 0 < E) (hv : 0 < v) :
    0 < asPlotted sed d E v := by
  unfold asPlotted; split_ifs <;> positivity

theorem asPlotted_nonneg (sed : Bool) (d : Dim) (E v : ℝ) (hE : 0 < E) (hv : 0 ≤ v) :
    0 ≤ asPlotted sed d E v := by
  unfold asPlotted; split_ifs <;> positivity

theorem asPlotted_sub (sed : Bool) (d : Dim) (E v w : ℝ) :
    asPlotted sed d E v - asPlotted sed d E w = asPlotted sed d E (v - w) := by
  unfold asPlotted; split_ifs <;> ring

theorem barOf_spec (t : FitTable) (err : FitRow → ℝ × ℝ) (ht : Drawable t err) (sed : Bool) (eU fu : PhysUnit)
    (s : SedFactor) (hs : s = (if sed then (if IsSedType t.fU.dim then .ones else .esq)
         else (if IsSedType t.fU.dim then .invEsq else .ones))) (r : FitRow) :
    barOf t eU fu s r = pointSpec t sed eU fu r := by
  have hlo := ht.loPos
  have hf := ht.fPos
  have key := phys_asPlotted t.fU ht.fType sed fu s hs (r.e * t.eU.scale)
  unfold barOf pointSpec
  congr 1
  · unfold rowE; ring
  · unfold rowE rowF; rw [← key]; ring
  · unfold rowE rowF lowerEnd
    rw [asPlotted_sub, ← key]
    have hc : (rowLo t r < rowF t r) ↔ ¬ (r.f * (t.fU.scale / t.loU.scale) - r.elo ≤ 0) := by
      unfold rowLo rowF
      rw [not_le, sub_pos, mul_div_assoc', lt_div_iff₀ hlo]
    unfold yerrLo
    simp only
    by_cases c : r.f * (t.fU.scale / t.loU.scale) - r.elo ≤ 0
    · rw [if_pos c, if_neg (fun h => hc.1 h c)]
      unfold rowF
      field_simp
    · rw [if_neg c, if_pos (hc.2 c)]
      unfold rowF rowLo
      field_simp
      ring
  · unfold rowE rowF rowHi
    rw [asPlotted_sub, ← key]
    have := ht.hiPos
    field_simp
    ring

theorem lowerEnd_le (t : FitTable) (err : FitRow → ℝ × ℝ) (ht : Drawable t err) (r : FitRow) (hr : r ∈ t.rows)
    (hu : r.ul = false) : 0 ≤ rowF t r - lowerEnd t r ∧ 0 ≤ lowerEnd t r := by
  obtain ⟨h1, h2, -⟩ := ht.fluxNN r hr hu
  have a : 0 ≤ rowF t r := mul_nonneg h1 ht.fPos.le
  have b : 0 ≤ rowLo t r := mul_nonneg h2 ht.loPos.le
  unfold lowerEnd
  split_ifs with h
  · constructor <;> linarith
  · constructor <;> linarith

theorem floor_log_le (m : ℝ) (hm : 0 < m) :
    0 < (10:ℝ) ^ ⌊Real.logb 10 m⌋ ∧ (10:ℝ) ^ ⌊Real.logb 10 m⌋ ≤ m := by
  refine ⟨by positivity, ?_⟩
  rw [← Real.rpow_intCast]
  calc (10:ℝ) ^ ((⌊Real.logb 10 m⌋ : ℤ) : ℝ) ≤ (10:ℝ) ^ (Real.logb 10 m) :=
        Real.rpow_le_rpow_of_exponent_le (by norm_num) (Int.floor_le _)
    _ = m := Real.rpow_logb (by norm_num) (by norm_num) hm

theorem le_ceil_log (m : ℝ) (hm : 0 < m) : m ≤ (10:ℝ) ^ ⌈Real.logb 10 m⌉ := by
  rw [← Real.rpow_intCast]
  calc m = (10:ℝ) ^ (Real.logb 10 m) := (Real.rpow_logb (by norm_num) (by norm_num) hm).symm
    _ ≤ _ := Real.rpow_le_rpow_of_exponent_le (by norm_num) (Int.le_ceil _)

/-- **C80 (partial).** For every drawable table, energy unit and kind of plot, `_plot_data_to_ax`
succeeds. It draws, group by group in increasing order and row by row, every measured point as
`pointSpec` and every upper limit as `limitSpec`, in the documented unit, each with its horizontal bar; the `x` axis shows the points of
the *last* group with their bars completely; and a lower limit set for the `y` axis is positive and below
the whole bar of every measured point that is not compatible with zero.
Missing: tables that are not drawable (`C80_false_negative_flux`, `C80_false_all_compatible`,
`C80_false_empty`) and the other groups (`C80_false_hidden_group`). -/
theorem C80_drawn_partial (t : FitTable) (err : FitRow → ℝ × ℝ) (ht : Drawable t err) (eU : PhysUnit)
    (hU : eU.dim = Dim.energy) (hU0 : 0 < eU.scale) (sed : Bool) :
    ∃ fu p, DocumentedSedUnit t.fU.dim sed fu ∧ plotDataToAx t err eU sed = .ok p ∧
      p.points = (resGroups t).map (fun g =>
        (t.rows.filter (fun r => r.group = g ∧ r.ul = false)).map (pointSpec t sed eU fu)) ∧
      p.limits = (resGroups t).map (fun g =>
        (t.rows.filter (fun r => r.group = g ∧ r.ul = true)).map (limitSpec t sed eU fu)) ∧
      p.pointBars = (resGroups t).map (fun g =>
        (t.rows.filter (fun r => r.group = g ∧ r.ul = false)).map (hbarSpec t err eU)) ∧
      p.limitBars = (resGroups t).map (fun g =>
        (t.rows.filter (fun r => r.group = g ∧ r.ul = true)).map (hbarSpec t err eU)) ∧
      (∃ lo hi, p.xlim = some (lo, hi) ∧ 0 < lo ∧
        ∀ r ∈ t.rows, (∀ r' ∈ t.rows, r'.group ≤ r.group) →
          lo * eU.scale ≤ (r.e - (err r).1) * t.eU.scale ∧
          (r.e + (err r).2) * t.eU.scale ≤ hi * eU.scale) ∧
      ∀ y, p.ymin = some y → 0 < y ∧ ∀ r ∈ t.rows, r.ul = false → rowLo t r < rowF t r →
        y * fu.scale ≤ asPlotted sed t.fU.dim (rowE t r) (rowF t r - rowLo t r) := by
  obtain ⟨fu, s, c1, p1, a1, e1⟩ := sedArr_ok t.fU t.eU ht.fType ht.eDim sed
  have hbar := barOf_spec t err ht sed eU fu s e1
  have key := fun E v => phys_asPlotted t.fU ht.fType sed fu s e1 E v
  -- the groups
  have hgroups : (resGroups t).mapM (drawGroup t err eU fu s) = .ok ((resGroups t).map (fun g =>
      ⟨(t.rows.filter (fun r => r.group = g ∧ r.ul = false)).map (pointSpec t sed eU fu),
       (t.rows.filter (fun r => r.group = g ∧ r.ul = true)).map (limitSpec t sed eU fu),
       (t.rows.filter (fun r => r.group = g ∧ r.ul = false)).map (hbarSpec t err eU),
       (t.rows.filter (fun r => r.group = g ∧ r.ul = true)).map (hbarSpec t err eU)⟩)) := by
    apply mapM_ok_res
    intro g _
    unfold drawGroup
    simp only
    have hf1 : ((t.rows.filter (fun r => r.group = g)).filter (fun r => ¬ r.ul)) =
        t.rows.filter (fun r => r.group = g ∧ r.ul = false) := by
      rw [List.filter_filter]
      apply List.filter_congr
      intro r _
      cases r.ul <;> simp [and_comm]
    have hf2 : ((t.rows.filter (fun r => r.group = g)).filter (fun r => r.ul)) =
        t.rows.filter (fun r => r.group = g ∧ r.ul = true) := by
      rw [List.filter_filter]
      apply List.filter_congr
      intro r _
      cases r.ul <;> simp [and_comm]
    rw [hf1, hf2]
    have hlim : ∀ r, limitOf t eU fu s r = limitSpec t sed eU fu r := by
      intro r
      unfold limitSpec rowE rowF limitOf
      simp only [← key]
      congr 1 <;> ring
    have hhb : ∀ r, hbarOf t err eU r = hbarSpec t err eU r := by
      intro r
      unfold hbarOf hbarSpec
      simp only [mul_div_assoc]
    rw [if_neg]
    · congr 2
      · apply List.map_congr_left
        intro r _; exact hbar r
      · apply List.map_congr_left
        intro r _; exact hlim r
      · apply List.map_congr_left
        intro r _; exact hhb r
      · apply List.map_congr_left
        intro r _; exact hhb r
    · rintro (⟨b, hb, hneg⟩ | ⟨b, hb, hneg⟩ | ⟨b, hb, hneg⟩)
      rotate_left
      · obtain ⟨r, hr, rfl⟩ := List.mem_map.1 hb
        obtain ⟨hr1, hr2⟩ := List.mem_filter.1 hr
        simp only [decide_eq_true_eq] at hr2
        rw [hlim r] at hneg
        have hE : 0 < rowE t r := mul_pos (ht.rowPos r hr1) ht.ePos
        have h2 : 0 ≤ rowF t r := mul_nonneg (ht.limNN r hr1 hr2.2) ht.fPos.le
        have b1 : 0 ≤ asPlotted sed t.fU.dim (rowE t r) (rowF t r) / fu.scale :=
          div_nonneg (asPlotted_nonneg _ _ _ _ hE h2) p1.le
        unfold limitSpec at hneg
        simp only at hneg
        linarith
      · obtain ⟨r, hr, rfl⟩ := List.mem_map.1 hb
        have hr1 := (List.mem_filter.1 hr).1
        obtain ⟨q1, -, q2⟩ := ht.bars r hr1
        have hk : 0 < t.eU.scale / eU.scale := div_pos ht.ePos hU0
        unfold hbarOf at hneg
        simp only at hneg
        have := mul_nonneg q1 hk.le
        have := mul_nonneg q2 hk.le
        rcases hneg with h | h <;> linarith
      obtain ⟨r, hr, rfl⟩ := List.mem_map.1 hb
      obtain ⟨hr1, hr2⟩ := List.mem_filter.1 hr
      simp only [decide_eq_true_eq] at hr2
      rw [hbar r] at hneg
      have hE : 0 < rowE t r := mul_pos (ht.rowPos r hr1) ht.ePos
      have h1 := lowerEnd_le t err ht r hr1 hr2.2
      have h2 : 0 ≤ rowHi t r := mul_nonneg (ht.fluxNN r hr1 hr2.2).2.2 ht.hiPos.le
      unfold pointSpec at hneg
      simp only [asPlotted_sub] at hneg
      have b1 : 0 ≤ asPlotted sed t.fU.dim (rowE t r) (rowF t r - lowerEnd t r) / fu.scale :=
        div_nonneg (asPlotted_nonneg _ _ _ _ hE h1.1) p1.le
      have b2 : 0 ≤ asPlotted sed t.fU.dim (rowE t r) (rowF t r + rowHi t r - rowF t r) / fu.scale :=
        div_nonneg (asPlotted_nonneg _ _ _ _ hE (by linarith)) p1.le
      rcases hneg with h | h <;> linarith
  -- the last group
  obtain ⟨g, hg⟩ : ∃ g, (resGroups t).getLast? = some g := by
    obtain ⟨r, hr⟩ := List.exists_mem_of_ne_nil _ ht.nonempty
    have : r.group ∈ resGroups t := by unfold resGroups; simp; exact ⟨r, hr, rfl⟩
    exact ⟨_, List.getLast?_eq_some_getLast (List.ne_nil_of_mem this)⟩
  have hgm : g ∈ resGroups t := List.mem_of_getLast? hg
  have hgmax : ∀ r ∈ t.rows, r.group ≤ g := by
    intro r hr
    have hm : r.group ∈ resGroups t := by unfold resGroups; simp; exact ⟨r, hr, rfl⟩
    have hsorted : (resGroups t).Pairwise (· ≤ ·) := by
      unfold resGroups; exact (Finset.sortedLT_sort _).pairwise.imp le_of_lt
    have hne := List.ne_nil_of_mem hm
    have hl : (resGroups t).getLast hne = g := by
      rw [List.getLast?_eq_some_getLast hne] at hg; exact Option.some.inj hg
    have hd := List.dropLast_append_getLast hne
    rw [hl] at hd
    rw [← hd] at hm hsorted
    rcases List.mem_append.1 hm with h | h
    · exact (List.pairwise_append.1 hsorted).2.2 _ h _ (by simp)
    · simp only [List.mem_singleton] at h; rw [h]
  obtain ⟨r0, hr0, hr0g⟩ : ∃ r ∈ t.rows, r.group = g := by
    unfold resGroups at hgm; simpa using hgm
  set data := t.rows.filter (fun r => r.group = g) with hdata
  have hdne : data ≠ [] := by
    apply List.ne_nil_of_mem (a := r0)
    rw [hdata, List.mem_filter]; simp [hr0, hr0g]
  obtain ⟨mlo, hlo1, hlo2, hlo3⟩ := npMinArr_ok (data.map (fun r => r.e - (err r).1)) (by simpa using hdne)
  obtain ⟨mhi, hhi1, hhi2, hhi3⟩ := npMaxArr_ok (data.map (fun r => r.e + (err r).2)) (by simpa using hdne)
  have hmem : ∀ r ∈ data, r ∈ t.rows := fun r hr => (List.mem_filter.1 hr).1
  have hk : 0 < t.eU.scale / eU.scale := div_pos ht.ePos hU0
  have hlop : 0 < mlo * (t.eU.scale / eU.scale) := by
    obtain ⟨r, hr, rfl⟩ := List.mem_map.1 hlo1
    exact mul_pos (ht.bars r (hmem r hr)).2.1 hk
  have hhip : 0 < mhi * (t.eU.scale / eU.scale) := by
    obtain ⟨r, hr, rfl⟩ := List.mem_map.1 hhi1
    have := (ht.bars r (hmem r hr)).2.2
    have := ht.rowPos r (hmem r hr)
    exact mul_pos (by linarith) hk
  have hx : drawXlim eU t.eU err data = .ok (some
      ((10:ℝ) ^ ⌊Real.logb 10 (mlo * (t.eU.scale / eU.scale))⌋,
       (10:ℝ) ^ ⌈Real.logb 10 (mhi * (t.eU.scale / eU.scale))⌉)) := by
    unfold drawXlim
    simp only [hlo2, hhi2, bind, Except.bind, pure, Except.pure]
    rw [if_neg (by push Not; exact ⟨hlop.le, hhip.le⟩),
      if_neg (by push Not; exact ⟨hlop.ne', hhip.ne'⟩)]
  -- the lower limit
  obtain ⟨ym, hym, hyspec⟩ : ∃ ym, drawYmin t fu s = .ok ym ∧ ∀ y, ym = some y → 0 < y ∧
      ∀ r ∈ t.rows, r.ul = false → rowLo t r < rowF t r →
        y * fu.scale ≤ asPlotted sed t.fU.dim (rowE t r) (rowF t r - rowLo t r) := by
    unfold drawYmin
    simp only
    split_ifs with hbad
    · obtain ⟨rb, hrb, hbb⟩ := hbad
      obtain ⟨hrb1, hrb2⟩ := List.mem_filter.1 hrb
      obtain ⟨rg, hrg1, hrg2, hrg3⟩ := ht.one ⟨rb, hrb1, by simpa using hrb2, hbb⟩
      set good := (t.rows.filter (fun r => ¬ r.ul)).filter
        (fun r => r.elo * t.loU.scale < r.f * t.fU.scale) with hgood
      have hgm' : ∀ r, r ∈ good ↔ r ∈ t.rows ∧ r.ul = false ∧ rowLo t r < rowF t r := by
        intro r
        rw [hgood, List.mem_filter, List.mem_filter]
        unfold rowLo rowF
        cases r.ul <;> simp
      have hgne : good ≠ [] := List.ne_nil_of_mem ((hgm' rg).2 ⟨hrg1, hrg2, hrg3⟩)
      obtain ⟨m, hm1, hm2, hm3⟩ := npMinArr_ok (good.map (fun r =>
        r.f * s.phys (r.e * t.eU.scale) * (t.fU.scale / fu.scale) -
        r.elo * s.phys (r.e * t.eU.scale) * (t.loU.scale / fu.scale))) (by simpa using hgne)
      have hval : ∀ r, r.f * s.phys (r.e * t.eU.scale) * (t.fU.scale / fu.scale) -
        r.elo * s.phys (r.e * t.eU.scale) * (t.loU.scale / fu.scale) =
          asPlotted sed t.fU.dim (rowE t r) (rowF t r - rowLo t r) / fu.scale := by
        intro r
        rw [← key]
        unfold rowE rowF rowLo
        ring
      have hmp : 0 < m := by
        obtain ⟨r, hr, rfl⟩ := List.mem_map.1 hm1
        obtain ⟨q1, q2, q3⟩ := (hgm' r).1 hr
        rw [hval]
        exact div_pos (asPlotted_pos _ _ _ _ (mul_pos (ht.rowPos r q1) ht.ePos) (by linarith)) p1
      refine ⟨some ((10:ℝ) ^ ⌊Real.logb 10 m⌋), ?_, ?_⟩
      · rw [hm2]; rfl
      · intro y hy
        injection hy with hy
        obtain ⟨f1, f2⟩ := floor_log_le m hmp
        rw [hy] at f1 f2
        refine ⟨f1, fun r hr hu hlt => ?_⟩
        have := hm3 _ (List.mem_map.2 ⟨r, (hgm' r).2 ⟨hr, hu, hlt⟩, rfl⟩)
        rw [hval, le_div_iff₀ p1] at this
        calc y * fu.scale ≤ m * fu.scale := by gcongr
          _ ≤ _ := this
    · exact ⟨none, rfl, fun y hy => by cases hy⟩
  refine ⟨fu, ⟨_, _, _, _, some ((10:ℝ) ^ ⌊Real.logb 10 (mlo * (t.eU.scale / eU.scale))⌋,
       (10:ℝ) ^ ⌈Real.logb 10 (mhi * (t.eU.scale / eU.scale))⌉), ym⟩, C33_units t.fU ht.fType sed fu s c1, ?_,
       rfl, rfl, rfl, rfl, ⟨_, _, rfl, ?_, ?_⟩, hyspec⟩
  · unfold plotDataToAx
    rw [a1, c1]
    simp only
    rw [if_neg (by rw [ht.loDim, ht.hiDim, ht.eDim, hU]; simp), hgroups]
    simp only [hg]
    rw [← hdata, hx, hym]
    simp only [List.map_map]
    rfl
  · exact (floor_log_le _ hlop).1
  · intro r hr hmax
    have hrg : r.group = g := le_antisymm (hgmax r hr) (hr0g ▸ hmax r0 hr0)
    have hrd : r ∈ data := by rw [hdata, List.mem_filter]; simp [hr, hrg]
    have q1 := hlo3 _ (List.mem_map.2 ⟨r, hrd, rfl⟩)
    have q2 := hhi3 _ (List.mem_map.2 ⟨r, hrd, rfl⟩)
    have z1 := (floor_log_le _ hlop).2
    have z2 := le_ceil_log _ hhip
    constructor
    · calc _ ≤ mlo * (t.eU.scale / eU.scale) * eU.scale := by gcongr
        _ = mlo * t.eU.scale := by field_simp
        _ ≤ _ := mul_le_mul_of_nonneg_right q1 ht.ePos.le
    · calc (r.e + (err r).2) * t.eU.scale ≤ mhi * t.eU.scale := mul_le_mul_of_nonneg_right q2 ht.ePos.le
        _ = mhi * (t.eU.scale / eU.scale) * eU.scale := by field_simp
        _ ≤ _ := by gcongr

/-! ### Hypotheses are met -/

/-- The table of `exFitTable` with a point compatible with zero added. -/
noncomputable def exPlotTable : FitTable :=
  { exFitTable with rows := ⟨4, 2, 3, 1, false, 0⟩ :: exFitTable.rows }

theorem exPlotTable_drawable : Drawable exPlotTable (fun r => (r.e / 2, 1)) where
  eDim := rfl
  ePos := by norm_num [exPlotTable, exFitTable, PhysUnit.erg]
  fType := by simp [exPlotTable, exFitTable, SpectralType, ergPerSCm2]
  fPos := by norm_num [exPlotTable, exFitTable, ergPerSCm2]
  loDim := rfl
  loPos := by norm_num [exPlotTable, exFitTable, ergPerSCm2]
  hiDim := rfl
  hiPos := by norm_num [exPlotTable, exFitTable, ergPerSCm2]
  nonempty := by simp [exPlotTable]
  rowPos := by simp [exPlotTable, exFitTable]
  fluxNN := by simp [exPlotTable, exFitTable]
  limNN := by simp [exPlotTable, exFitTable]
  bars := by simp [exPlotTable, exFitTable]; norm_num
  one := by
    intro _
    exact ⟨⟨1, 5, 1, 3, false, 1⟩, by simp [exPlotTable, exFitTable], rfl, by
      norm_num [rowLo, rowF, exPlotTable, exFitTable, ergPerSCm2]⟩

/-! ### What the code does not do -/

/-- **C80 fails for negative fluxes.** A table with a flux below zero (as background subtraction gives) or a
limit below zero is not drawn: ValueError. -/
theorem C80_false_negative_flux (t : FitTable) (err : FitRow → ℝ × ℝ) (eU : PhysUnit) (sed : Bool)
    (hE : t.eU.dim = Dim.energy) (hE0 : 0 < t.eU.scale) (hU : eU.dim = Dim.energy)
    (hT : SpectralType t.fU.dim) (hf0 : 0 < t.fU.scale) (hlo : t.loU.dim = t.fU.dim)
    (hlo0 : 0 < t.loU.scale) (hhi : t.hiU.dim = t.fU.dim)
    (r : FitRow) (hr : r ∈ t.rows) (he : 0 < r.e) (hneg : r.f < 0)
    (hlo' : r.ul = false → 0 ≤ r.elo) :
    plotDataToAx t err eU sed = .error .valueError := by
  obtain ⟨fu, s, c1, p1, a1, e1⟩ := sedArr_ok t.fU t.eU hT hE sed
  have hphys : 0 < s.phys (r.e * t.eU.scale) := by
    have : 0 < r.e * t.eU.scale := mul_pos he hE0
    cases s <;> simp only [SedFactor.phys] <;> positivity
  have hb' : (limitOf t eU fu s r).arrow < 0 := by
    unfold limitOf
    simp only
    have h3 := mul_neg_of_neg_of_pos (mul_neg_of_neg_of_pos hneg hphys) (div_pos hf0 p1)
    linarith
  have hb : r.ul = false → (barOf t eU fu s r).lo < 0 := by
    intro hu
    have hlo' := hlo' hu
    have h1 : r.f * (t.fU.scale / t.loU.scale) < 0 := mul_neg_of_neg_of_pos hneg (div_pos hf0 hlo0)
    unfold barOf yerrLo
    simp only
    rw [if_pos (by linarith)]
    have h2 : r.f * (t.fU.scale / t.loU.scale) * (1 - 1e-7) < 0 :=
      mul_neg_of_neg_of_pos h1 (by norm_num)
    have h3 := mul_neg_of_neg_of_pos h2 hphys
    exact mul_neg_of_neg_of_pos h3 (div_pos hlo0 p1)
  have herr : ∀ g, (∃ x, drawGroup t err eU fu s g = .ok x) ∨ drawGroup t err eU fu s g = .error .valueError := by
    intro g
    unfold drawGroup
    simp only
    split_ifs
    · right; rfl
    · left; exact ⟨_, rfl⟩
  have hg : drawGroup t err eU fu s r.group = .error .valueError := by
    unfold drawGroup
    simp only
    rw [if_pos]
    cases hu : r.ul with
    | false =>
      refine Or.inl ⟨_, List.mem_map.2 ⟨r, ?_, rfl⟩, Or.inl (hb hu)⟩
      rw [List.mem_filter, List.mem_filter]
      simp [hr, hu]
    | true =>
      refine Or.inr (Or.inl ⟨_, List.mem_map.2 ⟨r, ?_, rfl⟩, hb'⟩)
      rw [List.mem_filter, List.mem_filter]
      simp [hr, hu]
  have hm : r.group ∈ resGroups t := by unfold resGroups; simp; exact ⟨r, hr, rfl⟩
  have hmap : ∀ l : List ℤ, r.group ∈ l → l.mapM (drawGroup t err eU fu s) = .error .valueError := by
    intro l
    induction l with
    | nil => intro h; cases h
    | cons a l ih =>
      intro h
      rw [List.mapM_cons]
      rcases herr a with ⟨x, hx⟩ | hx
      · rw [hx]
        rcases List.mem_cons.1 h with h | h
        · rw [← h, hg] at hx; cases hx
        · rw [ih h]; rfl
      · rw [hx]; rfl
  unfold plotDataToAx
  rw [a1, c1]
  simp only
  rw [if_neg (by rw [hlo, hhi, hE, hU]; simp), hmap _ hm]

/-- **C80 fails for faint sources.** A table with one measured point that is compatible with zero (its lower
uncertainty reaches its flux) is not drawn: ValueError. -/
theorem C80_false_all_compatible (e f elo ehi : ℝ) (he : 0 < e) (hf : 0 ≤ f) (hle : f ≤ elo) (hhi : 0 ≤ ehi)
    (err : FitRow → ℝ × ℝ) (herr : ∀ r, 0 < r.e → 0 ≤ (err r).1 ∧ 0 < r.e - (err r).1 ∧ 0 ≤ (err r).2) :
    plotDataToAx ⟨PhysUnit.erg, ergPerSCm2, ergPerSCm2, ergPerSCm2, [⟨e, f, elo, ehi, false, 0⟩]⟩ err
      PhysUnit.erg true = .error .valueError := by
  set t : FitTable := ⟨PhysUnit.erg, ergPerSCm2, ergPerSCm2, ergPerSCm2, [⟨e, f, elo, ehi, false, 0⟩]⟩ with ht
  have hs : sedConversion ergPerSCm2 true = .ok (ergPerSCm2, .ones) := by
    simp [sedConversion, ergPerSCm2, Dim.flux, Dim.power, Dim.energy, Dim.diffFlux, Dim.diffPower,
      Dim.diffEnergy, Dim.diffNumDensity]
  have ha : sedArr t.fU t.eU true = .ok (ergPerSCm2, fun x => 1 * (1 / 1)) := by
    unfold sedArr
    simp only [ht, hs]
    rw [if_pos (by decide)]
    simp only [SedFactor.phys, ergPerSCm2]
  have hg : resGroups t = [0] := resGroups_zero t _ [] rfl (by simp [ht])
  have hgr : drawGroup t err PhysUnit.erg ergPerSCm2 .ones 0 =
      .ok ⟨[⟨e, f, f * (1 - 1e-7), ehi⟩], [], [hbarOf t err PhysUnit.erg ⟨e, f, elo, ehi, false, 0⟩], []⟩ := by
    have hb : barOf t PhysUnit.erg ergPerSCm2 .ones ⟨e, f, elo, ehi, false, 0⟩ =
        ⟨e, f, f * (1 - 1e-7), ehi⟩ := by
      unfold barOf yerrLo
      simp only [ht, PhysUnit.erg, ergPerSCm2, SedFactor.phys]
      rw [if_pos (by linarith)]
      simp
    have hd1 : (t.rows.filter (fun r => r.group = 0)).filter (fun r => ¬ r.ul) =
        [⟨e, f, elo, ehi, false, 0⟩] := by simp [ht]
    have hd2 : (t.rows.filter (fun r => r.group = 0)).filter (fun r => r.ul) = [] := by simp [ht]
    unfold drawGroup
    simp only
    rw [hd1, hd2]
    simp only [List.map_cons, List.map_nil, hb]
    rw [if_neg]
    rintro (⟨b, hb', h⟩ | ⟨b, hb', -⟩ | ⟨b, hb', h⟩)
    rotate_left
    · simp at hb'
    · obtain ⟨r, hr, rfl⟩ := List.mem_map.1 hb'
      have hr' : r = ⟨e, f, elo, ehi, false, 0⟩ := by
        have := (List.mem_filter.1 hr).1
        simpa [ht] using this
      obtain ⟨q1, -, q2⟩ := herr r (by rw [hr']; exact he)
      have hc : t.eU.scale / PhysUnit.erg.scale = 1 := by simp [ht, PhysUnit.erg]
      unfold hbarOf at h
      simp only [hc, mul_one] at h
      rcases h with h | h <;> linarith
    simp only [List.mem_singleton] at hb'
    subst hb'
    simp only at h
    have : 0 ≤ f * (1 - 1e-7) := mul_nonneg hf (by norm_num)
    rcases h with h | h <;> linarith
  have hx : ∃ x, drawXlim PhysUnit.erg t.eU err [⟨e, f, elo, ehi, false, 0⟩] = .ok x := by
    obtain ⟨-, h1, h2⟩ := herr ⟨e, f, elo, ehi, false, 0⟩ he
    unfold drawXlim
    simp only [List.map_cons, List.map_nil, npMinArr, npMaxArr, List.foldl_nil, bind, Except.bind, pure,
      Except.pure]
    simp only at h1
    have hc : t.eU.scale / PhysUnit.erg.scale = 1 := by simp [ht, PhysUnit.erg]
    rw [hc, if_neg (by push Not; constructor <;> linarith),
      if_neg (by push Not; constructor <;> intro h <;> linarith)]
    exact ⟨_, rfl⟩
  have hy : drawYmin t ergPerSCm2 .ones = .error .valueError := by
    unfold drawYmin
    simp only [ht, List.filter_cons, List.filter_nil, ergPerSCm2, Bool.false_eq_true, not_false_eq_true,
      decide_true, if_true, mul_one]
    rw [if_pos ⟨_, List.mem_singleton_self _, hle⟩]
    rw [if_neg (by simp; linarith)]
    rfl
  obtain ⟨x, hx⟩ := hx
  unfold plotDataToAx
  rw [ha]
  have hs' : sedConversion t.fU true = .ok (ergPerSCm2, .ones) := hs
  rw [hs', hg]
  simp only [List.mapM_cons, List.mapM_nil, hgr, bind, Except.bind, pure, Except.pure, List.getLast?_singleton]
  rw [if_neg (by simp [ht])]
  have hd : t.rows.filter (fun r => r.group = 0) = [⟨e, f, elo, ehi, false, 0⟩] := by simp [ht]
  rw [hd, hx, hy]

/-- **C80 (units).** Uncertainties that are not in a unit of the flux, or an energy unit for the axis that is
not one of energies, are refused: UnitConversionError. -/
theorem C80_units_refused (t : FitTable) (err : FitRow → ℝ × ℝ) (eU : PhysUnit) (sed : Bool)
    (hE : t.eU.dim = Dim.energy) (hT : SpectralType t.fU.dim) (hne : t.rows ≠ [])
    (h : t.loU.dim ≠ t.fU.dim ∨ t.hiU.dim ≠ t.fU.dim ∨ eU.dim ≠ Dim.energy) :
    plotDataToAx t err eU sed = .error .unitConversionError := by
  obtain ⟨fu, s, c1, p1, a1, e1⟩ := sedArr_ok t.fU t.eU hT hE sed
  unfold plotDataToAx
  rw [a1, c1]
  simp only
  rw [if_pos]
  refine ⟨hne, ?_⟩
  by_cases hl : t.loU.dim = t.fU.dim
  · rcases h with h | h | h
    · exact absurd hl h
    · right; left; rw [hl]; exact h
    · right; right; rw [hE]; exact fun e => h e.symm
  · exact Or.inl hl

/-- **C80 fails for a table without rows**: UnboundLocalError. -/
theorem C80_false_empty (t : FitTable) (err : FitRow → ℝ × ℝ) (eU : PhysUnit) (sed : Bool)
    (hE : t.eU.dim = Dim.energy) (hT : SpectralType t.fU.dim) (h : t.rows = []) :
    plotDataToAx t err eU sed = .error .unboundLocalError := by
  obtain ⟨fu, s, c1, p1, a1, e1⟩ := sedArr_ok t.fU t.eU hT hE sed
  have hg : resGroups t = [] := by unfold resGroups; simp [h]
  unfold plotDataToAx
  rw [a1, c1]
  simp only
  rw [if_neg (by simp [h]), hg]
  rfl

/-- Two groups: 1000 erg and 1 erg. -/
noncomputable def twoGroups : FitTable where
  eU := PhysUnit.erg
  fU := ergPerSCm2
  loU := ergPerSCm2
  hiU := ergPerSCm2
  rows := [⟨1000, 5, 1, 1, false, 0⟩, ⟨1, 5, 1, 1, false, 1⟩]

/-- **C80 fails for the `x` axis of tables with several groups.** The limits of the axis are computed from
the last group only: here the axis ends at 10 erg, and the point of the first group at 1000 erg is
outside. -/
theorem C80_false_hidden_group :
    Drawable twoGroups (fun r => (r.e / 2, 1)) ∧
    ∃ p lo, plotDataToAx twoGroups (fun r => (r.e / 2, 1)) PhysUnit.erg true = .ok p ∧
      p.xlim = some (lo, 10) ∧ ∃ r ∈ twoGroups.rows, rowE twoGroups r / PhysUnit.erg.scale = 1000 := by
  have hdraw : Drawable twoGroups (fun r => (r.e / 2, 1)) := by
    constructor
    · rfl
    · norm_num [twoGroups, PhysUnit.erg]
    · simp [twoGroups, SpectralType, ergPerSCm2]
    · norm_num [twoGroups, ergPerSCm2]
    · rfl
    · norm_num [twoGroups, ergPerSCm2]
    · rfl
    · norm_num [twoGroups, ergPerSCm2]
    · simp [twoGroups]
    · simp [twoGroups]
    · simp [twoGroups]
    · simp [twoGroups]
    · simp [twoGroups]; norm_num
    · intro _
      exact ⟨⟨1, 5, 1, 1, false, 1⟩, by simp [twoGroups], rfl, by
        norm_num [rowLo, rowF, twoGroups, ergPerSCm2]⟩
  refine ⟨hdraw, ?_⟩
  obtain ⟨fu, p, -, hp, -⟩ := C80_drawn_partial twoGroups _ hdraw PhysUnit.erg rfl
    (by norm_num [PhysUnit.erg]) true
  refine ⟨p, (10:ℝ) ^ ⌊Real.logb 10 (1 / 2)⌋, hp, ?_, ⟨1000, 5, 1, 1, false, 0⟩, by simp [twoGroups], by
    simp [rowE, twoGroups, PhysUnit.erg]⟩
  have hg : resGroups twoGroups = [0, 1] := by
    have : (twoGroups.rows.map (·.group)).toFinset = {0, 1} := by
      simp [twoGroups]
    unfold resGroups
    rw [this, Finset.sort_insert (r := (· ≤ ·)) (a := (0:ℤ)) (s := {1}) (h₁ := by simp) (h₂ := by simp), Finset.sort_singleton]
  have hx : drawXlim PhysUnit.erg twoGroups.eU (fun r => (r.e / 2, 1))
      (twoGroups.rows.filter (fun r => r.group = 1)) =
      .ok (some ((10:ℝ) ^ ⌊Real.logb 10 (1 / 2)⌋, 10)) := by
    have hc : ⌈Real.logb 10 2⌉ = 1 := by
      rw [Int.ceil_eq_iff]
      constructor
      · have : 0 < Real.logb 10 2 := Real.logb_pos (by norm_num) (by norm_num)
        simpa using this
      · rw [Real.logb_le_iff_le_rpow (by norm_num) (by norm_num)]
        norm_num
    have hf : twoGroups.rows.filter (fun r => r.group = 1) = [⟨1, 5, 1, 1, false, 1⟩] := by
      simp [twoGroups]
    have hc1 : twoGroups.eU.scale / PhysUnit.erg.scale = 1 := by simp [twoGroups, PhysUnit.erg]
    rw [hf]
    unfold drawXlim
    simp only [List.map_cons, List.map_nil, npMinArr, npMaxArr, List.foldl_nil, bind, Except.bind, pure,
      Except.pure, hc1]
    rw [if_neg (by norm_num), if_neg (by norm_num)]
    have e1 : ((1:ℝ) - 1 / 2) * 1 = 1 / 2 := by norm_num
    have e2 : ((1:ℝ) + 1) * 1 = 2 := by norm_num
    rw [e1, e2, hc]
    norm_num
  unfold plotDataToAx at hp
  rw [hg] at hp
  split at hp
  · cases hp
  · cases hp
  · split at hp
    · cases hp
    · split at hp
      · cases hp
      · rename_i gs _
        simp only [List.getLast?_cons_cons, List.getLast?_singleton] at hp
        rw [hx] at hp
        split at hp
        · rename_i h; cases h
        · cases hp
        · rename_i xl ym h1 h2
          injection h1 with h1
          injection hp with hp
          rw [← hp, ← h1]

/-! ### Hypotheses of the other theorems are met -/

/-- a flux below zero -/
noncomputable def exNegTable : FitTable :=
  { exFitTable with rows := ⟨4, -2, 3, 1, false, 0⟩ :: exFitTable.rows }

example : plotDataToAx exNegTable (fun r => (r.e / 2, 1)) PhysUnit.TeV true = .error .valueError :=
  C80_false_negative_flux exNegTable _ PhysUnit.TeV true rfl (by norm_num [exNegTable, exFitTable, PhysUnit.erg])
    rfl (by simp [exNegTable, exFitTable, SpectralType, ergPerSCm2]) (by norm_num [exNegTable, exFitTable, ergPerSCm2])
    rfl (by norm_num [exNegTable, exFitTable, ergPerSCm2]) rfl ⟨4, -2, 3, 1, false, 0⟩
    (by simp [exNegTable]) (by norm_num) (by norm_num) (by norm_num)

example : plotDataToAx ⟨PhysUnit.erg, ergPerSCm2, ergPerSCm2, ergPerSCm2, [⟨3, 2, 5, 1, false, 0⟩]⟩
    (fun r => (r.e / 2, 1)) PhysUnit.erg true = .error .valueError :=
  C80_false_all_compatible 3 2 5 1 (by norm_num) (by norm_num) (by norm_num) (by norm_num) _
    (fun r hr => ⟨by positivity, by simp; linarith, by norm_num⟩)

example : plotDataToAx { exPlotTable with loU := PhysUnit.TeV } (fun r => (r.e / 2, 1)) PhysUnit.erg false =
    .error .unitConversionError :=
  C80_units_refused _ _ _ _ rfl (by simp [exPlotTable, exFitTable, SpectralType, ergPerSCm2])
    (by simp [exPlotTable]) (Or.inl (by decide))

example : plotDataToAx { exPlotTable with rows := [] } (fun r => (r.e / 2, 1)) PhysUnit.erg false =
    .error .unboundLocalError :=
  C80_false_empty _ _ _ _ rfl (by simp [exPlotTable, exFitTable, SpectralType, ergPerSCm2]) rfl

example : ∃ fu p, DocumentedSedUnit exPlotTable.fU.dim false fu ∧
    plotDataToAx exPlotTable (fun r => (r.e / 2, 1)) PhysUnit.TeV false = .ok p ∧ p.points.flatten ≠ [] := by
  obtain ⟨fu, p, h1, h2, h3, -⟩ := C80_drawn_partial exPlotTable _ exPlotTable_drawable PhysUnit.TeV rfl
    (by norm_num [PhysUnit.TeV]) false
  refine ⟨fu, p, h1, h2, ?_⟩
  have hg : (0:ℤ) ∈ resGroups exPlotTable := by
    unfold resGroups; simp [exPlotTable]
  rw [h3]
  intro hc
  have := List.flatten_eq_nil_iff.1 hc _ (List.mem_map.2 ⟨0, hg, rfl⟩)
  simp [exPlotTable] at this

end Naima.Props
