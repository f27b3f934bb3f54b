import Verif.Model.Overlay
import Verif.Props.C80_PlotData

/-! # C90: several tables on one figure -/

namespace Naima.Props

open Naima Classical

/-! ### Specification -/

/-- What is used of astropy: the empty string is dimensionless; a unit printed for LaTeX contains no square
brackets and cannot be read back (it starts with a dollar sign). -/
structure TextOk (T : UnitText) : Prop where
  empty : T.parse [] = some ⟨1, Dim.one⟩
  noBracket : ∀ u, '[' ∉ T.latex u ∧ ']' ∉ T.latex u
  unreadable : ∀ u, T.parse (T.latex u) = none

/-- The label ends with the unit in square brackets. -/
def AxisSays (T : UnitText) (label : List Char) (u : PhysUnit) : Prop :=
  ∃ text, label = text ++ '[' :: (T.latex u ++ [']'])

/-- A layer holds the measured points and limits of a table (C80), given in these units. -/
def LayerOf (t : FitTable) (sed : Bool) (u fu : PhysUnit) (l : Layer) : Prop :=
  l.eU = u ∧ l.fU = fu ∧
  l.plot.points = (resGroups t).map (fun g =>
    (t.rows.filter (fun r => r.group = g ∧ r.ul = false)).map (pointSpec t sed u fu)) ∧
  l.plot.limits = (resGroups t).map (fun g =>
    (t.rows.filter (fun r => r.group = g ∧ r.ul = true)).map (limitSpec t sed u fu))

/-! ### Proof -/

theorem takeWhile_all {p : Char → Bool} (l r : List Char) (c : Char) (hl : ∀ x ∈ l, p x = true) (hc : p c = false) :
    (l ++ c :: r).takeWhile p = l := by
  induction l with
  | nil => simp [hc]
  | cons a l ih =>
    rw [List.cons_append, List.takeWhile_cons_of_pos (hl a (by simp)), ih (fun x hx => hl x (by simp [hx]))]

/-- reading the text in the last pair of brackets -/
theorem bracketText_of (pre txt post : List Char) (h1 : '[' ∉ txt) (h2 : ']' ∉ txt) (h3 : '[' ∉ post) :
    bracketText (pre ++ '[' :: (txt ++ ']' :: post)) = txt := by
  unfold bracketText
  have : (pre ++ '[' :: (txt ++ ']' :: post)).reverse = (txt ++ ']' :: post).reverse ++ '[' :: pre.reverse := by
    simp
  rw [this, takeWhile_all _ _ _ ?_ (by simp), List.reverse_reverse, takeWhile_all _ _ _ ?_ (by simp)]
  · intro x hx
    simp only [ne_eq, decide_eq_true_eq]
    rintro rfl
    exact h2 hx
  · intro x hx
    simp only [ne_eq, decide_eq_true_eq]
    rintro rfl
    simp only [List.reverse_append, List.reverse_cons, List.append_assoc, List.mem_append, List.mem_reverse,
      List.mem_singleton] at hx
    rcases hx with hx | hx | hx
    · exact h3 hx
    · cases hx
    · exact h1 hx

theorem oldUnit_says {T : UnitText} (hT : TextOk T) {label : List Char} {u : PhysUnit} (h : AxisSays T label u) :
    oldUnit T label = ⟨1, Dim.one⟩ := by
  obtain ⟨text, rfl⟩ := h
  unfold oldUnit
  rw [bracketText_of text (T.latex u) [] (hT.noBracket u).1 (hT.noBracket u).2 (by simp), hT.unreadable]

theorem energyLabel_says (T : UnitText) (u : PhysUnit) : AxisSays T (energyLabel T u) u :=
  ⟨"$\\mathrm{Energy}$ ".toList, by
    unfold energyLabel
    have : "$\\mathrm{Energy}$ [".toList = "$\\mathrm{Energy}$ ".toList ++ ['['] := by decide
    rw [this, show "]".toList = [']'] by decide]
    simp only [List.append_assoc, List.cons_append, List.nil_append]⟩

theorem fluxLabel_says (T : UnitText) (sed : Bool) (u : PhysUnit) : AxisSays T (fluxLabel T sed u) u := by
  cases sed with
  | true =>
    refine ⟨"$E^2\\mathrm{{d}}N/\\mathrm{{d}}E$ ".toList, ?_⟩
    unfold fluxLabel
    have : "$E^2\\mathrm{{d}}N/\\mathrm{{d}}E$ [".toList = "$E^2\\mathrm{{d}}N/\\mathrm{{d}}E$ ".toList ++ ['['] := by
      decide
    rw [if_pos rfl, this, show "]".toList = [']'] by decide]
    simp only [List.append_assoc, List.cons_append, List.nil_append]
  | false =>
    refine ⟨"$\\mathrm{{d}}N/\\mathrm{{d}}E$ ".toList, ?_⟩
    unfold fluxLabel
    have : "$\\mathrm{{d}}N/\\mathrm{{d}}E$ [".toList = "$\\mathrm{{d}}N/\\mathrm{{d}}E$ ".toList ++ ['['] := by
      decide
    rw [if_neg (by simp), this, show "]".toList = [']'] by decide]
    simp only [List.append_assoc, List.cons_append, List.nil_append]

theorem documented_unique {d : Dim} {sed : Bool} {a b : PhysUnit} (ha : DocumentedSedUnit d sed a)
    (hb : DocumentedSedUnit d sed b) : a = b := by
  obtain ⟨sa, da⟩ := a
  obtain ⟨sb, db⟩ := b
  unfold DocumentedSedUnit at ha hb
  cases sed with
  | true =>
    simp only [if_true] at ha hb
    rw [ha.1, hb.1, ha.2, hb.2]
  | false =>
    simp only [Bool.false_eq_true, if_false] at ha hb
    have h0 : (1.602176634 : ℝ) ≠ 0 := by norm_num
    have : sa = sb := mul_right_cancel₀ h0 (ha.1.trans hb.1.symm)
    rw [this, ha.2, hb.2]

/-- One call. -/
theorem plotData_drawable (T : UnitText) (ax : AxesState) (c : OverlayCall) (ht : Drawable c.table c.err)
    (u : PhysUnit) (hu : overlayUnit T ax.xlabel c = u) (hud : u.dim = Dim.energy) (hup : 0 < u.scale)
    (fu : PhysUnit) (hfu : DocumentedSedUnit c.table.fU.dim c.sed fu) :
    ∃ ax' l, plotData T ax c = .ok ax' ∧ ax'.layers = ax.layers ++ [l] ∧ LayerOf c.table c.sed u fu l ∧
      ax'.xlabel = (match c.xlabel with
        | some l => l
        | none => if ax.xlabel = [] then energyLabel T u else ax.xlabel) ∧
      ax'.ylabel = (match c.ylabel with
        | some l => l
        | none => fluxLabel T c.sed fu) := by
  obtain ⟨fu', p, h1, h2, h3, h4, -⟩ := C80_drawn_partial c.table c.err ht u hud hup c.sed
  have e := documented_unique h1 hfu
  subst e
  obtain ⟨fu2, s, g1, -⟩ := C33_dimensions c.table.fU ht.fType c.sed
  have e2 := documented_unique (C33_units _ ht.fType _ _ _ g1) hfu
  subst e2
  unfold plotData
  simp only [hu, h2, g1]
  exact ⟨_, _, rfl, rfl, ⟨rfl, rfl, h3, h4⟩, rfl, rfl⟩

/-! ### Theorems -/

/-- **C90 (one unit, partial).** On a new figure, any number of calls of `plot_data` without own labels, all
of which ask for the same energy unit or have tables in that unit, and which have the same kind of plot and
spectra of matching type (in whatever units): every table is drawn in the units named on the two axes.
Missing: tables in another energy unit without `e_unit` (`C90_false_overlay`), and another kind of plot
(`C90_false_kind`). -/
theorem C90_one_unit_partial (T : UnitText) (hT : TextOk T) (calls : List OverlayCall) (hne : calls ≠ [])
    (u fu : PhysUnit) (sed : Bool) (hud : u.dim = Dim.energy) (hup : 0 < u.scale)
    (h : ∀ c ∈ calls, Drawable c.table c.err ∧ c.xlabel = none ∧ c.ylabel = none ∧ c.sed = sed ∧
      c.eUnit.getD c.table.eU = u ∧ DocumentedSedUnit c.table.fU.dim sed fu) :
    ∃ ax, plotMany T .new calls = .ok ax ∧ AxisSays T ax.xlabel u ∧ AxisSays T ax.ylabel fu ∧
      List.Forall₂ (fun c l => LayerOf c.table sed u fu l) calls ax.layers := by
  have step : ∀ (ax : AxesState) (c : OverlayCall), c ∈ calls → (ax.xlabel = [] ∨ AxisSays T ax.xlabel u) →
      ∃ ax' l, plotData T ax c = .ok ax' ∧ ax'.layers = ax.layers ++ [l] ∧ LayerOf c.table sed u fu l ∧
        AxisSays T ax'.xlabel u ∧ AxisSays T ax'.ylabel fu := by
    intro ax c hc hax
    obtain ⟨h1, h2, h3, h4, h5, h6⟩ := h c hc
    have hu : overlayUnit T ax.xlabel c = u := by
      unfold overlayUnit
      cases he : c.eUnit with
      | some v => rw [he] at h5; exact h5
      | none =>
        rw [he] at h5
        have : oldUnit T ax.xlabel = ⟨1, Dim.one⟩ := by
          rcases hax with hax | hax
          · unfold oldUnit
            rw [hax, show bracketText [] = [] from rfl, hT.empty]
          · exact oldUnit_says hT hax
        simp only [this]
        rw [if_neg (by decide)]
        exact h5
    obtain ⟨ax', l, a1, a2, a3, a4, a5⟩ := plotData_drawable T ax c h1 u hu hud hup fu (by rw [h4]; exact h6)
    refine ⟨ax', l, a1, a2, by rw [← h4]; exact a3, ?_, ?_⟩
    · rw [a4, h2]
      show AxisSays T (if ax.xlabel = [] then energyLabel T u else ax.xlabel) u
      split_ifs with he
      · exact energyLabel_says T u
      · exact hax.resolve_left he
    · rw [a5, h3]
      exact fluxLabel_says T c.sed fu
  have main : ∀ (cs : List OverlayCall) (ax : AxesState), (∀ c ∈ cs, c ∈ calls) →
      AxisSays T ax.xlabel u → AxisSays T ax.ylabel fu →
      ∃ ax', plotMany T ax cs = .ok ax' ∧ AxisSays T ax'.xlabel u ∧ AxisSays T ax'.ylabel fu ∧
        ∃ ls, ax'.layers = ax.layers ++ ls ∧ List.Forall₂ (fun c l => LayerOf c.table sed u fu l) cs ls := by
    intro cs
    induction cs with
    | nil => intro ax _ h1 h2; exact ⟨ax, rfl, h1, h2, [], by simp, .nil⟩
    | cons c cs ih =>
      intro ax hcs h1 h2
      obtain ⟨ax1, l, a1, a2, a3, a4, a5⟩ := step ax c (hcs c (by simp)) (Or.inr h1)
      obtain ⟨ax', b1, b2, b3, ls, b4, b5⟩ := ih ax1 (fun c' hc' => hcs c' (by simp [hc'])) a4 a5
      refine ⟨ax', ?_, b2, b3, l :: ls, ?_, .cons a3 b5⟩
      · unfold plotMany; rw [a1]; exact b1
      · rw [b4, a2]; simp
  obtain ⟨c, cs, rfl⟩ : ∃ c cs, calls = c :: cs := by
    cases calls with
    | nil => exact absurd rfl hne
    | cons c cs => exact ⟨c, cs, rfl⟩
  obtain ⟨ax1, l, a1, a2, a3, a4, a5⟩ := step .new c (by simp) (Or.inl rfl)
  obtain ⟨ax', b1, b2, b3, ls, b4, b5⟩ := main cs ax1 (fun c' hc' => by simp [hc']) a4 a5
  refine ⟨ax', ?_, b2, b3, ?_⟩
  · unfold plotMany; rw [a1]; exact b1
  · rw [b4, a2]
    exact .cons a3 b5

/-- **C90 (a readable label).** If the label of the `x` axis ends with the name of an energy unit in square
brackets that astropy can read, tables are drawn in that unit, whatever their own, unless `e_unit` is given;
and the label stays. -/
theorem C90_readable_label (T : UnitText) (ax : AxesState) (c : OverlayCall) (ht : Drawable c.table c.err)
    (pre name post : List Char) (h1 : '[' ∉ name) (h2 : ']' ∉ name) (h3 : '[' ∉ post)
    (hl : ax.xlabel = pre ++ '[' :: (name ++ ']' :: post)) (u : PhysUnit) (hu : T.parse name = some u)
    (hud : u.dim = Dim.energy) (hup : 0 < u.scale) (he : c.eUnit = none) (hx : c.xlabel = none) (fu : PhysUnit)
    (hfu : DocumentedSedUnit c.table.fU.dim c.sed fu) :
    ∃ ax' l, plotData T ax c = .ok ax' ∧ ax'.layers = ax.layers ++ [l] ∧ LayerOf c.table c.sed u fu l ∧
      ax'.xlabel = ax.xlabel := by
  have hu' : overlayUnit T ax.xlabel c = u := by
    unfold overlayUnit oldUnit
    rw [he, hl, bracketText_of pre name post h1 h2 h3, hu]
    simp only [hud, if_true]
  obtain ⟨ax', l, a1, a2, a3, a4, -⟩ := plotData_drawable T ax c ht u hu' hud hup fu hfu
  refine ⟨ax', l, a1, a2, a3, ?_⟩
  rw [a4, hx]
  show (if ax.xlabel = [] then energyLabel T u else ax.xlabel) = _
  rw [if_neg (by rw [hl]; simp)]

/-- **C90 fails for tables in different units.** The second of two tables in different energy units is not
drawn in the unit named on the axis but in its own: the comment "try to get units from previous plot in
figure" does not hold, because the label written by the first call cannot be read. -/
theorem C90_false_overlay (T : UnitText) (hT : TextOk T) (c d : OverlayCall) (hc : Drawable c.table c.err)
    (hd : Drawable d.table d.err) (hce : c.eUnit = none) (hde : d.eUnit = none) (hcx : c.xlabel = none)
    (hdx : d.xlabel = none) (hdiff : d.table.eU ≠ c.table.eU) :
    ∃ ax l₁ l₂ f₁ f₂, plotMany T .new [c, d] = .ok ax ∧ AxisSays T ax.xlabel c.table.eU ∧ ax.layers = [l₁, l₂] ∧
      LayerOf c.table c.sed c.table.eU f₁ l₁ ∧ LayerOf d.table d.sed d.table.eU f₂ l₂ ∧
      l₂.eU ≠ c.table.eU := by
  obtain ⟨f1, s1, k1, -⟩ := C33_dimensions c.table.fU hc.fType c.sed
  obtain ⟨f2, s2, k2, -⟩ := C33_dimensions d.table.fU hd.fType d.sed
  have u1 : overlayUnit T AxesState.new.xlabel c = c.table.eU := by
    unfold overlayUnit oldUnit
    rw [hce, show AxesState.new.xlabel = [] from rfl, show bracketText [] = [] from rfl, hT.empty]
    simp only
    rw [if_neg (by decide)]
  obtain ⟨ax1, l1, a1, a2, a3, a4, a5⟩ := plotData_drawable T .new c hc c.table.eU u1 hc.eDim hc.ePos f1
    (C33_units _ hc.fType _ _ _ k1)
  have hl1 : ax1.xlabel = energyLabel T c.table.eU := by
    rw [a4, hcx]; rfl
  have u2 : overlayUnit T ax1.xlabel d = d.table.eU := by
    unfold overlayUnit
    rw [hde, hl1]
    simp only [oldUnit_says hT (energyLabel_says T c.table.eU)]
    rw [if_neg (by decide)]
  obtain ⟨ax2, l2, b1, b2, b3, b4, b5⟩ := plotData_drawable T ax1 d hd d.table.eU u2 hd.eDim hd.ePos f2
    (C33_units _ hd.fType _ _ _ k2)
  refine ⟨ax2, l1, l2, f1, f2, ?_, ?_, ?_, a3, b3, by rw [b3.1]; exact hdiff⟩
  · simp only [plotMany, a1, b1]
  · rw [b4, hdx]
    show AxisSays T (if ax1.xlabel = [] then energyLabel T d.table.eU else ax1.xlabel) _
    have hne : ax1.xlabel ≠ [] := by
      obtain ⟨text, ht⟩ := energyLabel_says T c.table.eU
      rw [hl1, ht]; simp
    rw [if_neg hne, hl1]
    exact energyLabel_says T _
  · rw [b2, a2]; rfl

/-- **C90 fails for another kind of plot.** If an SED is drawn first and then a differential spectrum, the
label of the `y` axis names the unit of the second, in which the first table is not given. -/
theorem C90_false_kind (T : UnitText) (c d : OverlayCall) (hc : Drawable c.table c.err)
    (hd : Drawable d.table d.err) (u : PhysUnit) (hud : u.dim = Dim.energy) (hup : 0 < u.scale)
    (hce : c.eUnit = some u) (hde : d.eUnit = some u) (hcs : c.sed = true) (hds : d.sed = false)
    (hdy : d.ylabel = none) :
    ∃ ax l₁ l₂ f₁ f₂, plotMany T .new [c, d] = .ok ax ∧ AxisSays T ax.ylabel f₂ ∧ ax.layers = [l₁, l₂] ∧
      LayerOf c.table true u f₁ l₁ ∧ LayerOf d.table false u f₂ l₂ ∧ f₁.dim ≠ f₂.dim := by
  obtain ⟨f1, s1, k1, -, -, t1, i1, -⟩ := C33_dimensions c.table.fU hc.fType c.sed
  obtain ⟨f2, s2, k2, -, -, t2, i2, -⟩ := C33_dimensions d.table.fU hd.fType d.sed
  obtain ⟨ax1, l1, a1, a2, a3, a4, a5⟩ := plotData_drawable T .new c hc u (by unfold overlayUnit; rw [hce]) hud hup f1
    (C33_units _ hc.fType _ _ _ k1)
  obtain ⟨ax2, l2, b1, b2, b3, b4, b5⟩ := plotData_drawable T ax1 d hd u (by unfold overlayUnit; rw [hde]) hud hup f2
    (C33_units _ hd.fType _ _ _ k2)
  refine ⟨ax2, l1, l2, f1, f2, ?_, ?_, ?_, by rw [← hcs]; exact a3, by rw [← hds]; exact b3, ?_⟩
  · simp only [plotMany, a1, b1]
  · rw [b5, hdy]
    exact fluxLabel_says T d.sed f2
  · rw [b2, a2]; rfl
  · intro e
    have h1 := i1.2 hcs
    rw [e] at h1
    have := i2.1 h1
    rw [hds] at this
    cases this

/-! ### Hypotheses are met -/

/-- A way of reading and printing units as required: everything is printed as `$x$`. -/
example : TextOk ⟨fun s => if s = [] then some ⟨1, Dim.one⟩ else none, fun _ => ['$', 'x', '$']⟩ where
  empty := rfl
  noBracket := by intro u; constructor <;> simp
  unreadable := by intro u; simp

/-- A call as required: the table of C80. -/
example : ∃ c : OverlayCall, Drawable c.table c.err ∧ c.xlabel = none ∧ c.ylabel = none ∧ c.sed = true ∧
    c.eUnit.getD c.table.eU = PhysUnit.erg ∧ ∃ fu, DocumentedSedUnit c.table.fU.dim true fu := by
  obtain ⟨fu, s, k, -⟩ := C33_dimensions exPlotTable.fU exPlotTable_drawable.fType true
  exact ⟨⟨exPlotTable, _, none, none, true, some PhysUnit.erg⟩, exPlotTable_drawable, rfl, rfl, rfl, rfl, fu,
    C33_units _ exPlotTable_drawable.fType _ _ _ k⟩

end Naima.Props
