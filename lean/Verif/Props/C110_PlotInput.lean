import Verif.Model.PlotInput
import Verif.Props.C90_Overlay
import Verif.Props.C107_Tables

/-! # C110: `plot_data` draws the measurements it is given, in each documented form -/

namespace Naima.Props

open Naima XR Spec Classical

/-! ### Specification -/

/-- How a measurement appears on the plot: its energy in the unit of the axis; its differential flux, times
the energy squared if an SED is plotted, in the unit of the other axis; a bar as long as its errors, but
when it would reach zero it stops at a ten millionth of the flux. -/
noncomputable def drawnPoint (sed : Bool) (eU fu : PhysUnit) (p : Measured) : Bar :=
  let k := if sed then p.energy ^ 2 else 1
  { x := p.energy / eU.scale
    y := k * p.flux / fu.scale
    lo := k * (if p.errLo < p.flux then p.errLo else p.flux - 1e-7 * p.flux) / fu.scale
    hi := k * p.errHi / fu.scale }

/-- How an upper limit appears, with an arrow down to three quarters of it. -/
noncomputable def drawnLimit (sed : Bool) (eU fu : PhysUnit) (p : Measured) : LimitMark :=
  let y := (if sed then p.energy ^ 2 else 1) * p.flux / fu.scale
  { x := p.energy / eU.scale, y := y, arrow := y - 3 / 4 * y }

/-- Measurements that can be drawn on logarithmic axes. -/
structure Plottable (ms : List Measured) : Prop where
  nonempty : ms ≠ []
  energy : ∀ p ∈ ms, 0 < p.energy
  values : ∀ p ∈ ms, p.ul = false → 0 ≤ p.flux ∧ 0 ≤ p.errLo ∧ 0 ≤ p.errHi
  limits : ∀ p ∈ ms, p.ul = true → 0 ≤ p.flux
  one : (∃ p ∈ ms, p.ul = false ∧ p.flux ≤ p.errLo) → ∃ p ∈ ms, p.ul = false ∧ p.errLo < p.flux

/-- The plot shows the given measurements, each once, and nothing else. -/
def Shows (sed : Bool) (eU fu : PhysUnit) (ms : List Measured) (l : Layer) : Prop :=
  l.eU = eU ∧ l.fU = fu ∧
  l.plot.points.flatten.Perm ((ms.filter (fun p => !p.ul)).map (drawnPoint sed eU fu)) ∧
  l.plot.limits.flatten.Perm ((ms.filter (fun p => p.ul)).map (drawnLimit sed eU fu))

/-- The unit of a spectrum of received or emitted radiation, as documented in `sed_conversion`:
erg/(cm2 s), erg/s, 1/(cm2 s TeV) or 1/(s TeV). -/
def plotUnit (lum sed : Bool) (fu : PhysUnit) : Prop :=
  DocumentedSedUnit (if lum then Dim.power else Dim.flux) sed fu

/-- The energy bins of every table lie at positive energies: given by its columns, or generated. -/
def BinsPositive (ts : List InTable) : Prop :=
  ∀ (i : ℕ) (t : InTable), ts[i]? = some t → ∀ widths, Widths t (i : ℤ) widths →
    ∀ q ∈ t.rows.zip widths, 0 ≤ q.2.1 ∧ q.2.1 < phys t.energyU q.1.energy ∧ 0 ≤ q.2.2

/-- The unit of the energy axis: the one asked for or, on an empty figure, that of the first table. -/
def AxisUnit (ts : List InTable) (ax : AxesState) (o : PlotOpts) (eU : PhysUnit) : Prop :=
  o.eUnit = some eU ∨ (o.eUnit = none ∧ ax = AxesState.new ∧ ∃ t rest, ts = t :: rest ∧ t.energyU = some eU)

/-! ### Proof -/

theorem groups_perm {α : Type} (gs : List ℤ) (hn : gs.Nodup) (l : List α) (grp : α → ℤ) (P : α → Bool)
    (h : ∀ a ∈ l, grp a ∈ gs) :
    (gs.map (fun g => l.filter (fun a => decide (grp a = g ∧ P a = true)))).flatten.Perm (l.filter P) := by
  induction gs generalizing l with
  | nil =>
    cases l with
    | nil => simp
    | cons a l => exact absurd (h a (by simp)) (by simp)
  | cons g gs ih =>
    rw [List.map_cons, List.flatten_cons]
    have hn' := List.nodup_cons.1 hn
    have h2 := ih hn'.2 (l.filter (fun a => !decide (grp a = g))) (by
      intro a ha
      simp only [List.mem_filter, Bool.not_eq_true', decide_eq_false_iff_not] at ha
      rcases List.mem_cons.1 (h a ha.1) with e | e
      · exact absurd e ha.2
      · exact e)
    have e1 : (gs.map (fun g' => (l.filter (fun a => !decide (grp a = g))).filter
        (fun a => decide (grp a = g' ∧ P a = true)))) =
        gs.map (fun g' => l.filter (fun a => decide (grp a = g' ∧ P a = true))) := by
      apply List.map_congr_left
      intro g' hg'
      rw [List.filter_filter]
      apply List.filter_congr
      intro a _
      by_cases c : grp a = g'
      · have : g' ≠ g := fun e => hn'.1 (e ▸ hg')
        simp [c, this]
      · simp [c]
    rw [e1] at h2
    have e2 : (l.filter (fun a => decide (grp a = g ∧ P a = true)) ++
        (l.filter (fun a => !decide (grp a = g))).filter P).Perm (l.filter P) := by
      have := List.filter_append_perm (fun a => decide (grp a = g)) (l.filter P)
      rw [List.filter_filter, List.filter_filter] at this
      rw [List.filter_filter]
      refine (List.Perm.of_eq ?_).trans this
      congr 1
      · apply List.filter_congr; intro a _; by_cases c : grp a = g <;> simp [c]
      · apply List.filter_congr; intro a _; exact Bool.and_comm _ _
    exact (h2.append_left _).trans e2

theorem asPlotted_eFac (sed b : Bool) (d : Dim) (hb : IsSedType d ↔ b = true) (E v : ℝ) (hE : 0 < E) :
    asPlotted sed d E v = (if sed then E ^ 2 else 1) * (v / eFac b E) := by
  unfold asPlotted eFac
  have := hE.ne'
  cases sed <;> cases b <;> simp [hb] <;> field_simp

/-- A validated table in terms of the measurements of the tables it was made from. -/
theorem validated_points (sort : List Row → List Row) (hsort : IsEnergySort sort)
    (ts : List InTable) (sed : Option Bool) (out : VTable)
    (h : validateDataTable sort ts sed = .ok out) (hne : measurements ts ≠ [])
    (hE : ∀ p ∈ measurements ts, 0 < p.energy) :
    ∃ (b lum : Bool), (∀ p ∈ measurements ts, p.luminosity = lum) ∧
      (out.rows.map (rowPoint b lum)).Perm (measurements ts) ∧
      (IsSedType out.fluxU.dim ↔ b = true) ∧ SpectralType out.fluxU.dim ∧ 0 < out.fluxU.scale ∧
      (∀ s fu, DocumentedSedUnit out.fluxU.dim s fu ↔ plotUnit lum s fu) ∧
      out.fluxErrorLoU = out.fluxU ∧ out.fluxErrorHiU = out.fluxU ∧ out.energyU.dim = Dim.energy ∧
      (∀ r ∈ out.rows, 0 < r.energy) ∧ (ts.head?.bind (·.energyU)) = some out.energyU := by
  obtain ⟨t0, rest, u0, b, cs, s, hts, h1, h2, h3, h4, h5, h6, h7, h8, g1, g2, g3, g4, h9⟩ :=
    validate_ok sort ts sed out h
  obtain ⟨fu, s', k1, -, k5, k6, k2, k3, k4⟩ := Props.C33_dimensions u0 (spectral_of_fluxTypes h2) b
  rw [h6] at k1
  simp at k1
  obtain ⟨rfl, rfl⟩ := k1
  have hmem := (mem_fluxTypes _).1 h2
  have hlum : ∀ t ∈ ts, t.rows ≠ [] → ∃ u, t.fluxU = some u ∧
      decide (LumLike u.dim) = decide (LumLike u0.dim) := by
    intro t ht hr
    rw [hts, List.mem_cons] at ht
    rcases ht with rfl | ht
    · exact ⟨u0, h1, rfl⟩
    · obtain ⟨w, w1, w2, w3, w4⟩ := h9 t ht hr
      exact ⟨w, w1, by rw [decide_eq_decide]; exact w4⟩
  have hpts := rows_points b (decide (LumLike u0.dim)) 0 ts cs h4 hlum hE
  have hperm : out.rows.Perm cs.flatten := by rw [h5]; exact (hsort _).1
  have hpts' : cs.flatten.map (rowPoint b (decide (LumLike u0.dim))) = measurements ts := by
    rw [← levelled_fst, ← hpts, List.map_map]; rfl
  refine ⟨b, decide (LumLike u0.dim), ?_, ?_, k2, k6, k5, ?_, h7, h8, g2, ?_, ?_⟩
  · intro p hp
    rw [← hpts', List.mem_map] at hp
    obtain ⟨r, -, rfl⟩ := hp
    rfl
  · rw [← hpts']; exact hperm.map _
  · intro s fu
    have hout : out.fluxU.dim = Dim.flux ∨ out.fluxU.dim = Dim.diffFlux ∨ out.fluxU.dim = Dim.power ∨
        out.fluxU.dim = Dim.diffPower := by
      rcases hmem with hm | hm
      · have := k3.2 (by simpa [FluxLike] using hm)
        simp at this; tauto
      · have := k4.2 (by simpa [LumLike] using hm)
        simp at this; tauto
    have hl : decide (LumLike u0.dim) = decide (LumLike out.fluxU.dim) := by
      rw [decide_eq_decide]; simpa [LumLike] using k4.symm
    rw [hl]
    unfold plotUnit DocumentedSedUnit
    rcases hout with e | e | e | e <;> rw [e] <;> rfl
  · intro r hr
    refine hE (rowPoint b (decide (LumLike u0.dim)) r) ?_
    rw [← hpts']
    exact List.mem_map.2 ⟨r, hperm.mem_iff.1 hr, rfl⟩
  · rw [hts]; simpa using g1

theorem bars_spec (v : VTable) (hb : ∀ r ∈ v.rows, 0 ≤ r.energyErrorLo ∧ r.energyErrorLo < r.energy ∧ 0 ≤ r.energyErrorHi)
    (hs : 0 < v.energyU.scale) :
    ∀ r ∈ v.toFit.rows, 0 ≤ (v.bars r).1 ∧ 0 < r.e - (v.bars r).1 ∧ 0 ≤ (v.bars r).2 := by
  intro r hr
  unfold VTable.bars
  cases hf : v.rows.find? (fun q => decide (v.fitRow q = r)) with
  | none =>
    simp only [VTable.toFit, List.mem_map] at hr
    obtain ⟨q, hq, rfl⟩ := hr
    have := List.find?_eq_none.1 hf q hq
    simp at this
  | some q =>
    have h1 := List.find?_some hf
    have h2 := List.mem_of_find?_eq_some hf
    simp only [decide_eq_true_eq] at h1
    subst h1
    obtain ⟨a0, a, c⟩ := hb q h2
    simp only [VTable.fitRow]
    refine ⟨div_nonneg a0 hs.le, ?_, div_nonneg c hs.le⟩
    rw [← sub_div]
    exact div_pos (by linarith) hs

/-- The rows of a validated table drawn on a plot. -/
theorem shows_of_valid (T : UnitText) (ax : AxesState) (o : PlotOpts) (v : VTable) (ms : List Measured)
    (b lum : Bool) (hp : (v.rows.map (rowPoint b lum)).Perm ms) (hb : IsSedType v.fluxU.dim ↔ b = true)
    (ht : SpectralType v.fluxU.dim) (hs : 0 < v.fluxU.scale)
    (hd : ∀ s fu, DocumentedSedUnit v.fluxU.dim s fu ↔ plotUnit lum s fu)
    (hlo : v.fluxErrorLoU = v.fluxU) (hhi : v.fluxErrorHiU = v.fluxU) (he : v.energyU.dim = Dim.energy)
    (hes : 0 < v.energyU.scale) (hE : ∀ r ∈ v.rows, 0 < r.energy) (hm : Plottable ms)
    (hbin : ∀ r ∈ v.rows, 0 ≤ r.energyErrorLo ∧ r.energyErrorLo < r.energy ∧ 0 ≤ r.energyErrorHi)
    (eU : PhysUnit) (hu : overlayUnit T ax.xlabel ⟨v.toFit, v.bars, o.xlabel, o.ylabel, o.sed, o.eUnit⟩ = eU)
    (hud : eU.dim = Dim.energy) (hup : 0 < eU.scale) (fu : PhysUnit) (hfu : plotUnit lum o.sed fu) :
    ∃ ax' l, plotData T ax ⟨v.toFit, v.bars, o.xlabel, o.ylabel, o.sed, o.eUnit⟩ = .ok ax' ∧
      ax'.layers = ax.layers ++ [l] ∧ Shows o.sed eU fu ms l ∧
      ax'.xlabel = (match o.xlabel with
        | some l => l
        | none => if ax.xlabel = [] then energyLabel T eU else ax.xlabel) ∧
      ax'.ylabel = (match o.ylabel with
        | some l => l
        | none => fluxLabel T o.sed fu) := by
  have hmem : ∀ r ∈ v.rows, rowPoint b lum r ∈ ms := fun r hr =>
    hp.mem_iff.1 (List.mem_map.2 ⟨r, hr, rfl⟩)
  have hmem' : ∀ p ∈ ms, ∃ r ∈ v.rows, rowPoint b lum r = p := fun p hp' =>
    List.mem_map.1 (hp.mem_iff.2 hp')
  have hfe : ∀ r ∈ v.rows, 0 < eFac b r.energy := fun r hr => eFac_pos b _ (hE r hr)
  have rE : ∀ r, rowE v.toFit (v.fitRow r) = r.energy := by
    intro r; simp only [rowE, VTable.toFit, VTable.fitRow]; field_simp
  have rF : ∀ r, rowF v.toFit (v.fitRow r) = r.flux := by
    intro r; simp only [rowF, VTable.toFit, VTable.fitRow]; field_simp
  have rL : ∀ r, rowLo v.toFit (v.fitRow r) = r.fluxErrorLo := by
    intro r; simp only [rowLo, VTable.toFit, VTable.fitRow, hlo]; field_simp
  have rH : ∀ r, rowHi v.toFit (v.fitRow r) = r.fluxErrorHi := by
    intro r; simp only [rowHi, VTable.toFit, VTable.fitRow, hhi]; field_simp
  have hcmp : ∀ r ∈ v.rows, ((rowPoint b lum r).errLo < (rowPoint b lum r).flux ↔ r.fluxErrorLo < r.flux) := by
    intro r hr
    simp only [rowPoint]
    exact div_lt_div_iff_of_pos_right (hfe r hr)
  have hdraw : Drawable v.toFit v.bars := by
    refine ⟨he, hes, ht, hs, by simp [VTable.toFit, hlo], by simpa [VTable.toFit, hlo] using hs,
      by simp [VTable.toFit, hhi], by simpa [VTable.toFit, hhi] using hs, ?_, ?_, ?_, ?_, bars_spec v hbin hes, ?_⟩
    · intro e
      simp only [VTable.toFit, List.map_eq_nil_iff] at e
      rw [e] at hp
      exact hm.nonempty (by simpa using hp)
    · intro r hr
      obtain ⟨q, hq, rfl⟩ := List.mem_map.1 hr
      exact div_pos (hE q hq) hes
    · intro r hr hul
      obtain ⟨q, hq, rfl⟩ := List.mem_map.1 hr
      obtain ⟨a1, a2, a3⟩ := hm.values _ (hmem q hq) hul
      simp only [rowPoint] at a1 a2 a3
      have f := hfe q hq
      simp only [VTable.fitRow, hlo, hhi]
      rw [le_div_iff₀ f, zero_mul] at a1 a2 a3
      exact ⟨div_nonneg a1 hs.le, div_nonneg a2 hs.le, div_nonneg a3 hs.le⟩
    · intro r hr hul
      obtain ⟨q, hq, rfl⟩ := List.mem_map.1 hr
      have a1 := hm.limits _ (hmem q hq) hul
      simp only [rowPoint] at a1
      have f := hfe q hq
      rw [le_div_iff₀ f, zero_mul] at a1
      exact div_nonneg a1 hs.le
    · rintro ⟨r, hr, hul, hle⟩
      obtain ⟨q, hq, rfl⟩ := List.mem_map.1 hr
      rw [rF, rL] at hle
      obtain ⟨p, hp1, hp2, hp3⟩ := hm.one ⟨_, hmem q hq, hul, by
        by_contra hc
        exact absurd ((hcmp q hq).1 (not_le.1 hc)) (not_lt.2 hle)⟩
      obtain ⟨q', hq', rfl⟩ := hmem' p hp1
      exact ⟨v.fitRow q', List.mem_map.2 ⟨q', hq', rfl⟩, hp2, by
        rw [rF, rL]; exact (hcmp q' hq').1 hp3⟩
  have hpoint : ∀ r ∈ v.rows, pointSpec v.toFit o.sed eU fu (v.fitRow r) =
      drawnPoint o.sed eU fu (rowPoint b lum r) := by
    intro r hr
    have f := hfe r hr
    have hl : lowerEnd v.toFit (v.fitRow r) =
        if r.fluxErrorLo < r.flux then r.flux - r.fluxErrorLo else 1e-7 * r.flux := by
      unfold lowerEnd; rw [rF, rL]
    have key := fun x => asPlotted_eFac o.sed b v.toFit.fU.dim hb r.energy x (hE r hr)
    unfold pointSpec drawnPoint
    rw [hl, rE, rF, rH, key, key, key]
    have hc := hcmp r hr
    simp only [rowPoint] at hc ⊢
    congr 1
    · simp only [hc]
      split_ifs <;> ring
    · ring
  have hlimit : ∀ r ∈ v.rows, limitSpec v.toFit o.sed eU fu (v.fitRow r) =
      drawnLimit o.sed eU fu (rowPoint b lum r) := by
    intro r hr
    have key := fun x => asPlotted_eFac o.sed b v.toFit.fU.dim hb r.energy x (hE r hr)
    unfold limitSpec drawnLimit
    rw [rE, rF, key]
    rfl
  obtain ⟨ax', l, a1, a2, a3, a4, a5⟩ := plotData_drawable T ax
    ⟨v.toFit, v.bars, o.xlabel, o.ylabel, o.sed, o.eUnit⟩ hdraw eU hu hud hup fu ((hd _ _).2 hfu)
  refine ⟨ax', l, a1, a2, ⟨a3.1, a3.2.1, ?_, ?_⟩, a4, a5⟩
  · rw [a3.2.2.1]
    have e : (resGroups v.toFit).map (fun g => (v.toFit.rows.filter
        (fun r => decide (r.group = g ∧ r.ul = false))).map (pointSpec v.toFit o.sed eU fu)) =
        ((resGroups v.toFit).map (fun g => v.toFit.rows.filter
          (fun r => decide (r.group = g ∧ (!r.ul) = true)))).map (List.map (pointSpec v.toFit o.sed eU fu)) := by
      rw [List.map_map]
      apply List.map_congr_left
      intro g _
      simp
    rw [e, ← List.map_flatten]
    have hg := groups_perm (resGroups v.toFit) (by unfold resGroups; exact Finset.sort_nodup _ _)
      v.toFit.rows (·.group) (fun r => !r.ul) (by
        intro r hr; unfold resGroups; simp; exact ⟨r, hr, rfl⟩)
    refine (hg.map _).trans ?_
    refine List.Perm.trans ?_ ((hp.filter _).map _)
    apply List.Perm.of_eq
    rw [List.filter_map, List.map_map]
    simp only [VTable.toFit]
    rw [List.filter_map, List.map_map]
    apply List.map_congr_left
    intro r hr
    exact hpoint r (List.mem_filter.1 hr).1
  · rw [a3.2.2.2]
    have e : (resGroups v.toFit).map (fun g => (v.toFit.rows.filter
        (fun r => decide (r.group = g ∧ r.ul = true))).map (limitSpec v.toFit o.sed eU fu)) =
        ((resGroups v.toFit).map (fun g => v.toFit.rows.filter
          (fun r => decide (r.group = g ∧ r.ul = true)))).map (List.map (limitSpec v.toFit o.sed eU fu)) := by
      rw [List.map_map]
      rfl
    rw [e, ← List.map_flatten]
    have hg := groups_perm (resGroups v.toFit) (by unfold resGroups; exact Finset.sort_nodup _ _)
      v.toFit.rows (·.group) (fun r => r.ul) (by
        intro r hr; unfold resGroups; simp; exact ⟨r, hr, rfl⟩)
    refine (hg.map _).trans ?_
    refine List.Perm.trans ?_ ((hp.filter _).map _)
    apply List.Perm.of_eq
    rw [List.filter_map, List.map_map]
    simp only [VTable.toFit]
    rw [List.filter_map, List.map_map]
    apply List.map_congr_left
    intro r hr
    exact hlimit r (List.mem_filter.1 hr).1

theorem bins_of_valid (sort : List Row → List Row) (hsort : IsEnergySort sort) (ts : List InTable)
    (sed : Option Bool) (out : VTable) (h : validateDataTable sort ts sed = .ok out) (hb : BinsPositive ts) :
    ∀ r ∈ out.rows, 0 ≤ r.energyErrorLo ∧ r.energyErrorLo < r.energy ∧ 0 ≤ r.energyErrorHi := by
  obtain ⟨-, b, chunks, -, -, -, -, -, hp, hlen, hc⟩ := C34_sorted_permutation sort hsort ts sed out h
  intro r hr
  obtain ⟨ch, hch, hrc⟩ := List.mem_flatten.1 (hp.mem_iff.1 hr)
  obtain ⟨i, hi, rfl⟩ := List.getElem_of_mem hch
  have hi' : i < ts.length := by omega
  obtain ⟨w, w1, w2, w3⟩ := hc i ts[i] (List.getElem?_eq_getElem hi')
  rw [List.getElem?_eq_getElem hi, Option.some.injEq] at w3
  rw [w3] at hrc
  obtain ⟨j, hj, rfl⟩ := List.getElem_of_mem hrc
  rw [List.length_zipWith] at hj
  have hm : (ts[i].rows[j], w[j]) ∈ ts[i].rows.zip w := by
    rw [List.mem_iff_getElem]
    exact ⟨j, by simpa using hj, by simp⟩
  have := hb i ts[i] (List.getElem?_eq_getElem hi') w w1 _ hm
  rw [List.getElem_zipWith]
  exact this

theorem plotUnit_exists (lum sed : Bool) : ∃ fu, plotUnit lum sed fu := by
  obtain ⟨fu, s, k, -⟩ := C33_dimensions ⟨1, if lum then Dim.power else Dim.flux⟩
    (by cases lum <;> decide) sed
  exact ⟨fu, C33_units _ (by cases lum <;> decide) _ _ _ k⟩

/-- **C110 (a fit).** A sampler holds the data table that `get_sampler` validated, with whatever option
`data_sed`; `plot_data(sampler)` then adds to the figure the measurements of the tables that were fitted,
each exactly once and as `drawnPoint` and `drawnLimit` say, and labels the axes with the units used. -/
theorem C110_sampler (T : UnitText) (hT : TextOk T) (sort : List Row → List Row) (hsort : IsEnergySort sort)
    (ts : List InTable) (dataSed : Option Bool) (data : VTable)
    (h : validateDataTable sort ts dataSed = .ok data) (hm : Plottable (measurements ts)) (hb : BinsPositive ts)
    (hpos : ∀ t ∈ ts, ∀ u, t.energyU = some u → 0 < u.scale)
    (ax : AxesState) (o : PlotOpts) (eU : PhysUnit) (hU : AxisUnit ts ax o eU) (hud : eU.dim = Dim.energy)
    (hup : 0 < eU.scale) :
    ∃ lum fu ax' l, (∀ p ∈ measurements ts, p.luminosity = lum) ∧ plotUnit lum o.sed fu ∧
      plotInput T sort ax o (.withData data) = .ok ax' ∧ ax'.layers = ax.layers ++ [l] ∧
      Shows o.sed eU fu (measurements ts) l ∧
      (o.xlabel = none → ax.xlabel = [] → AxisSays T ax'.xlabel eU) ∧
      (o.ylabel = none → AxisSays T ax'.ylabel fu) := by
  obtain ⟨b, lum, h1, h2, h3, h4, h5, h6, h7, h8, h9, h10, h11⟩ :=
    validated_points sort hsort ts dataSed data h hm.nonempty hm.energy
  obtain ⟨fu, hfu⟩ := plotUnit_exists lum o.sed
  have hes : 0 < data.energyU.scale := by
    cases ts with
    | nil => simp at h11
    | cons t rest => exact hpos t (by simp) _ (by simpa using h11)
  have hu : overlayUnit T ax.xlabel ⟨data.toFit, data.bars, o.xlabel, o.ylabel, o.sed, o.eUnit⟩ = eU := by
    unfold overlayUnit
    rcases hU with hU | ⟨hU, rfl, t, rest, rfl, ht⟩
    · simp only [hU]
    · simp only [hU]
      have e : oldUnit T AxesState.new.xlabel = ⟨1, Dim.one⟩ := by
        unfold oldUnit
        rw [show AxesState.new.xlabel = [] from rfl, show bracketText [] = [] from rfl, hT.empty]
      rw [e, if_neg (by decide)]
      simp only [List.head?_cons, Option.bind_some, ht, Option.some.injEq] at h11
      exact h11.symm
  obtain ⟨ax', l, a1, a2, a3, a4, a5⟩ := shows_of_valid T ax o data (measurements ts) b lum h2 h3 h4 h5 h6 h7
    h8 h9 hes h10 hm (bins_of_valid sort hsort ts dataSed data h hb) eU hu hud hup fu hfu
  refine ⟨lum, fu, ax', l, h1, hfu, a1, a2, a3, ?_, ?_⟩
  · intro e1 e2
    rw [a4, e1]
    simp only [e2, if_true]
    exact energyLabel_says T eU
  · intro e1
    rw [a5, e1]
    exact fluxLabel_says T o.sed fu

/-- **C110 (tables).** For a table or list of tables, `plot_data` adds to the figure its measurements, each
exactly once and as `drawnPoint` and `drawnLimit` say, whatever the order, units and kind (SED or
differential) of the tables, and labels the axes with the units used. -/
theorem C110_tables (T : UnitText) (hT : TextOk T) (sort : List Row → List Row) (hsort : IsEnergySort sort)
    (ts : List InTable) (hv : ∃ v, validateDataTable sort ts none = .ok v) (hm : Plottable (measurements ts))
    (hb : BinsPositive ts) (hpos : ∀ t ∈ ts, ∀ u, t.energyU = some u → 0 < u.scale)
    (ax : AxesState) (o : PlotOpts) (eU : PhysUnit) (hU : AxisUnit ts ax o eU) (hud : eU.dim = Dim.energy)
    (hup : 0 < eU.scale) :
    ∃ lum fu ax' l, (∀ p ∈ measurements ts, p.luminosity = lum) ∧ plotUnit lum o.sed fu ∧
      plotInput T sort ax o (.tables ts) = .ok ax' ∧ ax'.layers = ax.layers ++ [l] ∧
      Shows o.sed eU fu (measurements ts) l ∧
      (o.xlabel = none → ax.xlabel = [] → AxisSays T ax'.xlabel eU) ∧
      (o.ylabel = none → AxisSays T ax'.ylabel fu) := by
  obtain ⟨v, hv⟩ := hv
  obtain ⟨lum, fu, ax', l, h1, h2, h3, h4⟩ := C110_sampler T hT sort hsort ts none v hv hm hb hpos ax o eU hU hud hup
  refine ⟨lum, fu, ax', l, h1, h2, ?_, h4⟩
  rw [← h3]
  simp only [plotInput, hv]

theorem plotUnit_unique {lum sed : Bool} {fu fu' : PhysUnit} (h : plotUnit lum sed fu) (h' : plotUnit lum sed fu') :
    fu = fu' := documented_unique h h'

/-- **C110 (a fit shows the data that were fitted).** `plot_data(sampler)` and `plot_data(tables)` draw the
same points and the same limits in the same units, whatever `data_sed` the fit was made with. -/
theorem C110_same (T : UnitText) (hT : TextOk T) (sort : List Row → List Row) (hsort : IsEnergySort sort)
    (ts : List InTable) (hv : ∃ v, validateDataTable sort ts none = .ok v) (dataSed : Option Bool) (data : VTable)
    (h : validateDataTable sort ts dataSed = .ok data) (hm : Plottable (measurements ts))
    (hb : BinsPositive ts) (hpos : ∀ t ∈ ts, ∀ u, t.energyU = some u → 0 < u.scale)
    (ax : AxesState) (o : PlotOpts) (eU : PhysUnit) (hU : AxisUnit ts ax o eU) (hud : eU.dim = Dim.energy)
    (hup : 0 < eU.scale) :
    ∃ ax₁ ax₂ l₁ l₂, plotInput T sort ax o (.tables ts) = .ok ax₁ ∧
      plotInput T sort ax o (.withData data) = .ok ax₂ ∧ ax₁.layers = ax.layers ++ [l₁] ∧
      ax₂.layers = ax.layers ++ [l₂] ∧ l₁.eU = l₂.eU ∧ l₁.fU = l₂.fU ∧
      l₁.plot.points.flatten.Perm l₂.plot.points.flatten ∧ l₁.plot.limits.flatten.Perm l₂.plot.limits.flatten := by
  obtain ⟨lum, fu, ax₁, l₁, a1, a2, a3, a4, a5, -⟩ :=
    C110_tables T hT sort hsort ts hv hm hb hpos ax o eU hU hud hup
  obtain ⟨lum', fu', ax₂, l₂, b1, b2, b3, b4, b5, -⟩ :=
    C110_sampler T hT sort hsort ts dataSed data h hm hb hpos ax o eU hU hud hup
  have hl : lum' = lum := by
    obtain ⟨p, hp⟩ := List.exists_mem_of_ne_nil _ hm.nonempty
    rw [← a1 p hp, ← b1 p hp]
  subst hl
  have hf := plotUnit_unique a2 b2
  subst hf
  obtain ⟨c1, c2, c3, c4⟩ := a5
  obtain ⟨d1, d2, d3, d4⟩ := b5
  exact ⟨ax₁, ax₂, l₁, l₂, a3, b3, a4, b4, c1.trans d1.symm, c2.trans d2.symm, c3.trans d3.symm, c4.trans d4.symm⟩

/-- **C110 (refused tables).** What `validate_data_table` refuses is not drawn: its exception reaches the
caller, also the TypeErrors that `plot_data` intercepts. Objects that are neither are a TypeError. -/
theorem C110_refused (T : UnitText) (sort : List Row → List Row) (ax : AxesState) (o : PlotOpts) :
    (∀ ts e, validateDataTable sort ts none = .error e → plotInput T sort ax o (.tables ts) = .error e) ∧
    plotInput T sort ax o .other = .error .typeError := by
  refine ⟨?_, rfl⟩
  intro ts e h
  simp only [plotInput, h]

/-- **C110 is false of the code for dictionaries**, which the documentation of `plot_data` lists as
accepted: no dictionary of columns is ever drawn. With columns `energy` and `flux` in proper units and at
least one row the exception is a TypeError. -/
theorem C110_false_dict (T : UnitText) (sort : List Row → List Row) (ax : AxesState) (o : PlotOpts)
    (energyU fluxU : Option PhysUnit) (hasGroup : Bool) (rows : ℕ) :
    (∃ e, plotInput T sort ax o (.dict energyU fluxU hasGroup rows) = .error e) ∧
    (∀ eU fU, energyU = some eU → fluxU = some fU → eU.dim = Dim.energy → SpectralType fU.dim → 0 < rows →
      plotInput T sort ax o (.dict energyU fluxU hasGroup rows) = .error .typeError) := by
  constructor
  · cases energyU with
    | none => exact ⟨_, rfl⟩
    | some eU =>
      simp only [plotInput, plotDict]
      cases fluxU with
      | none => exact ⟨_, rfl⟩
      | some fU =>
        simp only
        cases sedArr fU eU o.sed with
        | error e => exact ⟨_, rfl⟩
        | ok p =>
          simp only
          split_ifs
          · exact ⟨_, rfl⟩
          · exact ⟨_, rfl⟩
  · rintro eU fU rfl rfl he hf hr
    obtain ⟨fu, s, c1, p1, a1, e1⟩ := sedArr_ok fU eU hf he o.sed
    simp only [plotInput, plotDict, a1]
    rw [if_neg (by omega)]

/-! ### Hypotheses are met -/

/-- Two measurements and an upper limit in TeV with bin widths. -/
noncomputable def exPlotIn : InTable where
  energyU := some PhysUnit.TeV
  fluxU := some ⟨1, Dim.diffFlux⟩
  fluxErrorU := some ⟨1, Dim.diffFlux⟩
  energyErrorU := some PhysUnit.TeV
  ulType := some .int
  rows := [{ energy := 10, flux := 1, fluxError := 2, energyError := 1 },
    { energy := 1, flux := 30, fluxError := 10, energyError := 1 / 2 },
    { energy := 20, flux := 3, fluxError := 1, energyError := 1, ulInt := 1 }]

theorem exPlotIn_ok (sort : List Row → List Row) : ∃ v, validateDataTable sort [exPlotIn] none = .ok v := by
  refine C34_accepts sort [exPlotIn] none (by simp) ?_ ?_ (Or.inl (by simpa using ⟨_, rfl, Or.inr rfl⟩))
  · simp only [List.mem_singleton, forall_eq]
    refine ⟨⟨_, rfl, rfl⟩, ⟨_, rfl, Or.inl (Or.inr rfl)⟩, Or.inl ⟨_, rfl, Or.inl (Or.inr rfl)⟩,
      Or.inr ⟨rfl, Or.inl ⟨_, rfl, rfl⟩⟩, Or.inr (Or.inl rfl), by simp [exPlotIn], by simp [exPlotIn]⟩
  · simp only [List.mem_singleton, forall_eq]
    intro u hu
    simp [exPlotIn] at hu ⊢
    rw [← hu]

theorem exPlotIn_bins : BinsPositive [exPlotIn] := by
  intro i t hi w hw
  have : t = exPlotIn := by
    have := List.mem_of_getElem? hi
    simpa using this
  subst this
  have := hw.1 (Or.inr (Or.inl (by simp [exPlotIn])))
  subst this
  simp [exPlotIn, givenWidths, phys, PhysUnit.TeV]
  norm_num

theorem exPlotIn_plottable : Plottable (measurements [exPlotIn]) := by
  constructor
  · simp [measurements, exPlotIn]
  · simp [measurements, exPlotIn, measured, phys, PhysUnit.TeV]; norm_num
  · have hd : ¬ (Dim.diffFlux = Dim.flux ∨ Dim.diffFlux = Dim.power) := by decide
    simp [measurements, exPlotIn, measured, phys, PhysUnit.TeV, flag, IsSed, hd]
  · have hd : ¬ (Dim.diffFlux = Dim.flux ∨ Dim.diffFlux = Dim.power) := by decide
    simp [measurements, exPlotIn, measured, phys, PhysUnit.TeV, flag, IsSed, hd]
  · intro _
    refine ⟨measured exPlotIn exPlotIn.rows[1], by simp [measurements, exPlotIn], ?_, ?_⟩
    · simp [exPlotIn, measured, flag]
    · have hd : ¬ (Dim.diffFlux = Dim.flux ∨ Dim.diffFlux = Dim.power) := by decide
      simp [exPlotIn, measured, phys, flag, IsSed, hd]
      norm_num

theorem exPlotIn_units : ∀ t ∈ [exPlotIn], ∀ u, t.energyU = some u → 0 < u.scale := by
  simp only [List.mem_singleton, forall_eq]
  intro u hu
  simp only [exPlotIn, Option.some.injEq] at hu
  rw [← hu]; norm_num [PhysUnit.TeV]

/-- The same table given directly, with a sampler and both ways, in TeV or in erg. -/
example (T : UnitText) (hT : TextOk T) (sort : List Row → List Row) (hsort : IsEnergySort sort) :
    ∃ data, validateDataTable sort [exPlotIn] none = .ok data ∧
    (∃ ax, plotInput T sort AxesState.new ⟨none, none, true, none⟩ (.withData data) = .ok ax) ∧
    (∃ ax, plotInput T sort AxesState.new ⟨none, none, true, some PhysUnit.erg⟩ (.tables [exPlotIn]) = .ok ax) ∧
    (∃ ax, plotInput T sort AxesState.new ⟨none, none, false, none⟩ (.tables [exPlotIn]) = .ok ax) := by
  obtain ⟨data, hd⟩ := exPlotIn_ok sort
  have hn : AxisUnit [exPlotIn] AxesState.new ⟨none, none, true, none⟩ PhysUnit.TeV :=
    Or.inr ⟨rfl, rfl, exPlotIn, [], rfl, rfl⟩
  have hn' : AxisUnit [exPlotIn] AxesState.new ⟨none, none, false, none⟩ PhysUnit.TeV :=
    Or.inr ⟨rfl, rfl, exPlotIn, [], rfl, rfl⟩
  obtain ⟨_, _, a, _, _, _, ha, -⟩ := C110_sampler T hT sort hsort [exPlotIn] none data hd exPlotIn_plottable
    exPlotIn_bins exPlotIn_units _ _ _ hn rfl (by norm_num [PhysUnit.TeV])
  obtain ⟨_, _, b, _, _, _, hb, -⟩ := C110_tables T hT sort hsort [exPlotIn] ⟨data, hd⟩ exPlotIn_plottable
    exPlotIn_bins exPlotIn_units AxesState.new ⟨none, none, true, some PhysUnit.erg⟩ PhysUnit.erg (Or.inl rfl) rfl
    (by norm_num [PhysUnit.erg])
  obtain ⟨c, _, _, _, hc, -⟩ := C110_same T hT sort hsort [exPlotIn] ⟨data, hd⟩ none data hd exPlotIn_plottable
    exPlotIn_bins exPlotIn_units _ _ _ hn' rfl (by norm_num [PhysUnit.TeV])
  exact ⟨data, hd, ⟨a, ha⟩, ⟨b, hb⟩, ⟨c, hc⟩⟩

end Naima.Props
