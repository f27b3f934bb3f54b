import Verif.Proof.SetEnergy

/-! # C09, C10, C11: particle grids and energy content -/

namespace Naima.Props

open Naima XR Classical

/-! ## C11 -/

/-- **C11 (electrons).** For every pair of positive energies `Eemin < Eemax`, in any units, and every
`nEed`, the grid of electron energies is a logarithmic grid from exactly `Eemin` to exactly `Eemax`
(energies in erg, `gam` in units of `mec2`). -/
theorem C11_electron_grid (m : ElModel) (hlo : m.Eemin.PosEnergy) (hhi : m.Eemax.PosEnergy)
    (h : m.Eemin.phys < m.Eemax.phys) :
    ∃ gam, m.gam = .ok gam ∧ LogGrid (gam.map (· * cMec2)) m.Eemin.phys m.Eemax.phys := by
  obtain ⟨l, e, hg⟩ := gamGrid_logGrid m.nEed m.Eemin m.Eemax hlo hhi h
  refine ⟨l, e, ?_⟩
  have hm := cMec2_pos
  obtain ⟨q, hq, hgeo⟩ := hg.geometric
  refine ⟨by rw [List.length_map]; exact hg.ten, ?_, ?_, ?_, q, hq, ?_⟩
  · rw [List.head?_map, hg.first]; simp [hm.ne']
  · rw [List.getLast?_map, hg.last]; simp [hm.ne']
  · rw [List.pairwise_map]
    exact hg.increasing.imp (fun h => mul_lt_mul_of_pos_right h hm)
  · intro i a b ha hb
    rw [List.getElem?_map] at ha hb
    cases hla : l[i]? with
    | none => simp [hla] at ha
    | some a' =>
      cases hlb : l[i + 1]? with
      | none => simp [hlb] at hb
      | some b' =>
        simp [hla] at ha; simp [hlb] at hb
        rw [← ha, ← hb, hgeo i a' b' hla hlb]; ring

/-- **C11 (number of points, electrons).** The grid has `max(10, floor(nEed * decades))` points. -/
theorem C11_electron_grid_size (m : ElModel) (hlo : m.Eemin.PosEnergy) (hhi : m.Eemax.PosEnergy)
    (hn : 0 ≤ m.nEed) (h : m.Eemin.phys < m.Eemax.phys) (gam : List ℝ) (hg : m.gam = .ok gam) :
    gam.length = max 10 ⌊m.nEed * Real.logb 10 (m.Eemax.phys / m.Eemin.phys)⌋₊ := by
  have e := gamGrid_eq m.nEed m.Eemin m.Eemax hlo hhi
  unfold ElModel.gam at hg
  rw [e, logb_quot _ _ hlo hhi _ cMec2_pos] at hg
  have hnn : 0 ≤ m.nEed * Real.logb 10 (m.Eemax.phys / m.Eemin.phys) := by
    apply mul_nonneg hn
    apply (Real.logb_pos (by norm_num) _).le
    rwa [one_lt_div hlo.phys_pos]
  rw [if_pos hnn] at hg
  injection hg with hg
  rw [← hg, logspace_length]
  rw [← Int.floor_toNat]
  omega

/-- **C11 (protons).** The same for proton models: `_Ep` is in GeV. -/
theorem C11_proton_grid (m : PrModel) (hlo : m.Epmin.PosEnergy) (hhi : m.Epmax.PosEnergy)
    (h : m.Epmin.phys < m.Epmax.phys) :
    ∃ ep, m.Ep = .ok ep ∧
      LogGrid ep (m.Epmin.phys / PhysUnit.GeV.scale) (m.Epmax.phys / PhysUnit.GeV.scale) := by
  rw [← epGrid_eq_Ep m hlo hhi]
  exact epGrid_logGrid m.nEpd _ _ hlo hhi h

/-- The default synchrotron range, 1 GeV to 1e9 mec2, meets the hypotheses. -/
example : ∃ m : ElModel, m.Eemin.PosEnergy ∧ m.Eemax.PosEnergy ∧ m.Eemin.phys < m.Eemax.phys ∧
    m.nEed = 100 := by
  refine ⟨⟨⟨1, PhysUnit.GeV⟩, ⟨1e9, ⟨cMec2, Dim.energy⟩⟩, 100⟩, ⟨rfl, GeV_pos, by norm_num⟩,
    ⟨rfl, cMec2_pos, by norm_num⟩, ?_, rfl⟩
  simp only [Qty.phys, PhysUnit.GeV, cMec2, cMe, cC]
  norm_num

/-! ## C10 -/

/-- **C10 (electrons).** `compute_We()` is `compute_We(Eemin=self.Eemin, Eemax=self.Eemax)`, and a
missing limit stands for the model's own. For every model, whatever its limits. -/
theorem C10_compute_We (m : ElModel) (pd : PDist) :
    m.computeWe pd none none = m.computeWe pd (some m.Eemin) (some m.Eemax) ∧
    (∀ lo, m.computeWe pd (some lo) none = m.computeWe pd (some lo) (some m.Eemax)) ∧
    (∀ hi, m.computeWe pd none (some hi) = m.computeWe pd (some m.Eemin) (some hi)) := by
  refine ⟨?_, fun _ => rfl, fun _ => rfl⟩
  unfold ElModel.computeWe ElModel.We ElModel.nelec ElModel.gam
  simp only [Option.getD_some]
  cases gamGrid m.nEed m.Eemin m.Eemax <;> rfl

/-- **C10 (protons).** The same, although `Wp` converts to 1/GeV and takes the logarithm of the ratio
of the limits while `compute_Wp` keeps the unit and subtracts logarithms. -/
theorem C10_compute_Wp (m : PrModel) (pd : PDist) (hu : 0 < pd.unit.scale)
    (hlo : m.Epmin.PosEnergy) (hhi : m.Epmax.PosEnergy) :
    m.computeWp pd none none = m.computeWp pd (some m.Epmin) (some m.Epmax) ∧
    (∀ lo, m.computeWp pd (some lo) none = m.computeWp pd (some lo) (some m.Epmax)) ∧
    (∀ hi, m.computeWp pd none (some hi) = m.computeWp pd (some m.Epmin) (some hi)) := by
  refine ⟨?_, fun _ => rfl, fun _ => rfl⟩
  unfold PrModel.computeWp PrModel.Wp PrModel.J
  simp only [Option.getD_some]
  rw [epGrid_eq_Ep m hlo hhi]
  cases m.Ep with
  | error e => rfl
  | ok ep =>
    simp only [bind, Except.bind]
    rw [wpQty_eq ep pd hu]
    cases protOf pd ep <;> rfl

/-- **C10 (explicit limits in other units).** The energy content depends on the physical limits
only, not on the units they are given in. -/
theorem C10_We_units (m : ElModel) (pd : PDist) (lo hi lo' hi' : Qty ℝ) (h1 : lo.PosEnergy)
    (h2 : hi.PosEnergy) (h3 : lo'.PosEnergy) (h4 : hi'.PosEnergy) (e1 : lo.phys = lo'.phys)
    (e2 : hi.phys = hi'.phys) :
    m.computeWe pd (some lo) (some hi) = m.computeWe pd (some lo') (some hi') := by
  unfold ElModel.computeWe
  simp only [Option.getD_some]
  rw [gamGrid_eq _ _ _ h1 h2, gamGrid_eq _ _ _ h3 h4, e1, e2]

/-! ## C09 -/

/-- The distribution computed from the attribute values is proportional to attribute `nm`: scaling
that attribute scales every value, in the same unit. -/
def LinearIn (pdOf : Dict String (Qty XR) → PDist) (nm : String) : Prop :=
  ∀ v q (k : ℝ), 0 < k → v.get? nm = some q →
    (pdOf (v.set nm ⟨q.value * fin k, q.unit⟩)).unit = (pdOf v).unit ∧
    ∀ e, (pdOf (v.set nm ⟨q.value * fin k, q.unit⟩)).f e = fin k * (pdOf v).f e

theorem LinearIn.eq {pdOf : Dict String (Qty XR) → PDist} {nm : String} (h : LinearIn pdOf nm)
    {v : Dict String (Qty XR)} {q : Qty XR} {k : ℝ} (hk : 0 < k) (hq : v.get? nm = some q) :
    pdOf (v.set nm ⟨q.value * fin k, q.unit⟩) = (pdOf v).scale k := by
  obtain ⟨a, b⟩ := h v q k hk hq
  unfold PDist.scale
  cases hh : pdOf (v.set nm ⟨q.value * fin k, q.unit⟩) with
  | mk u f =>
    rw [hh] at a b
    simp only at a b
    rw [a, funext b]

/-- generic form of the two theorems below -/
theorem set_energy_default (content : PDist → Except PyErr XR)
    (hsc : ∀ pd (c : ℝ), 0 < c → content (pd.scale c) = (content pd).map (fun a => fin c * a))
    (pdOf : Dict String (Qty XR) → PDist) (o : DistObj) (h : Store) (hw : o.WF h) (r : Nat)
    (hr : o.attrs.get? "amplitude" = some r)
    (hal : ∀ p ∈ o.attrs, p.1 ≠ "amplitude" → p.2 ≠ r)
    (hlin : LinearIn pdOf "amplitude") (w : ℝ) (hw0 : 0 < w)
    (hold : content (pdOf (o.vals h)) = .ok (fin w)) (W : Qty ℝ) (hW : W.PosEnergy) :
    ∃ h', setEnergy (fun v => content (pdOf v)) o h W.lift none = .ok (o, h') ∧
      content (pdOf (o.vals h')) = .ok (fin W.phys) ∧
      (∀ k, k ≠ "amplitude" → (o.vals h').get? k = (o.vals h).get? k) ∧
      (∀ i, i ≠ r → h'[i]? = h[i]?) ∧
      (∀ q, h[r]? = some q → h'[r]? = some ⟨q.value * fin (W.phys / w), q.unit⟩) := by
  have hk : 0 < W.phys / w := div_pos hW.phys_pos hw0
  have hrat : weRatio W.lift (fin w) = fin (W.phys / w) := by
    unfold weRatio Qty.lift
    simp only [mul_fin]
    rw [div_fin _ _ hw0.ne']
    rfl
  have hv := vals_modify o h hw "amplitude" r hr hal
    (fun q => ⟨q.value * fin (W.phys / w), q.unit⟩)
  have hget : (o.vals h).get? "amplitude" = some (h.getD r ⟨nan, PhysUnit.erg⟩) := by
    rw [vals_get?, hr]; rfl
  refine ⟨h.modify r (fun q => ⟨q.value * fin (W.phys / w), q.unit⟩), ?_, ?_, ?_, ?_, ?_⟩
  · unfold setEnergy
    rw [if_neg (by simpa [Qty.lift] using hW.isEnergy)]
    simp only [bind, Except.bind, hold]
    rw [hrat]
    simp only [rescale, hr, pure, Except.pure]
  · rw [hv, hlin.eq hk hget, hsc _ _ hk, hold]
    simp only [Except.map, mul_fin]
    congr 2
    field_simp
  · intro k hk
    rw [hv, Dict.get?_set_other _ _ _ _ hk]
  · intro i hi
    rw [List.getElem?_modify]
    have : ¬ r = i := fun e => hi e.symm
    simp [this]
  · intro q hq
    rw [List.getElem?_modify, hq]
    simp

/-- generic form for an explicit attribute name -/
theorem set_energy_named (content : PDist → Except PyErr XR)
    (hsc : ∀ pd (c : ℝ), 0 < c → content (pd.scale c) = (content pd).map (fun a => fin c * a))
    (pdOf : Dict String (Qty XR) → PDist) (o : DistObj) (h : Store) (hw : o.WF h) (nm : String)
    (r : Nat) (hr : o.attrs.get? nm = some r)
    (hlin : LinearIn pdOf nm) (w : ℝ) (hw0 : 0 < w)
    (hold : content (pdOf (o.vals h)) = .ok (fin w)) (W : Qty ℝ) (hW : W.PosEnergy) :
    ∃ o' h', setEnergy (fun v => content (pdOf v)) o h W.lift (some nm) = .ok (o', h') ∧
      content (pdOf (o'.vals h')) = .ok (fin W.phys) ∧
      (∀ k, k ≠ nm → (o'.vals h').get? k = (o.vals h).get? k) ∧
      (∀ i, i < h.length → h'[i]? = h[i]?) := by
  have hk : 0 < W.phys / w := div_pos hW.phys_pos hw0
  have hrat : weRatio W.lift (fin w) = fin (W.phys / w) := by
    unfold weRatio Qty.lift
    simp only [mul_fin]
    rw [div_fin _ _ hw0.ne']
    rfl
  set q := h.getD r ⟨nan, PhysUnit.erg⟩ with hq
  have hget : (o.vals h).get? nm = some q := by
    rw [vals_get?, hr]; rfl
  have hv := vals_append o h hw nm ⟨q.value * fin (W.phys / w), q.unit⟩ r hr
  refine ⟨⟨o.attrs.set nm h.length⟩, h ++ [⟨q.value * fin (W.phys / w), q.unit⟩], ?_, ?_, ?_, ?_⟩
  · unfold setEnergy
    rw [if_neg (by simpa [Qty.lift] using hW.isEnergy)]
    simp only [bind, Except.bind, hold]
    rw [hrat]
    simp only [rescale, hr, pure, Except.pure]
    rfl
  · rw [hv, hlin.eq hk hget, hsc _ _ hk, hold]
    simp only [Except.map, mul_fin]
    congr 2
    field_simp
  · intro k hk
    rw [hv, Dict.get?_set_other _ _ _ _ hk]
  · intro i hi
    rw [List.getElem?_append_left hi]

/-- **C09 (set_We, default name; partial).** For an electron model and a distribution proportional to
its `amplitude`, with positive energy content `w` between the limits: after `set_We(W, Eemin,
Eemax)`, `compute_We(Eemin, Eemax)` returns exactly `W` (in erg), every other attribute is as before,
and of all stored quantities only the one the amplitude refers to has changed (it is multiplied by
`W / w`).  What is missing from the full property: the change is made in place, see
`C09_false_shared_amplitude`. -/
theorem C09_set_We_partial (m : ElModel) (lo hi : Option (Qty ℝ))
    (pdOf : Dict String (Qty XR) → PDist) (o : DistObj) (h : Store) (hw : o.WF h) (r : Nat)
    (hr : o.attrs.get? "amplitude" = some r)
    (hal : ∀ p ∈ o.attrs, p.1 ≠ "amplitude" → p.2 ≠ r)
    (hlin : LinearIn pdOf "amplitude") (w : ℝ) (hw0 : 0 < w)
    (hold : m.computeWe (pdOf (o.vals h)) lo hi = .ok (fin w)) (W : Qty ℝ) (hW : W.PosEnergy) :
    ∃ h', setEnergy (fun v => m.computeWe (pdOf v) lo hi) o h W.lift none = .ok (o, h') ∧
      m.computeWe (pdOf (o.vals h')) lo hi = .ok (fin W.phys) ∧
      (∀ k, k ≠ "amplitude" → (o.vals h').get? k = (o.vals h).get? k) ∧
      (∀ i, i ≠ r → h'[i]? = h[i]?) ∧
      (∀ q, h[r]? = some q → h'[r]? = some ⟨q.value * fin (W.phys / w), q.unit⟩) :=
  set_energy_default (fun pd => m.computeWe pd lo hi)
    (fun pd c hc => computeWe_scale m pd c hc lo hi) pdOf o h hw r hr hal hlin w hw0 hold W hW

/-- **C09 (set_Wp, default name; partial).** The same for protons. -/
theorem C09_set_Wp_partial (m : PrModel) (lo hi : Option (Qty ℝ))
    (pdOf : Dict String (Qty XR) → PDist) (o : DistObj) (h : Store) (hw : o.WF h) (r : Nat)
    (hr : o.attrs.get? "amplitude" = some r)
    (hal : ∀ p ∈ o.attrs, p.1 ≠ "amplitude" → p.2 ≠ r)
    (hlin : LinearIn pdOf "amplitude") (w : ℝ) (hw0 : 0 < w)
    (hold : m.computeWp (pdOf (o.vals h)) lo hi = .ok (fin w)) (W : Qty ℝ) (hW : W.PosEnergy) :
    ∃ h', setEnergy (fun v => m.computeWp (pdOf v) lo hi) o h W.lift none = .ok (o, h') ∧
      m.computeWp (pdOf (o.vals h')) lo hi = .ok (fin W.phys) ∧
      (∀ k, k ≠ "amplitude" → (o.vals h').get? k = (o.vals h).get? k) ∧
      (∀ i, i ≠ r → h'[i]? = h[i]?) ∧
      (∀ q, h[r]? = some q → h'[r]? = some ⟨q.value * fin (W.phys / w), q.unit⟩) :=
  set_energy_default (fun pd => m.computeWp pd lo hi)
    (fun pd c hc => computeWp_scale m pd c hc lo hi) pdOf o h hw r hr hal hlin w hw0 hold W hW

/-- **C09 (set_We, explicit attribute name).** With `amplitude_name=nm` the content becomes `W`, every
other attribute is as before, and no existing quantity object is touched, so nothing else in the
program changes. -/
theorem C09_set_We_named (m : ElModel) (lo hi : Option (Qty ℝ))
    (pdOf : Dict String (Qty XR) → PDist) (o : DistObj) (h : Store) (hw : o.WF h) (nm : String)
    (r : Nat) (hr : o.attrs.get? nm = some r) (hlin : LinearIn pdOf nm) (w : ℝ) (hw0 : 0 < w)
    (hold : m.computeWe (pdOf (o.vals h)) lo hi = .ok (fin w)) (W : Qty ℝ) (hW : W.PosEnergy) :
    ∃ o' h', setEnergy (fun v => m.computeWe (pdOf v) lo hi) o h W.lift (some nm) = .ok (o', h') ∧
      m.computeWe (pdOf (o'.vals h')) lo hi = .ok (fin W.phys) ∧
      (∀ k, k ≠ nm → (o'.vals h').get? k = (o.vals h).get? k) ∧
      (∀ i, i < h.length → h'[i]? = h[i]?) :=
  set_energy_named (fun pd => m.computeWe pd lo hi)
    (fun pd c hc => computeWe_scale m pd c hc lo hi) pdOf o h hw nm r hr hlin w hw0 hold W hW

/-- **C09 (set_Wp, explicit attribute name).** -/
theorem C09_set_Wp_named (m : PrModel) (lo hi : Option (Qty ℝ))
    (pdOf : Dict String (Qty XR) → PDist) (o : DistObj) (h : Store) (hw : o.WF h) (nm : String)
    (r : Nat) (hr : o.attrs.get? nm = some r) (hlin : LinearIn pdOf nm) (w : ℝ) (hw0 : 0 < w)
    (hold : m.computeWp (pdOf (o.vals h)) lo hi = .ok (fin w)) (W : Qty ℝ) (hW : W.PosEnergy) :
    ∃ o' h', setEnergy (fun v => m.computeWp (pdOf v) lo hi) o h W.lift (some nm) = .ok (o', h') ∧
      m.computeWp (pdOf (o'.vals h')) lo hi = .ok (fin W.phys) ∧
      (∀ k, k ≠ nm → (o'.vals h').get? k = (o.vals h).get? k) ∧
      (∀ i, i < h.length → h'[i]? = h[i]?) :=
  set_energy_named (fun pd => m.computeWp pd lo hi)
    (fun pd c hc => computeWp_scale m pd c hc lo hi) pdOf o h hw nm r hr hlin w hw0 hold W hW

/-- **C09 (no such attribute).** With the default name nothing changes (an error is only logged); with
an explicit name AttributeError is raised.  A target that is not an energy raises TypeError. -/
theorem C09_missing_attribute (content : Dict String (Qty XR) → Except PyErr XR) (o : DistObj)
    (h : Store) (W : Qty XR) (hW : W.unit.dim = Dim.energy) (w : XR)
    (hold : content (o.vals h) = .ok w) :
    (o.attrs.get? "amplitude" = none → setEnergy content o h W none = .ok (o, h)) ∧
    (∀ nm, o.attrs.get? nm = none →
      setEnergy content o h W (some nm) = .error .attributeError) ∧
    (∀ (W' : Qty XR) nm, W'.unit.dim ≠ Dim.energy →
      setEnergy content o h W' nm = .error .typeError) := by
  refine ⟨?_, ?_, ?_⟩
  · intro hn
    unfold setEnergy
    rw [if_neg (by simpa using hW), hold]
    simp [bind, Except.bind, rescale, hn, pure, Except.pure]
  · intro nm hn
    unfold setEnergy
    rw [if_neg (by simpa using hW), hold]
    simp [bind, Except.bind, rescale, hn, pure, Except.pure]
  · intro W' nm hW'
    unfold setEnergy
    rw [if_pos hW']
    rfl

/-- **C09 fails for shared amplitudes.** `amplitude *= k` works in place: whenever another
distribution `o2` was built with the same `Quantity` object as amplitude, `set_We` on the first
multiplies the amplitude of the second by the same factor `W / w`. -/
theorem C09_false_shared_amplitude (m : ElModel) (lo hi : Option (Qty ℝ))
    (pdOf : Dict String (Qty XR) → PDist) (o o2 : DistObj) (h : Store) (r : Nat)
    (hr : o.attrs.get? "amplitude" = some r) (hr2 : o2.attrs.get? "amplitude" = some r)
    (w : ℝ) (hw0 : 0 < w)
    (hold : m.computeWe (pdOf (o.vals h)) lo hi = .ok (fin w)) (W : Qty ℝ) (hW : W.PosEnergy)
    (hne : W.phys ≠ w) (a : ℝ) (ha : 0 < a) (u : PhysUnit) (hq : h[r]? = some ⟨fin a, u⟩) :
    ∃ h', setEnergy (fun v => m.computeWe (pdOf v) lo hi) o h W.lift none = .ok (o, h') ∧
      (o2.vals h).get? "amplitude" = some ⟨fin a, u⟩ ∧
      (o2.vals h').get? "amplitude" = some ⟨fin (a * (W.phys / w)), u⟩ ∧
      a * (W.phys / w) ≠ a := by
  have hrat : weRatio W.lift (fin w) = fin (W.phys / w) := by
    unfold weRatio Qty.lift
    simp only [mul_fin]
    rw [div_fin _ _ hw0.ne']
    rfl
  refine ⟨h.modify r (fun q => ⟨q.value * fin (W.phys / w), q.unit⟩), ?_, ?_, ?_, ?_⟩
  · unfold setEnergy
    rw [if_neg (by simpa [Qty.lift] using hW.isEnergy)]
    simp only [bind, Except.bind, hold]
    rw [hrat]
    simp only [rescale, hr, pure, Except.pure]
  · rw [vals_get?, hr2]
    simp [List.getD_eq_getElem?_getD, hq]
  · rw [vals_get?, hr2]
    simp [List.getD_eq_getElem?_getD, List.getElem?_modify, hq]
  · intro e
    apply hne
    have : W.phys / w = 1 := by
      have := mul_left_cancel₀ ha.ne' (e.trans (mul_one a).symm)
      exact this
    rwa [div_eq_one_iff_eq hw0.ne'] at this

/-! ### the hypotheses are met by ordinary distributions -/

theorem trapzLL_pos (gs : List ℝ) (y : ℝ → ℝ) (hx : ∀ g ∈ gs, 0 < g)
    (hs : gs.Pairwise (· < ·)) (hy : ∀ g ∈ gs, 0 < y g) (hl : 2 ≤ gs.length) :
    ∃ r : ℝ, 0 < r ∧ trapzLL (gs.map (fun g => (fin g, fin (y g)))) = fin r := by
  match gs, hl with
  | a :: b :: rest, _ =>
    obtain ⟨r, hr, e⟩ := trapzLL_nonneg ((b :: rest).map (fun g => (g, y g)))
      (by intro p hp; obtain ⟨g, hg, rfl⟩ := List.mem_map.1 hp; exact hx g (by simp [hg]))
      (by intro p hp; obtain ⟨g, hg, rfl⟩ := List.mem_map.1 hp; exact (hy g (by simp [hg])).le)
      (by
        rw [List.map_map]
        have h2 := (List.pairwise_cons.1 hs).2
        have e0 : ((fun p : ℝ × ℝ => p.1) ∘ fun g => (g, y g)) = id := rfl
        rw [e0, List.map_id]
        exact h2.imp le_of_lt)
    have hab : a < b := (List.pairwise_cons.1 hs).1 b (by simp)
    obtain ⟨s, _, e2, hs2⟩ := trapzBin_nonneg a b (y a) (y b) (hx a (by simp)) hab.le
      (hy a (by simp)).le (hy b (by simp)).le
    refine ⟨s + r, by have := hs2 hab (hy a (by simp)) (hy b (by simp)); linarith, ?_⟩
    rw [List.map_map] at e
    have e3 : trapzLL (((b :: rest).map (fun g => (fin g, fin (y g))))) = fin r := e
    unfold trapzLL at e3 ⊢
    simp only [List.map_cons, trapzIntervals, sum_cons] at e3 ⊢
    rw [e3, e2, add_fin]

/-- **C09 (the content is positive).** A distribution that is finite and positive on the range has a
finite positive energy content, so that the hypotheses of the theorems above are met. -/
theorem C09_content_positive (m : ElModel) (pd : PDist) (p : ℝ → ℝ)
    (hu : pd.unit.dim = Dim.diffEnergy) (hus : 0 < pd.unit.scale)
    (lo hi : Qty ℝ) (hlo : lo.PosEnergy) (hhi : hi.PosEnergy) (hlt : lo.phys < hi.phys)
    (hp : ∀ e, 0 < e → pd.f e = fin (p e) ∧ 0 < p e) :
    ∃ w : ℝ, 0 < w ∧ m.computeWe pd (some lo) (some hi) = .ok (fin w) := by
  obtain ⟨gam, hg, hgrid⟩ := gamGrid_logGrid m.nEed lo hi hlo hhi hlt
  have hpos : ∀ g ∈ gam, 0 < g := by
    intro g hgm
    rw [gamGrid_eq _ _ _ hlo hhi] at hg
    injection hg with hg
    rw [← hg] at hgm
    exact logspace_pos _ _ _ g hgm
  have hm := cMec2_pos
  set k := pd.unit.scale / perMec2.scale with hk
  have hk0 : 0 < k := by
    apply div_pos hus
    simp only [perMec2]; positivity
  have hn : nelecOf pd gam = .ok (gam.map (fun g => fin (p (g * cMec2) * k))) := by
    unfold nelecOf PDist.valuesIn
    rw [if_pos (by rw [hu]; rfl), List.map_map]
    congr 1
    apply List.map_congr_left
    intro g hgm
    simp only [Function.comp_apply]
    rw [(hp _ (mul_pos (hpos g hgm) hm)).1, mul_fin]
  obtain ⟨r, hr, e⟩ := trapzLL_pos gam (fun g => g * (p (g * cMec2) * k)) hpos hgrid.increasing
    (fun g hgm => mul_pos (hpos g hgm) (mul_pos (hp _ (mul_pos (hpos g hgm) hm)).2 hk0))
    (le_trans (by norm_num) hgrid.ten)
  refine ⟨cMec2 * r, mul_pos hm hr, ?_⟩
  unfold ElModel.computeWe
  simp only [Option.getD_some, hg, bind, Except.bind, hn, pure, Except.pure]
  congr 1
  unfold weOf trapz
  have : (gam.map (fun g => fin (g * cMec2))).zip
      (List.zipWith (fun g n => fin g * n) gam (gam.map (fun g => fin (p (g * cMec2) * k)))) =
      (gam.map (fun g => (fin g, fin (g * (p (g * cMec2) * k))))).map
        (fun q => (fin cMec2 * q.1, q.2)) := by
    rw [List.zipWith_map_right, List.zipWith_self, List.zip_map', List.map_map]
    apply List.map_congr_left
    intro g _
    simp [mul_comm]
  rw [this, trapzLL_scale_x _ hm, e, mul_fin]

/-- An `E^-2` distribution per erg with its `amplitude`: it is linear in the amplitude, and has a
positive energy content for the default limits, so `C09_set_We_partial` and
`C09_false_shared_amplitude` apply to it. -/
noncomputable def exampleDist (v : Dict String (Qty XR)) : PDist :=
  ⟨⟨1, Dim.diffEnergy⟩, fun e =>
    ((v.get? "amplitude").getD ⟨nan, PhysUnit.erg⟩).value * pow (fin e) (fin (-2))⟩

theorem exampleDist_linear : LinearIn exampleDist "amplitude" := by
  intro v q k hk hq
  refine ⟨rfl, fun e => ?_⟩
  simp only [exampleDist, Dict.get?_set_self, hq, Option.getD_some]
  rw [mul_comm' q.value, scale_mul k hk]

example : ∃ (m : ElModel) (o o2 : DistObj) (h : Store) (w : ℝ), o.WF h ∧
    o.attrs.get? "amplitude" = some 0 ∧ o2.attrs.get? "amplitude" = some 0 ∧
    (∀ p ∈ o.attrs, p.1 ≠ "amplitude" → p.2 ≠ 0) ∧ 0 < w ∧
    m.computeWe (exampleDist (o.vals h)) none none = .ok (fin w) := by
  let m : ElModel := ⟨⟨1, PhysUnit.GeV⟩, ⟨510, PhysUnit.TeV⟩, 100⟩
  have hlo : m.Eemin.PosEnergy := ⟨rfl, GeV_pos, by norm_num [m]⟩
  have hhi : m.Eemax.PosEnergy := ⟨rfl, by simp only [m, PhysUnit.TeV]; norm_num, by norm_num [m]⟩
  let h : Store := [⟨fin 3, ⟨1, Dim.diffEnergy⟩⟩, ⟨fin 2, ⟨1, Dim.one⟩⟩]
  let o : DistObj := ⟨[("amplitude", 0), ("alpha", 1)]⟩
  obtain ⟨w, hw, e⟩ := C09_content_positive m (exampleDist (o.vals h))
    (fun e => 3 * e ^ (-2 : ℝ)) rfl (by norm_num [exampleDist]) m.Eemin m.Eemax hlo hhi
    (by simp only [m, Qty.phys, PhysUnit.GeV, PhysUnit.TeV]; norm_num)
    (by
      intro e he
      constructor
      · simp only [exampleDist, o, h, DistObj.vals]
        rw [pow_fin _ _ he]
        rfl
      · positivity)
  refine ⟨m, o, ⟨[("amplitude", 0)]⟩, h, w, ⟨by decide, by decide⟩, by decide, by decide,
    by decide, hw, ?_⟩
  rw [(C10_compute_We m _).1]
  exact e

end Naima.Props
