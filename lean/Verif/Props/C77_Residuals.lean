import Verif.Model.Residuals
import Verif.Props.C33_Sed
import Verif.Proof.XR

/-! # C77: residuals of a fit -/

namespace Naima.Props

open Naima XR Classical

/-! ### Specification -/

/-- Both are spectra per area, both luminosities, or both total numbers. -/
def SameKindSpec (d d' : Dim) : Prop :=
  (d ∈ [Dim.flux, Dim.diffFlux] ∧ d' ∈ [Dim.flux, Dim.diffFlux]) ∨
  (d ∈ [Dim.power, Dim.diffPower] ∧ d' ∈ [Dim.power, Dim.diffPower]) ∨
  (d ∈ [Dim.energy, Dim.diffEnergy] ∧ d' ∈ [Dim.energy, Dim.diffEnergy])

/-- A model value given as `d'` (SED or differential), in the representation `d` of the data. -/
noncomputable def inFormOf (d d' : Dim) (E : ℝ) (v : XR) : XR :=
  if IsSedType d ∧ ¬ IsSedType d' then v * fin (E ^ 2)
  else if ¬ IsSedType d ∧ IsSedType d' then v * fin (1 / E ^ 2)
  else v

/-- What the residual should be: data minus model in units of the mean uncertainty; physical sizes in
cgs. -/
noncomputable def residualSpec (t : FitTable) (d' : Dim) (μ : ℝ → XR) (r : FitRow) : XR :=
  (fin (r.f * t.fU.scale) - inFormOf t.fU.dim d' (r.e * t.eU.scale) (μ (r.e * t.eU.scale))) /
    fin ((r.elo * t.loU.scale + r.ehi * t.hiU.scale) / 2)

/-- A table as `validate_data_table` returns it: energies in an energy unit, positive; fluxes and errors
of one spectral type; a positive mean uncertainty for every point. -/
structure GoodTable (t : FitTable) : Prop where
  eDim : t.eU.dim = Dim.energy
  ePos : 0 < t.eU.scale
  fType : SpectralType t.fU.dim
  fPos : 0 < t.fU.scale
  loDim : t.loU.dim = t.fU.dim
  loPos : 0 < t.loU.scale
  hiDim : t.hiU.dim = t.fU.dim
  rowPos : ∀ r ∈ t.rows, 0 < r.e
  errPos : ∀ r ∈ t.rows, r.ul = false → 0 < r.elo * t.loU.scale + r.ehi * t.hiU.scale

/-! ### Proof -/

theorem resInterpFrom_node (x : ℝ) (y : XR) : ∀ (rest : List (ℝ × XR)) (p : ℝ × XR),
    (p :: rest).Pairwise (fun a b => a.1 ≤ b.1) → p.1 ≤ x → (∃ q ∈ p :: rest, q.1 = x) →
    (∀ q ∈ p :: rest, q.1 = x → q.2 = y) → resInterpFrom p x rest = y
  | [], p, _, _, ⟨q, hq, hx⟩, hv => by
    simp only [List.mem_singleton] at hq
    subst hq
    exact hv q (by simp) hx
  | q :: rest, p, hs, hp, ⟨n, hn, hx⟩, hv => by
    have hs' := List.pairwise_cons.1 hs
    simp only [resInterpFrom]
    by_cases c : q.1 ≤ x
    · rw [if_pos c]
      refine resInterpFrom_node x y rest q hs'.2 c ?_ (fun a ha => hv a (List.mem_cons_of_mem _ ha))
      rcases List.mem_cons.1 hn with h | h
      · subst h
        exact ⟨q, by simp, le_antisymm c (hx ▸ hs'.1 q (by simp))⟩
      · exact ⟨n, h, hx⟩
    · rw [if_neg c]
      push Not at c
      rcases List.mem_cons.1 hn with h | h
      · subst h
        rw [if_pos hx]
        exact hv n (by simp) hx
      · exfalso
        rcases List.mem_cons.1 h with h | h
        · subst h; linarith
        · have := (List.pairwise_cons.1 hs'.2).1 n h
          linarith

/-- linear interpolation is exact at the nodes -/
theorem resInterp1d_node (pts : List (ℝ × XR)) (x : ℝ) (y : XR) (hm : ∃ q ∈ pts, q.1 = x)
    (hv : ∀ q ∈ pts, q.1 = x → q.2 = y) : resInterp1d pts x = y := by
  unfold resInterp1d
  have hsort : (pts.insertionSort (fun p q => p.1 ≤ q.1)).Pairwise (fun a b => a.1 ≤ b.1) := by
    haveI : Std.Total (fun p q : ℝ × XR => p.1 ≤ q.1) := ⟨fun a b => le_total a.1 b.1⟩
    haveI : IsTrans (ℝ × XR) (fun p q => p.1 ≤ q.1) := ⟨fun a b c => le_trans⟩
    exact List.pairwise_insertionSort _ pts
  have hperm := List.perm_insertionSort (fun p q : ℝ × XR => p.1 ≤ q.1) pts
  have hm' : ∃ q ∈ pts.insertionSort (fun p q => p.1 ≤ q.1), q.1 = x := by
    obtain ⟨q, h, e⟩ := hm; exact ⟨q, hperm.mem_iff.2 h, e⟩
  have hv' : ∀ q ∈ pts.insertionSort (fun p q => p.1 ≤ q.1), q.1 = x → q.2 = y :=
    fun q h => hv q (hperm.mem_iff.1 h)
  revert hsort hm' hv'
  generalize pts.insertionSort (fun p q => p.1 ≤ q.1) = l
  intro hsort hm' hv'
  cases l with
  | nil => obtain ⟨q, h, _⟩ := hm'; cases h
  | cons p rest =>
    obtain ⟨n, hn, hx⟩ := hm'
    have h1 : p.1 ≤ x := by
      rcases List.mem_cons.1 hn with h | h
      · rw [← hx, h]
      · exact hx ▸ (List.pairwise_cons.1 hsort).1 n h
    have h2 : x ≤ ((p :: rest).getLast (List.cons_ne_nil _ _)).1 := by
      rw [← hx]
      have hl := List.dropLast_append_getLast (List.cons_ne_nil p rest)
      rw [← hl] at hn hsort
      rcases List.mem_append.1 hn with h | h
      · exact (List.pairwise_append.1 hsort).2.2 n h _ (by simp)
      · simp only [List.mem_singleton] at h; rw [h]
    simp only []
    rw [if_neg (by push Not; exact ⟨h1, h2⟩)]
    exact resInterpFrom_node x y rest p hsort h1 ⟨n, hn, hx⟩ hv'

theorem pinf_mul' (k : ℝ) (hk : 0 < k) : (pinf : XR) * fin k = pinf := by
  show infMul k = pinf
  unfold infMul; rw [if_pos hk]
theorem ninf_mul' (k : ℝ) (hk : 0 < k) : (ninf : XR) * fin k = ninf := by
  show infMul (-k) = ninf
  unfold infMul; rw [if_neg (by linarith), if_pos (by linarith)]
theorem pinf_div' (k : ℝ) (hk : 0 < k) : (pinf : XR) / fin k = pinf := by
  show (if k < 0 then ninf else pinf) = _
  rw [if_neg (by linarith)]
theorem ninf_div' (k : ℝ) (hk : 0 < k) : (ninf : XR) / fin k = ninf := by
  show (if k < 0 then pinf else ninf) = _
  rw [if_neg (by linarith)]
theorem mul_mul_pos (a b : ℝ) (X : XR) (ha : 0 < a) (hb : 0 < b) : X * fin a * fin b = X * fin (a * b) := by
  have := mul_pos ha hb
  cases X with
  | fin x => rw [mul_fin, mul_fin, mul_fin, mul_assoc]
  | nan => rfl
  | pinf => rw [pinf_mul' _ ha, pinf_mul' _ hb, pinf_mul' _ this]
  | ninf => rw [ninf_mul' _ ha, ninf_mul' _ hb, ninf_mul' _ this]

theorem scale_residual (F σ k : ℝ) (X : XR) (hk : 0 < k) (hσ : 0 < σ) :
    (fin (F * k) - X * fin k) / fin (σ * k) = (fin F - X) / fin σ := by
  have h1 : σ * k ≠ 0 := by positivity
  have h2 : 0 < σ * k := by positivity
  cases X with
  | fin x =>
    rw [mul_fin, sub_fin, sub_fin, div_fin _ _ h1, div_fin _ _ hσ.ne', fin_inj]
    field_simp
  | nan => rfl
  | pinf =>
    rw [pinf_mul' _ hk]
    show (ninf : XR) / _ = ninf / _
    rw [ninf_div' _ h2, ninf_div' _ hσ]
  | ninf =>
    rw [ninf_mul' _ hk]
    show (pinf : XR) / _ = pinf / _
    rw [pinf_div' _ h2, pinf_div' _ hσ]

/-- `sedArr` for spectral types -/
theorem sedArr_ok (u eU : PhysUnit) (h : SpectralType u.dim) (he : eU.dim = Dim.energy) (sed : Bool) :
    ∃ fu s, sedConversion u sed = .ok (fu, s) ∧ 0 < fu.scale ∧
      sedArr u eU sed = .ok (fu, fun e => s.phys (e * eU.scale) * (u.scale / fu.scale)) ∧
      s = (if sed then (if IsSedType u.dim then .ones else .esq)
         else (if IsSedType u.dim then .invEsq else .ones)) := by
  obtain ⟨fu, s, h1, h2, h3, -⟩ := C33_dimensions u h sed
  refine ⟨fu, s, h1, h3, ?_, C33_factor u h sed fu s h1⟩
  unfold sedArr
  rw [h1]
  simp only [he]
  rw [if_pos]
  rw [h2]
  cases s <;> rfl

theorem sedConversion_dim (u u' : PhysUnit) (sed : Bool) (h : u.dim = u'.dim) :
    sedConversion u sed = sedConversion u' sed := by
  unfold sedConversion; rw [h]

theorem sameKind_unit (u u' : PhysUnit) (h : SameKindSpec u.dim u'.dim) (sed : Bool) (fu fu' : PhysUnit)
    (s s' : SedFactor) (h1 : sedConversion u sed = .ok (fu, s))
    (h2 : sedConversion u' sed = .ok (fu', s')) : fu = fu' := by
  obtain ⟨c, d⟩ := u
  obtain ⟨c', d'⟩ := u'
  simp only [SameKindSpec, List.mem_cons, List.not_mem_nil, or_false] at h
  rcases h with ⟨rfl | rfl, rfl | rfl⟩ | ⟨rfl | rfl, rfl | rfl⟩ | ⟨rfl | rfl, rfl | rfl⟩ <;>
    cases sed <;>
    (simp [sedConversion, Dim.flux, Dim.diffFlux, Dim.power, Dim.diffPower, Dim.energy,
      Dim.diffEnergy, Dim.diffNumDensity] at h1 h2
     rw [← h1.1, ← h2.1])

theorem mapM_ok_res {α β : Type} (f : α → Except PyErr β) (g : α → β) (l : List α)
    (h : ∀ a ∈ l, f a = .ok (g a)) : l.mapM f = .ok (l.map g) := by
  induction l with
  | nil => rfl
  | cons a l ih =>
    rw [List.mapM_cons, h a (by simp), ih (fun b hb => h b (by simp [hb]))]
    rfl

theorem mem_zip_range {α : Type} (l : List α) (p : ℕ × α) (h : p ∈ (List.range l.length).zip l) :
    l[p.1]? = some p.2 := by
  obtain ⟨n, hn, e⟩ := List.mem_iff_getElem.1 h
  simp only [List.getElem_zip, List.getElem_range] at e
  subst e
  simp only [List.length_zip, List.length_range, min_self] at hn
  exact List.getElem?_eq_getElem hn

theorem zip_range_filter_map {α β : Type} (l : List α) (P : α → Bool) (f : α → β) :
    (((List.range l.length).zip l).filter (fun r => P r.2)).map (fun r => f r.2) =
      (l.filter P).map f := by
  have h : ((List.range l.length).zip l).map Prod.snd = l := by
    rw [List.map_snd_zip]; simp
  conv_rhs => rw [← h, List.filter_map, List.map_map]
  rfl

/-- **C77.** For every valid table (any number of groups, any units, upper limits, SED or differential),
every model of the same kind evaluated at the energies of the table (SED or differential, in any
unit, finite or not), every energy unit of the plot and both kinds of plot: what is plotted is, group
by group in increasing order and without the upper limits, the energy of each point and (data − model)
divided by the mean of its two uncertainties. In particular the residuals do not depend on `sed` or on
`e_unit`. -/
theorem C77_residuals (t : FitTable) (ht : GoodTable t) (m : FitModel) (hmE : m.eU.dim = Dim.energy)
    (hmE0 : 0 < m.eU.scale) (hmF0 : 0 < m.fU.scale) (hkind : SameKindSpec t.fU.dim m.fU.dim)
    (μ : ℝ → XR)
    (hpts : m.pts = t.rows.map (fun r => (r.e * t.eU.scale / m.eU.scale,
      μ (r.e * t.eU.scale) / fin m.fU.scale)))
    (eU : PhysUnit) (hU : eU.dim = Dim.energy) (hU0 : 0 < eU.scale) (sed : Bool) :
    residuals t m eU sed = .ok ((resGroups t).map (fun g =>
      (t.rows.filter (fun r => r.group = g ∧ r.ul = false)).map (fun r =>
        (r.e * t.eU.scale / eU.scale, residualSpec t m.fU.dim μ r)))) ∧
    (resGroups t).Pairwise (· < ·) ∧ ∀ g, g ∈ resGroups t ↔ ∃ r ∈ t.rows, r.group = g := by
  refine ⟨?_, ?_, ?_⟩
  swap
  · unfold resGroups; exact (Finset.sortedLT_sort _).pairwise
  swap
  · intro g; unfold resGroups; simp
  have hmT : SpectralType m.fU.dim := by
    unfold SameKindSpec at hkind; unfold SpectralType
    simp only [List.mem_cons, List.not_mem_nil, or_false] at hkind
    tauto
  obtain ⟨mfu, s', c1, p1, a1, e1⟩ := sedArr_ok m.fU m.eU hmT hmE sed
  obtain ⟨efu, s'', c2, p3, a2, e2⟩ := sedArr_ok t.fU t.eU ht.fType ht.eDim sed
  have hfu : efu = mfu := sameKind_unit t.fU m.fU hkind sed efu mfu s'' s' c2 c1
  subst hfu
  have hfE := ht.ePos
  -- plotted model points
  set ml := m.pts.map (fun p => (p.1 * (m.eU.scale / eU.scale),
    p.2 * fin (s'.phys (p.1 * m.eU.scale) * (m.fU.scale / efu.scale)))) with hml
  have hml' : ml = t.rows.map (fun r => (r.e * (t.eU.scale / eU.scale),
      μ (r.e * t.eU.scale) / fin m.fU.scale *
        fin (s'.phys (r.e * t.eU.scale) * (m.fU.scale / efu.scale)))) := by
    rw [hml, hpts, List.map_map]
    apply List.map_congr_left
    intro r _
    simp only [Function.comp_apply]
    have q1 : r.e * t.eU.scale / m.eU.scale * (m.eU.scale / eU.scale) = r.e * (t.eU.scale / eU.scale) := by
      field_simp
    have q2 : r.e * t.eU.scale / m.eU.scale * m.eU.scale = r.e * t.eU.scale := by field_simp
    rw [q1, q2]
  unfold residuals
  rw [a1]
  simp only [bind, Except.bind]
  rw [if_neg (by rw [hmE, hU]; simp)]
  rw [← hml]
  apply mapM_ok_res
  intro g _
  unfold resGroup
  rw [a2]
  simp only [bind, Except.bind]
  rw [if_neg (by rw [ht.hiDim, ht.loDim, ht.eDim, hU]; simp), if_neg (by simp)]
  congr 1
  have key : ∀ (i : ℕ) (r : FitRow), t.rows[i]? = some r → r.ul = false →
      (r.e * (t.eU.scale / eU.scale), (fin (r.f * (s''.phys (r.e * t.eU.scale) * (t.fU.scale / efu.scale))) -
        (if resInterp t m eU then resInterp1d ml (r.e * (t.eU.scale / eU.scale))
          else (((ml[i]?).map Prod.snd).getD nan) * fin (efu.scale / efu.scale))) /
        fin ((r.elo + r.ehi * (t.hiU.scale / t.loU.scale)) / 2 *
          (s''.phys (r.e * t.eU.scale) * (t.fU.scale / efu.scale) * (t.loU.scale / t.fU.scale)))) =
      (r.e * t.eU.scale / eU.scale, residualSpec t m.fU.dim μ r) := by
    intro i r hi hul
    have hr : r ∈ t.rows := List.mem_of_getElem? hi
    have hE : 0 < r.e * t.eU.scale := mul_pos (ht.rowPos r hr) hfE
    have herr := ht.errPos r hr hul
    set v := μ (r.e * t.eU.scale) / fin m.fU.scale *
        fin (s'.phys (r.e * t.eU.scale) * (m.fU.scale / efu.scale)) with hv
    have hmodel : (if resInterp t m eU then resInterp1d ml (r.e * (t.eU.scale / eU.scale))
          else (((ml[i]?).map Prod.snd).getD nan) * fin (efu.scale / efu.scale)) = v := by
      by_cases c : resInterp t m eU
      · rw [if_pos c]
        apply resInterp1d_node
        · refine ⟨(r.e * (t.eU.scale / eU.scale), v), ?_, rfl⟩
          rw [hml']
          exact List.mem_map.2 ⟨r, hr, rfl⟩
        · intro q hq hx
          rw [hml'] at hq
          obtain ⟨r', _, rfl⟩ := List.mem_map.1 hq
          simp only at hx ⊢
          have : r'.e = r.e := mul_right_cancel₀ (by positivity) hx
          rw [this]
      · rw [if_neg c, hml', List.getElem?_map, hi, div_self p3.ne']
        simp only [Option.map_some, Option.getD_some]
        rw [← hv]
        cases v <;> simp [mul_def, XR.mul, infMul]
    rw [hmodel]
    refine Prod.ext (by simp only; ring) ?_
    simp only
    unfold residualSpec
    have hs0 : 0 < s''.phys (r.e * t.eU.scale) := by
      cases s'' <;> simp only [SedFactor.phys] <;> positivity
    have hs0' : 0 < s'.phys (r.e * t.eU.scale) := by
      cases s' <;> simp only [SedFactor.phys] <;> positivity
    set E := r.e * t.eU.scale
    have hk : 0 < s''.phys E / efu.scale := by positivity
    have hX : v = inFormOf t.fU.dim m.fU.dim E (μ E) * fin (s''.phys E / efu.scale) := by
      have v1 : v = μ E * fin (s'.phys E / efu.scale) := by
        rw [hv]
        have hp : 0 < s'.phys E * (m.fU.scale / efu.scale) := by positivity
        have hp2 : 0 < s'.phys E / efu.scale := by positivity
        cases μ E with
        | fin x =>
          rw [div_fin _ _ hmF0.ne', mul_fin, mul_fin, fin_inj]; field_simp
        | nan => rfl
        | pinf => rw [pinf_div' _ hmF0, pinf_mul' _ hp, pinf_mul' _ hp2]
        | ninf => rw [ninf_div' _ hmF0, ninf_mul' _ hp, ninf_mul' _ hp2]
      have e2' : 0 < E ^ 2 := by positivity
      have e2'' : 0 < 1 / E ^ 2 := by positivity
      rw [v1]
      unfold inFormOf
      rw [e1, e2]
      by_cases i1 : IsSedType t.fU.dim <;> by_cases i2 : IsSedType m.fU.dim <;> cases sed <;>
        simp only [i1, i2, not_true_eq_false, not_false_eq_true, and_self, and_false, false_and, if_true,
          if_false, SedFactor.phys, Bool.false_eq_true] <;>
        first
        | rfl
        | (rw [mul_mul_pos _ _ _ (by positivity) (by positivity)]; congr 2; field_simp)
    rw [hX]
    have d1 : r.f * (s''.phys E * (t.fU.scale / efu.scale)) = r.f * t.fU.scale * (s''.phys E / efu.scale) := by
      ring
    have d2 : (r.elo + r.ehi * (t.hiU.scale / t.loU.scale)) / 2 * (s''.phys E * (t.fU.scale / efu.scale) * (t.loU.scale / t.fU.scale)) =
        (r.elo * t.loU.scale + r.ehi * t.hiU.scale) / 2 * (s''.phys E / efu.scale) := by
      have := ht.loPos.ne'
      have := ht.fPos.ne'
      field_simp
    rw [d1, d2]
    exact scale_residual _ _ _ _ hk (by linarith)
  rw [List.filter_map, List.map_map, List.filter_filter]
  have hfil : ((List.range t.rows.length).zip t.rows).filter (fun a =>
      ((fun r : FitRow × Option XR => decide (¬ r.1.ul = true)) ∘ fun r : ℕ × FitRow =>
        (r.2, (ml[r.1]?).map Prod.snd)) a && decide (a.2.group = g)) =
      ((List.range t.rows.length).zip t.rows).filter (fun a =>
        decide (a.2.group = g ∧ a.2.ul = false)) := by
    apply List.filter_congr
    intro a _
    simp only [Function.comp_apply]
    by_cases u1 : a.2.group = g <;> by_cases u2 : a.2.ul = true <;> simp [u1, u2]
  rw [hfil, ← zip_range_filter_map t.rows (fun r => decide (r.group = g ∧ r.ul = false))]
  apply List.map_congr_left
  intro a ha
  obtain ⟨hm1, hm2⟩ := List.mem_filter.1 ha
  simp only [decide_eq_true_eq] at hm2
  exact key a.1 a.2 (mem_zip_range _ _ hm1) hm2.2

/-! ### Hypotheses are met -/

/-- two groups, one upper limit, fluxes in erg/cm²/s and energies in erg -/
noncomputable def exFitTable : FitTable where
  eU := PhysUnit.erg
  fU := ergPerSCm2
  loU := ergPerSCm2
  hiU := ergPerSCm2
  rows := [⟨1, 5, 1, 3, false, 1⟩, ⟨2, 7, 1, 1, false, 0⟩, ⟨3, 7, 0, 0, true, 0⟩]

theorem exFitTable_good : GoodTable exFitTable where
  eDim := rfl
  ePos := by norm_num [exFitTable, PhysUnit.erg]
  fType := by simp [exFitTable, SpectralType, ergPerSCm2]
  fPos := by norm_num [exFitTable, ergPerSCm2]
  loDim := rfl
  loPos := by norm_num [exFitTable, ergPerSCm2]
  hiDim := rfl
  rowPos := by simp [exFitTable]
  errPos := by simp [exFitTable, ergPerSCm2]; norm_num

example : residuals exFitTable ⟨PhysUnit.erg, ergPerSCm2, [(1, fin 3), (2, fin 3), (3, fin 3)]⟩
    PhysUnit.erg true = .ok [[(2, fin 4)], [(1, fin 1)]] := by
  have h := (C77_residuals exFitTable exFitTable_good ⟨PhysUnit.erg, ergPerSCm2, [(1, fin 3), (2, fin 3), (3, fin 3)]⟩
    rfl (by norm_num [PhysUnit.erg]) (by norm_num [ergPerSCm2])
    (Or.inl ⟨by simp [exFitTable, ergPerSCm2], by simp [ergPerSCm2]⟩) (fun _ => fin 3)
    (by simp [exFitTable, PhysUnit.erg, ergPerSCm2, div_fin]) PhysUnit.erg rfl
    (by norm_num [PhysUnit.erg]) true).1
  rw [h]
  have hg : resGroups exFitTable = [0, 1] := by
    have : (exFitTable.rows.map (·.group)).toFinset = {0, 1} := by
      simp [exFitTable]; decide
    unfold resGroups
    rw [this, Finset.sort_insert (r := (· ≤ ·)) (a := (0:ℤ)) (s := {1}) (h₁ := by simp) (h₂ := by simp), Finset.sort_singleton]
  rw [hg]
  simp [exFitTable, residualSpec, inFormOf, PhysUnit.erg, ergPerSCm2, List.filter, sub_fin, div_fin]
  norm_num [div_fin]

/-! ### What the code does not do -/

theorem allclose_small (a b : List ℝ) (h : ∀ p ∈ a.zip b, 0 < p.1 ∧ p.1 ≤ 1e-8 ∧ 0 < p.2 ∧ p.2 ≤ 1e-8) :
    allclose a b := by
  intro p hp
  obtain ⟨h1, h2, h3, h4⟩ := h p hp
  have : |p.1 - p.2| ≤ 1e-8 := abs_le.2 ⟨by linarith, by linarith⟩
  have := abs_nonneg p.2
  linarith

/-- **C77 (when the model is interpolated).** The values of the model are used as they are exactly when it
has as many points as the table and every energy of the table, as a number in the unit of the table, is within
`10⁻⁸ + 10⁻⁵ |e|` of the energy `e` of the model at the same position, as a number in the unit of the plot. -/
theorem C77_used_unchanged_iff (t : FitTable) (m : FitModel) (eU : PhysUnit) :
    ¬ resInterp t m eU ↔ t.rows.length = m.pts.length ∧ ∀ (i : ℕ) (r : FitRow) (p : ℝ × XR),
      t.rows[i]? = some r → m.pts[i]? = some p →
        |r.e - p.1 * m.eU.scale / eU.scale| ≤ 1e-8 + 1e-5 * |p.1 * m.eU.scale / eU.scale| := by
  unfold resInterp allclose
  push Not
  simp only [← mul_div_assoc]
  refine and_congr Iff.rfl ⟨fun h i r p hr hp => ?_, fun h q hq => ?_⟩
  · refine h (r.e, p.1 * m.eU.scale / eU.scale) ?_
    rw [List.mem_iff_getElem?]
    refine ⟨i, ?_⟩
    rw [List.getElem?_zip_eq_some]
    simp [hr, hp]
  · rw [List.mem_iff_getElem?] at hq
    obtain ⟨i, hi⟩ := hq
    rw [List.getElem?_zip_eq_some] at hi
    simp only [List.getElem?_map, Option.map_eq_some_iff] at hi
    obtain ⟨⟨r, hr, e1⟩, ⟨p, hp, e2⟩⟩ := hi
    rw [← e1, ← e2]
    exact h i r p hr hp

/-- The energies of the model are compared with those of the data with an absolute tolerance of `1e-8`
in whatever unit is used: energies below `1e-8` (for instance X-ray data in erg, 1 keV = 1.6e-9 erg)
are always taken to coincide if the model has as many points as the table. -/
theorem C77_small_energies_not_compared (t : FitTable) (m : FitModel) (eU : PhysUnit)
    (hl : t.rows.length = m.pts.length) (ht : ∀ r ∈ t.rows, 0 < r.e ∧ r.e ≤ 1e-8)
    (hm : ∀ p ∈ m.pts, 0 < p.1 * (m.eU.scale / eU.scale) ∧ p.1 * (m.eU.scale / eU.scale) ≤ 1e-8) :
    ¬ resInterp t m eU := by
  unfold resInterp
  push Not
  refine ⟨hl, allclose_small _ _ ?_⟩
  intro p hp
  obtain ⟨h1, h2⟩ := List.of_mem_zip (show (p.1, p.2) ∈ _ from hp)
  obtain ⟨r, hr, e1⟩ := List.mem_map.1 h1
  obtain ⟨q, hq, e2⟩ := List.mem_map.1 h2
  rw [← e1, ← e2]
  exact ⟨(ht r hr).1, (ht r hr).2, hm q hq⟩

noncomputable def xrayTable : FitTable where
  eU := PhysUnit.erg
  fU := ergPerSCm2
  loU := ergPerSCm2
  hiU := ergPerSCm2
  rows := [⟨1e-9, 1, 1, 1, false, 0⟩, ⟨2e-9, 2, 1, 1, false, 0⟩]

noncomputable def xrayModel : FitModel where
  eU := PhysUnit.erg
  fU := ergPerSCm2
  pts := [(1e-9, fin 1), (3e-9, fin 2)]

theorem resGroups_zero (t : FitTable) (r : FitRow) (l : List FitRow) (h : t.rows = r :: l)
    (h0 : ∀ r ∈ t.rows, r.group = 0) : resGroups t = [0] := by
  have : (t.rows.map (·.group)).toFinset = {0} := by
    ext x
    simp only [List.mem_toFinset, List.mem_map, Finset.mem_singleton]
    constructor
    · rintro ⟨r, hr, rfl⟩; exact h0 r hr
    · rintro rfl; exact ⟨r, by simp [h], h0 r (by simp [h])⟩
  unfold resGroups; rw [this]; simp

/-- A negation of "the residual at an energy is data minus model at that energy": X-ray data in erg
and a finite model whose energies cover them; the model at the second point is 3/2, the data 2 and the
uncertainty 1, but the residual is 0. -/
theorem C77_false_model_at_other_energies :
    GoodTable xrayTable ∧ resInterp1d xrayModel.pts 2e-9 = fin (3 / 2) ∧
    residuals xrayTable xrayModel PhysUnit.erg true = .ok [[(1e-9, fin 0), (2e-9, fin 0)]] := by
  refine ⟨⟨rfl, by norm_num [xrayTable, PhysUnit.erg], by simp [xrayTable, SpectralType, ergPerSCm2],
    by norm_num [xrayTable, ergPerSCm2], rfl, by norm_num [xrayTable, ergPerSCm2], rfl, ?_, ?_⟩, ?_, ?_⟩
  · simp [xrayTable]; norm_num
  · simp [xrayTable, ergPerSCm2]
  · have h : (xrayModel.pts).insertionSort (fun p q => p.1 ≤ q.1) = xrayModel.pts := by
      simp [xrayModel, List.insertionSort, List.orderedInsert]; norm_num
    unfold resInterp1d
    rw [h]
    simp only [xrayModel, resInterpFrom]
    norm_num [sub_fin, div_fin, mul_fin, add_fin]
  · have hni : ¬ resInterp xrayTable xrayModel PhysUnit.erg := by
      apply C77_small_energies_not_compared
      · rfl
      · simp [xrayTable]; norm_num
      · simp [xrayModel, PhysUnit.erg]; norm_num
    unfold residuals resGroup
    rw [resGroups_zero xrayTable _ _ rfl (by simp [xrayTable])]
    simp only [hni]
    simp [sedArr, sedConversion, xrayTable, xrayModel, ergPerSCm2, PhysUnit.erg, List.range, List.range.loop,
      Dim.flux, Dim.diffFlux, Dim.power, Dim.energy, Dim.diffEnergy, Dim.mul, Dim.one, SedFactor.phys, bind, Except.bind, pure,
      Except.pure, sub_fin, div_fin, mul_fin]


/-- The model has another number of points, so it is interpolated; it is a luminosity, the data are a
flux. -/
noncomputable def lumModel : FitModel where
  eU := PhysUnit.erg
  fU := ergPerS
  pts := [(1e-9, fin 1), (2e-9, fin 2), (3e-9, fin 2)]

/-- A negation of "a model of another kind is rejected": with interpolation the values of a luminosity
are subtracted from those of a flux as if the units were the same. -/
theorem C77_false_luminosity_model_accepted :
    ¬ SameKindSpec xrayTable.fU.dim lumModel.fU.dim ∧
    residuals xrayTable lumModel PhysUnit.erg true = .ok [[(1e-9, fin 0), (2e-9, fin 0)]] := by
  refine ⟨by simp [SameKindSpec, xrayTable, lumModel, ergPerSCm2, ergPerS, Dim.flux, Dim.diffFlux, Dim.power,
    Dim.diffPower, Dim.energy, Dim.diffEnergy], ?_⟩
  have hni : resInterp xrayTable lumModel PhysUnit.erg := Or.inl (by simp [xrayTable, lumModel])
  have hi : ∀ (l : List (ℝ × XR)), l = lumModel.pts →
      resInterp1d l 1e-9 = fin 1 ∧ resInterp1d l 2e-9 = fin 2 := by
    rintro l rfl
    constructor <;> apply resInterp1d_node
    · exact ⟨(1e-9, fin 1), by simp [lumModel], rfl⟩
    · simp [lumModel]; norm_num
    · exact ⟨(2e-9, fin 2), by simp [lumModel], rfl⟩
    · simp [lumModel]; norm_num
  have hi' := hi _ rfl
  simp only [lumModel] at hi'
  unfold residuals resGroup
  rw [resGroups_zero xrayTable _ _ rfl (by simp [xrayTable])]
  simp only [hni]
  simp [sedArr, sedConversion, xrayTable, lumModel, ergPerSCm2, ergPerS, PhysUnit.erg, List.range, List.range.loop,
    Dim.flux, Dim.diffFlux, Dim.power, Dim.energy, Dim.diffEnergy, Dim.mul, Dim.one, SedFactor.phys, bind, Except.bind, pure,
    Except.pure, sub_fin, div_fin, mul_fin, hi']

end Naima.Props
