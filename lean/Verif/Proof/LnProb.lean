import Verif.Spec.LnProb
import Verif.Spec.DataTable
import Verif.Proof.XR
import Verif.Proof.DataTable3
import Mathlib.Tactic.Ring
import Mathlib.Tactic.FieldSimp
import Mathlib.Tactic.Positivity

/-! Lemmas for the likelihood. -/

namespace Naima

open XR Spec Classical

theorem XR.one_mul' (a : XR) : fin 1 * a = a := by
  cases a <;> simp [XR.mul_def, XR.mul, infMul]

theorem XR.scale_lt (c : ℝ) (hc : 0 < c) (a b : XR) : fin c * a < fin c * b ↔ a < b := by
  cases a <;> cases b <;>
    simp [XR.scale_pinf c hc, XR.scale_ninf c hc, XR.mul_def, XR.mul, infMul, hc, hc.le, not_lt.mpr hc.le] <;>
    first
    | rfl
    | (show (c * _ < c * _) ↔ _ < _; exact mul_lt_mul_iff_right₀ hc)
    | exact mul_lt_mul_iff_right₀ hc

theorem XR.scale_lt_zero (c : ℝ) (hc : 0 < c) (b : XR) : fin 0 < fin c * b ↔ fin 0 < b := by
  have := XR.scale_lt c hc (fin 0) b
  simpa using this

/-- core.py:73-95, after the conversion -/
noncomputable def lnCore (m : List XR) (rows : List Row) : Except PyErr XR :=
  if m.length ≠ rows.length then .error .indexError else
  let total := XR.sum (((m.zip rows).filter (fun p => !p.2.ul)).map (fun p => lnTerm p.1 p.2))
  if (m.zip rows).any (fun p => p.2.ul) then
    match rows[violatedCount (m.zip rows)]? with
    | none => .error .indexError
    | some r => .ok (total + fin (violatedCount (m.zip rows) : ℝ) * log (fin 1 - r.cl))
  else .ok total

theorem lnprobmodel_eq (model : Spectrum) (data : VTable) :
    lnprobmodel model data =
      match toDataKind model data with
      | .error e => .error e
      | .ok m => lnCore m data.rows := by
  unfold lnprobmodel lnCore
  cases h : toDataKind model data with
  | error e => rfl
  | ok m =>
    simp only [bind, Except.bind]
    by_cases hl : m.length = data.rows.length
    · simp only [hl, ne_eq, not_true_eq_false, if_false, pure, Except.pure]
      split
      · cases data.rows[violatedCount (m.zip data.rows)]? <;> rfl
      · rfl
    · simp only [ne_eq, hl, not_false_eq_true, if_true]
      rfl

theorem lnTerm_fin (m : ℝ) (r : Row) (h1 : 0 < r.fluxErrorLo) (h2 : 0 < r.fluxErrorHi) :
    lnTerm (fin m) r = fin (-(1 / 2) * chi2 m r) := by
  unfold lnTerm chi2
  simp only [XR.sub_fin, XR.mul_fin, XR.neg_fin, XR.lt_fin, sub_pos]
  by_cases h : r.flux < m
  · simp only [h, if_true]
    rw [XR.div_fin _ _ (by positivity)]
    congr 1; field_simp
  · simp only [h, if_false]
    rw [XR.div_fin _ _ (by positivity)]
    congr 1; field_simp

theorem lnTerm_scale (c : ℝ) (hc : 0 < c) (m : XR) (r r' : Row) (h1 : r'.flux = c * r.flux)
    (h2 : r'.fluxErrorLo = c * r.fluxErrorLo) (h3 : r'.fluxErrorHi = c * r.fluxErrorHi) :
    lnTerm (fin c * m) r' = lnTerm m r := by
  unfold lnTerm
  have hd : fin c * m - fin r'.flux = fin c * (m - fin r.flux) := by
    rw [XR.scale_sub c hc, h1, XR.mul_fin]
  rw [hd]
  simp only [XR.scale_lt_zero c hc]
  set d := m - fin r.flux with hdd
  have hsq : fin c * d * (fin c * d) = fin (c ^ 2) * (d * d) := by
    rw [XR.scale_mul c hc, XR.mul_comm' d, XR.scale_mul c hc]
    cases hh : d * d with
    | nan => rfl
    | fin x => simp; ring
    | pinf => rw [XR.scale_pinf c hc, XR.scale_pinf c hc, XR.scale_pinf _ (by positivity)]
    | ninf => rw [XR.scale_ninf c hc, XR.scale_ninf c hc, XR.scale_ninf _ (by positivity)]
  rw [hsq]
  have hneg : -(fin (c ^ 2) * (d * d)) = fin (c ^ 2) * (-(d * d)) :=
    (XR.scale_neg (c ^ 2) (by positivity) (d * d)).symm
  rw [hneg]
  have he : (if fin 0 < d then r'.fluxErrorHi else r'.fluxErrorLo) =
      c * (if fin 0 < d then r.fluxErrorHi else r.fluxErrorLo) := by
    split <;> simp [h2, h3]
  rw [he]
  set e := (if fin 0 < d then r.fluxErrorHi else r.fluxErrorLo)
  have : fin (2 * (c * e) ^ 2) = fin (c ^ 2) * fin (2 * e ^ 2) := by
    rw [XR.mul_fin]; congr 1; ring
  rw [this, XR.scale_ratio _ (by positivity)]

/-- `r'` is `r` with fluxes and errors multiplied by `c`. -/
def RowScaled (c : ℝ) (r r' : Row) : Prop :=
  r'.flux = c * r.flux ∧ r'.fluxErrorLo = c * r.fluxErrorLo ∧ r'.fluxErrorHi = c * r.fluxErrorHi ∧
  r'.ul = r.ul ∧ r'.cl = r.cl ∧ r'.energy = r.energy

/-- the pairs of two likelihood evaluations correspond up to a positive factor per point -/
inductive PairsScaled : List (XR × Row) → List (XR × Row) → Prop
  | nil : PairsScaled [] []
  | cons (c : ℝ) (m m' : XR) (r r' : Row) (l l') : 0 < c → m' = fin c * m → RowScaled c r r' →
      PairsScaled l l' → PairsScaled ((m, r) :: l) ((m', r') :: l')

theorem pairs_count (l l' : List (XR × Row)) (h : PairsScaled l l') :
    violatedCount l' = violatedCount l := by
  induction h with
  | nil => rfl
  | cons c m m' r r' l l' hc hm hr _ ih =>
    unfold violatedCount at ih ⊢
    have hlt : (fin r'.flux < m') ↔ (fin r.flux < m) := by
      rw [hm, hr.1, ← XR.mul_fin]; exact XR.scale_lt c hc _ _
    have : (r'.ul && decide (fin r'.flux < m')) = (r.ul && decide (fin r.flux < m)) := by
      rw [hr.2.2.2.1]; simp only [hlt]
    simp only [List.filter_cons, this]
    split <;> simp [ih]

theorem pairs_any (l l' : List (XR × Row)) (h : PairsScaled l l') :
    l'.any (fun p => p.2.ul) = l.any (fun p => p.2.ul) := by
  induction h with
  | nil => rfl
  | cons c m m' r r' l l' hc hm hr _ ih => simp [ih, hr.2.2.2.1]

theorem pairs_sum (l l' : List (XR × Row)) (h : PairsScaled l l') :
    XR.sum ((l'.filter (fun p => !p.2.ul)).map (fun p => lnTerm p.1 p.2)) =
    XR.sum ((l.filter (fun p => !p.2.ul)).map (fun p => lnTerm p.1 p.2)) := by
  induction h with
  | nil => rfl
  | cons c m m' r r' l l' hc hm hr _ ih =>
    have hu : r'.ul = r.ul := hr.2.2.2.1
    by_cases h : r.ul = true
    · simpa [List.filter_cons, hu, h] using ih
    · simp only [List.filter_cons, hu, h, Bool.not_false, if_true, List.map_cons, XR.sum_cons]
      rw [ih, hm, lnTerm_scale c hc m r r' hr.1 hr.2.1 hr.2.2.1]

theorem lnCore_scaled (m m' : List XR) (rows rows' : List Row) (hl : m.length = rows.length)
    (hl' : m'.length = rows'.length) (hrl : rows'.length = rows.length)
    (hcl : ∀ i : ℕ, (rows'[i]?).map (·.cl) = (rows[i]?).map (·.cl))
    (h : PairsScaled (m.zip rows) (m'.zip rows')) : lnCore m' rows' = lnCore m rows := by
  unfold lnCore
  simp only [hl, hl', ne_eq, not_true_eq_false, if_false]
  rw [pairs_any _ _ h, pairs_sum _ _ h, pairs_count _ _ h]
  split
  · have := hcl (violatedCount (m.zip rows))
    cases h1 : rows[violatedCount (m.zip rows)]? with
    | none =>
      cases h2 : rows'[violatedCount (m.zip rows)]? with
      | none => rfl
      | some r' => rw [h1, h2] at this; simp at this
    | some r =>
      cases h2 : rows'[violatedCount (m.zip rows)]? with
      | none => rw [h1, h2] at this; simp at this
      | some r' => rw [h1, h2] at this; simp at this; simp [this]
  · rfl

/-- energy factor of a representation -/
noncomputable def eFac (sed : Bool) (E : ℝ) : ℝ := if sed then E ^ 2 else 1

theorem eFac_pos (sed : Bool) (E : ℝ) (h : 0 < E) : 0 < eFac sed E := by
  unfold eFac; split <;> positivity

/-- same family: both at the observer or both luminosities -/
def SameFamily (a b : Dim) : Prop := (FluxLike a ∧ FluxLike b) ∨ (LumLike a ∧ LumLike b)

theorem toDataKind_same (model : Spectrum) (data : VTable)
    (h : SameFamily model.unit.dim data.fluxU.dim) (hl : model.vals.length = data.rows.length) :
    toDataKind model data = .ok (List.zipWith (fun m r =>
      fin (eFac (unitIsSed data.fluxU.dim) r.energy / eFac (unitIsSed model.unit.dim) r.energy) * m)
      model.vals data.rows) ∨ ∃ r ∈ data.rows, r.energy = 0 := by
  by_cases hE : ∃ r ∈ data.rows, r.energy = 0
  · exact Or.inr hE
  push Not at hE
  left
  obtain ⟨vals, ⟨s, d⟩⟩ := model
  have hid : List.zipWith (fun m (_ : Row) => m) vals data.rows = vals := by
    apply List.ext_getElem
    · simp at hl ⊢; omega
    · intro i h1 h2; simp
  have hone : ∀ k : ℝ → ℝ, (∀ r ∈ data.rows, k r.energy = 1) →
      List.zipWith (fun m r => fin (k r.energy) * m) vals data.rows = vals := by
    intro k hk
    rw [← hid]
    conv_lhs => rw [hid]
    apply List.ext_getElem
    · simp at hl ⊢
    · intro i h1 h2
      simp only [List.getElem_zipWith]
      rw [hk _ (List.getElem_mem _), XR.one_mul']
  unfold toDataKind
  rcases h with ⟨h1, h2⟩ | ⟨h1, h2⟩ <;> rcases h1 with h1 | h1 <;> rcases h2 with h2 | h2 <;>
    simp only at h1 <;> subst h1 <;> simp only [h2]
  all_goals
    first
    | (simp [unitIsSed, sedConversion, Dim.flux, Dim.diffFlux, Dim.power, Dim.diffPower,
        Dim.energy, Dim.diffEnergy, Dim.diffNumDensity, SedFactor.dim, Dim.mul, Dim.inv, Dim.one,
        SedFactor.phys, eFac]
       done)
    | (simp only [unitIsSed, Dim.flux, Dim.diffFlux, Dim.power, Dim.diffPower, eFac]
       simp
       refine (hone (fun E => E ^ 2 / E ^ 2) ?_).symm
       intro r hr
       exact div_self (pow_ne_zero 2 (hE r hr)))
    | (simp only [unitIsSed, Dim.flux, Dim.diffFlux, Dim.power, Dim.diffPower, eFac]
       simp
       refine (hone (fun E => 1) ?_).symm
       intro r hr
       rfl)

theorem toDataKind_other (model : Spectrum) (data : VTable) (h1 : model.unit.dim ∈ fluxTypes)
    (h2 : data.fluxU.dim ∈ fluxTypes) (h : ¬ SameFamily model.unit.dim data.fluxU.dim) :
    toDataKind model data = .error .unitConversionError := by
  obtain ⟨vals, ⟨s, d⟩⟩ := model
  unfold toDataKind
  simp only at h1 h ⊢
  rcases (mem_fluxTypes _).1 h1 with (h1 | h1) | (h1 | h1) <;>
    rcases (mem_fluxTypes _).1 h2 with (h2 | h2) | (h2 | h2) <;> subst h1 <;> simp only [h2] at h ⊢ <;>
    first
    | (exfalso; revert h; simp [SameFamily, FluxLike, LumLike]; done)
    | (simp [unitIsSed, sedConversion, Dim.flux, Dim.diffFlux, Dim.power, Dim.diffPower,
        Dim.energy, Dim.diffEnergy, Dim.diffNumDensity, SedFactor.dim, Dim.mul, Dim.inv, Dim.one,
        SedFactor.phys])

/-- For a positive-energy table the likelihood of a matching model is the core likelihood of the
model times the ratio of energy factors. -/
theorem lnprobmodel_same (model : Spectrum) (data : VTable)
    (h : SameFamily model.unit.dim data.fluxU.dim) (hl : model.vals.length = data.rows.length)
    (hE : ∀ r ∈ data.rows, 0 < r.energy) :
    lnprobmodel model data = lnCore (List.zipWith (fun m r =>
      fin (eFac (unitIsSed data.fluxU.dim) r.energy / eFac (unitIsSed model.unit.dim) r.energy) * m)
      model.vals data.rows) data.rows := by
  rw [lnprobmodel_eq]
  rcases toDataKind_same model data h hl with h' | ⟨r, hr, h0⟩
  · rw [h']
  · exact absurd h0 (hE r hr).ne'

end Naima
