import Verif.Spec.SameTable
import Verif.Props.C97_Units
import Verif.Props.C31_C32_Edges
import Verif.Props.C34_C38_DataTable
import Verif.Model.GetSampler

/-!
# C101 — a fit does not depend on the units of the data
-/

namespace Naima.Props

open XR Classical

/-! ### generated bin edges -/

private theorem edgesSingle_scale (ene : List ℝ) (c : ℝ) (hc : 0 < c) :
    edgesSingle (ene.map (c * ·)) = (edgesSingle ene).map (fun p => (p.1.map (c * ·), p.2.map (c * ·))) := by
  by_cases h : ene = []
  · subst h; rfl
  · cases he : edgesSingle ene with
    | error e =>
      cases ene with
      | nil => exact absurd rfl h
      | cons a l => simp [edgesSingle] at he
    | ok p => exact C31_unit_change ene h c hc p.1 p.2 he

private theorem maskSel_map {α β : Type} (f : α → β) (m : List Bool) (l : List α) :
    maskSel m (l.map f) = (maskSel m l).map f := by
  unfold maskSel
  induction m generalizing l with
  | nil => simp
  | cons b m ih =>
    cases l with
    | nil => simp
    | cons a l => cases b <;> simp [ih]

private theorem maskSet_map {α β : Type} (f : α → β) : ∀ (m : List Bool) (d v : List α),
    maskSet m (d.map f) (v.map f) = (maskSet m d v).map f
  | [], d, v => by simp [maskSet]
  | true :: m, [], v => by simp [maskSet]
  | true :: m, a :: d, [] => by simp [maskSet]
  | true :: m, a :: d, b :: v => by simp [maskSet, maskSet_map f m d v]
  | false :: m, [], v => by simp [maskSet]
  | false :: m, a :: d, v => by simp [maskSet, maskSet_map f m d v]

private theorem edges_scale (ene : List ℝ) (g : Option (List ℤ)) (c : ℝ) (hc : 0 < c) :
    generateEnergyEdges (ene.map (c * ·)) g =
      (generateEnergyEdges ene g).map (fun p => (p.1.map (c * ·), p.2.map (c * ·))) := by
  cases g with
  | none => exact edgesSingle_scale ene c hc
  | some groups =>
    unfold generateEnergyEdges
    simp only [List.length_map]
    by_cases hl : ene.length ≠ groups.length
    · rw [if_pos hl, if_pos hl]
      exact edgesSingle_scale ene c hc
    · rw [if_neg hl, if_neg hl]
      have gen : ∀ (gs : List ℤ) (acc : List ℝ × List ℝ),
          gs.foldlM (edgesStep (ene.map (c * ·)) groups) (acc.1.map (c * ·), acc.2.map (c * ·)) =
            (gs.foldlM (edgesStep ene groups) acc).map (fun p => (p.1.map (c * ·), p.2.map (c * ·))) := by
        intro gs
        induction gs with
        | nil => intro acc; rfl
        | cons k gs ih =>
          intro acc
          simp only [List.foldlM_cons]
          have hstep : edgesStep (ene.map (c * ·)) groups (acc.1.map (c * ·), acc.2.map (c * ·)) k =
              (edgesStep ene groups acc k).map (fun p => (p.1.map (c * ·), p.2.map (c * ·))) := by
            unfold edgesStep
            rw [maskSel_map, edgesSingle_scale _ c hc]
            cases edgesSingle (maskSel (maskOf groups k) ene) with
            | error e => rfl
            | ok p => simp [bind, Except.bind, pure, Except.pure, Except.map, maskSet_map]
          rw [hstep]
          cases edgesStep ene groups acc k with
          | error e => rfl
          | ok p => exact ih p
      have := gen (npUnique groups) (List.replicate ene.length 0, List.replicate ene.length 0)
      simpa using this

/-! ### one table -/

/-- Two proper units of one dimension. -/
def SameDimPos (u u' : PhysUnit) : Prop := u.dim = u'.dim ∧ 0 < u.scale ∧ 0 < u'.scale

private theorem same_column {rows rows' : List RawRow} {c c' : Option PhysUnit} (h : SameColumn c c')
    (f : RawRow → ℝ) (pt : List Dim) :
    RelE (fun u u' => SameDimPos u u' ∧ c = some u ∧ c' = some u') (validateColumn rows c f pt)
      (validateColumn rows' c' f pt) := by
  cases h with
  | absent => rfl
  | present hd h1 h2 =>
    rename_i u u'
    have aux : ∀ (rows : List RawRow) (u : PhysUnit), validateColumn rows (some u) f pt =
        if u.dim ∈ pt then .ok u else .error .typeError := by
      intro rows u
      unfold validateColumn validateArray validatePhysicalType
      by_cases h : u.dim ∈ pt <;> simp [h, bind, Except.bind, pure, Except.pure]
    rw [aux, aux, hd]
    by_cases h : u'.dim ∈ pt
    · simp only [h, if_true]
      exact ⟨⟨hd, h1, h2⟩, rfl, rfl⟩
    · simp only [h, if_false]
      rfl

/-- Two functions of a row agree on corresponding rows. -/
private def SameFn {α : Type} (t t' : InTable) (f f' : RawRow → α) : Prop :=
  ∀ r r', SameRow t t' r r' → f r = f' r'

private theorem isSome_same {c c' : Option PhysUnit} (h : SameColumn c c') : c.isSome = c'.isSome := by
  cases h <;> rfl

private theorem same_fluxErrors {t t' : InTable} (h : SameTable t t') :
    RelE (fun p p' => (SameDimPos p.1.1 p'.1.1 ∧ SameFn t t' p.1.2 p'.1.2) ∧
      (SameDimPos p.2.1 p'.2.1 ∧ SameFn t t' p.2.2 p'.2.2)) (fluxErrors t) (fluxErrors t') := by
  unfold fluxErrors
  rw [isSome_same h.fluxErrorU, isSome_same h.fluxErrorLoU, isSome_same h.fluxErrorHiU]
  split
  · refine relE_bind (same_column h.fluxErrorU _ _) ?_
    rintro u u' ⟨hk, hu, hu'⟩
    have hf : SameFn t t' (fun r => r.fluxError * u.scale) (fun r => r.fluxError * u'.scale) :=
      fun r r' hr => hr.fluxError u u' hu hu'
    exact ⟨⟨hk, hf⟩, ⟨hk, hf⟩⟩
  · split
    · refine relE_bind (same_column h.fluxErrorLoU _ _) ?_
      rintro u u' ⟨hk, hu, hu'⟩
      refine relE_bind (same_column h.fluxErrorHiU _ _) ?_
      rintro v v' ⟨hk2, hv, hv'⟩
      exact ⟨⟨hk, fun r r' hr => hr.fluxErrorLo u u' hu hu'⟩, ⟨hk2, fun r r' hr => hr.fluxErrorHi v v' hv hv'⟩⟩
    · rfl

private theorem map_same {α : Type} {t t' : InTable} (h : SameTable t t') {f f' : RawRow → α}
    (hf : SameFn t t' f f') : t.rows.map f = t'.rows.map f' := by
  have := h.rows
  generalize t.rows = l at this
  generalize t'.rows = l' at this
  induction this with
  | nil => rfl
  | cons hr _ ih => rw [List.map_cons, List.map_cons, hf _ _ hr, ih]

private theorem same_energyErrors {t t' : InTable} (h : SameTable t t') (g : ℤ) {eU eU' : PhysUnit}
    (hk : SameDimPos eU eU') (he : t.energyU = some eU) (he' : t'.energyU = some eU') :
    RelE (fun p p' => SameDimPos p.1 p'.1 ∧ SameDimPos p.2.1 p'.2.1 ∧ p.2.2 = p'.2.2) (energyErrors t g eU)
      (energyErrors t' g eU') := by
  unfold energyErrors
  rw [isSome_same h.energyWidthU, isSome_same h.energyErrorU, isSome_same h.energyErrorLoU,
    isSome_same h.energyErrorHiU, isSome_same h.energyLoU, isSome_same h.energyHiU]
  split
  · refine relE_bind (same_column h.energyWidthU _ _) ?_
    rintro u u' ⟨hk, hu, hu'⟩
    refine ⟨hk, hk, map_same h fun r r' hr => ?_⟩
    have := hr.energyWidth u u' hu hu'
    have e : r.energyWidth / 2 * u.scale = r'.energyWidth / 2 * u'.scale := by
      linear_combination this / 2
    simp only [e]
  · split
    · refine relE_bind (same_column h.energyErrorU _ _) ?_
      rintro u u' ⟨hk, hu, hu'⟩
      refine ⟨hk, hk, map_same h fun r r' hr => ?_⟩
      simp only [hr.energyError u u' hu hu']
    · split
      · refine relE_bind (same_column h.energyErrorLoU _ _) ?_
        rintro u u' ⟨hk, hu, hu'⟩
        refine relE_bind (same_column h.energyErrorHiU _ _) ?_
        rintro v v' ⟨hk2, hv, hv'⟩
        refine ⟨hk, hk2, map_same h fun r r' hr => ?_⟩
        simp only [hr.energyErrorLo u u' hu hu', hr.energyErrorHi v v' hv hv']
      · split
        · refine relE_bind (same_column h.energyLoU _ _) ?_
          rintro u u' ⟨_, hu, hu'⟩
          refine relE_bind (same_column h.energyHiU _ _) ?_
          rintro v v' ⟨hk2, hv, hv'⟩
          refine ⟨hk, hk2, map_same h fun r r' hr => ?_⟩
          simp only [hr.energyLo u u' hu hu', hr.energyHi v v' hv hv', hr.energy eU eU' he he']
        · have hgr : t.rows.map (rowGroup t g) = t'.rows.map (rowGroup t' g) := by
            refine map_same h fun r r' hr => ?_
            unfold rowGroup
            rw [h.hasGroup, hr.group]
          have hen : t'.rows.map (·.energy) = (t.rows.map (·.energy)).map ((eU.scale / eU'.scale) * ·) := by
            rw [List.map_map]
            refine (map_same h fun r r' hr => ?_).symm
            have := hr.energy eU eU' he he'
            have := hk.2.2.ne'
            simp only [Function.comp]
            field_simp
            linarith
          rw [hgr, hen, edges_scale _ _ _ (div_pos hk.2.1 hk.2.2)]
          refine relE_bind (R := fun p p' => p' = (p.1.map ((eU.scale / eU'.scale) * ·),
            p.2.map ((eU.scale / eU'.scale) * ·))) ?_ ?_
          · cases generateEnergyEdges (t.rows.map (·.energy)) (some (t'.rows.map (rowGroup t' g))) <;>
              simp [RelE, Except.map]
          · rintro ⟨lo, hi⟩ _ rfl
            refine ⟨hk, hk, ?_⟩
            simp only [List.zipWith_map]
            congr 1
            funext a b
            have := hk.2.2.ne'
            congr 1 <;> field_simp

private theorem same_ulFlags {t t' : InTable} (h : SameTable t t') :
    RelE (SameFn t t') (ulFlags t) (ulFlags t') := by
  unfold ulFlags
  rw [h.ulType]
  have hall : t.rows.all (fun r => decide (r.ulStr = "True" ∨ r.ulStr = "False")) =
      t'.rows.all (fun r => decide (r.ulStr = "True" ∨ r.ulStr = "False")) := by
    have := map_same h (f := fun r => r.ulStr) (f' := fun r => r.ulStr) (fun r r' hr => hr.ulStr)
    have e : ∀ l : List RawRow, l.all (fun r => decide (r.ulStr = "True" ∨ r.ulStr = "False")) =
        (l.map (fun r => r.ulStr)).all (fun s => decide (s = "True" ∨ s = "False")) := by
      intro l; rw [List.all_map]; rfl
    rw [e, e, this]
  cases t'.ulType with
  | none => exact fun _ _ _ => rfl
  | some k =>
    cases k with
    | int => exact fun r r' hr => by simp only [hr.ulInt]
    | bool => exact fun r r' hr => by simp only [hr.ulInt]
    | str =>
      simp only [hall]
      split
      · exact fun r r' hr => by simp only [hr.ulStr]
      · rfl
    | other => rfl

private theorem same_fluxVals {t t' : InTable} (h : SameTable t t') {fU fU' : PhysUnit} (hk : SameDimPos fU fU')
    (hf : t.fluxU = some fU) (hf' : t'.fluxU = some fU') {ul ul' : RawRow → Bool} (hu : SameFn t t' ul ul') :
    RelE (SameFn t t') (fluxVals t fU ul) (fluxVals t' fU' ul') := by
  unfold fluxVals
  have hc := h.fluxUlU
  generalize e1 : t.fluxUlU = c at hc
  generalize e2 : t'.fluxUlU = c' at hc
  cases hc with
  | absent => exact fun r r' hr => hr.flux fU fU' hf hf'
  | present hd h1 h2 =>
    rename_i u u'
    simp only [hd, hk.1]
    split
    · intro r r' hr
      simp only [hu r r' hr, hr.flux fU fU' hf hf', hr.fluxUl u u' e1 e2]
    · rfl

private theorem zip_same {t t' : InTable} (h : SameTable t t') {β γ : Type} (f f' : RawRow → β → γ) (l : List β)
    (hf : ∀ r r', SameRow t t' r r' → f r = f' r') :
    List.zipWith f t.rows l = List.zipWith f' t'.rows l := by
  have := h.rows
  generalize t.rows = a at this
  generalize t'.rows = a' at this
  induction this generalizing l with
  | nil => simp
  | cons hr _ ih =>
    cases l with
    | nil => simp
    | cons x l => simp only [List.zipWith_cons_cons, hf _ _ hr, ih]

private theorem same_single {t t' : InTable} (h : SameTable t t') (g : ℤ) :
    RelE SameValid (validateSingle t g) (validateSingle t' g) := by
  unfold validateSingle
  refine relE_bind (same_column h.energyU _ _) ?_
  rintro eU eU' ⟨hke, he, he'⟩
  refine relE_bind (same_column h.fluxU _ _) ?_
  rintro fU fU' ⟨hkf, hf, hf'⟩
  refine relE_bind (same_fluxErrors h) ?_
  rintro ⟨⟨floU, flo⟩, ⟨fhiU, fhi⟩⟩ ⟨⟨floU', flo'⟩, ⟨fhiU', fhi'⟩⟩ ⟨⟨k1, s1⟩, ⟨k2, s2⟩⟩
  refine relE_bind (same_energyErrors h g hke he he') ?_
  rintro ⟨eloU, ehiU, edges⟩ ⟨eloU', ehiU', edges'⟩ ⟨k3, k4, rfl⟩
  refine relE_bind (same_ulFlags h) ?_
  intro ul ul' hul
  refine relE_bind (same_fluxVals h hkf hf hf' hul) ?_
  intro fl fl' hfl
  have hcl : clVal t = clVal t' := by unfold clVal; rw [h.cl]
  rw [hcl]
  refine relE_bind (relE_eq rfl) ?_
  rintro cl _ rfl
  refine ⟨zip_same h _ _ _ fun r r' hr => ?_, hke.1, hkf.1, k1.1, k2.1, k3.1, k4.1⟩
  funext e
  have hg : rowGroup t g r = rowGroup t' g r' := by unfold rowGroup; rw [h.hasGroup, hr.group]
  have e1 := hfl r r' hr
  have e2 := s1 r r' hr
  have e3 := s2 r r' hr
  have e4 := hul r r' hr
  simp only at e1 e2 e3 e4
  rw [hr.energy eU eU' he he', e1, e2, e3, e4, hg]

/-! ### several tables -/

private theorem sedConversion_dim {u u' : PhysUnit} (h : u.dim = u'.dim) (sed : Bool) :
    sedConversion u sed = sedConversion u' sed := by
  unfold sedConversion
  rw [h]

/-- After conversion the flux columns also have the same unit. -/
private structure SameConv (v v' : VTable) : Prop extends SameValid v v' where
  unit : v.fluxU = v'.fluxU

private theorem same_dtSed {v v' : VTable} (h : SameValid v v') (sed : Bool) :
    RelE SameConv (dtSedConversion v sed) (dtSedConversion v' sed) := by
  unfold dtSedConversion
  rw [sedConversion_dim h.fluxU]
  refine relE_bind (relE_eq rfl) ?_
  rintro ⟨fu, s⟩ _ rfl
  simp only [h.fluxU, h.fluxErrorLoU, h.fluxErrorHiU]
  refine relE_bind (relE_eq rfl) ?_
  intro _ _ _
  refine relE_bind (relE_eq rfl) ?_
  intro _ _ _
  refine relE_bind (relE_eq rfl) ?_
  intro _ _ _
  refine ⟨⟨?_, h.energyU, rfl, rfl, rfl, h.energyErrorLoU, h.energyErrorHiU⟩, rfl⟩
  simp only [h.rows]

private theorem same_append (fpt : Dim) (sed : Bool) {a a' v v' : VTable} (ha : SameConv a a') (hv : SameValid v v') :
    RelE SameConv (appendTable fpt sed a v) (appendTable fpt sed a' v') := by
  unfold appendTable
  rw [hv.fluxU]
  by_cases hc : (v'.fluxU.dim = Dim.flux ∧ fpt = Dim.power) ∨ (v'.fluxU.dim = Dim.power ∧ fpt = Dim.flux)
  · simp only [hc, if_true]
    rfl
  · simp only [hc, if_false]
    refine relE_bind (same_dtSed hv sed) ?_
    intro w w' hw
    rw [hw.rows, hw.energyU, hw.fluxU, hw.fluxErrorLoU, hw.fluxErrorHiU, hw.energyErrorLoU, hw.energyErrorHiU,
      ha.energyU, ha.fluxU, ha.fluxErrorLoU, ha.fluxErrorHiU, ha.energyErrorLoU, ha.energyErrorHiU]
    split
    · exact ha
    · split
      · refine ⟨⟨?_, ha.energyU, ha.fluxU, ha.fluxErrorLoU, ha.fluxErrorHiU, ha.energyErrorLoU,
          ha.energyErrorHiU⟩, ha.unit⟩
        simp only [ha.rows]
      · rfl

private theorem same_all {ts ts' : List InTable} (h : List.Forall₂ SameTable ts ts') : ∀ g,
    RelE (List.Forall₂ SameValid) (validateAll ts g) (validateAll ts' g) := by
  induction h with
  | nil => intro g; exact List.Forall₂.nil
  | cons ht _ ih =>
    intro g
    unfold validateAll
    refine relE_bind (same_single ht _) ?_
    intro v v' hv
    refine relE_bind (ih (g + 1)) ?_
    intro vs vs' hvs
    exact List.Forall₂.cons hv hvs

private theorem same_foldl (fpt : Dim) (sed : Bool) {vs vs' : List VTable} (h : List.Forall₂ SameValid vs vs') :
    ∀ a a', SameConv a a' →
      RelE SameConv (vs.foldlM (appendTable fpt sed) a) (vs'.foldlM (appendTable fpt sed) a') := by
  induction h with
  | nil => intro a a' ha; exact ha
  | cons hv _ ih =>
    intro a a' ha
    simp only [List.foldlM_cons]
    refine relE_bind (same_append fpt sed ha hv) ?_
    intro b b' hb
    exact ih b b' hb

private theorem same_validate (sort : List Row → List Row) {ts ts' : List InTable}
    (h : List.Forall₂ SameTable ts ts') (sed : Option Bool) :
    RelE SameConv (validateDataTable sort ts sed) (validateDataTable sort ts' sed) := by
  unfold validateDataTable
  refine relE_bind (same_all h 0) ?_
  intro vs vs' hvs
  cases hvs with
  | nil => rfl
  | cons hv hrest =>
    rename_i v v' rest rest'
    simp only [hv.fluxU]
    refine relE_bind (same_dtSed hv _) ?_
    intro a a' ha
    refine relE_bind (same_foldl _ _ hrest a a' ha) ?_
    intro b b' hb
    refine ⟨⟨?_, hb.energyU, hb.fluxU, hb.fluxErrorLoU, hb.fluxErrorHiU, hb.energyErrorLoU, hb.energyErrorHiU⟩,
      hb.unit⟩
    simp only [hb.rows]

/-- **C101 (validation).**  The same tables with any columns in other units are accepted or refused alike, with the
same exception, and give the same validated content; the flux columns end up in the same unit. -/
theorem C101_validation (sort : List Row → List Row) (ts ts' : List InTable) (h : List.Forall₂ SameTable ts ts')
    (sed : Option Bool) :
    (∀ e, validateDataTable sort ts sed = .error e ↔ validateDataTable sort ts' sed = .error e) ∧
    ∀ v v', validateDataTable sort ts sed = .ok v → validateDataTable sort ts' sed = .ok v' →
      SameValid v v' ∧ v.fluxU = v'.fluxU := by
  have hs := same_validate sort h sed
  constructor
  · intro e
    cases h1 : validateDataTable sort ts sed <;> cases h2 : validateDataTable sort ts' sed <;>
      rw [h1, h2] at hs <;> simp only [RelE] at hs
    · rw [hs]
    · simp
  · intro v v' h1 h2
    rw [h1, h2] at hs
    exact ⟨hs.toSameValid, hs.unit⟩

/-! ### likelihood -/

private theorem same_lnprobmodel {s s' : Spectrum} {v v' : VTable} (hv : SameValid v v') (h1 : s.vals = s'.vals)
    (h2 : s.unit.dim = s'.unit.dim) : lnprobmodel s v = lnprobmodel s' v' := by
  have hk : toDataKind s v = toDataKind s' v' := by
    unfold toDataKind
    rw [h1, h2, hv.fluxU, hv.rows, sedConversion_dim h2]
  unfold lnprobmodel
  rw [hk, hv.rows]

/-- **C101 (likelihood).**  For the same tables in other units and a model function that gives the same physical
spectrum for the same physical data, the log-probability of every parameter vector is the same number, or the
same exception is raised. -/
theorem C101_lnprob {P β : Type} (sort : List Row → List Row) (ts ts' : List InTable)
    (h : List.Forall₂ SameTable ts ts') (sed : Option Bool) (v v' : VTable)
    (hv : validateDataTable sort ts sed = .ok v) (hv' : validateDataTable sort ts' sed = .ok v')
    (model : P → VTable → Except PyErr (ModelOut β))
    (hm : ∀ p v v', SameValid v v' → RelE SameOut (model p v) (model p v'))
    (prior : Option (P → Except PyErr XR)) (p : P) :
    (lnprob p v model prior).map (·.1) = (lnprob p v' model prior).map (·.1) := by
  have hs := ((C101_validation sort ts ts' h sed).2 v v' hv hv').1
  have key : RelE (fun a b => a.1 = b.1) (lnprob p v model prior) (lnprob p v' model prior) := by
    unfold lnprob
    refine relE_bind (relE_eq rfl) ?_
    rintro pr _ rfl
    refine relE_bind (hm p v v' hs) ?_
    intro o o' ho
    refine relE_bind (R := fun a b => SameBlobOut a.1 b.1) ?_ ?_
    · cases ho with
      | array e1 e2 => exact SameBlobOut.spec e1 e2
      | iterable hl =>
        cases hl with
        | nil => rfl
        | cons hb _ => exact hb
    · rintro ⟨b, l⟩ ⟨b', l'⟩ hb
      refine relE_bind (R := fun a b => a = b) (relE_eq ?_) ?_
      · unfold totalLnprob
        cases hb with
        | spec e1 e2 => simp only [same_lnprobmodel hs e1 e2]
        | nan => rfl
        | other b => rfl
      · rintro x _ rfl
        rfl
  cases h1 : lnprob p v model prior <;> cases h2 : lnprob p v' model prior <;> rw [h1, h2] at key <;>
    simp only [RelE] at key
  · rw [key]
  · simp [Except.map, key]

/-! ### the start of the fit -/

/-- **C101 (start of the fit).**  With the same arguments and random numbers, `get_sampler` on the same tables in
other units guesses the same normalisation and places the walkers at the same points (the model giving the same
spectrum, the optimiser the same answer). -/
theorem C101_get_sampler (sort : List Row → List Row) (ts ts' : List InTable)
    (h : List.Forall₂ SameTable ts ts') (sed : Option Bool) (v v' : VTable)
    (hv : validateDataTable sort ts sed = .ok v) (hv' : validateDataTable sort ts' sed = .ok v') (a : GSArgs)
    (model : VTable → List XR → Except PyErr Spectrum)
    (hm : ∀ p v v', SameValid v v' →
      RelE (fun s s' => s.vals = s'.vals ∧ s.unit.dim = s'.unit.dim) (model v p) (model v' p))
    (fit : List XR → Except PyErr (List XR × Bool)) (normal : ℕ → List ℝ) :
    getSampler a v (model v) fit normal = getSampler a v' (model v') fit normal := by
  have hs := ((C101_validation sort ts ts' h sed).2 v v' hv hv').1
  unfold getSampler
  have hmm := hm a.p0 v v' hs
  cases h1 : model v a.p0 <;> cases h2 : model v' a.p0 <;> rw [h1, h2] at hmm <;> simp only [RelE] at hmm
  · rw [hmm]
  · rename_i s s'
    obtain ⟨e1, e2⟩ := hmm
    have hg : ∀ labels, guessInPlace a.kind a.guess labels a.p0 v s = guessInPlace a.kind a.guess labels a.p0 v' s' := by
      intro labels
      unfold guessInPlace unitsCheck
      rw [sedConversion_dim e2, sedConversion_dim hs.fluxU]
      have hat : ∀ i, guessAt labels a.p0 v s i = guessAt labels a.p0 v' s' i := by
        intro i
        unfold guessAt energyFluxOf
        rw [sedConversion_dim e2, sedConversion_dim hs.fluxU, e1, e2, hs.rows, hs.fluxU]
      simp only [hat]
    simp only [hg]

/-! ### an example -/

/-- Two points in TeV and 1/(s TeV cm²). -/
noncomputable def exTeV : InTable where
  energyU := some PhysUnit.TeV
  fluxU := some ⟨1 / 1.602176634, Dim.diffFlux⟩
  fluxErrorU := some ⟨1 / 1.602176634, Dim.diffFlux⟩
  rows := [{ energy := 1, flux := 3e-11, fluxError := 1e-11 }, { energy := 10, flux := 1e-13, fluxError := 5e-14 }]

/-- The same with energies in GeV. -/
noncomputable def exGeV : InTable := { exTeV with
  energyU := some PhysUnit.GeV
  rows := [{ energy := 1000, flux := 3e-11, fluxError := 1e-11 },
    { energy := 10000, flux := 1e-13, fluxError := 5e-14 }] }

theorem exTeV_same : SameTable exTeV exGeV where
  energyU := .present rfl (by norm_num [PhysUnit.TeV]) (by norm_num [PhysUnit.GeV])
  fluxU := .present rfl (by norm_num) (by norm_num)
  fluxErrorU := .present rfl (by norm_num) (by norm_num)
  fluxErrorLoU := .absent
  fluxErrorHiU := .absent
  hasGroup := rfl
  energyWidthU := .absent
  energyErrorU := .absent
  energyErrorLoU := .absent
  energyErrorHiU := .absent
  energyLoU := .absent
  energyHiU := .absent
  ulType := rfl
  fluxUlU := .absent
  cl := rfl
  rows := by
    have row : ∀ e f d : ℝ, SameRow exTeV exGeV { energy := e, flux := f, fluxError := d }
        { energy := 1000 * e, flux := f, fluxError := d } := by
      intro e f d
      constructor <;> first | rfl | (intro a b ha hb; cases ha <;> cases hb <;> norm_num [PhysUnit.TeV, PhysUnit.GeV] <;> ring)
    have r1 := row 1 3e-11 1e-11
    have r2 := row 10 1e-13 5e-14
    norm_num at r1 r2
    refine .cons ?_ (.cons ?_ .nil)
    · norm_num; exact r1
    · norm_num; exact r2


/-- The hypotheses are met: both tables are accepted, whatever the sort. -/
theorem C101_example (sort : List Row → List Row) :
    ∃ v v', validateDataTable sort [exTeV] none = .ok v ∧ validateDataTable sort [exGeV] none = .ok v' := by
  obtain ⟨v, hv⟩ := C34_accepts sort [exTeV] none (by simp)
    (by
      simp only [List.mem_singleton, forall_eq]
      refine ⟨⟨_, rfl, rfl⟩, ⟨_, rfl, Or.inl (Or.inr rfl)⟩, Or.inl ⟨_, rfl, Or.inl (Or.inr rfl)⟩,
        Or.inr ⟨rfl, Or.inr ⟨rfl, Or.inr ⟨by simp [exTeV], Or.inr (by simp [exTeV])⟩⟩⟩,
        Or.inl rfl, by simp [exTeV], by simp [exTeV]⟩)
    (by
      simp only [List.mem_singleton, forall_eq]
      intro u hu
      simp [exTeV] at hu ⊢
      rw [← hu])
    (Or.inl (by simpa using ⟨_, rfl, Or.inr rfl⟩))
  have hs := same_validate sort (ts := [exTeV]) (ts' := [exGeV]) (.cons exTeV_same .nil) none
  rw [hv] at hs
  cases hv' : validateDataTable sort [exGeV] none with
  | error e => rw [hv'] at hs; exact hs.elim
  | ok v' => exact ⟨v, v', hv, rfl⟩

end Naima.Props
