import Verif.Model.DataTable
import Verif.Spec.DataTable
import Verif.Props.C31_C32_Edges
import Verif.Props.C33_Sed

namespace Naima

open Spec

theorem bind_ok {α β : Type} (x : Except PyErr α) (f : α → Except PyErr β) (b : β) :
    (x >>= f) = .ok b ↔ ∃ a, x = .ok a ∧ f a = .ok b := by
  cases x with
  | error e => simp [bind, Except.bind]
  | ok a => simp [bind, Except.bind]

theorem pure_ok {α : Type} (a b : α) : (pure a : Except PyErr α) = .ok b ↔ a = b := by
  simp [pure, Except.pure]

theorem throw_ok {α : Type} (e : PyErr) (b : α) : (throw e : Except PyErr α) = .ok b ↔ False := by
  simp [throw, throwThe, MonadExceptOf.throw]

theorem validateColumn_ok (rows : List RawRow) (c : Option PhysUnit) (f : RawRow → ℝ)
    (pt : List Dim) (u : PhysUnit) :
    validateColumn rows c f pt = .ok u ↔ c = some u ∧ u.dim ∈ pt := by
  unfold validateColumn
  cases c with
  | none => simp
  | some v =>
    by_cases h : v.dim ∈ pt
    · simp [validateArray, validatePhysicalType, h, bind, Except.bind, pure, Except.pure]
      rintro rfl; exact h
    · simp [validateArray, validatePhysicalType, h, bind, Except.bind]
      rintro rfl; exact h

theorem validateColumn_some (rows : List RawRow) (u : PhysUnit) (f : RawRow → ℝ) (pt : List Dim) :
    validateColumn rows (some u) f pt = if u.dim ∈ pt then .ok u else .error .typeError := by
  unfold validateColumn
  by_cases h : u.dim ∈ pt
  · simp [validateArray, validatePhysicalType, h, bind, Except.bind, pure, Except.pure]
  · simp [validateArray, validatePhysicalType, h, bind, Except.bind]

theorem validateColumn_error (rows : List RawRow) (c : Option PhysUnit) (f : RawRow → ℝ)
    (pt : List Dim) (e : PyErr) (h : validateColumn rows c f pt = .error e) : e = .typeError := by
  unfold validateColumn at h
  cases c with
  | none => simpa using h.symm
  | some v =>
    by_cases hv : v.dim ∈ pt
    · simp [validateArray, validatePhysicalType, hv, bind, Except.bind, pure, Except.pure] at h
    · simp [validateArray, validatePhysicalType, hv, bind, Except.bind] at h
      exact h.symm

theorem mem_fluxTypes (d : Dim) : d ∈ fluxTypes ↔ (FluxLike d ∨ LumLike d) := by
  unfold fluxTypes FluxLike LumLike
  simp; tauto

/-- What `fluxErrors` returns. -/
theorem fluxErrors_ok (t : InTable) (a b : PhysUnit × (RawRow → ℝ)) :
    fluxErrors t = .ok (a, b) ↔
      ((∃ u, t.fluxErrorU = some u ∧ u.dim ∈ fluxTypes ∧
        a = (u, fun r => r.fluxError * u.scale) ∧ b = (u, fun r => r.fluxError * u.scale)) ∨
       (t.fluxErrorU = none ∧ ∃ ul uh, t.fluxErrorLoU = some ul ∧ t.fluxErrorHiU = some uh ∧
        ul.dim ∈ fluxTypes ∧ uh.dim ∈ fluxTypes ∧
        a = (ul, fun r => r.fluxErrorLo * ul.scale) ∧
        b = (uh, fun r => r.fluxErrorHi * uh.scale))) := by
  unfold fluxErrors
  cases h : t.fluxErrorU with
  | some u =>
    simp only [Option.isSome_some, if_true, bind_ok, pure_ok, validateColumn_ok]
    constructor
    · rintro ⟨u', ⟨h1, h2⟩, h3⟩
      simp at h1 h3; subst h1
      exact Or.inl ⟨u, rfl, h2, h3.1.symm, h3.2.symm⟩
    · rintro (⟨u', h1, h2, h3, h4⟩ | ⟨h1, _⟩)
      · simp at h1; subst h1; exact ⟨u, ⟨rfl, h2⟩, by rw [h3, h4]⟩
      · simp at h1
  | none =>
    cases hl : t.fluxErrorLoU with
    | none => simp [throw_ok]
    | some ul =>
      cases hh : t.fluxErrorHiU with
      | none => simp [throw_ok]
      | some uh =>
        simp only [Option.isSome_none, Bool.false_eq_true, if_false, Option.isSome_some,
          Bool.and_self, if_true, bind_ok, pure_ok, validateColumn_ok]
        constructor
        · rintro ⟨ul', ⟨h1, h2⟩, uh', ⟨h3, h4⟩, h5⟩
          simp at h1 h3 h5; subst h1 h3
          exact Or.inr ⟨by first | rfl | trivial, ul, uh, rfl, rfl, h2, h4, h5.1.symm, h5.2.symm⟩
        · rintro (⟨u, h1, _⟩ | ⟨_, ul', uh', h1, h2, h3, h4, h5, h6⟩)
          · simp at h1
          · simp at h1 h2; subst h1 h2
            exact ⟨ul, ⟨rfl, h3⟩, uh, ⟨rfl, h4⟩, by rw [h5, h6]⟩

/-- What `energyErrors` returns. -/
theorem energyErrors_ok (t : InTable) (g : ℤ) (eU ul uh : PhysUnit) (es : List (ℝ × ℝ))
    (he : t.energyU = some eU) (heU : eU.dim = Dim.energy)
    (h : energyErrors t g eU = .ok (ul, uh, es)) :
    Widths t g es ∧ es.length = t.rows.length ∧ ul.dim = Dim.energy ∧ uh.dim = Dim.energy := by
  unfold energyErrors at h
  cases hw : t.energyWidthU with
  | some u =>
    simp only [hw, Option.isSome_some, if_true, bind_ok, pure_ok, validateColumn_ok] at h
    obtain ⟨u', ⟨h1, h2⟩, h3⟩ := h
    simp at h1 h2 h3; subst h1
    obtain ⟨rfl, rfl, rfl⟩ := h3
    refine ⟨⟨fun _ => ?_, fun hn => absurd (Or.inl (by simp [hw])) hn⟩, by simp, h2, h2⟩
    apply List.map_congr_left
    intro r _
    simp [givenWidths, hw, phys]
    ring
  | none =>
  cases hee : t.energyErrorU with
  | some u =>
    simp only [hw, hee, Option.isSome_none, Bool.false_eq_true, if_false, Option.isSome_some,
      if_true, bind_ok, pure_ok, validateColumn_ok] at h
    obtain ⟨u', ⟨h1, h2⟩, h3⟩ := h
    simp at h1 h2 h3; subst h1
    obtain ⟨rfl, rfl, rfl⟩ := h3
    refine ⟨⟨fun _ => ?_, fun hn => absurd (Or.inr (Or.inl (by simp [hee]))) hn⟩, by simp, h2, h2⟩
    apply List.map_congr_left
    intro r _
    simp [givenWidths, hw, hee, phys]
  | none =>
  by_cases hlh : t.energyErrorLoU ≠ none ∧ t.energyErrorHiU ≠ none
  · obtain ⟨xl, hxl⟩ := Option.ne_none_iff_exists'.1 hlh.1
    obtain ⟨xh, hxh⟩ := Option.ne_none_iff_exists'.1 hlh.2
    simp only [hw, hee, hxl, hxh, Option.isSome_none, Bool.false_eq_true, if_false,
      Option.isSome_some, Bool.and_self, if_true, bind_ok, pure_ok, validateColumn_ok] at h
    obtain ⟨u', ⟨h1, h2⟩, u'', ⟨h3, h4⟩, h5⟩ := h
    simp at h1 h2 h3 h4 h5; subst h1 h3
    obtain ⟨rfl, rfl, rfl⟩ := h5
    refine ⟨⟨fun _ => ?_, fun hn => absurd (Or.inr (Or.inr (Or.inl hlh))) hn⟩, by simp, h2, h4⟩
    apply List.map_congr_left
    intro r _
    simp [givenWidths, hw, hee, hxl, hxh, phys]
  · have hb : (t.energyErrorLoU.isSome && t.energyErrorHiU.isSome) = false := by
      cases h1 : t.energyErrorLoU <;> cases h2 : t.energyErrorHiU <;> simp_all
    by_cases hlh2 : t.energyLoU ≠ none ∧ t.energyHiU ≠ none
    · obtain ⟨xl, hxl⟩ := Option.ne_none_iff_exists'.1 hlh2.1
      obtain ⟨xh, hxh⟩ := Option.ne_none_iff_exists'.1 hlh2.2
      simp only [hw, hee, hb, hxl, hxh, Option.isSome_none, Bool.false_eq_true, if_false,
        Option.isSome_some, Bool.and_self, if_true, bind_ok, pure_ok, validateColumn_ok] at h
      obtain ⟨u', ⟨h1, h2⟩, u'', ⟨h3, h4⟩, h5⟩ := h
      simp at h1 h2 h3 h4 h5; subst h1 h3
      obtain ⟨rfl, rfl, rfl⟩ := h5
      refine ⟨⟨fun _ => ?_, fun hn => absurd (Or.inr (Or.inr (Or.inr hlh2))) hn⟩, by simp, heU, h4⟩
      apply List.map_congr_left
      intro r _
      simp only [givenWidths, hw, hee, ne_eq, not_true_eq_false, if_false]
      rw [if_neg hlh]
      simp [phys, he, hxl, hxh]
    · have hb2 : (t.energyLoU.isSome && t.energyHiU.isSome) = false := by
        cases h1 : t.energyLoU <;> cases h2 : t.energyHiU <;> simp_all
      have hng : ¬ GivenWidths t := by
        rintro (h1 | h1 | h1 | h1)
        · exact h1 hw
        · exact h1 hee
        · exact hlh h1
        · exact hlh2 h1
      simp only [hw, hee, hb, hb2, Option.isSome_none, Bool.false_eq_true, if_false, bind_ok,
        pure_ok] at h
      obtain ⟨⟨lo, hi⟩, h1, h2⟩ := h
      simp at h2
      obtain ⟨rfl, rfl, rfl⟩ := h2
      obtain ⟨lo', hi', h3, h4, h5, -⟩ := Props.C32_edges_per_group (t.rows.map (·.energy))
        (t.rows.map (rowGroup t g)) (by simp)
      rw [h3] at h1
      simp at h1
      obtain ⟨rfl, rfl⟩ := h1
      refine ⟨⟨fun hg => absurd hg hng, fun _ => ⟨lo', hi', h3, ?_⟩⟩, ?_, heU, heU⟩
      · rw [List.zip, List.map_zipWith]
        simp [phys, he]
      · simp at h4 h5; simp [h4, h5]

/-- `energyErrors` succeeds exactly when the width columns are acceptable. -/
theorem energyErrors_exists (t : InTable) (g : ℤ) (eU : PhysUnit) :
    (∃ r, energyErrors t g eU = .ok r) ↔
    (HasType t.energyWidthU (· = Dim.energy) ∨
    (t.energyWidthU = none ∧ (HasType t.energyErrorU (· = Dim.energy) ∨
      (t.energyErrorU = none ∧
        ((HasType t.energyErrorLoU (· = Dim.energy) ∧ HasType t.energyErrorHiU (· = Dim.energy)) ∨
        (¬ (t.energyErrorLoU ≠ none ∧ t.energyErrorHiU ≠ none) ∧
          ((HasType t.energyLoU (· = Dim.energy) ∧ HasType t.energyHiU (· = Dim.energy)) ∨
          ¬ (t.energyLoU ≠ none ∧ t.energyHiU ≠ none)))))))) := by
  unfold energyErrors HasType
  have gen : ∃ r, (do
      let (lo, hi) ← generateEnergyEdges (t.rows.map (·.energy)) (some (t.rows.map (rowGroup t g)))
      pure (eU, eU, List.zipWith (fun a b => (a * eU.scale, b * eU.scale)) lo hi) :
      Except PyErr (PhysUnit × PhysUnit × List (ℝ × ℝ))) = .ok r := by
    obtain ⟨lo', hi', h, -⟩ := Props.C32_edges_per_group (t.rows.map (·.energy))
        (t.rows.map (rowGroup t g)) (by simp)
    rw [h]; exact ⟨_, rfl⟩
  cases hw : t.energyWidthU with
  | some u =>
    by_cases hd : u.dim = Dim.energy <;>
      simp [validateColumn_some, hd, bind, Except.bind, pure, Except.pure]
  | none =>
  cases hee : t.energyErrorU with
  | some u =>
    by_cases hd : u.dim = Dim.energy <;>
      simp [validateColumn_some, hd, bind, Except.bind, pure, Except.pure]
  | none =>
  have two : ∀ (ul uh : PhysUnit) (f1 f2 : RawRow → ℝ)
      (k : PhysUnit → PhysUnit → PhysUnit × PhysUnit × List (ℝ × ℝ)),
      (∃ r, (do
        let a ← validateColumn t.rows (some ul) f1 [Dim.energy]
        let b ← validateColumn t.rows (some uh) f2 [Dim.energy]
        pure (k a b) : Except PyErr _) = .ok r) ↔ (ul.dim = Dim.energy ∧ uh.dim = Dim.energy) := by
    intro ul uh f1 f2 k
    by_cases h1 : ul.dim = Dim.energy <;> by_cases h2 : uh.dim = Dim.energy <;>
      simp [validateColumn_some, h1, h2, bind, Except.bind, pure, Except.pure]
  cases h1 : t.energyErrorLoU <;> cases h2 : t.energyErrorHiU <;>
  cases h3 : t.energyLoU <;> cases h4 : t.energyHiU <;>
  simp only [Option.isSome_none, Option.isSome_some, Bool.false_eq_true, if_false, if_true,
    Bool.and_self, Bool.and_true, Bool.and_false, two, gen] <;> simp

theorem ulFlags_ok (t : InTable) (f : RawRow → Bool) (h : ulFlags t = .ok f) :
    f = flag t := by
  unfold ulFlags at h
  funext r
  unfold flag
  cases hu : t.ulType with
  | none => rw [hu] at h; simp at h; rw [← h]
  | some k =>
    rw [hu] at h
    cases k with
    | int => simp at h; rw [← h]; simp
    | bool => simp at h; rw [← h]; simp
    | other => simp at h
    | str =>
      simp only at h
      split at h
      · simp at h; rw [← h]
      · simp at h

theorem ulFlags_exists (t : InTable) : (∃ f, ulFlags t = .ok f) ↔
    (t.ulType = none ∨ t.ulType = some .int ∨ t.ulType = some .bool ∨
    (t.ulType = some .str ∧ ∀ r ∈ t.rows, r.ulStr = "True" ∨ r.ulStr = "False")) := by
  unfold ulFlags
  cases hu : t.ulType with
  | none => simp
  | some k =>
    cases k with
    | int => simp
    | bool => simp
    | other => simp
    | str =>
      simp only []
      by_cases hall : t.rows.all (fun r => decide (r.ulStr = "True" ∨ r.ulStr = "False")) = true
      · rw [if_pos hall]
        simp at hall
        simpa using hall
      · rw [if_neg hall]
        simp at hall
        simpa using hall

theorem clVal_exists (t : InTable) : (∃ x, clVal t = .ok x) ↔ (∀ v, t.cl = some v → ∃ x, v = .num x) := by
  unfold clVal
  cases hc : t.cl with
  | none => simp
  | some v =>
    cases v <;> simp [validateScalar, validatePhysicalType, bind, Except.bind, pure, Except.pure,
      throw, throwThe, MonadExceptOf.throw]

theorem clVal_ok (t : InTable) (x : XR) (h : clVal t = .ok x) :
    x = (match t.cl with
      | some (.num x) => x
      | _ => XR.fin 0.9) := by
  unfold clVal at h
  cases hc : t.cl with
  | none => rw [hc] at h; simpa using h.symm
  | some v =>
    rw [hc] at h
    cases v <;> simp [validateScalar, validatePhysicalType, bind, Except.bind, pure, Except.pure,
      throw, throwThe, MonadExceptOf.throw] at h ⊢
    exact h.symm

theorem fluxVals_exists (t : InTable) (fU : PhysUnit) (ul : RawRow → Bool) :
    (∃ f, fluxVals t fU ul = .ok f) ↔ (∀ u, t.fluxUlU = some u → fU.dim = u.dim) := by
  unfold fluxVals
  cases hc : t.fluxUlU with
  | none => simp
  | some u =>
    by_cases h : u.dim = fU.dim
    · simp [h]
    · have : ¬ fU.dim = u.dim := fun e => h e.symm
      simp [h, this]

theorem fluxVals_ok (t : InTable) (fU : PhysUnit) (hf : t.fluxU = some fU) (f : RawRow → ℝ)
    (h : fluxVals t fU (flag t) = .ok f) (r : RawRow) :
    f r = (if flag t r ∧ t.fluxUlU ≠ none then phys t.fluxUlU r.fluxUl
             else phys t.fluxU r.flux) := by
  unfold fluxVals at h
  cases hc : t.fluxUlU with
  | none => rw [hc] at h; simp at h; rw [← h]; simp [phys, hf]
  | some u =>
    rw [hc] at h
    simp only at h
    split at h
    · simp at h; rw [← h]; by_cases hfl : flag t r = true <;> simp [phys, hf, hfl]
    · simp at h

/-- The specified row before conversion. -/
noncomputable def preRow (t : InTable) (g : ℤ) (r : RawRow) (e : ℝ × ℝ) : Row :=
  { energy := phys t.energyU r.energy
    flux := (if flag t r ∧ t.fluxUlU ≠ none then phys t.fluxUlU r.fluxUl
             else phys t.fluxU r.flux)
    fluxErrorLo := (if t.fluxErrorU ≠ none then phys t.fluxErrorU r.fluxError
                    else phys t.fluxErrorLoU r.fluxErrorLo)
    fluxErrorHi := (if t.fluxErrorU ≠ none then phys t.fluxErrorU r.fluxError
                    else phys t.fluxErrorHiU r.fluxErrorHi)
    group := if t.hasGroup then r.group else g
    energyErrorLo := e.1
    energyErrorHi := e.2
    ul := flag t r
    cl := match t.cl with
      | some (.num x) => x
      | _ => XR.fin 0.9 }

theorem zipWith_congr {α β γ : Type} (f h : α → β → γ) (a : List α) (b : List β)
    (hc : ∀ x y, f x y = h x y) : List.zipWith f a b = List.zipWith h a b := by
  have : f = h := by funext x y; exact hc x y
  rw [this]

/-- Inversion of `_validate_single_data_table`. -/
theorem validateSingle_ok (t : InTable) (g : ℤ) (v : VTable) (h : validateSingle t g = .ok v) :
    ∃ es, Widths t g es ∧ es.length = t.rows.length ∧
      t.energyU = some v.energyU ∧ v.energyU.dim = Dim.energy ∧
      t.fluxU = some v.fluxU ∧ v.fluxU.dim ∈ fluxTypes ∧
      v.energyErrorLoU.dim = Dim.energy ∧ v.energyErrorHiU.dim = Dim.energy ∧
      v.rows = List.zipWith (preRow t g) t.rows es := by
  unfold validateSingle at h
  simp only [bind_ok, pure_ok, validateColumn_ok] at h
  obtain ⟨eU, ⟨he, heU⟩, fU, ⟨hf, hfU⟩, ⟨⟨floU, flo⟩, ⟨fhiU, fhi⟩⟩, herr, ⟨eloU, ehiU, es⟩, hedge,
    ul, hul, flux, hflux, cl, hcl, rfl⟩ := h
  simp only [List.mem_singleton] at heU
  obtain ⟨hw, hlen, hd1, hd2⟩ := energyErrors_ok t g eU eloU ehiU es he heU hedge
  have hul' := ulFlags_ok t ul hul
  subst hul'
  refine ⟨es, hw, hlen, he, heU, hf, hfU, hd1, hd2, ?_⟩
  apply zipWith_congr
  intro r e
  have h1 := fluxVals_ok t fU hf flux hflux r
  have h2 := clVal_ok t cl hcl
  have h3 := (fluxErrors_ok t _ _).1 herr
  unfold preRow
  congr 1
  · simp [phys, he]
  · rcases h3 with ⟨u, hu, -, ha, hb⟩ | ⟨hu, ul, uh, hl, hh, -, -, ha, hb⟩
    · simp at ha; rw [ha.2]; simp [hu, phys]
    · simp at ha; rw [ha.2]; simp [hu, hl, phys]
  · rcases h3 with ⟨u, hu, -, ha, hb⟩ | ⟨hu, ul, uh, hl, hh, -, -, ha, hb⟩
    · simp at hb; rw [hb.2]; simp [hu, phys]
    · simp at hb; rw [hb.2]; simp [hu, hh, phys]

/-- `_validate_single_data_table` accepts exactly the valid tables. -/
theorem validateSingle_exists (t : InTable) (g : ℤ) :
    (∃ v, validateSingle t g = .ok v) ↔ Valid t := by
  have hFl : ∀ d, d ∈ fluxTypes ↔ (FluxLike d ∨ LumLike d) := mem_fluxTypes
  constructor
  · rintro ⟨v, h⟩
    unfold validateSingle at h
    simp only [bind_ok, pure_ok, validateColumn_ok] at h
    obtain ⟨eU, ⟨he, heU⟩, fU, ⟨hf, hfU⟩, ⟨⟨floU, flo⟩, ⟨fhiU, fhi⟩⟩, herr, edges, hedge,
      ul, hul, flux, hflux, cl, hcl, rfl⟩ := h
    simp only [List.mem_singleton] at heU
    refine ⟨⟨eU, he, heU⟩, ⟨fU, hf, (hFl _).1 hfU⟩, ?_, (energyErrors_exists t g eU).1 ⟨_, hedge⟩,
      (ulFlags_exists t).1 ⟨_, hul⟩, ?_, (clVal_exists t).1 ⟨_, hcl⟩⟩
    · rcases (fluxErrors_ok t _ _).1 herr with ⟨u, hu, hd, -⟩ | ⟨hu, ul, uh, hl, hh, hd1, hd2, -⟩
      · exact Or.inl ⟨u, hu, (hFl _).1 hd⟩
      · exact Or.inr ⟨hu, ⟨ul, hl, (hFl _).1 hd1⟩, ⟨uh, hh, (hFl _).1 hd2⟩⟩
    · intro u hu
      exact ⟨fU, hf, (fluxVals_exists t fU ul).1 ⟨_, hflux⟩ u hu⟩
  · rintro ⟨⟨eU, he, heU⟩, ⟨fU, hf, hfU⟩, herr, hw, hul, hfu, hcl⟩
    obtain ⟨edges, hedge⟩ := (energyErrors_exists t g eU).2 hw
    obtain ⟨ul, hul⟩ := (ulFlags_exists t).2 hul
    obtain ⟨flux, hflux⟩ := (fluxVals_exists t fU ul).2 (by
      intro u hu
      obtain ⟨w, hw1, hw2⟩ := hfu u hu
      rw [hf] at hw1; simp at hw1; subst hw1; exact hw2)
    obtain ⟨cl, hcl⟩ := (clVal_exists t).2 hcl
    have herr' : ∃ a b, fluxErrors t = .ok (a, b) := by
      rcases herr with ⟨u, hu, hd⟩ | ⟨hu, ⟨ul, hl, hd1⟩, ⟨uh, hh, hd2⟩⟩
      · exact ⟨_, _, (fluxErrors_ok t _ _).2 (Or.inl ⟨u, hu, (hFl _).2 hd, rfl, rfl⟩)⟩
      · exact ⟨_, _, (fluxErrors_ok t _ _).2 (Or.inr ⟨hu, ul, uh, hl, hh, (hFl _).2 hd1,
          (hFl _).2 hd2, rfl, rfl⟩)⟩
    obtain ⟨a, b, herr'⟩ := herr'
    unfold validateSingle
    simp only [bind_ok, pure_ok, validateColumn_ok]
    exact ⟨_, eU, ⟨he, by simp [heU]⟩, fU, ⟨hf, (hFl _).2 hfU⟩, (a, b), herr', edges, hedge, ul,
      hul, flux, hflux, cl, hcl, rfl⟩

end Naima
