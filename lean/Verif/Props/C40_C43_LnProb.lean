import Verif.Proof.LnProb
import Mathlib.Analysis.SpecialFunctions.Log.Deriv
import Mathlib.Analysis.Calculus.Deriv.Inv

/-! # C40 – C43: likelihood and priors -/

namespace Naima.Props

open Naima Spec XR Classical

theorem core_gauss (ms : List ℝ) (rows : List Row) (hl : ms.length = rows.length)
    (h1 : ∀ r ∈ rows, 0 < r.fluxErrorLo) (h2 : ∀ r ∈ rows, 0 < r.fluxErrorHi)
    (hul : ∀ r ∈ rows, r.ul = false) :
    lnCore (ms.map fin) rows = .ok (fin (gaussLnL ms rows)) := by
  unfold lnCore
  have hany : ((ms.map fin).zip rows).any (fun p => p.2.ul) = false := by
    simp only [List.any_eq_false]
    intro p hp
    have := hul p.2 (List.of_mem_zip hp).2
    simp [this]
  simp only [List.length_map, hl, ne_eq, not_true_eq_false, if_false, hany, Bool.false_eq_true]
  congr 1
  clear hany
  induction ms generalizing rows with
  | nil => simp [gaussLnL]
  | cons m ms ih =>
    cases rows with
    | nil => simp at hl
    | cons r rows =>
      have hr : r.ul = false := hul r (by simp)
      simp only [List.map_cons, List.zip_cons_cons, List.filter_cons, hr, Bool.not_false, if_true,
        XR.sum_cons]
      rw [ih rows (by simpa using hl) (fun r h => h1 r (by simp [h])) (fun r h => h2 r (by simp [h]))
        (fun r h => hul r (by simp [h])), lnTerm_fin m r (h1 r (by simp)) (h2 r (by simp))]
      simp [gaussLnL]; ring

/-- **C40 (value).** Without upper limits, and with the model in a unit of the data's physical type,
the log-likelihood is `-1/2 Σ ((model - flux)/σ)²`, σ being the upper error where the model is above
the data and the lower error otherwise. -/
theorem C40_gaussian (ms : List ℝ) (u : PhysUnit) (data : VTable) (hd : GoodData data)
    (hl : ms.length = data.rows.length) (hu : u.dim = data.fluxU.dim)
    (hul : ∀ r ∈ data.rows, r.ul = false) :
    lnprobmodel ⟨ms.map fin, u⟩ data = .ok (fin (gaussLnL ms data.rows)) := by
  rw [lnprobmodel_eq]
  unfold toDataKind
  simp only [hu, ne_eq, not_true_eq_false, if_false, if_true]
  exact core_gauss ms data.rows hl hd.errLo hd.errHi hul

/-- **C40 (maximum).** That log-likelihood is at most 0, and it is 0 exactly when the model equals
the measured flux at every point. -/
theorem C40_max (ms : List ℝ) (rows : List Row) (hl : ms.length = rows.length)
    (h1 : ∀ r ∈ rows, 0 < r.fluxErrorLo) (h2 : ∀ r ∈ rows, 0 < r.fluxErrorHi) :
    gaussLnL ms rows ≤ 0 ∧ (gaussLnL ms rows = 0 ↔ ms = rows.map (·.flux)) := by
  have key : 0 ≤ ((ms.zip rows).map (fun p => chi2 p.1 p.2)).sum ∧
      (((ms.zip rows).map (fun p => chi2 p.1 p.2)).sum = 0 ↔ ms = rows.map (·.flux)) := by
    induction ms generalizing rows with
    | nil => cases rows <;> simp at hl ⊢
    | cons m ms ih =>
      cases rows with
      | nil => simp at hl
      | cons r rows =>
        obtain ⟨i1, i2⟩ := ih rows (by simpa using hl) (fun r h => h1 r (by simp [h]))
          (fun r h => h2 r (by simp [h]))
        have hc : 0 ≤ chi2 m r := by unfold chi2; positivity
        have hz : chi2 m r = 0 ↔ m = r.flux := by
          unfold chi2
          have a := h1 r (by simp)
          have b := h2 r (by simp)
          split
          · rw [sq_eq_zero_iff, div_eq_zero_iff, sub_eq_zero]
            constructor
            · rintro (h | h)
              · exact h
              · exact absurd h b.ne'
            · exact Or.inl
          · rw [sq_eq_zero_iff, div_eq_zero_iff, sub_eq_zero]
            constructor
            · rintro (h | h)
              · exact h
              · exact absurd h a.ne'
            · exact Or.inl
        simp only [List.zip_cons_cons, List.map_cons, List.sum_cons, List.cons.injEq]
        refine ⟨by linarith, ?_⟩
        rw [← hz, ← i2]
        constructor
        · intro h; exact ⟨by linarith, by linarith⟩
        · rintro ⟨h, h'⟩; linarith
  unfold gaussLnL
  refine ⟨by linarith [key.1], ?_⟩
  rw [← key.2]
  constructor
  · intro h; linarith
  · intro h; rw [h]; ring

/-- **C40 (row order).** Without upper limits the likelihood does not depend on the order of the
data points: permuting the points together with the model values changes nothing (also when the
model has to be converted). -/
theorem C40_row_order (model model' : Spectrum) (data data' : VTable)
    (hu : model'.unit = model.unit) (hfu : data'.fluxU = data.fluxU)
    (hl : model.vals.length = data.rows.length) (hl' : model'.vals.length = data'.rows.length)
    (hp : (model'.vals.zip data'.rows).Perm (model.vals.zip data.rows))
    (hul : ∀ r ∈ data.rows, r.ul = false) :
    lnprobmodel model' data' = lnprobmodel model data := by
  have hrows : data'.rows.Perm data.rows := by
    have := hp.map (·.2)
    rwa [List.map_snd_zip (by omega), List.map_snd_zip (by omega)] at this
  have core : ∀ m m' : List XR, m.length = data.rows.length → m'.length = data'.rows.length →
      (m'.zip data'.rows).Perm (m.zip data.rows) →
      lnCore m' data'.rows = lnCore m data.rows := by
    intro m m' h1 h2 h3
    unfold lnCore
    have hany : (m.zip data.rows).any (fun p => p.2.ul) = false := by
      simp only [List.any_eq_false]
      intro p hp
      have := hul p.2 (List.of_mem_zip hp).2
      simp [this]
    have hany' : (m'.zip data'.rows).any (fun p => p.2.ul) = false := by
      simp only [List.any_eq_false]
      intro p hp
      have := hul p.2 (hrows.mem_iff.1 (List.of_mem_zip hp).2)
      simp [this]
    simp only [h1, h2, ne_eq, not_true_eq_false, if_false, hany, hany', Bool.false_eq_true]
    congr 1
    exact XR.sum_perm ((h3.filter _).map _)
  have conv : ∀ (k : ℝ → ℝ) (m : List XR) (rows : List Row),
      (List.zipWith (fun m r => fin (k r.energy) * m) m rows).zip rows =
        (m.zip rows).map (fun p => (fin (k p.2.energy) * p.1, p.2)) := by
    intro k m rows
    induction m generalizing rows with
    | nil => simp
    | cons a m ih => cases rows with
      | nil => simp
      | cons r rows => simp [ih]
  rw [lnprobmodel_eq, lnprobmodel_eq]
  unfold toDataKind
  rw [hu, hfu]
  by_cases hk : unitIsSed model.unit.dim = unitIsSed data.fluxU.dim
  · simp only [ne_eq, hk, not_true_eq_false, if_false]
    by_cases hd : model.unit.dim = data.fluxU.dim
    · simp only [hd, if_true]
      exact core _ _ hl hl' hp
    · simp only [hd, if_false]
  · simp only [ne_eq, hk, not_false_eq_true, if_true]
    cases hs : sedConversion model.unit (unitIsSed data.fluxU.dim) with
    | error e => rfl
    | ok x =>
      obtain ⟨fu, s⟩ := x
      by_cases hd : model.unit.dim.mul s.dim = data.fluxU.dim
      · simp only [hd, if_true]
        refine core _ _ (by simp [hl]) (by simp [hl']) ?_
        rw [conv, conv]
        exact hp.map _
      · simp only [hd, if_false]

theorem pairs_refl_scaled (c : Row → ℝ) (f : Row → Row) (g : Row → ℝ) (rows : List Row)
    (m : List XR)
    (hc : ∀ r ∈ rows, 0 < c r) (hf : ∀ r ∈ rows, RowScaled (c r) r (f r)) (m0 : List XR)
    (hm0 : m0 = List.zipWith (fun x r => fin (g r) * x) m rows) (h : Row → ℝ)
    (hh : ∀ r ∈ rows, 0 < g r ∧ h r = c r * g r) :
    PairsScaled (m0.zip rows)
      ((List.zipWith (fun x r => fin (h r) * x) m rows).zip (rows.map f)) := by
  subst hm0
  induction rows generalizing m with
  | nil => simp; exact .nil
  | cons r rows ih =>
    cases m with
    | nil => simp; exact .nil
    | cons x m =>
      simp only [List.zipWith_cons_cons, List.zip_cons_cons, List.map_cons]
      refine .cons (c r) _ _ r (f r) _ _ (hc r (by simp)) ?_ (hf r (by simp))
        (ih m (fun r h => hc r (by simp [h])) (fun r h => hf r (by simp [h]))
          (fun r h' => hh r (by simp [h'])))
      obtain ⟨hg, he⟩ := hh r (by simp)
      rw [he]
      have hcr := hc r (by simp)
      cases x with
      | nan => rfl
      | fin y => simp; ring
      | pinf => rw [XR.scale_pinf _ (mul_pos hcr hg), XR.scale_pinf _ hg, XR.scale_pinf _ hcr]
      | ninf => rw [XR.scale_ninf _ (mul_pos hcr hg), XR.scale_ninf _ hg, XR.scale_ninf _ hcr]

/-- **C40 (representation of the model).** Giving the model as SED (`E²` times the differential
flux) instead of as differential flux gives the same log-likelihood, for data in either
representation, for fluxes and for luminosities, and with upper limits. -/
theorem C40_model_representation (m : List XR) (ud us : PhysUnit) (data : VTable)
    (hd : GoodData data) (hl : m.length = data.rows.length)
    (hkind : (ud.dim = Dim.diffFlux ∧ us.dim = Dim.flux ∧ FluxLike data.fluxU.dim) ∨
      (ud.dim = Dim.diffPower ∧ us.dim = Dim.power ∧ LumLike data.fluxU.dim)) :
    lnprobmodel ⟨List.zipWith (fun x r => fin (r.energy ^ 2) * x) m data.rows, us⟩ data =
      lnprobmodel ⟨m, ud⟩ data := by
  have hfam : SameFamily us.dim data.fluxU.dim ∧ SameFamily ud.dim data.fluxU.dim ∧
      unitIsSed us.dim = true ∧ unitIsSed ud.dim = false := by
    rcases hkind with ⟨h1, h2, h3⟩ | ⟨h1, h2, h3⟩
    · rw [h1, h2]
      exact ⟨Or.inl ⟨Or.inl rfl, h3⟩, Or.inl ⟨Or.inr rfl, h3⟩, by decide, by decide⟩
    · rw [h1, h2]
      exact ⟨Or.inr ⟨Or.inl rfl, h3⟩, Or.inr ⟨Or.inr rfl, h3⟩, by decide, by decide⟩
  obtain ⟨f1, f2, f3, f4⟩ := hfam
  rw [lnprobmodel_same _ data f1 (by simp [hl]) hd.energy, lnprobmodel_same _ data f2 hl hd.energy]
  simp only [f3, f4]
  congr 1
  generalize hrs : data.rows = rows
  have hE : ∀ r ∈ rows, 0 < r.energy := by rw [← hrs]; exact hd.energy
  clear hl hrs
  induction m generalizing rows with
  | nil => simp
  | cons a m ih =>
    cases rows with
    | nil => simp
    | cons r rows =>
      simp only [List.zipWith_cons_cons, List.cons.injEq]
      refine ⟨?_, ih rows (fun r h => hE r (by simp [h]))⟩
      have hr := hE r (by simp)
      have he := eFac_pos (unitIsSed data.fluxU.dim) r.energy hr
      simp only [eFac, if_true, Bool.false_eq_true, if_false, div_one] at he ⊢
      cases a with
      | nan => rfl
      | fin y => simp only [XR.mul_fin, XR.fin_inj]; field_simp
      | pinf =>
        rw [XR.scale_pinf _ (by positivity), XR.scale_pinf _ (by positivity), XR.scale_pinf _ he]
      | ninf =>
        rw [XR.scale_ninf _ (by positivity), XR.scale_ninf _ (by positivity), XR.scale_ninf _ he]

/-- **C40 (representation of the data).** Converting the data table between SED and differential
representation does not change the log-likelihood of any model, with or without upper limits. -/
theorem C40_data_representation (model : Spectrum) (data data' : VTable) (sed : Bool)
    (hd : GoodData data) (hm : model.unit.dim ∈ fluxTypes) (hdu : data.fluxU.dim ∈ fluxTypes)
    (hl : model.vals.length = data.rows.length) (h : dtSedConversion data sed = .ok data') :
    lnprobmodel model data' = lnprobmodel model data := by
  have hdim := dtSed_dim data data' sed hdu h
  obtain ⟨fu, s, h1, h2, h3, h4, rfl⟩ := dtSed_ok data data' sed h
  simp only at hdim
  have hfu : fu.dim ∈ fluxTypes ∧ (SameFamily model.unit.dim fu.dim ↔
      SameFamily model.unit.dim data.fluxU.dim) ∧ unitIsSed fu.dim = sed ∧
      ∀ E : ℝ, 0 < E → s.phys E = eFac sed E / eFac (unitIsSed data.fluxU.dim) E := by
    clear h2 h3 h4 hdim h hl hm
    have n1 : ¬ Dim.diffFlux = Dim.power := by decide
    have n2 : ¬ Dim.diffFlux = Dim.diffPower := by decide
    have n3 : ¬ Dim.flux = Dim.power := by decide
    have n4 : ¬ Dim.flux = Dim.diffPower := by decide
    have n5 : ¬ Dim.power = Dim.flux := by decide
    have n6 : ¬ Dim.power = Dim.diffFlux := by decide
    have n7 : ¬ Dim.diffPower = Dim.flux := by decide
    have n8 : ¬ Dim.diffPower = Dim.diffFlux := by decide
    have n9 : ¬ Dim.diffFlux = Dim.flux := by decide
    have n10 : ¬ Dim.diffPower = Dim.power := by decide
    generalize data.fluxU = w at hdu h1 ⊢
    obtain ⟨sc, d⟩ := w
    rcases (mem_fluxTypes _).1 hdu with (h' | h') | (h' | h') <;>
      (simp only at h'
       subst h'
       cases sed <;>
       (simp [sedConversion, Dim.flux, Dim.diffFlux, Dim.power, Dim.diffPower, Dim.energy,
          Dim.diffEnergy, Dim.diffNumDensity] at h1
        obtain ⟨rfl, rfl⟩ := h1
        refine ⟨by decide, ?_, by decide, ?_⟩
        · simp [SameFamily, FluxLike, LumLike, ergPerSCm2, perSTeVCm2, ergPerS, perSTeV, n1, n2, n3, n4,
            n5, n6, n7, n8]
        · intro E hE
          have := hE.ne'
          simp [SedFactor.phys, eFac, unitIsSed, n1, n3, n5, n7, n9, n10, hE.ne']
          try field_simp))
  obtain ⟨g1, g2, g3, g4⟩ := hfu
  by_cases hf : SameFamily model.unit.dim data.fluxU.dim
  · rw [lnprobmodel_same model data hf hl hd.energy]
    rw [lnprobmodel_same _ _ (by simpa using g2.2 hf) (by simp [hl]) (by
      intro r hr
      simp only [List.mem_map] at hr
      obtain ⟨r0, hr0, rfl⟩ := hr
      exact hd.energy r0 hr0)]
    simp only [g3]
    rw [List.zipWith_map_right]
    apply lnCore_scaled
    · simp [hl]
    · simp [hl]
    · simp
    · intro i
      cases hi : data.rows[i]? <;> simp [hi, scaleRow]
    · apply pairs_refl_scaled (fun r => s.phys r.energy)
        (g := fun r => eFac (unitIsSed data.fluxU.dim) r.energy /
          eFac (unitIsSed model.unit.dim) r.energy)
      · intro r hr
        rw [g4 _ (hd.energy r hr)]
        exact div_pos (eFac_pos _ _ (hd.energy r hr)) (eFac_pos _ _ (hd.energy r hr))
      · intro r hr
        refine ⟨?_, ?_, ?_, rfl, rfl, rfl⟩ <;> simp [scaleRow, mul_comm]
      · rfl
      · intro r hr
        have a := eFac_pos (unitIsSed data.fluxU.dim) _ (hd.energy r hr)
        have b := eFac_pos (unitIsSed model.unit.dim) _ (hd.energy r hr)
        refine ⟨div_pos a b, ?_⟩
        rw [g4 _ (hd.energy r hr)]
        simp only [scaleRow]
        field_simp
  · rw [lnprobmodel_eq, lnprobmodel_eq, toDataKind_other model data hm hdu hf,
      toDataKind_other model _ hm g1 (by intro h; exact hf (g2.1 h))]

/-! ## Upper limits -/

theorem core_ul (ms : List ℝ) (rows : List Row) (c : ℝ) (hc : c < 1) (hl : ms.length = rows.length)
    (h1 : ∀ r ∈ rows, 0 < r.fluxErrorLo) (h2 : ∀ r ∈ rows, 0 < r.fluxErrorHi)
    (hcl : ∀ r ∈ rows, r.cl = fin c)
    (hv : ((ms.zip rows).filter (fun p => p.2.ul && decide (p.2.flux < p.1))).length < rows.length) :
    lnCore (ms.map fin) rows = .ok (fin (lnL ms rows (fun _ => c))) := by
  have hcount : violatedCount ((ms.map fin).zip rows) =
      ((ms.zip rows).filter (fun p => p.2.ul && decide (p.2.flux < p.1))).length := by
    unfold violatedCount
    clear hv hl h1 h2 hcl
    induction ms generalizing rows with
    | nil => simp
    | cons m ms ih =>
      cases rows with
      | nil => simp
      | cons r rows =>
        simp only [List.map_cons, List.zip_cons_cons, List.filter_cons, XR.lt_fin]
        split <;> simp [ih]
  have hsum : XR.sum ((((ms.map fin).zip rows).filter (fun p => !p.2.ul)).map
        (fun p => lnTerm p.1 p.2)) +
      fin ((violatedCount ((ms.map fin).zip rows) : ℝ) * Real.log (1 - c)) =
      fin (lnL ms rows (fun _ => c)) := by
    rw [hcount]
    clear hv hcount hcl
    induction ms generalizing rows with
    | nil => simp [lnL]
    | cons m ms ih =>
      cases rows with
      | nil => simp at hl
      | cons r rows =>
        have ih' := ih rows (by simpa using hl) (fun r h => h1 r (by simp [h]))
          (fun r h => h2 r (by simp [h]))
        have hsplit : lnL (m :: ms) (r :: rows) (fun _ => c) =
            (if r.ul then (if r.flux < m then Real.log (1 - c) else 0) else -(1/2) * chi2 m r) +
              lnL ms rows (fun _ => c) := by simp [lnL]
        rw [hsplit, ← XR.add_fin, ← ih']
        by_cases hu : r.ul = true
        · by_cases hlt : r.flux < m
          · simp only [List.map_cons, List.zip_cons_cons, List.filter_cons, hu, hlt, Bool.not_true,
              Bool.false_eq_true, if_false, if_true, decide_true, Bool.and_self, List.length_cons]
            rw [XR.add_comm' (fin (Real.log (1 - c))), XR.add_assoc', XR.add_fin]
            congr 2
            push_cast; ring
          · simp only [List.map_cons, List.zip_cons_cons, List.filter_cons, hu, hlt, Bool.not_true,
              Bool.false_eq_true, if_false, if_true, decide_false, Bool.and_false]
            rw [XR.zero_add']
        · simp only [Bool.not_eq_true] at hu
          simp only [List.map_cons, List.zip_cons_cons, List.filter_cons, hu, Bool.not_false,
            Bool.false_and, Bool.false_eq_true, if_false, if_true, XR.sum_cons]
          rw [lnTerm_fin m r (h1 r (by simp)) (h2 r (by simp)), XR.add_assoc']
  unfold lnCore
  simp only [List.length_map, hl, ne_eq, not_true_eq_false, if_false]
  split
  · have hlt : violatedCount ((ms.map fin).zip rows) < rows.length := by rw [hcount]; exact hv
    rw [List.getElem?_eq_getElem hlt]
    simp only
    rw [hcl _ (List.getElem_mem _), XR.sub_fin, XR.log_fin _ (by linarith), XR.mul_fin, hsum]
  · rename_i hany
    have h0 : violatedCount ((ms.map fin).zip rows) = 0 := by
      unfold violatedCount
      rw [List.length_eq_zero_iff, List.filter_eq_nil_iff]
      intro p hp
      simp only [Bool.not_eq_true, List.any_eq_false] at hany
      have := hany p hp
      simp [this]
    rw [← hsum, h0]
    simp [XR.add_zero']

/-- **C41 (the part that holds).** If all rows carry the same confidence level `c < 1` and not all
rows of the table are violated upper limits, the log-likelihood is the sum of the gaussian terms of
the measured points and of `ln(1 - c)` for every violated limit; satisfied limits add nothing.
Missing: mixed confidence levels and tables consisting of violated limits only, see the
`C41_false_*` theorems. -/
theorem C41_common_cl_partial (ms : List ℝ) (u : PhysUnit) (data : VTable) (hd : GoodData data)
    (hl : ms.length = data.rows.length) (hu : u.dim = data.fluxU.dim) (c : ℝ) (hc : c < 1)
    (hcl : ∀ r ∈ data.rows, r.cl = fin c)
    (hv : ∃ p ∈ ms.zip data.rows, p.2.ul = false ∨ p.1 ≤ p.2.flux) :
    lnprobmodel ⟨ms.map fin, u⟩ data = .ok (fin (lnL ms data.rows (fun _ => c))) := by
  rw [lnprobmodel_eq]
  unfold toDataKind
  simp only [hu, ne_eq, not_true_eq_false, if_false, if_true]
  refine core_ul ms data.rows c hc hl hd.errLo hd.errHi hcl ?_
  have hz : (ms.zip data.rows).length = data.rows.length := by simp [hl]
  rw [← hz]
  apply List.length_filter_lt_length_iff_exists.2
  obtain ⟨p, hp, h⟩ := hv
  refine ⟨p, hp, ?_⟩
  rcases h with h | h
  · simp [h]
  · simp [not_lt.2 h]

/-- an upper limit at 1 with the given confidence level -/
noncomputable def ulRow (c : ℝ) : Row := {
  energy := 1, flux := 1, fluxErrorLo := 1, fluxErrorHi := 1, group := 0,
  energyErrorLo := 1, energyErrorHi := 1, ul := true, cl := fin c }

/-- a table of rows in erg/(s cm²) -/
noncomputable def ulTable (rows : List Row) : VTable := {
  energyU := PhysUnit.erg, fluxU := ergPerSCm2, fluxErrorLoU := ergPerSCm2,
  fluxErrorHiU := ergPerSCm2, energyErrorLoU := PhysUnit.erg, energyErrorHiU := PhysUnit.erg,
  rows := rows }

theorem ulTable_good (cs : List ℝ) : GoodData (ulTable (cs.map ulRow)) := by
  constructor <;>
  · intro r hr
    simp [ulTable] at hr
    obtain ⟨c, -, rfl⟩ := hr
    norm_num [ulRow]

/-- **C41 is false of the code for mixed confidence levels.** Two limits, at 50% and 90%; only the
first is violated, but the penalty is `ln(1 - 0.9)` instead of `ln(1 - 0.5)`. -/
theorem C41_false_mixed_cl :
    ∃ (ms : List ℝ) (data : VTable), GoodData data ∧
      lnprobmodel ⟨ms.map fin, data.fluxU⟩ data = .ok (fin (Real.log (1 - 0.9))) ∧
      lnL ms data.rows (fun r => r.cl.toReal) = Real.log (1 - 0.5) ∧
      Real.log (1 - 0.9 : ℝ) ≠ Real.log (1 - 0.5) := by
  refine ⟨[2, 0], ulTable ([0.5, 0.9].map ulRow), ulTable_good _, ?_, ?_, ?_⟩
  · rw [lnprobmodel_eq]
    have hc : violatedCount [(fin 2, ulRow 0.5), (fin 0, ulRow 0.9)] = 1 := by
      simp [violatedCount, ulRow]
    simp only [toDataKind, ulTable, List.map_cons, List.map_nil, ne_eq, not_true_eq_false, if_false,
      if_true, lnCore, List.length_cons, List.length_nil, List.zip_cons_cons, List.zip_nil_right, hc]
    have e1 : (List.any [(fin 2, ulRow 0.5), (fin 0, ulRow 0.9)] fun p => p.2.ul) = true := by
      simp [ulRow]
    have e2 : (List.filter (fun p : XR × Row => !p.2.ul) [(fin 2, ulRow 0.5), (fin 0, ulRow 0.9)]) = [] := by
      simp [ulRow]
    rw [e1, e2]
    simp only [if_true, List.getElem?_cons_succ, List.getElem?_cons_zero, List.map_nil, XR.sum_nil]
    simp only [ulRow, XR.sub_fin]
    rw [XR.log_fin _ (by norm_num)]
    simp
  · simp [lnL, ulTable, ulRow]
  · intro h
    have := Real.log_injOn_pos (by norm_num : (1 - 0.9 : ℝ) ∈ Set.Ioi 0)
      (by norm_num : (1 - 0.5 : ℝ) ∈ Set.Ioi 0) h
    norm_num at this

/-- **C41 is false of the code when every row is a violated limit**: evaluating the likelihood raises
IndexError. -/
theorem C41_false_index_error :
    ∃ (ms : List ℝ) (data : VTable), GoodData data ∧ ms.length = data.rows.length ∧
      lnprobmodel ⟨ms.map fin, data.fluxU⟩ data = .error .indexError := by
  refine ⟨[2], ulTable ([0.9].map ulRow), ulTable_good _, rfl, ?_⟩
  rw [lnprobmodel_eq]
  simp [toDataKind, ulTable, lnCore, violatedCount, ulRow]

/-- **C41 is false of the code for `cl = 1`**: a satisfied limit at confidence level 1 makes the
likelihood NaN (`0 * -inf`) instead of adding nothing. -/
theorem C41_false_cl_one :
    ∃ (ms : List ℝ) (data : VTable), GoodData data ∧
      lnprobmodel ⟨ms.map fin, data.fluxU⟩ data = .ok XR.nan ∧
      lnL ms data.rows (fun r => r.cl.toReal) = 0 := by
  refine ⟨[0], ulTable ([1].map ulRow), ulTable_good _, ?_, ?_⟩
  · rw [lnprobmodel_eq]
    simp [toDataKind, ulTable, lnCore, violatedCount, ulRow, XR.log, XR.mul_def, XR.mul, infMul]
  · simp [lnL, ulTable, ulRow]

/-! ## Priors -/

/-- **C42 (uniform).** 0 on the closed interval, `-inf` elsewhere (NaN included). -/
theorem C42_uniform (v a b : XR) :
    (a ≤ v ∧ v ≤ b → uniformPrior v a b = fin 0) ∧
    (¬ (a ≤ v ∧ v ≤ b) → uniformPrior v a b = ninf) ∧ uniformPrior nan a b = ninf := by
  refine ⟨fun h => by simp [uniformPrior, h], fun h => by simp only [uniformPrior, if_neg h], ?_⟩
  have : ¬ (a ≤ nan) := by
    rintro (h | h) <;> cases a <;> exact h
  simp [uniformPrior, this]

theorem normalPrior_fin (v m s : ℝ) (hs : 0 < s) :
    normalPrior (fin v) (fin m) (fin s) = fin (-0.5 * (2 * Real.pi * s) - (v - m) ^ 2 / (2 * s)) := by
  unfold normalPrior
  simp only [XR.mul_fin, XR.sub_fin]
  rw [XR.div_fin _ _ (by positivity), XR.sub_fin]
  congr 2
  ring

theorem log_normalDensity (x mean sigma : ℝ) (hs : 0 < sigma) :
    Real.log (normalDensity x mean sigma) =
      Real.log (1 / (sigma * Real.sqrt (2 * Real.pi))) - (x - mean) ^ 2 / (2 * sigma ^ 2) := by
  unfold normalDensity
  have : 0 < sigma * Real.sqrt (2 * Real.pi) := by positivity
  rw [Real.log_mul (by positivity) (by positivity), Real.log_exp]
  ring

/-- **C42 (normal) is false of the code except for `sigma = 1`.** `normal_prior` is, up to a
constant, the log-density of the normal distribution with the given mean and standard deviation
exactly when that standard deviation is 1. -/
theorem C42_false_normal_iff (m s : ℝ) (hs : 0 < s) :
    (∃ c : ℝ, ∀ v : ℝ, normalPrior (fin v) (fin m) (fin s) =
      fin (c + Real.log (normalDensity v m s))) ↔ s = 1 := by
  constructor
  · rintro ⟨c, h⟩
    have h0 := h m
    have h1 := h (m + 1)
    rw [normalPrior_fin _ _ _ hs, log_normalDensity _ _ _ hs, XR.fin_inj] at h0 h1
    have : (1:ℝ) / (2 * s) = 1 / (2 * s ^ 2) := by
      have e1 : (m - m) ^ 2 = 0 := by ring
      have e2 : (m + 1 - m) ^ 2 = 1 := by ring
      rw [e1] at h0; rw [e2] at h1
      simp only [zero_div] at h0
      linarith
    field_simp at this
    linarith
  · rintro rfl
    refine ⟨-0.5 * (2 * Real.pi * 1) - Real.log (1 / (1 * Real.sqrt (2 * Real.pi))), fun v => ?_⟩
    rw [normalPrior_fin _ _ _ hs, log_normalDensity _ _ _ hs]
    congr 1
    ring

/-- **C42 (normal, the part that holds).** `normal_prior(v, m, s)` is, up to a constant, the
log-density of the normal distribution with mean `m` and *variance* `s`.
Missing: `s` as the standard deviation, see `C42_false_normal_iff`. -/
theorem C42_normal_partial (m s : ℝ) (hs : 0 < s) :
    ∃ c : ℝ, ∀ v : ℝ, normalPrior (fin v) (fin m) (fin s) =
      fin (c + Real.log (normalDensity v m (Real.sqrt s))) := by
  have hq : 0 < Real.sqrt s := Real.sqrt_pos.2 hs
  refine ⟨-0.5 * (2 * Real.pi * s) - Real.log (1 / (Real.sqrt s * Real.sqrt (2 * Real.pi))),
    fun v => ?_⟩
  rw [normalPrior_fin _ _ _ hs, log_normalDensity _ _ _ hq, Real.sq_sqrt hs.le]
  congr 1
  ring

/-- **C42 (log-uniform) is false of the code.** On no interval `[a, b]` is `log_uniform_prior`, up to
a constant, the log-density of the log-uniform distribution: it returns `1/v`. -/
theorem C42_false_log_uniform (a b : ℝ) (ha : 0 < a) (hab : a < b) :
    ¬ ∃ c : ℝ, ∀ v : ℝ, a ≤ v → v ≤ b →
      logUniformPrior (fin v) (fin a) (some (fin b)) = fin (c + Real.log (logUniformDensity v a b)) := by
  rintro ⟨c, h⟩
  have hlog : 0 < Real.log (b / a) := Real.log_pos (by rw [lt_div_iff₀ ha]; linarith)
  have h' : ∀ v, a ≤ v → v ≤ b → 1 / v + Real.log v = c - Real.log (Real.log (b / a)) := by
    intro v h1 h2
    have hv : 0 < v := lt_of_lt_of_le ha h1
    have := h v h1 h2
    unfold logUniformPrior at this
    simp only [XR.lt_fin, hv, XR.le_fin, h1, and_self, if_true, h2] at this
    rw [XR.div_fin _ _ hv.ne', XR.fin_inj] at this
    unfold logUniformDensity at this
    rw [one_div (v * _), Real.log_inv, Real.log_mul hv.ne' hlog.ne'] at this
    linarith
  have hderiv : ∀ v ∈ Set.Ioo a b, v = 1 := by
    intro v hv
    have hv0 : 0 < v := ha.trans hv.1
    have d1 : HasDerivAt (fun v : ℝ => v⁻¹ + Real.log v) (-(v ^ 2)⁻¹ + v⁻¹) v :=
      (hasDerivAt_inv hv0.ne').add (Real.hasDerivAt_log hv0.ne')
    have heq : (fun v : ℝ => v⁻¹ + Real.log v) =ᶠ[nhds v]
        (fun _ => c - Real.log (Real.log (b / a))) := by
      filter_upwards [Ioo_mem_nhds hv.1 hv.2] with w hw
      have := h' w hw.1.le hw.2.le
      rw [one_div] at this
      exact this
    have d2 := (hasDerivAt_const v (c - Real.log (Real.log (b / a)))).congr_of_eventuallyEq heq
    have := d1.unique d2
    field_simp at this
    linarith
  have e1 := hderiv ((2 * a + b) / 3) ⟨by linarith, by linarith⟩
  have e2 := hderiv ((a + 2 * b) / 3) ⟨by linarith, by linarith⟩
  linarith

/-- **C42 (log-uniform, the part that holds).** The support is right: finite exactly for positive
values within the limits, `-inf` otherwise.  Missing: the density, see `C42_false_log_uniform`. -/
theorem C42_log_uniform_support_partial (v a : ℝ) (b : Option ℝ) :
    (0 < v ∧ a ≤ v ∧ (∀ m, b = some m → v ≤ m) →
      ∃ x, logUniformPrior (fin v) (fin a) (b.map fin) = fin x) ∧
    (¬ (0 < v ∧ a ≤ v ∧ (∀ m, b = some m → v ≤ m)) →
      logUniformPrior (fin v) (fin a) (b.map fin) = ninf) := by
  unfold logUniformPrior
  simp only [XR.lt_fin, XR.le_fin]
  refine ⟨?_, ?_⟩
  · rintro ⟨h1, h2, h3⟩
    refine ⟨1 / v, ?_⟩
    rw [if_pos ⟨h1, h2⟩]
    cases b with
    | none => exact XR.div_fin _ _ h1.ne'
    | some m => simp only [Option.map_some, XR.le_fin, h3 m rfl, if_true]; exact XR.div_fin _ _ h1.ne'
  · intro h
    by_cases h12 : 0 < v ∧ a ≤ v
    · rw [if_pos h12]
      cases b with
      | none => exact absurd ⟨h12.1, h12.2, by simp⟩ h
      | some m =>
        have : ¬ v ≤ m := fun hm => h ⟨h12.1, h12.2, by simpa using hm⟩
        simp [this]
    · rw [if_neg h12]

/-! ## Combination -/

/-- **C43 (forbidden).** If the prior is `-inf`, the log-probability is `-inf` whatever the model
returns (as long as the model returns something), even if the model output could not be compared
with the data at all. -/
theorem C43_forbidden {P β : Type} (pars : P) (data : VTable)
    (model : P → VTable → Except PyErr (ModelOut β)) (prior : P → Except PyErr XR)
    (hp : prior pars = .ok ninf) (out : ModelOut β) (hm : model pars data = .ok out)
    (hne : out ≠ .iterable []) :
    ∃ blob, lnprob pars data model (some prior) = .ok (ninf, blob) := by
  unfold lnprob
  simp only [priorValue, hp, hm, bind, Except.bind, pure, Except.pure]
  cases out with
  | array s => exact ⟨_, rfl⟩
  | iterable l =>
    cases l with
    | nil => exact absurd rfl hne
    | cons b l => exact ⟨_, rfl⟩

/-- **C43 (allowed).** If the prior is finite (or absent, counting 0) and the model returns a
spectrum, alone or as first element of a sequence, the log-probability is prior plus likelihood. -/
theorem C43_sum {P β : Type} (pars : P) (data : VTable)
    (model : P → VTable → Except PyErr (ModelOut β)) (prior : Option (P → Except PyErr XR)) (x : ℝ)
    (hp : (prior = none ∧ x = 0) ∨ ∃ f, prior = some f ∧ f pars = .ok (fin x))
    (s : Spectrum) (rest : List (Blob β))
    (hm : model pars data = .ok (.array s) ∨ model pars data = .ok (.iterable (.spec s :: rest)))
    (l : XR) (hl : lnprobmodel s data = .ok l) :
    ∃ blob, lnprob pars data model prior = .ok (l + fin x, blob) := by
  have hpv : priorValue prior pars = .ok (fin x) := by
    rcases hp with ⟨rfl, rfl⟩ | ⟨f, rfl, h⟩
    · rfl
    · exact h
  unfold lnprob
  rw [hpv]
  rcases hm with hm | hm <;>
  · simp only [hm, bind, Except.bind, pure, Except.pure, splitOutput, totalLnprob, isInf,
      Bool.false_eq_true, if_false, hl, Except.map]
    exact ⟨_, rfl⟩

/-- **C43 (blob).** Whenever `lnprob` returns, the model output is passed on unchanged: the sequence
itself, or the spectrum followed by a NaN placeholder. -/
theorem C43_blob {P β : Type} (pars : P) (data : VTable)
    (model : P → VTable → Except PyErr (ModelOut β)) (prior : Option (P → Except PyErr XR))
    (total : XR) (blob : List (Blob β)) (h : lnprob pars data model prior = .ok (total, blob)) :
    model pars data = .ok (.iterable blob) ∨
    ∃ s, model pars data = .ok (.array s) ∧ blob = [.spec s, .nan] := by
  unfold lnprob at h
  simp only [bind_ok] at h
  obtain ⟨pr, -, out, hm, ⟨mdl, bl⟩, hb, tot, -, h⟩ := h
  unfold splitOutput at hb
  simp only [pure_ok, Prod.mk.injEq] at h
  obtain ⟨rfl, rfl⟩ := h
  cases out with
  | array s =>
    simp only [Except.ok.injEq, Prod.mk.injEq] at hb
    exact Or.inr ⟨s, hm, hb.2.symm⟩
  | iterable l =>
    cases l with
    | nil => simp at hb
    | cons b l =>
      simp only [Except.ok.injEq, Prod.mk.injEq] at hb
      exact Or.inl (by rw [hm, hb.2])

/-- **C43 (model always evaluated).** Even when the prior forbids the point, an exception raised by the
model function propagates. -/
theorem C43_model_error_propagates {P β : Type} (pars : P) (data : VTable)
    (model : P → VTable → Except PyErr (ModelOut β)) (prior : P → Except PyErr XR) (x : XR)
    (hp : prior pars = .ok x) (e : PyErr) (hm : model pars data = .error e) :
    lnprob pars data model (some prior) = .error e := by
  unfold lnprob
  simp only [priorValue, hp, hm, bind, Except.bind]

/-! non-vacuity -/

/-- A measured point with asymmetric errors, model above: chi2 uses the upper error. -/
example : ∃ (data : VTable), GoodData data ∧
    lnprobmodel ⟨[fin 5], ergPerSCm2⟩ data = .ok (fin (-2)) := by
  refine ⟨{ ulTable [] with rows := [{ ulRow 0.9 with ul := false, fluxErrorHi := 2, fluxErrorLo := 1 }] },
    ?_, ?_⟩
  · constructor <;>
    · intro r hr
      simp at hr
      subst hr
      norm_num [ulRow]
  · have := C40_gaussian [5] ergPerSCm2
      { ulTable [] with rows := [{ ulRow 0.9 with ul := false, fluxErrorHi := 2, fluxErrorLo := 1 }] }
      (by
        constructor <;>
        · intro r hr
          simp at hr
          subst hr
          norm_num [ulRow]) rfl rfl (by simp)
    simp only [List.map_cons, List.map_nil] at this
    rw [this]
    congr 2
    norm_num [gaussLnL, chi2, ulRow]

/-! ### The other hypotheses are met -/

/-- Two measurements and an upper limit. -/
noncomputable def exRows : List Row :=
  [{ ulRow 0.9 with ul := false, fluxErrorHi := 2 }, { ulRow 0.9 with energy := 3, flux := 4, ul := false },
   { ulRow 0.9 with energy := 10 }]

theorem exRows_good : GoodData (ulTable exRows) := by
  constructor <;>
  · intro r hr
    simp [ulTable, exRows] at hr
    rcases hr with rfl | rfl | rfl <;> norm_num [ulRow]

/-- The two measurements in the other order. -/
example := C40_row_order ⟨[fin 5, fin 7], ergPerSCm2⟩ ⟨[fin 7, fin 5], ergPerSCm2⟩
  (ulTable [exRows[0], exRows[1]]) (ulTable [exRows[1], exRows[0]]) rfl rfl rfl rfl
  (by simp only [ulTable, List.zip_cons_cons, List.zip_nil_right]; exact .swap _ _ _) (by simp [ulTable, exRows])

example := C40_model_representation [fin 5, fin 7, nan] ⟨1, Dim.diffFlux⟩ ergPerSCm2 (ulTable exRows) exRows_good rfl
  (Or.inl ⟨rfl, rfl, Or.inl rfl⟩)

example : ∃ data', dtSedConversion (ulTable exRows) false = .ok data' ∧
    lnprobmodel ⟨[fin 5, fin 7, fin 2], ergPerSCm2⟩ data' = lnprobmodel ⟨[fin 5, fin 7, fin 2], ergPerSCm2⟩ (ulTable exRows) := by
  have h : ∃ data', dtSedConversion (ulTable exRows) false = .ok data' := dtSed_exists _ false (by decide) rfl rfl
  obtain ⟨d, hd⟩ := h
  exact ⟨d, hd, C40_data_representation _ _ _ _ exRows_good (by decide) (by decide) rfl hd⟩

example := C41_common_cl_partial [5, 7, 2] ergPerSCm2 (ulTable exRows) exRows_good rfl rfl 0.9 (by norm_num)
  (by simp [ulTable, exRows, ulRow]) ⟨(5, exRows[0]), by simp [ulTable, exRows], Or.inl rfl⟩

/-- A model with one parameter that returns the flux and a blob; a prior that forbids negative values and
adds 2 to the others. -/
noncomputable def exModel (x : ℝ) (_ : VTable) : Except PyErr (ModelOut Unit) :=
  .ok (.iterable [.spec ⟨[fin x, fin x, fin x], ergPerSCm2⟩, .nan])

noncomputable def exPrior (x : ℝ) : Except PyErr XR := .ok (if x < 0 then ninf else fin 2)

example := C43_forbidden (-1) (ulTable exRows) exModel exPrior (by simp [exPrior]) _ rfl (by simp)

example : ∃ l blob, lnprob 3 (ulTable exRows) exModel (some exPrior) = .ok (l + fin 2, blob) ∧
    (exModel 3 (ulTable exRows) = .ok (.iterable blob) ∨
      ∃ s, exModel 3 (ulTable exRows) = .ok (.array s) ∧ blob = [.spec s, .nan]) := by
  have hl := C41_common_cl_partial [3, 3, 3] ergPerSCm2 (ulTable exRows) exRows_good rfl rfl 0.9 (by norm_num)
    (by simp [ulTable, exRows, ulRow]) ⟨(3, exRows[0]), by simp [ulTable, exRows], Or.inl rfl⟩
  obtain ⟨b, hb⟩ := C43_sum 3 (ulTable exRows) exModel (some exPrior) 2
    (Or.inr ⟨_, rfl, by simp [exPrior]⟩) _ _ (Or.inr rfl) _ hl
  exact ⟨_, b, hb, C43_blob _ _ _ _ _ _ hb⟩

example := C43_model_error_propagates (P := ℝ) (β := Unit) 3 (ulTable exRows) (fun _ _ => .error .valueError) exPrior _ rfl
  .valueError rfl

end Naima.Props
