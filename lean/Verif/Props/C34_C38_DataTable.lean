import Verif.Proof.DataTable3
import Mathlib.Data.List.Sort

/-! # C34 – C38: data tables -/

namespace Naima.Props

open Naima Spec

/-- **C34.** Whatever list of tables is accepted by `validate_data_table`, and whatever the tie
order of the sort, the returned rows are in ascending energy order and are, up to reordering,
exactly the rows of all the input tables: `chunks[i]` has one row for each row of table `i`, and
that row carries the input row's energy, flux (the upper-limit flux where flagged and provided),
errors, group, bin widths, upper-limit flag and confidence level (`Spec.row`), with fluxes of all
tables converted to one and the same unit. -/
theorem C34_sorted_permutation (sort : List Row → List Row) (hsort : IsEnergySort sort)
    (ts : List InTable) (sed : Option Bool) (out : VTable)
    (h : validateDataTable sort ts sed = .ok out) :
    out.rows.Pairwise (fun a b => a.energy ≤ b.energy) ∧
    ∃ (b : Bool) (chunks : List (List Row)),
      (∀ b', sed = some b' → b = b') ∧
      (sed = none → ∃ t0 u0, ts[0]? = some t0 ∧ t0.fluxU = some u0 ∧ b = decide (IsSed u0.dim)) ∧
      out.fluxU.dim ∈ (if b then [Dim.flux, Dim.power] else [Dim.diffFlux, Dim.diffPower]) ∧
      out.fluxErrorLoU = out.fluxU ∧ out.fluxErrorHiU = out.fluxU ∧
      out.rows.Perm chunks.flatten ∧ chunks.length = ts.length ∧
      ∀ (i : ℕ) (t : InTable), ts[i]? = some t →
        ∃ widths, Widths t (i : ℤ) widths ∧ widths.length = t.rows.length ∧
        chunks[i]? = some (List.zipWith (Spec.row t (i : ℤ) b) t.rows widths) := by
  obtain ⟨t0, rest, u0, b, cs, s, rfl, h1, h2, h3, h4, h5, h6, h7, h8, -⟩ :=
    validate_ok sort ts sed out h
  refine ⟨by rw [h5]; exact (hsort _).2, b, cs, ?_, ?_, ?_, h7, h8, ?_, ?_, ?_⟩
  · intro b' hb'; rw [h3, hb']; rfl
  · intro hn; exact ⟨t0, u0, by simp, h1, by rw [h3, hn]; rfl⟩
  · obtain ⟨fu, s', k1, -, -, -, k2, k3, k4⟩ := C33_dimensions u0 (spectral_of_fluxTypes h2) b
    rw [h6] at k1
    simp at k1
    obtain ⟨rfl, rfl⟩ := k1
    have hk : out.fluxU.dim ∈ [Dim.flux, Dim.diffFlux] ∨ out.fluxU.dim ∈ [Dim.power, Dim.diffPower] := by
      rw [k3, k4]
      rcases (mem_fluxTypes _).1 h2 with (h | h) | (h | h) <;> simp [h]
    have hs : IsSedType out.fluxU.dim ↔ b = true := k2
    simp only [List.mem_cons, List.not_mem_nil, or_false] at hk
    cases b with
    | true =>
      have := hs.2 rfl
      rcases hk with (hk | hk) | (hk | hk) <;> rw [hk] at this ⊢ <;> simp at this ⊢ <;>
        revert this <;> decide
    | false =>
      have : ¬ IsSedType out.fluxU.dim := by rw [hs]; simp
      rcases hk with (hk | hk) | (hk | hk) <;> rw [hk] at this ⊢ <;> simp at this ⊢ <;>
        revert this <;> decide
  · rw [h5]; exact (hsort _).1
  · exact (chunks_index b 0 _ cs h4).1
  · intro i t ht
    obtain ⟨es, k1, k2, k3⟩ := (chunks_index b 0 _ cs h4).2 i t ht
    simp only [Nat.zero_add] at k1 k3
    exact ⟨es, k1, k2, k3⟩

/-- **C34 (acceptance).** Every non-empty list of valid tables, all of them flux-like or all of them
luminosity-like and with error columns in the same kind of unit as the flux column, is accepted. -/
theorem C34_accepts (sort : List Row → List Row) (ts : List InTable) (sed : Option Bool)
    (hne : ts ≠ []) (hval : ∀ t ∈ ts, Valid t) (hm : ∀ t ∈ ts, ErrorsMatch t)
    (hk : (∀ t ∈ ts, HasType t.fluxU FluxLike) ∨ (∀ t ∈ ts, HasType t.fluxU LumLike)) :
    ∃ out, validateDataTable sort ts sed = .ok out := by
  obtain ⟨vs, hvs⟩ := validateAll_exists ts 0 hval
  have hvs0 := hvs
  cases ts with
  | nil => exact absurd rfl hne
  | cons t0 rest =>
    unfold validateAll at hvs
    simp only [bind_ok, pure_ok] at hvs
    obtain ⟨v0, hv0, vs', hvs', rfl⟩ := hvs
    obtain ⟨es0, -, -, he0, heU0, hf0, hfU0, hd1, hd2, -⟩ := validateSingle_ok t0 _ v0 hv0
    obtain ⟨m1, m2⟩ := single_errors_dim t0 _ v0 hv0 (hm t0 (by simp))
    set b := sed.getD (decide (v0.fluxU.dim = Dim.flux ∨ v0.fluxU.dim = Dim.power)) with hb
    obtain ⟨acc, hacc⟩ := dtSed_exists v0 b hfU0 m1 m2
    have hdim := dtSed_dim v0 acc b hfU0 hacc
    obtain ⟨fu, s, -, -, -, -, hacceq⟩ := dtSed_ok v0 acc b hacc
    have disj : ∀ d, LumLike d → ¬ FluxLike d := by
      rintro d (rfl | rfl) <;> decide
    have hkk : ∀ t ∈ rest, ∀ u, t.fluxU = some u → (FluxLike u.dim ↔ FluxLike v0.fluxU.dim) := by
      intro t ht u hu
      rcases hk with hk | hk
      · obtain ⟨w, hw1, hw2⟩ := hk t (by simp [ht])
        obtain ⟨w', hw1', hw2'⟩ := hk t0 (by simp)
        rw [hu] at hw1; rw [hf0] at hw1'
        simp at hw1 hw1'; subst hw1 hw1'
        exact ⟨fun _ => hw2', fun _ => hw2⟩
      · obtain ⟨w, hw1, hw2⟩ := hk t (by simp [ht])
        obtain ⟨w', hw1', hw2'⟩ := hk t0 (by simp)
        rw [hu] at hw1; rw [hf0] at hw1'
        simp at hw1 hw1'; subst hw1 hw1'
        exact ⟨fun h => absurd h (disj _ hw2), fun h => absurd h (disj _ hw2')⟩
    obtain ⟨out, hout⟩ := loop_exists v0.fluxU.dim b rest 1 vs' hvs'
      (fun t ht => hm t (by simp [ht])) hfU0 hkk acc
      (by rw [hacceq]; exact heU0) (by rw [hacceq]; exact hd1) (by rw [hacceq]; exact hd2)
      hdim (by rw [hacceq]) (by rw [hacceq])
    refine ⟨{ out with rows := sort out.rows }, ?_⟩
    unfold validateDataTable
    simp only [bind_ok, pure_ok]
    refine ⟨_, hvs0, ?_⟩
    simp only [bind_ok, pure_ok]
    exact ⟨acc, hacc, out, hout, rfl⟩

/-- **C37.** If `validate_data_table` accepts a list, all its tables that have any rows are of the
same kind: either all are fluxes at the observer (differential or SED) or all are luminosities.
So a mixed list is rejected, whichever comes first. -/
theorem C37_never_mixed (sort : List Row → List Row) (ts : List InTable) (sed : Option Bool)
    (out : VTable) (h : validateDataTable sort ts sed = .ok out) :
    (∀ t ∈ ts, t.rows ≠ [] → HasType t.fluxU FluxLike) ∨
    (∀ t ∈ ts, t.rows ≠ [] → HasType t.fluxU LumLike) := by
  obtain ⟨t0, rest, u0, b, cs, s, rfl, h1, h2, h3, h4, h5, h6, h7, h8, _, _, _, _, h9⟩ :=
    validate_ok sort ts sed out h
  rcases (mem_fluxTypes _).1 h2 with hk | hk
  · left
    intro t ht hne
    rcases List.mem_cons.1 ht with rfl | ht
    · exact ⟨u0, h1, hk⟩
    · obtain ⟨u, k1, k2, k3, k4⟩ := h9 t ht hne
      exact ⟨u, k1, k3.2 hk⟩
  · right
    intro t ht hne
    rcases List.mem_cons.1 ht with rfl | ht
    · exact ⟨u0, h1, hk⟩
    · obtain ⟨u, k1, k2, k3, k4⟩ := h9 t ht hne
      exact ⟨u, k1, k4.2 hk⟩

/-- **C37 (the same, as rejection).** A list with a flux table and a luminosity table, both with at
least one row, always raises. -/
theorem C37_mixed_rejected (sort : List Row → List Row) (ts : List InTable) (sed : Option Bool)
    (t t' : InTable) (ht : t ∈ ts) (ht' : t' ∈ ts) (hr : t.rows ≠ []) (hr' : t'.rows ≠ [])
    (hf : HasType t.fluxU FluxLike) (hl : HasType t'.fluxU LumLike) :
    ∃ e, validateDataTable sort ts sed = .error e := by
  cases h : validateDataTable sort ts sed with
  | error e => exact ⟨e, rfl⟩
  | ok out =>
    exfalso
    have disj : ∀ d, LumLike d → ¬ FluxLike d := by
      rintro d (rfl | rfl) <;> decide
    have key : ∀ s : InTable, HasType s.fluxU FluxLike → HasType s.fluxU LumLike → False := by
      rintro s ⟨u, h1, h2⟩ ⟨u', h1', h2'⟩
      rw [h1] at h1'; simp at h1'; subst h1'
      exact disj _ h2' h2
    rcases C37_never_mixed sort ts sed out h with h | h
    · exact key t' (h t' ht' hr') hl
    · exact key t hf (h t ht hr)

/-- **C35 is false of the code** when bin widths have to be generated: they are generated before the
rows are sorted, so the same two rows in the other order give different (even negative) bins. -/
theorem C35_false_generated_edges (sort : List Row → List Row) (hsort : IsEnergySort sort) :
    ∃ t t' : InTable, t' = { t with rows := t'.rows } ∧ t'.rows.Perm t.rows ∧
      ∃ out out', validateDataTable sort [t] none = .ok out ∧
        validateDataTable sort [t'] none = .ok out' ∧ out' ≠ out ∧
        ∃ r ∈ out'.rows, r.energyErrorLo < 0 := by
  let hdr (rs : List RawRow) : InTable := {
    energyU := some PhysUnit.erg, fluxU := some ergPerSCm2, fluxErrorU := some ergPerSCm2,
    rows := rs }
  let a : RawRow := { energy := 1, flux := 1, fluxError := 1 }
  let c : RawRow := { energy := 4, flux := 1, fluxError := 1 }
  have hv : ∀ rs, Valid (hdr rs) := by
    intro rs
    refine ⟨⟨_, rfl, rfl⟩, ⟨_, rfl, Or.inl (Or.inl rfl)⟩, Or.inl ⟨_, rfl, Or.inl (Or.inl rfl)⟩,
      Or.inr ⟨rfl, Or.inr ⟨rfl, Or.inr ⟨by simp [hdr], Or.inr (by simp [hdr])⟩⟩⟩,
      Or.inl rfl, by simp [hdr], by simp [hdr]⟩
  have hm : ∀ rs, ErrorsMatch (hdr rs) := by
    intro rs u hu
    simp [hdr] at hu ⊢
    rw [← hu]
  have hacc : ∀ rs, ∃ out, validateDataTable sort [hdr rs] none = .ok out := by
    intro rs
    exact C34_accepts sort _ none (by simp) (by simpa using hv rs) (by simpa using hm rs)
      (Or.inl (by simpa using ⟨_, rfl, Or.inl rfl⟩))
  obtain ⟨out, hout⟩ := hacc [a, c]
  obtain ⟨out', hout'⟩ := hacc [c, a]
  have hs4 : Real.sqrt 4 = 2 := by
    rw [show (4:ℝ) = 2 ^ 2 by norm_num, Real.sqrt_sq (by norm_num)]
  -- the rows with energy 1
  have rows_of : ∀ rs o, validateDataTable sort [hdr rs] none = .ok o →
      ∃ es, Widths (hdr rs) 0 es ∧
        o.rows.Perm (List.zipWith (Spec.row (hdr rs) 0 true) rs es) := by
    intro rs o ho
    obtain ⟨-, b, chunks, -, hb, -, -, -, hp, hl, hc⟩ := C34_sorted_permutation sort hsort _ none o ho
    obtain ⟨t0, u0, e1, e2, e3⟩ := hb rfl
    simp at e1
    subst e1
    simp [hdr] at e2
    have hbt : b = true := by rw [e3, ← e2]; simp [IsSed, ergPerSCm2]
    obtain ⟨es, k1, k2, k3⟩ := hc 0 (hdr rs) (by simp)
    have : chunks = [List.zipWith (Spec.row (hdr rs) ((0 : ℕ) : ℤ) b) rs es] := by
      cases chunks with
      | nil => simp at hl
      | cons x xs =>
        cases xs with
        | cons y ys => simp at hl
        | nil => simp at k3; simp [k3]; rfl
    rw [this, hbt] at hp
    simp at hp
    exact ⟨es, by simpa using k1, hp⟩
  have hng : ∀ rs, ¬ GivenWidths (hdr rs) := by
    intro rs; rintro (h | h | h | h) <;> simp [hdr] at h
  obtain ⟨es, hw, hp⟩ := rows_of [a, c] out hout
  obtain ⟨es', hw', hp'⟩ := rows_of [c, a] out' hout'
  obtain ⟨lo, hi, hg, he⟩ := hw.2 (hng _)
  obtain ⟨lo', hi', hg', he'⟩ := hw'.2 (hng _)
  have hun : npUnique [0, 0] = [0] := by
    have : ([0, 0] : List ℤ).dedup = [0] := by decide
    unfold npUnique; rw [this]; simp
  have hgen : lo = [1/2, 2] ∧ hi = [1, 2] := by
    simp [generateEnergyEdges, hun, edgesStep, edgesSingle, maskOf, maskSel, maskSet, hdr, a, c,
      bind, Except.bind, pure, Except.pure, hs4] at hg
    norm_num at hg
    exact ⟨hg.1.symm, hg.2.symm⟩
  have hgen' : lo' = [-4, -1] ∧ hi' = [-2, -1] := by
    simp [generateEnergyEdges, hun, edgesStep, edgesSingle, maskOf, maskSel, maskSet, hdr, a, c,
      bind, Except.bind, pure, Except.pure, hs4] at hg'
    norm_num at hg'
    exact ⟨hg'.1.symm, hg'.2.symm⟩
  obtain ⟨rfl, rfl⟩ := hgen
  obtain ⟨rfl, rfl⟩ := hgen'
  subst he he'
  simp [hdr, phys, PhysUnit.erg] at hp hp'
  have hneg : ∃ r ∈ out'.rows, r.energyErrorLo < 0 :=
    ⟨_, hp'.mem_iff.2 (List.mem_cons_self), by simp [Spec.row]⟩
  have hpos : ∀ r ∈ out.rows, 0 < r.energyErrorLo := by
    intro r hr
    have := hp.mem_iff.1 hr
    simp at this
    rcases this with rfl | rfl <;> simp [Spec.row]
  refine ⟨hdr [a, c], hdr [c, a], rfl, List.Perm.swap _ _ _, out, out', hout, hout', ?_, hneg⟩
  intro heq
  obtain ⟨r, hr, hlt⟩ := hneg
  rw [heq] at hr
  exact absurd (hpos r hr) (not_lt.2 hlt.le)

/-- **C35 (the part that holds).** If every table has its bin widths in columns, permuting the rows
of the tables changes neither the acceptance nor the validated rows (as a multiset), and if the
energies are distinct the validated table is identical.  Missing: generated widths, see
`C35_false_generated_edges`. -/
theorem C35_row_order_partial (sort : List Row → List Row) (hsort : IsEnergySort sort)
    (ts ts' : List InTable) (sed : Option Bool) (out : VTable) (hp : RowsPermuted ts ts')
    (hg : ∀ t ∈ ts, GivenWidths t) (h : validateDataTable sort ts sed = .ok out) :
    ∃ out', validateDataTable sort ts' sed = .ok out' ∧ out'.rows.Perm out.rows ∧
      ((out.rows.map (·.energy)).Nodup → out' = out) := by
  obtain ⟨out', h', heq, hperm⟩ := validate_perm sort hsort ts ts' sed out hp hg h
  refine ⟨out', h', hperm, fun hd => ?_⟩
  have h1 := (C34_sorted_permutation sort hsort ts sed out h).1
  have h2 := (C34_sorted_permutation sort hsort ts' sed out' h').1
  rw [heq, sorted_unique out.rows out'.rows hperm h1 h2 hd]

/-- Units of a validated table are proper (positive size). -/
def VTable.ProperUnits (v : VTable) : Prop :=
  0 < v.energyU.scale ∧ 0 < v.fluxU.scale ∧ 0 < v.fluxErrorLoU.scale ∧ 0 < v.fluxErrorHiU.scale ∧
  0 < v.energyErrorLoU.scale ∧ 0 < v.energyErrorHiU.scale

theorem reconvert (u0 fu : PhysUnit) (b : Bool) (s : SedFactor) (hd : u0.dim ∈ fluxTypes)
    (h : sedConversion u0 b = .ok (fu, s)) :
    sedConversion fu b = .ok (fu, .ones) ∧ fu.dim ∈ fluxTypes ∧ (IsSed fu.dim ↔ b = true) := by
  obtain ⟨sc, d⟩ := u0
  rcases (mem_fluxTypes _).1 hd with (h' | h') | (h' | h') <;>
    (simp only at h'
     subst h'
     cases b <;>
     (simp [sedConversion, Dim.flux, Dim.diffFlux, Dim.power, Dim.diffPower, Dim.energy,
        Dim.diffEnergy, Dim.diffNumDensity] at h
      rw [← h.1]
      refine ⟨rfl, by decide, by decide⟩))

/-- **C36 (the part that holds).** Validating a validated table again (with `sed` unset or as before)
succeeds and gives back the same units and the same rows, re-sorted, except that every confidence
level becomes 0.9.  Missing: the confidence level, see `C36_false_cl`. -/
theorem C36_revalidate_partial (sort sort' : List Row → List Row) (ts : List InTable)
    (sed : Option Bool) (out : VTable) (h : validateDataTable sort ts sed = .ok out)
    (hu : VTable.ProperUnits out) (sed' : Option Bool) (hs' : sed' = none ∨ sed' = sed) :
    validateDataTable sort' [out.toInput] sed' =
      .ok { out with rows := sort' (out.rows.map (fun r => { r with cl := XR.fin 0.9 })) } := by
  obtain ⟨t0, rest, u0, b, cs, s, rfl, h1, h2, h3, h4, h5, h6, h7, h8, h9, h10, h11, h12, -⟩ :=
    validate_ok sort ts sed out h
  obtain ⟨r1, r2, r3⟩ := reconvert u0 out.fluxU b s h2 h6
  obtain ⟨p1, p2, p3, p4, p5, p6⟩ := hu
  have hsingle : validateSingle out.toInput 0 =
      .ok { out with rows := out.rows.map (fun r => { r with cl := XR.fin 0.9 }) } := by
    have q3 : out.fluxErrorLoU.dim ∈ fluxTypes := by rw [h7]; exact r2
    have q4 : out.fluxErrorHiU.dim ∈ fluxTypes := by rw [h8]; exact r2
    unfold validateSingle fluxErrors energyErrors ulFlags fluxVals clVal VTable.toInput
    simp only [validateColumn_some, h10, List.mem_singleton, if_true, r2, q3, q4, h11, h12,
      Option.isSome_none, Option.isSome_some, Bool.false_eq_true, if_false, Bool.and_self,
      bind, Except.bind, pure, Except.pure]
    congr 2
    rw [zipWith_map_right, List.map_map]
    apply List.map_congr_left
    intro r _
    simp only [Function.comp]
    have := p1.ne'; have := p2.ne'; have := p3.ne'; have := p4.ne'; have := p5.ne'; have := p6.ne'
    congr 1
    · field_simp
    · field_simp
    · field_simp
    · field_simp
    · field_simp
    · field_simp
    · by_cases hu : r.ul = true <;> simp [hu]
  have hb' : sed'.getD (decide (out.fluxU.dim = Dim.flux ∨ out.fluxU.dim = Dim.power)) = b := by
    have hdec : decide (out.fluxU.dim = Dim.flux ∨ out.fluxU.dim = Dim.power) = b := by
      have : (out.fluxU.dim = Dim.flux ∨ out.fluxU.dim = Dim.power) ↔ b = true := r3
      simp only [this]
      cases b <;> rfl
    rcases hs' with rfl | rfl
    · exact hdec
    · cases sed' with
      | none => exact hdec
      | some b' => simp only [Option.getD_some] at h3 ⊢; exact h3.symm
  unfold validateDataTable validateAll validateAll
  simp only [Nat.cast_zero]
  rw [hsingle]
  simp only [bind, Except.bind, pure, Except.pure, hb']
  have hd1 : out.fluxU.dim.mul SedFactor.ones.dim = out.fluxU.dim := by
    have : ∀ d : Dim, d.mul Dim.one = d := by intro d; simp [Dim.mul, Dim.one]
    exact this _
  rw [dtSed_mk { out with rows := out.rows.map (fun r => { r with cl := XR.fin 0.9 }) } b out.fluxU
    .ones r1 hd1 (by simp only [h7]; exact hd1)
    (by simp only [h8]; exact hd1)]
  simp only [List.foldlM, pure, Except.pure]
  congr 2
  · exact h7.symm
  · exact h8.symm
  · congr 1
    rw [List.map_map]
    apply List.map_congr_left
    intro r _
    simp [scaleRow, SedFactor.phys]

/-- **C36 (idempotent at the default confidence level).** If all confidence levels are 0.9 and the
energies are distinct, validating again changes nothing at all. -/
theorem C36_idempotent_partial (sort sort' : List Row → List Row) (hsort : IsEnergySort sort)
    (hsort' : IsEnergySort sort') (ts : List InTable) (sed : Option Bool) (out : VTable)
    (h : validateDataTable sort ts sed = .ok out) (hu : VTable.ProperUnits out)
    (hcl : ∀ r ∈ out.rows, r.cl = XR.fin 0.9) (hd : (out.rows.map (·.energy)).Nodup) :
    validateDataTable sort' [out.toInput] none = .ok out := by
  rw [C36_revalidate_partial sort sort' ts sed out h hu none (Or.inl rfl)]
  have hmap : out.rows.map (fun r => { r with cl := XR.fin 0.9 }) = out.rows := by
    conv_rhs => rw [← List.map_id out.rows]
    apply List.map_congr_left
    intro r hr
    rw [← hcl r hr]; rfl
  rw [hmap, sorted_unique out.rows (sort' out.rows) (hsort' _).1
    (C34_sorted_permutation sort hsort ts sed out h).1 (hsort' _).2 hd]

/-- **C36 is false of the code for other confidence levels.** A table with `cl = 0.95` validates to
rows at 0.95; validating that table again silently turns them into 0.90. -/
theorem C36_false_cl (sort : List Row → List Row) (hsort : IsEnergySort sort) :
    ∃ t out out', validateDataTable sort [t] none = .ok out ∧
      validateDataTable sort [out.toInput] none = .ok out' ∧
      (∀ r ∈ out.rows, r.cl = XR.fin 0.95) ∧ (∀ r ∈ out'.rows, r.cl = XR.fin 0.9) ∧
      out.rows ≠ [] ∧ out'.rows ≠ [] := by
  let t : InTable := {
    energyU := some PhysUnit.erg, fluxU := some ergPerSCm2, fluxErrorU := some ergPerSCm2,
    energyWidthU := some PhysUnit.erg, cl := some (.num (XR.fin 0.95)),
    rows := [{ energy := 1, flux := 1, fluxError := 1, energyWidth := 1 }] }
  have hv : Valid t :=
    ⟨⟨_, rfl, rfl⟩, ⟨_, rfl, Or.inl (Or.inl rfl)⟩, Or.inl ⟨_, rfl, Or.inl (Or.inl rfl)⟩,
      Or.inl ⟨_, rfl, rfl⟩, Or.inl rfl, by simp [t], by
        intro v hv; simp [t] at hv; exact ⟨_, hv.symm⟩⟩
  have hm : ErrorsMatch t := by
    intro u hu
    simp [t] at hu ⊢
    rw [← hu]
  obtain ⟨out, hout⟩ := C34_accepts sort [t] none (by simp) (by simpa using hv) (by simpa using hm)
      (Or.inl (by simpa using ⟨_, rfl, Or.inl rfl⟩))
  obtain ⟨-, b, chunks, -, -, -, -, -, hp, hl, hc⟩ := C34_sorted_permutation sort hsort _ none out hout
  obtain ⟨es, k1, k2, k3⟩ := hc 0 t (by simp)
  have hch : chunks = [List.zipWith (Spec.row t ((0 : ℕ) : ℤ) b) t.rows es] := by
    cases chunks with
    | nil => simp at hl
    | cons x xs =>
      cases xs with
      | cons y ys => simp at hl
      | nil => simp at k3; simp [k3]
  rw [hch] at hp
  simp only [List.flatten_cons, List.flatten_nil, List.append_nil] at hp
  have hlen : out.rows.length = 1 := by rw [hp.length_eq]; simp [k2, t]
  have hne : out.rows ≠ [] := by intro h0; rw [h0] at hlen; simp at hlen
  have hcl : ∀ r ∈ out.rows, r.cl = XR.fin 0.95 := by
    intro r hr
    have hr' := hp.mem_iff.1 hr
    obtain ⟨i, hi⟩ := List.mem_iff_getElem?.1 hr'
    rw [List.getElem?_zipWith] at hi
    split at hi
    · simp at hi; rw [← hi]; rfl
    · simp at hi
  have hunits : VTable.ProperUnits out := by
    obtain ⟨t0, rest, u0, b, cs, s, e1, h1, h2, h3, h4, h5, h6, h7, h8, h9, h10, h11, h12, -⟩ :=
      validate_ok sort _ none out hout
    simp at e1
    obtain ⟨rfl, rfl⟩ := e1
    have hfu : 0 < out.fluxU.scale := by
      obtain ⟨fu, s', k1, -, k2, -⟩ := C33_dimensions u0 (spectral_of_fluxTypes h2) b
      rw [h6] at k1; simp at k1; rw [k1.1]; exact k2
    have hw : out.energyErrorLoU = PhysUnit.erg ∧ out.energyErrorHiU = PhysUnit.erg := by
      unfold validateDataTable validateAll validateAll at hout
      simp only [bind_ok, pure_ok] at hout
      obtain ⟨vs, ⟨v, hv, vs', hvs', rfl⟩, hrest⟩ := hout
      simp at hvs'
      subst hvs'
      simp only [bind_ok, pure_ok, List.foldlM] at hrest
      obtain ⟨acc, hacc, o, ho, rfl⟩ := hrest
      subst ho
      obtain ⟨fu, s, -, -, -, -, rfl⟩ := dtSed_ok _ _ _ hacc
      unfold validateSingle at hv
      simp only [bind_ok, pure_ok, validateColumn_ok] at hv
      obtain ⟨eU, -, fU, -, errs, -, edges, hedge, _, _, _, _, _, _, rfl⟩ := hv
      simp only [energyErrors, t, Option.isSome_some, if_true, validateColumn_some] at hedge
      simp [PhysUnit.erg, bind, Except.bind, pure, Except.pure] at hedge
      rw [← hedge]
      exact ⟨rfl, rfl⟩
    have he : out.energyU = PhysUnit.erg := by simpa [t] using h9.symm
    refine ⟨?_, hfu, by rw [h7]; exact hfu, by rw [h8]; exact hfu, ?_, ?_⟩
    · rw [he]; norm_num [PhysUnit.erg]
    · rw [hw.1]; norm_num [PhysUnit.erg]
    · rw [hw.2]; norm_num [PhysUnit.erg]
  refine ⟨t, out, _, hout, C36_revalidate_partial sort sort [t] none out hout hunits none
    (Or.inl rfl), hcl, ?_, hne, ?_⟩
  · intro r hr
    have := (hsort _).1.mem_iff.1 hr
    simp at this
    obtain ⟨a, -, rfl⟩ := this
    rfl
  · intro h0
    have := (hsort (out.rows.map (fun r => { r with cl := XR.fin 0.9 }))).1.length_eq
    simp only at h0
    rw [h0] at this
    simp [hlen] at this

/-- **C38 (required columns and flags).** A single table is accepted exactly when it is `Valid`:
`energy` and `flux` columns of allowed physical type, `flux_error` or both asymmetric error
columns, width columns (if any) of energy type, upper-limit flags that are integers, booleans or
the strings "True"/"False", a `flux_ul` column (if any) compatible with `flux`, and a `cl` keyword
(if any) that is a real number. -/
theorem C38_accepted_iff_valid (t : InTable) (g : ℤ) :
    (∃ v, validateSingle t g = .ok v) ↔ Valid t := validateSingle_exists t g

/-- **C38 (what is raised).** A missing or wrongly typed energy or flux column, missing flux errors
and badly formatted upper-limit flags all raise TypeError. -/
theorem C38_type_errors (t : InTable) (g : ℤ) :
    (¬ HasType t.energyU (· = Dim.energy) → validateSingle t g = .error .typeError) ∧
    (HasType t.energyU (· = Dim.energy) → ¬ HasType t.fluxU (fun d => FluxLike d ∨ LumLike d) →
      validateSingle t g = .error .typeError) ∧
    (HasType t.energyU (· = Dim.energy) → HasType t.fluxU (fun d => FluxLike d ∨ LumLike d) →
      t.fluxErrorU = none → (t.fluxErrorLoU = none ∨ t.fluxErrorHiU = none) →
      validateSingle t g = .error .typeError) ∧
    (HasType t.energyU (· = Dim.energy) → HasType t.fluxU (fun d => FluxLike d ∨ LumLike d) →
      (∃ r, fluxErrors t = .ok r) → (∀ eU, ∃ r, energyErrors t g eU = .ok r) →
      (t.ulType = some .other ∨ (t.ulType = some .str ∧
        ∃ r ∈ t.rows, r.ulStr ≠ "True" ∧ r.ulStr ≠ "False")) →
      validateSingle t g = .error .typeError) := by
  have bad : ∀ (c : Option PhysUnit) (f : RawRow → ℝ) (p : Dim → Prop) (pt : List Dim),
      (∀ d, d ∈ pt ↔ p d) → ¬ HasType c p → validateColumn t.rows c f pt = .error .typeError := by
    intro c f p pt hp hn
    cases c with
    | none => rfl
    | some u =>
      rw [validateColumn_some, if_neg]
      intro h; exact hn ⟨u, rfl, (hp _).1 h⟩
  have good : ∀ (c : Option PhysUnit) (f : RawRow → ℝ) (p : Dim → Prop) (pt : List Dim),
      (∀ d, d ∈ pt ↔ p d) → HasType c p → ∃ u, validateColumn t.rows c f pt = .ok u := by
    rintro c f p pt hp ⟨u, hu, h⟩
    exact ⟨u, (validateColumn_ok _ _ _ _ _).2 ⟨hu, (hp _).2 h⟩⟩
  have e1 : ∀ d, d ∈ [Dim.energy] ↔ d = Dim.energy := by simp
  refine ⟨?_, ?_, ?_, ?_⟩
  · intro h
    unfold validateSingle
    rw [bad _ _ _ _ e1 h]; rfl
  · intro h h2
    obtain ⟨u, hu⟩ := good _ (fun r => r.energy) _ _ e1 h
    unfold validateSingle
    rw [hu]
    simp only [bind, Except.bind]
    rw [bad _ _ _ _ mem_fluxTypes h2]
  · intro h h2 h3 h4
    obtain ⟨u, hu⟩ := good _ (fun r => r.energy) _ _ e1 h
    obtain ⟨u2, hu2⟩ := good _ (fun r => r.flux) _ _ mem_fluxTypes h2
    have : fluxErrors t = .error .typeError := by
      unfold fluxErrors
      rcases h4 with h4 | h4 <;> simp [h3, h4, throw, throwThe, MonadExceptOf.throw]
    unfold validateSingle
    rw [hu, hu2, this]; rfl
  · intro h h2 ⟨r3, h3⟩ h4 h5
    obtain ⟨u, hu⟩ := good _ (fun r => r.energy) _ _ e1 h
    obtain ⟨u2, hu2⟩ := good _ (fun r => r.flux) _ _ mem_fluxTypes h2
    obtain ⟨r4, h4⟩ := h4 u
    have : ulFlags t = .error .typeError := by
      unfold ulFlags
      rcases h5 with h5 | ⟨h5, r, hr, hr1, hr2⟩
      · rw [h5]
      · rw [h5]
        simp only
        rw [if_neg]
        simp
        exact ⟨r, hr, hr1, hr2⟩
    unfold validateSingle
    rw [hu, hu2, h3]
    simp only [bind, Except.bind]
    rw [h4, this]

/-- **C38 (`build_data_table`).** Whatever table `build_data_table` returns has the energy and flux
columns it was given and is accepted by `validate_data_table`. -/
theorem C38_build_data_table (sort : List Row → List Row) (a t : InTable)
    (h : buildDataTable sort a = .ok t) :
    t.energyU = a.energyU ∧ t.fluxU = a.fluxU ∧ t.rows = a.rows ∧ t.cl = a.cl ∧ Valid t ∧
      ∃ out, validateDataTable sort [t] none = .ok out := by
  have hout : ∃ t' : InTable, t' = t ∧ t'.energyU = a.energyU ∧ t'.fluxU = a.fluxU ∧
      t'.rows = a.rows ∧ t'.cl = a.cl ∧ ∃ out, validateDataTable sort [t'] none = .ok out := by
    unfold buildDataTable at h
    simp only [bind_ok] at h
    obtain ⟨_, -, h⟩ := h
    split at h
    · simp [bind, Except.bind, throw, throwThe, MonadExceptOf.throw] at h
    · simp only [bind_ok, pure_ok] at h
      obtain ⟨_, -, out, ho, rfl⟩ := h
      exact ⟨_, rfl, rfl, rfl, rfl, rfl, out, ho⟩
  obtain ⟨t', rfl, h1, h2, h3, h4, out, ho⟩ := hout
  refine ⟨h1, h2, h3, h4, ?_, out, ho⟩
  unfold validateDataTable validateAll at ho
  simp only [bind_ok] at ho
  obtain ⟨vs, ⟨v, hv, -⟩, -⟩ := ho
  exact (validateSingle_exists t' _).1 ⟨v, hv⟩

/-- An `InTable` that only has columns `build_data_table` takes as arguments, upper limits being given
as integers or booleans. -/
structure IsArguments (a : InTable) : Prop where
  group : a.hasGroup = false
  err : a.energyErrorU = none
  errLo : a.energyErrorLoU = none
  errHi : a.energyErrorHiU = none
  fluxUl : a.fluxUlU = none
  ul : a.ulType ≠ some .str ∧ a.ulType ≠ some .other

/-- **C38 (`build_data_table` describes the data given).** It succeeds exactly if the arguments, taken
as the columns of a table, are valid, and `validate_data_table` reads from the table returned what it
would read from the arguments: same energies, bins (widths, edges or generated), fluxes, errors, limits
and confidence level. -/
theorem C38_build_faithful (sort : List Row → List Row) (a : InTable) (ha : IsArguments a) :
    ((∃ t, buildDataTable sort a = .ok t) ↔ ∃ out, validateDataTable sort [a] none = .ok out) ∧
    ∀ t, buildDataTable sort a = .ok t → ∀ sed, validateDataTable sort [t] sed = validateDataTable sort [a] sed := by
  set t : InTable := {
    energyU := a.energyU
    fluxU := a.fluxU
    fluxErrorU := a.fluxErrorU
    fluxErrorLoU := if a.fluxErrorU = none ∧ (a.fluxErrorLoU.isSome && a.fluxErrorHiU.isSome) = true then a.fluxErrorLoU else none
    fluxErrorHiU := if a.fluxErrorU = none ∧ (a.fluxErrorLoU.isSome && a.fluxErrorHiU.isSome) = true then a.fluxErrorHiU else none
    energyWidthU := a.energyWidthU
    energyLoU := if a.energyWidthU = none ∧ (a.energyLoU.isSome && a.energyHiU.isSome) = true then a.energyLoU else none
    energyHiU := if a.energyWidthU = none ∧ (a.energyLoU.isSome && a.energyHiU.isSome) = true then a.energyHiU else none
    ulType := if a.ulType = none then none else some .int
    cl := a.cl
    rows := a.rows } with ht
  have e1 : fluxErrors t = fluxErrors a := by
    unfold fluxErrors
    cases h1 : a.fluxErrorU <;> cases h2 : a.fluxErrorLoU <;> cases h3 : a.fluxErrorHiU <;>
      simp [ht, h1, h2, h3]
  have e2 : ∀ g eU, energyErrors t g eU = energyErrors a g eU := by
    intro g eU
    unfold energyErrors rowGroup
    cases h1 : a.energyWidthU <;> cases h2 : a.energyLoU <;> cases h3 : a.energyHiU <;>
      simp [ht, h1, h2, h3, ha.err, ha.errLo, ha.group]
  have e3 : ulFlags t = ulFlags a := by
    have := ha.ul
    unfold ulFlags
    cases h : a.ulType with
    | none => simp [ht, h]
    | some u => cases u <;> simp_all
  have e4 : ∀ fU ul, fluxVals t fU ul = fluxVals a fU ul := by
    intro fU ul
    simp [fluxVals, ht, ha.fluxUl]
  have e : ∀ g, validateSingle t g = validateSingle a g := by
    intro g
    unfold validateSingle
    rw [e1, e3]
    simp only [e2, e4]
    simp only [rowGroup, ha.group]
    rfl
  have eall : ∀ sed, validateDataTable sort [t] sed = validateDataTable sort [a] sed := by
    intro sed
    unfold validateDataTable validateAll
    rw [e]
  have hb : ∀ t', buildDataTable sort a = .ok t' → t' = t ∧ ∃ out, validateDataTable sort [t] none = .ok out := by
    intro t' h
    unfold buildDataTable at h
    simp only [bind_ok] at h
    obtain ⟨_, -, h⟩ := h
    split at h
    · simp [bind, Except.bind, throw, throwThe, MonadExceptOf.throw] at h
    · simp only [bind_ok, pure_ok] at h
      obtain ⟨_, -, out, ho, rfl⟩ := h
      exact ⟨rfl, out, ho⟩
  refine ⟨⟨?_, ?_⟩, ?_⟩
  · rintro ⟨t', h⟩
    obtain ⟨-, out, ho⟩ := hb t' h
    exact ⟨out, by rw [← eall]; exact ho⟩
  · rintro ⟨out, ho⟩
    have hsingle : ∃ v, validateSingle a 0 = .ok v := by
      unfold validateDataTable validateAll at ho
      simp only [bind_ok] at ho
      obtain ⟨vs, ⟨v, hv, -⟩, -⟩ := ho
      exact ⟨v, hv⟩
    obtain ⟨v, hv⟩ := hsingle
    have hcl : (match a.cl with
      | none => (.ok () : Except PyErr Unit)
      | some v => (validateScalar v .none none).map (fun _ => ())) = .ok () := by
      unfold validateSingle at hv
      simp only [bind_ok] at hv
      obtain ⟨_, _, _, _, _, _, _, _, _, _, _, _, cl, hc, _⟩ := hv
      unfold clVal at hc
      cases h : a.cl with
      | none => rfl
      | some w =>
        rw [h] at hc
        simp only at hc ⊢
        cases hw : validateScalar w .none none with
        | error e => rw [hw] at hc; simp at hc
        | ok w' => rfl
    have herr : ¬ (a.fluxErrorU = none ∧ (a.fluxErrorLoU.isSome && a.fluxErrorHiU.isSome) = false) := by
      rintro ⟨q1, q2⟩
      unfold validateSingle at hv
      simp only [bind_ok] at hv
      obtain ⟨_, _, _, _, r, hr, _⟩ := hv
      unfold fluxErrors at hr
      simp [q1, q2, throw, throwThe, MonadExceptOf.throw] at hr
    refine ⟨t, ?_⟩
    unfold buildDataTable
    simp only [hcl]
    rw [if_neg herr]
    have hul : (match a.ulType with
      | some .str => (.error .valueError : Except PyErr Unit)
      | some .other => .error .typeError
      | _ => .ok ()) = .ok () := by
      have := ha.ul
      cases h : a.ulType with
      | none => rfl
      | some u => cases u <;> simp_all
    have := eall none
    rw [ho] at this
    simp only [bind, Except.bind]
    rw [← ht, this]
    split
    · rename_i heq
      cases heq.symm.trans hcl
    · split
      · rename_i heq
        cases heq.symm.trans hul
      · rfl
  · intro t' h sed
    obtain ⟨rfl, -⟩ := hb t' h
    exact eall sed

example : IsArguments {
    energyU := some PhysUnit.TeV, fluxU := some perSTeVCm2, energyWidthU := some PhysUnit.TeV,
    fluxErrorU := some perSTeVCm2, ulType := some .bool,
    rows := [{ energy := 1, energyWidth := 0.5, ulInt := 1 }, { energy := 2, energyWidth := 0.5 }] } :=
  ⟨rfl, rfl, rfl, rfl, rfl, by simp⟩

/-! non-vacuity -/

/-- An energy sort exists (stable merge sort). -/
theorem energySort_exists : ∃ sort, IsEnergySort sort := by
  classical
  refine ⟨fun l => l.mergeSort (fun a b => decide (a.energy ≤ b.energy)), fun l =>
    ⟨List.mergeSort_perm _ _, ?_⟩⟩
  have := List.pairwise_mergeSort (le := fun a b : Row => decide (a.energy ≤ b.energy))
    (by intro a b c h1 h2; simp at *; exact le_trans h1 h2)
    (by intro a b; simp; exact le_total _ _) l
  simpa using this

example : Valid {
    energyU := some PhysUnit.TeV, fluxU := some perSTeVCm2,
    fluxErrorU := some perSTeVCm2, ulType := some .str,
    rows := [{ energy := 1, ulStr := "True" }, { energy := 2, ulStr := "False" }] } :=
  ⟨⟨_, rfl, rfl⟩, ⟨_, rfl, Or.inl (Or.inr rfl)⟩, Or.inl ⟨_, rfl, Or.inl (Or.inr rfl)⟩,
    Or.inr ⟨rfl, Or.inr ⟨rfl, Or.inr ⟨by simp, Or.inr (by simp)⟩⟩⟩,
    Or.inr (Or.inr (Or.inr ⟨rfl, by simp⟩)), by simp, by simp⟩

end Naima.Props
