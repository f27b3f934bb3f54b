import Verif.Spec.Points
import Verif.Props.C34_C38_DataTable
import Verif.Props.C40_C43_LnProb

/-! # C107: the likelihood depends on the measurements only, not on their layout in tables -/

namespace Naima

open XR Spec Props

/-- the measurement of a validated row, `b`: fluxes are SEDs -/
noncomputable def rowPoint (b lum : Bool) (r : Row) : Measured :=
  ⟨r.energy, lum, r.flux / eFac b r.energy, r.fluxErrorLo / eFac b r.energy,
    r.fluxErrorHi / eFac b r.energy, r.ul⟩

/-- the row of a measurement -/
noncomputable def pointRow (p : Measured × XR) : Row :=
  ⟨p.1.energy, p.1.flux, p.1.errLo, p.1.errHi, 0, 0, 0, p.1.ul, p.2⟩

theorem levelled_fst (ts : List InTable) : (levelled ts).map (·.1) = measurements ts := by
  unfold levelled measurements
  induction ts with
  | nil => rfl
  | cons t ts ih => simp only [List.flatMap_cons, List.map_append, ih, List.map_map]; rfl

theorem levelled_common (ts : List InTable) (c : XR) (hc : ∀ t ∈ ts, confidence t = c) :
    levelled ts = (measurements ts).map fun p => (p, c) := by
  unfold levelled measurements
  induction ts with
  | nil => rfl
  | cons t ts ih =>
    simp only [List.flatMap_cons, List.map_append, List.map_map]
    rw [ih (fun t ht => hc t (by simp [ht])), hc t (by simp)]
    rfl

theorem rowPoint_row (t : InTable) (u : PhysUnit) (hu : t.fluxU = some u) (i : ℤ) (b : Bool)
    (r : RawRow) (e : ℝ × ℝ) (hE : 0 < phys t.energyU r.energy) :
    rowPoint b (decide (LumLike u.dim)) (Spec.row t i b r e) = measured t r := by
  have h0 := hE.ne'
  have key : ∀ x : ℝ, x * factor t b (phys t.energyU r.energy) / eFac b (phys t.energyU r.energy) =
      x * (if IsSed u.dim then 1 / (phys t.energyU r.energy) ^ 2 else 1) := by
    intro x
    unfold factor eFac
    rw [hu]
    cases b <;> by_cases hs : IsSed u.dim <;> simp [hs] <;> field_simp
  unfold rowPoint measured Spec.row
  simp only [hu] at key ⊢
  simp only [key]

theorem rows_points (b lum : Bool) (g : ℕ) (ts : List InTable) (cs : List (List Row))
    (h : ChunksOk b g ts cs)
    (hu : ∀ t ∈ ts, t.rows ≠ [] → ∃ u, t.fluxU = some u ∧ decide (LumLike u.dim) = lum)
    (hE : ∀ p ∈ measurements ts, 0 < p.energy):
    cs.flatten.map (fun r => (rowPoint b lum r, r.cl)) = levelled ts := by
  induction ts generalizing g cs with
  | nil => cases cs with
    | nil => simp [levelled]
    | cons => exact h.elim
  | cons t ts ih =>
    cases cs with
    | nil => exact h.elim
    | cons ch cs =>
      obtain ⟨⟨es, h1, h2, h3⟩, h4⟩ := h
      have i1 := ih (g + 1) cs h4 (fun t ht => hu t (by simp [ht]))
        (fun p hp => hE p (by
          unfold measurements at hp ⊢
          rw [List.flatMap_cons]; exact List.mem_append_right _ hp))
      have hEt : ∀ r ∈ t.rows, 0 < phys t.energyU r.energy := by
        intro r hr
        refine hE (measured t r) ?_
        unfold measurements
        rw [List.flatMap_cons]
        exact List.mem_append_left _ (List.mem_map.2 ⟨r, hr, rfl⟩)
      have hut := hu t (by simp)
      unfold levelled at i1 ⊢
      rw [List.flatten_cons, List.map_append, List.flatMap_cons, i1]
      congr 1
      subst h3
      clear i1 ih h1 h4 hu hE
      by_cases hne : t.rows = []
      · simp [hne]
      obtain ⟨u, hu1, hu2⟩ := hut hne
      rw [← hu2]
      clear hut hne
      generalize t.rows = rs at hEt h2
      induction rs generalizing es with
      | nil => simp
      | cons r rs ih =>
        cases es with
        | nil => simp at h2
        | cons e es =>
          simp only [List.zipWith_cons_cons, List.map_cons]
          rw [ih es (fun r hr => hEt r (by simp [hr])) (by simpa using h2),
            rowPoint_row t u hu1 _ b r e (hEt r (by simp))]
          rfl

theorem lnCore_perm (c : XR) (l l' : List (XR × Row)) (hp : l.Perm l') (hc : ∀ p ∈ l, p.2.cl = c) :
    lnCore (l.map (·.1)) (l.map (·.2)) = lnCore (l'.map (·.1)) (l'.map (·.2)) := by
  have hz : ∀ k : List (XR × Row), (k.map (·.1)).zip (k.map (·.2)) = k := by
    intro k; induction k with
    | nil => rfl
    | cons a k ih => simp [ih]
  have hc' : ∀ p ∈ l', p.2.cl = c := fun p hp' => hc p (hp.mem_iff.2 hp')
  have hget : ∀ (k : List (XR × Row)), (∀ p ∈ k, p.2.cl = c) → ∀ n : ℕ,
      ((k.map (·.2))[n]?).map (·.cl) = if n < k.length then some c else none := by
    intro k hk n
    by_cases hn : n < k.length
    · rw [List.getElem?_eq_getElem (by simpa using hn)]
      simp only [List.getElem_map, Option.map_some, hn, if_true]
      rw [hk _ (List.getElem_mem hn)]
    · rw [List.getElem?_eq_none (by simpa using hn)]
      simp [hn]
  have hcount : violatedCount l = violatedCount l' := (hp.filter _).length_eq
  have hany : l.any (fun p => p.2.ul) = l'.any (fun p => p.2.ul) := hp.any_eq
  unfold lnCore
  simp only [List.length_map, ne_eq, not_true_eq_false, if_false, hz]
  rw [hany, hcount, XR.sum_perm ((hp.filter (fun p => !p.2.ul)).map (fun p => lnTerm p.1 p.2))]
  split
  · have e1 := hget l hc (violatedCount l')
    have e2 := hget l' hc' (violatedCount l')
    rw [← hp.length_eq, ← e1] at e2
    cases h1 : (l.map (·.2))[violatedCount l']? with
    | none =>
      cases h2 : (l'.map (·.2))[violatedCount l']? with
      | none => rfl
      | some r' => rw [h1, h2] at e2; simp at e2
    | some r =>
      cases h2 : (l'.map (·.2))[violatedCount l']? with
      | none => rw [h1, h2] at e2; simp at e2
      | some r' => rw [h1, h2] at e2; simp at e2; simp [e2]
  · rfl

/-- the pairs (model, row) of a list of measurements -/
noncomputable def pointPairs (s : Bool) (g : ℝ → XR) (ps : List (Measured × XR)) :
    List (XR × Row) :=
  ps.map fun p => (fin (1 / eFac s p.1.energy) * g p.1.energy, pointRow p)

theorem XR.fin_mul_mul (a b : ℝ) (ha : 0 < a) (hb : 0 < b) (x : XR) :
    fin (a * b) * x = fin a * (fin b * x) := by
  cases x with
  | nan => rfl
  | fin y => simp; ring
  | pinf => rw [XR.scale_pinf _ (mul_pos ha hb), XR.scale_pinf _ hb, XR.scale_pinf _ ha]
  | ninf => rw [XR.scale_ninf _ (mul_pos ha hb), XR.scale_ninf _ hb, XR.scale_ninf _ ha]

theorem lnCore_points (b lum s : Bool) (g : ℝ → XR) (rows : List Row)
    (hE : ∀ r ∈ rows, 0 < r.energy) :
    lnCore (List.zipWith (fun m r => fin (eFac b r.energy / eFac s r.energy) * m)
      (rows.map fun r => g r.energy) rows) rows =
    lnCore ((pointPairs s g (rows.map fun r => (rowPoint b lum r, r.cl))).map (·.1))
      ((pointPairs s g (rows.map fun r => (rowPoint b lum r, r.cl))).map (·.2)) := by
  apply lnCore_scaled
  · simp [pointPairs]
  · simp
  · simp [pointPairs]
  · intro i
    unfold pointPairs
    cases hi : rows[i]? with
    | none => simp [hi]
    | some r => simp [hi, pointRow]
  · clear * - hE
    induction rows with
    | nil => simp [pointPairs]; exact .nil
    | cons r rows ih =>
      have e := hE r (by simp)
      have hb := eFac_pos b _ e
      have hs := eFac_pos s _ e
      simp only [pointPairs, List.map_cons, List.zip_cons_cons, List.zipWith_cons_cons]
      refine .cons (eFac b r.energy) _ _ _ r _ _ hb ?_ ?_ ?_
      · simp only [rowPoint]
        rw [← XR.fin_mul_mul _ _ hb (by positivity)]
        congr 2
        field_simp
      · refine ⟨?_, ?_, ?_, rfl, rfl, rfl⟩ <;>
          simp only [pointRow, rowPoint] <;> field_simp
      · exact ih (fun r hr => hE r (by simp [hr]))

theorem map_ext_family {d : Dim} (h : FluxLike d ∨ LumLike d) : (FluxLike d ↔ ¬ LumLike d) := by
  rcases h with (h | h) | (h | h) <;> subst h <;> decide

theorem family_same {a d w : Dim} (hd : FluxLike d ∨ LumLike d) (ha : FluxLike a ∨ LumLike a)
    (hl : LumLike d ↔ LumLike w) : SameFamily a d ↔ decide (LumLike a) = decide (LumLike w) := by
  have e1 := map_ext_family hd
  have e2 := map_ext_family ha
  rw [decide_eq_decide, ← hl]
  unfold SameFamily
  rw [e1, e2]
  by_cases x : LumLike a <;> by_cases y : LumLike d <;> simp [x, y]

theorem sed_flag {d : Dim} {b : Bool} (hd : FluxLike d ∨ LumLike d)
    (h : IsSedType d ↔ b = true) : unitIsSed d = b := by
  rcases hd with (hd | hd) | (hd | hd) <;> subst hd <;> cases b <;>
    first | rfl | (exfalso; revert h; decide)

/-- The likelihood of a validated table in terms of its measurements, in ascending energy. -/
theorem lnprob_points (sort : List Row → List Row) (hsort : IsEnergySort sort)
    (ts : List InTable) (sed : Option Bool) (out : VTable)
    (h : validateDataTable sort ts sed = .ok out)
    (hE : ∀ p ∈ measurements ts, 0 < p.energy) :
    ∃ (lum : Bool) (ps : List (Measured × XR)), (∀ p ∈ measurements ts, p.luminosity = lum) ∧
      ps.Perm (levelled ts) ∧ ps.Pairwise (fun a b => a.1.energy ≤ b.1.energy) ∧
      ∀ (g : ℝ → XR) (u : PhysUnit), u.dim ∈ fluxTypes →
      lnprobmodel ⟨out.rows.map fun r => g r.energy, u⟩ out =
        if decide (LumLike u.dim) = lum then
          lnCore ((pointPairs (unitIsSed u.dim) g ps).map (·.1))
            ((pointPairs (unitIsSed u.dim) g ps).map (·.2))
        else .error .unitConversionError := by
  obtain ⟨t0, rest, u0, b, cs, s, hts, h1, h2, h3, h4, h5, h6, h7, h8, _, _, _, _, h9⟩ :=
    validate_ok sort ts sed out h
  obtain ⟨fu, s', k1, -, -, -, k2, k3, k4⟩ := Props.C33_dimensions u0 (spectral_of_fluxTypes h2) b
  rw [h6] at k1
  simp at k1
  obtain ⟨rfl, rfl⟩ := k1
  have hmem := (mem_fluxTypes _).1 h2
  have hlum : ∀ t ∈ ts, t.rows ≠ [] → ∃ u, t.fluxU = some u ∧
      decide (LumLike u.dim) = decide (LumLike u0.dim) := by
    intro t ht hr
    rw [hts, List.mem_cons] at ht
    rcases ht with rfl | ht
    · exact ⟨u0, h1, rfl⟩
    · obtain ⟨w, w1, w2, w3, w4⟩ := h9 t ht hr
      exact ⟨w, w1, by rw [decide_eq_decide]; exact w4⟩
  have hpts := rows_points b (decide (LumLike u0.dim)) 0 ts cs h4 hlum hE
  have hperm : out.rows.Perm cs.flatten := by rw [h5]; exact (hsort _).1
  have hEr : ∀ r ∈ out.rows, 0 < r.energy := by
    intro r hr
    refine hE (rowPoint b (decide (LumLike u0.dim)) r) ?_
    rw [← levelled_fst, ← hpts, List.map_map]
    exact List.mem_map.2 ⟨r, hperm.mem_iff.1 hr, rfl⟩
  refine ⟨decide (LumLike u0.dim),
    out.rows.map fun r => (rowPoint b (decide (LumLike u0.dim)) r, r.cl), ?_, ?_, ?_, ?_⟩
  · intro p hp
    rw [← levelled_fst, ← hpts, List.map_map, List.mem_map] at hp
    obtain ⟨r, -, rfl⟩ := hp
    rfl
  · rw [← hpts]; exact hperm.map _
  · rw [List.pairwise_map, h5]
    exact (hsort _).2
  intro g u hu
  have hout : FluxLike out.fluxU.dim ∨ LumLike out.fluxU.dim := by
    rcases hmem with hm | hm
    · left; simpa [FluxLike] using k3.2 (by simpa [FluxLike] using hm)
    · right; simpa [LumLike] using k4.2 (by simpa [LumLike] using hm)
  have hum := (mem_fluxTypes _).1 hu
  have hfl : LumLike out.fluxU.dim ↔ LumLike u0.dim := by simpa [LumLike] using k4
  have hsed : unitIsSed out.fluxU.dim = b := sed_flag hout k2
  have hfam := family_same hout hum hfl
  by_cases hf : SameFamily u.dim out.fluxU.dim
  · have : decide (LumLike u.dim) = decide (LumLike u0.dim) := hfam.1 hf
    rw [if_pos this, lnprobmodel_same _ out hf (by simp) hEr, hsed]
    simp only
    rw [lnCore_points b (decide (LumLike u0.dim)) _ g out.rows hEr]
  · have : ¬ decide (LumLike u.dim) = decide (LumLike u0.dim) := fun h0 => hf (hfam.2 h0)
    rw [if_neg this, lnprobmodel_eq, toDataKind_other _ out hu ((mem_fluxTypes _).2 hout) hf]

end Naima

namespace Naima.Props

open Naima XR Spec

theorem same_lum {ts ts' : List InTable} {lum lum' : Bool}
    (hp : (measurements ts).Perm (measurements ts')) (hne : measurements ts ≠ [])
    (l1 : ∀ p ∈ measurements ts, p.luminosity = lum)
    (l1' : ∀ p ∈ measurements ts', p.luminosity = lum') : lum' = lum := by
  cases hm : measurements ts with
  | nil => exact absurd hm hne
  | cons p ps =>
    have m1 : p ∈ measurements ts := by rw [hm]; simp
    rw [← l1 p m1, ← l1' p (hp.mem_iff.1 m1)]

/-- **C107.** Two lists of tables with the same measurements (up to order) and one common confidence
level, however the measurements are distributed over tables, ordered, and expressed (SED or
differential flux, units, error columns, bin widths given or generated), and validated with
whatever `sed` option, give the same log-likelihood for every spectrum. -/
theorem C107_layout (sort sort' : List Row → List Row) (hsort : IsEnergySort sort)
    (hsort' : IsEnergySort sort') (ts ts' : List InTable) (sed sed' : Option Bool)
    (out out' : VTable) (h : validateDataTable sort ts sed = .ok out)
    (h' : validateDataTable sort' ts' sed' = .ok out')
    (hp : (measurements ts).Perm (measurements ts')) (hne : measurements ts ≠ [])
    (hE : ∀ p ∈ measurements ts, 0 < p.energy) (c : XR) (hc : ∀ t ∈ ts ++ ts', confidence t = c)
    (g : ℝ → XR) (u : PhysUnit) (hu : u.dim ∈ [Dim.flux, Dim.diffFlux, Dim.power, Dim.diffPower]) :
    lnprobmodel ⟨out.rows.map fun r => g r.energy, u⟩ out =
      lnprobmodel ⟨out'.rows.map fun r => g r.energy, u⟩ out' := by
  obtain ⟨lum, ps, l1, l2, -, l3⟩ := lnprob_points sort hsort ts sed out h hE
  obtain ⟨lum', ps', l1', l2', -, l3'⟩ := lnprob_points sort' hsort' ts' sed' out' h'
    (fun p hp' => hE p (hp.mem_iff.2 hp'))
  rw [levelled_common ts c (fun t ht => hc t (by simp [ht]))] at l2
  rw [levelled_common ts' c (fun t ht => hc t (by simp [ht]))] at l2'
  have hps : ps.Perm ps' := l2.trans ((hp.map _).trans l2'.symm)
  rw [l3 g u hu, l3' g u hu, same_lum hp hne l1 l1']
  split
  · apply lnCore_perm c
    · exact hps.map _
    · intro p hp
      unfold pointPairs at hp
      rw [List.mem_map] at hp
      obtain ⟨q, hq, rfl⟩ := hp
      obtain ⟨w, -, rfl⟩ := List.mem_map.1 (l2.mem_iff.1 hq)
      rfl
  · rfl

/-- **C107 (several confidence levels).** The same when the tables state different confidence levels,
provided no two measurements have the same energy. -/
theorem C107_layout_levels (sort sort' : List Row → List Row) (hsort : IsEnergySort sort)
    (hsort' : IsEnergySort sort') (ts ts' : List InTable) (sed sed' : Option Bool)
    (out out' : VTable) (h : validateDataTable sort ts sed = .ok out)
    (h' : validateDataTable sort' ts' sed' = .ok out')
    (hp : (levelled ts).Perm (levelled ts')) (hne : measurements ts ≠ [])
    (hE : ∀ p ∈ measurements ts, 0 < p.energy) (hd : ((measurements ts).map (·.energy)).Nodup)
    (g : ℝ → XR) (u : PhysUnit) (hu : u.dim ∈ [Dim.flux, Dim.diffFlux, Dim.power, Dim.diffPower]) :
    lnprobmodel ⟨out.rows.map fun r => g r.energy, u⟩ out =
      lnprobmodel ⟨out'.rows.map fun r => g r.energy, u⟩ out' := by
  have hp1 : (measurements ts).Perm (measurements ts') := by
    rw [← levelled_fst, ← levelled_fst]; exact hp.map _
  obtain ⟨lum, ps, l1, l2, lo, l3⟩ := lnprob_points sort hsort ts sed out h hE
  obtain ⟨lum', ps', l1', l2', lo', l3'⟩ := lnprob_points sort' hsort' ts' sed' out' h'
    (fun p hp' => hE p (hp1.mem_iff.2 hp'))
  have hps : ps.Perm ps' := l2.trans (hp.trans l2'.symm)
  have hnd : (ps.map (·.1.energy)).Nodup := by
    have := (l2.map (fun q : Measured × XR => q.1.energy)).nodup_iff
    rw [this]
    rw [← levelled_fst, List.map_map] at hd
    exact hd
  have heq : ps = ps' := by
    apply hps.eq_of_pairwise _ lo lo'
    intro a b ha hb h1 h2
    exact List.inj_on_of_nodup_map hnd ha (hps.mem_iff.2 hb) (le_antisymm h1 h2)
  rw [l3 g u hu, l3' g u hu, same_lum hp1 hne l1 l1', heq]

/-- **C107 (value).** With a common confidence level `c < 1`, positive errors, and not every
measurement a violated upper limit, the log-likelihood of the differential spectrum `F` is the sum
of the terms of the measurements, whatever the layout of the tables, and whether the model returns
`F` or its SED `E² F`. -/
theorem C107_value (sort : List Row → List Row) (hsort : IsEnergySort sort) (ts : List InTable)
    (sed : Option Bool) (out : VTable) (h : validateDataTable sort ts sed = .ok out)
    (c : ℝ) (hc1 : c < 1) (hc : ∀ t ∈ ts, confidence t = fin c)
    (hE : ∀ p ∈ measurements ts, 0 < p.energy ∧ 0 < p.errLo ∧ 0 < p.errHi) (F : ℝ → ℝ)
    (hv : ∃ p ∈ measurements ts, p.ul = false ∨ F p.energy ≤ p.flux)
    (u : PhysUnit) (hu : ∀ p ∈ measurements ts,
      if p.luminosity then u.dim ∈ [Dim.power, Dim.diffPower] else u.dim ∈ [Dim.flux, Dim.diffFlux]) :
    lnprobmodel ⟨out.rows.map fun r =>
        fin (if u.dim ∈ [Dim.flux, Dim.power] then r.energy ^ 2 * F r.energy else F r.energy), u⟩ out =
      .ok (fin ((measurements ts).map (pointLnL c F)).sum) := by
  obtain ⟨p0, hp0, hv0⟩ := hv
  have hne : measurements ts ≠ [] := List.ne_nil_of_mem hp0
  have hu0 := hu p0 hp0
  have hum : u.dim ∈ fluxTypes := by
    unfold fluxTypes
    split at hu0 <;> simp only [List.mem_cons, List.not_mem_nil, or_false] at hu0 ⊢ <;> tauto
  obtain ⟨lum, ps, l1, l2, -, l3⟩ := lnprob_points sort hsort ts sed out h (fun p hp => (hE p hp).1)
  rw [levelled_common ts _ hc] at l2
  have hlum : decide (LumLike u.dim) = lum := by
    rw [← l1 p0 hp0]
    split at hu0
    · rename_i hl
      rw [hl]
      simp only [List.mem_cons, List.not_mem_nil, or_false] at hu0
      rw [decide_eq_true_iff]; exact hu0
    · rename_i hl
      simp only [Bool.not_eq_true] at hl
      rw [hl, decide_eq_false_iff_not]
      simp only [List.mem_cons, List.not_mem_nil, or_false] at hu0
      rcases hu0 with hu0 | hu0 <;> rw [hu0] <;> decide
  rw [l3 (fun E => fin (if u.dim ∈ [Dim.flux, Dim.power] then E ^ 2 * F E else F E)) u hum,
    if_pos hlum, lnCore_perm (fin c) (pointPairs (unitIsSed u.dim)
      (fun E => fin (if u.dim ∈ [Dim.flux, Dim.power] then E ^ 2 * F E else F E)) ps)
      (pointPairs (unitIsSed u.dim)
      (fun E => fin (if u.dim ∈ [Dim.flux, Dim.power] then E ^ 2 * F E else F E))
      ((measurements ts).map fun p => (p, fin c))) (l2.map _) (by
        intro p hp
        unfold pointPairs at hp
        rw [List.mem_map] at hp
        obtain ⟨q, hq, rfl⟩ := hp
        obtain ⟨w, -, rfl⟩ := List.mem_map.1 (l2.mem_iff.1 hq)
        rfl)]
  have hvals : ∀ p ∈ measurements ts, fin (1 / eFac (unitIsSed u.dim) p.energy) *
      fin (if u.dim ∈ [Dim.flux, Dim.power] then p.energy ^ 2 * F p.energy else F p.energy) =
      fin (F p.energy) := by
    intro p hp
    have := (hE p hp).1
    rw [XR.mul_fin]
    congr 1
    unfold eFac unitIsSed
    by_cases hs : u.dim = Dim.power ∨ u.dim = Dim.flux
    · have hs' : u.dim ∈ [Dim.flux, Dim.power] := by simpa using hs.symm
      rw [if_pos hs']
      simp only [hs, decide_true, if_true]
      field_simp
    · have hs' : ¬ u.dim ∈ [Dim.flux, Dim.power] := by
        simp only [List.mem_cons, List.not_mem_nil, or_false]; tauto
      rw [if_neg hs']
      simp only [hs, decide_false, Bool.false_eq_true, if_false]
      simp
  have hfst : (pointPairs (unitIsSed u.dim)
      (fun E => fin (if u.dim ∈ [Dim.flux, Dim.power] then E ^ 2 * F E else F E))
      ((measurements ts).map fun p => (p, fin c))).map (·.1) = ((measurements ts).map fun p => F p.energy).map fin := by
    unfold pointPairs
    rw [List.map_map, List.map_map, List.map_map]
    apply List.map_congr_left
    intro p hp
    exact hvals p hp
  have hsnd : (pointPairs (unitIsSed u.dim)
      (fun E => fin (if u.dim ∈ [Dim.flux, Dim.power] then E ^ 2 * F E else F E))
      ((measurements ts).map fun p => (p, fin c))).map (·.2) = (measurements ts).map fun p => pointRow (p, fin c) := by
    unfold pointPairs
    rw [List.map_map, List.map_map]
    rfl
  rw [hfst, hsnd]
  have hz : ((measurements ts).map fun p => F p.energy).zip
      ((measurements ts).map fun p => pointRow (p, fin c)) =
      (measurements ts).map fun p => (F p.energy, pointRow (p, fin c)) := by
    rw [List.zip_map']
  rw [core_ul _ _ c hc1 (by simp) ?_ ?_ ?_ ?_]
  · unfold lnL
    rw [hz, List.map_map]
    rfl
  · intro r hr
    obtain ⟨p, hp, rfl⟩ := List.mem_map.1 hr
    exact (hE p hp).2.1
  · intro r hr
    obtain ⟨p, hp, rfl⟩ := List.mem_map.1 hr
    exact (hE p hp).2.2
  · intro r hr
    obtain ⟨p, hp, rfl⟩ := List.mem_map.1 hr
    rfl
  · have hl : ((measurements ts).map fun p => pointRow (p, fin c)).length = (((measurements ts).map fun p => F p.energy).zip
      ((measurements ts).map fun p => pointRow (p, fin c))).length := by simp
    rw [hl]
    apply List.length_filter_lt_length_iff_exists.2
    rw [hz]
    refine ⟨_, List.mem_map.2 ⟨p0, hp0, rfl⟩, ?_⟩
    rcases hv0 with hv0 | hv0
    · simp [pointRow, hv0]
    · simp [pointRow, not_lt.2 hv0]

/-- **C107 (joint fit).** Fitting two sets of tables together adds their log-likelihoods. -/
theorem C107_joint (sort : List Row → List Row) (hsort : IsEnergySort sort)
    (ts₁ ts₂ ts : List InTable) (sed₁ sed₂ sed : Option Bool) (out₁ out₂ out : VTable)
    (h₁ : validateDataTable sort ts₁ sed₁ = .ok out₁) (h₂ : validateDataTable sort ts₂ sed₂ = .ok out₂)
    (h : validateDataTable sort ts sed = .ok out)
    (hp : (measurements ts).Perm (measurements ts₁ ++ measurements ts₂))
    (c : ℝ) (hc1 : c < 1) (hc : ∀ t ∈ ts ++ ts₁ ++ ts₂, confidence t = fin c)
    (hE : ∀ p ∈ measurements ts, 0 < p.energy ∧ 0 < p.errLo ∧ 0 < p.errHi) (F : ℝ → ℝ)
    (hv₁ : ∃ p ∈ measurements ts₁, p.ul = false ∨ F p.energy ≤ p.flux)
    (hv₂ : ∃ p ∈ measurements ts₂, p.ul = false ∨ F p.energy ≤ p.flux)
    (u : PhysUnit) (hu : ∀ p ∈ measurements ts,
      if p.luminosity then u.dim ∈ [Dim.power, Dim.diffPower] else u.dim ∈ [Dim.flux, Dim.diffFlux]) :
    let model (d : VTable) : Spectrum := ⟨d.rows.map fun r =>
        fin (if u.dim ∈ [Dim.flux, Dim.power] then r.energy ^ 2 * F r.energy else F r.energy), u⟩
    ∃ x₁ x₂ : ℝ, lnprobmodel (model out₁) out₁ = .ok (fin x₁) ∧
      lnprobmodel (model out₂) out₂ = .ok (fin x₂) ∧
      lnprobmodel (model out) out = .ok (fin (x₁ + x₂)) := by
  have m1 : ∀ p ∈ measurements ts₁, p ∈ measurements ts := fun p hp' =>
    hp.mem_iff.2 (List.mem_append_left _ hp')
  have m2 : ∀ p ∈ measurements ts₂, p ∈ measurements ts := fun p hp' =>
    hp.mem_iff.2 (List.mem_append_right _ hp')
  have e1 := C107_value sort hsort ts₁ sed₁ out₁ h₁ c hc1 (fun t ht => hc t (by simp [ht]))
    (fun p hp => hE p (m1 p hp)) F hv₁ u (fun p hp => hu p (m1 p hp))
  have e2 := C107_value sort hsort ts₂ sed₂ out₂ h₂ c hc1 (fun t ht => hc t (by simp [ht]))
    (fun p hp => hE p (m2 p hp)) F hv₂ u (fun p hp => hu p (m2 p hp))
  have e := C107_value sort hsort ts sed out h c hc1 (fun t ht => hc t (by simp [ht]))
    hE F (by obtain ⟨p, a, b⟩ := hv₁; exact ⟨p, m1 p a, b⟩) u hu
  refine ⟨_, _, e1, e2, ?_⟩
  rw [e, (hp.map _).sum_eq, List.map_append, List.sum_append]

/-- **C107 (posterior).** So is the log-probability used by the sampler, for every prior and every model
function that evaluates a spectrum at the energies of the table. -/
theorem C107_posterior {P β : Type} (sort sort' : List Row → List Row) (hsort : IsEnergySort sort)
    (hsort' : IsEnergySort sort') (ts ts' : List InTable) (sed sed' : Option Bool)
    (out out' : VTable) (h : validateDataTable sort ts sed = .ok out)
    (h' : validateDataTable sort' ts' sed' = .ok out')
    (hp : (measurements ts).Perm (measurements ts')) (hne : measurements ts ≠ [])
    (hE : ∀ p ∈ measurements ts, 0 < p.energy) (c : XR) (hc : ∀ t ∈ ts ++ ts', confidence t = c)
    (g : P → ℝ → XR) (u : PhysUnit)
    (hu : u.dim ∈ [Dim.flux, Dim.diffFlux, Dim.power, Dim.diffPower])
    (modelfunc : P → VTable → Except PyErr (ModelOut β))
    (hm : ∀ pars d, modelfunc pars d = .ok (.array ⟨d.rows.map fun r => g pars r.energy, u⟩))
    (priorfunc : Option (P → Except PyErr XR)) (pars : P) :
    (lnprob pars out modelfunc priorfunc).map (·.1) =
      (lnprob pars out' modelfunc priorfunc).map (·.1) := by
  have e := C107_layout sort sort' hsort hsort' ts ts' sed sed' out out' h h' hp hne hE c hc (g pars) u hu
  unfold lnprob
  simp only [hm, bind, Except.bind, pure, Except.pure, splitOutput, totalLnprob, e]
  cases priorValue priorfunc pars with
  | error e => rfl
  | ok x =>
    simp only
    by_cases hi : isInf x = true
    · simp [hi, Except.map]
    · simp only [hi, if_false, Bool.false_eq_true]
      cases lnprobmodel ⟨out'.rows.map fun r => g pars r.energy, u⟩ out' <;> rfl

/-! non-vacuity: one differential table of two rows, and the same measurements as two SED tables in the
opposite order -/

/-- erg⁻¹ cm⁻² s⁻¹ -/
noncomputable def perErg : PhysUnit := ⟨1, Dim.diffFlux⟩

noncomputable def oneTable : InTable := {
  energyU := some PhysUnit.erg, fluxU := some perErg, fluxErrorU := some perErg, ulType := some .int,
  rows := [{ energy := 1, flux := 3, fluxError := 1 }, { energy := 2, flux := 5, fluxError := 2, ulInt := 1 }] }

noncomputable def sedTable (r : RawRow) : InTable := {
  energyU := some PhysUnit.erg, fluxU := some ergPerSCm2, fluxErrorU := some ergPerSCm2,
  ulType := some .int, rows := [r] }

example : ∃ sort out out', IsEnergySort sort ∧ validateDataTable sort [oneTable] none = .ok out ∧
    validateDataTable sort [sedTable { energy := 2, flux := 20, fluxError := 8, ulInt := 1 },
      sedTable { energy := 1, flux := 3, fluxError := 1 }] none = .ok out' ∧
    (measurements [oneTable]).Perm (measurements
      [sedTable { energy := 2, flux := 20, fluxError := 8, ulInt := 1 },
      sedTable { energy := 1, flux := 3, fluxError := 1 }]) ∧ measurements [oneTable] ≠ [] ∧
    (∀ p ∈ measurements [oneTable], 0 < p.energy ∧ 0 < p.errLo ∧ 0 < p.errHi ∧ p.luminosity = false) ∧
    (∀ t ∈ [oneTable, sedTable { energy := 2, flux := 20, fluxError := 8, ulInt := 1 },
      sedTable { energy := 1, flux := 3, fluxError := 1 }], confidence t = fin 0.9) := by
  obtain ⟨sort, hs⟩ := energySort_exists
  have v1 : Valid oneTable := by
    refine ⟨⟨_, rfl, rfl⟩, ⟨_, rfl, Or.inl (Or.inr rfl)⟩, Or.inl ⟨_, rfl, Or.inl (Or.inr rfl)⟩,
      Or.inr ⟨rfl, Or.inr ⟨rfl, Or.inr ⟨by simp [oneTable], Or.inr (by simp [oneTable])⟩⟩⟩,
      Or.inr (Or.inl rfl), by simp [oneTable], by simp [oneTable]⟩
  have v2 : ∀ r, Valid (sedTable r) := by
    intro r
    refine ⟨⟨_, rfl, rfl⟩, ⟨_, rfl, Or.inl (Or.inl rfl)⟩, Or.inl ⟨_, rfl, Or.inl (Or.inl rfl)⟩,
      Or.inr ⟨rfl, Or.inr ⟨rfl, Or.inr ⟨by simp [sedTable], Or.inr (by simp [sedTable])⟩⟩⟩,
      Or.inr (Or.inl rfl), by simp [sedTable], by simp [sedTable]⟩
  have m1 : ErrorsMatch oneTable := by
    intro u hu
    simp [oneTable] at hu ⊢
    rw [← hu]
  have m2 : ∀ r, ErrorsMatch (sedTable r) := by
    intro r u hu
    simp [sedTable] at hu ⊢
    rw [← hu]
  obtain ⟨out, ho⟩ := C34_accepts sort [oneTable] none (by simp) (by simpa using v1) (by simpa using m1)
    (Or.inl (by simpa using ⟨perErg, rfl, Or.inr rfl⟩))
  obtain ⟨out', ho'⟩ := C34_accepts sort [sedTable { energy := 2, flux := 20, fluxError := 8, ulInt := 1 },
      sedTable { energy := 1, flux := 3, fluxError := 1 }] none (by simp)
    (by simpa using ⟨v2 _, v2 _⟩) (by simpa using ⟨m2 _, m2 _⟩)
    (Or.inl (by simpa using ⟨⟨ergPerSCm2, rfl, Or.inl rfl⟩, ⟨ergPerSCm2, rfl, Or.inl rfl⟩⟩))
  have n1 : ¬ IsSed Dim.diffFlux := by decide
  have n2 : ¬ LumLike Dim.diffFlux := by decide
  have n3 : IsSed Dim.flux := by decide
  have n4 : ¬ LumLike Dim.flux := by decide
  have e1 : measurements [oneTable] = [⟨1, false, 3, 1, 1, false⟩, ⟨2, false, 5, 2, 2, true⟩] := by
    simp [measurements, measured, oneTable, phys, PhysUnit.erg, perErg, n1, n2, flag]
  have e2 : measurements [sedTable { energy := 2, flux := 20, fluxError := 8, ulInt := 1 },
      sedTable { energy := 1, flux := 3, fluxError := 1 }] =
      [⟨2, false, 5, 2, 2, true⟩, ⟨1, false, 3, 1, 1, false⟩] := by
    simp [measurements, measured, sedTable, phys, PhysUnit.erg, ergPerSCm2, n3, n4, flag]
    norm_num
  refine ⟨sort, out, out', hs, ho, ho', ?_, ?_, ?_, ?_⟩
  · rw [e1, e2]; exact List.Perm.swap _ _ _
  · rw [e1]; simp
  · rw [e1]; simp
  · simp [confidence, oneTable, sedTable]

/-! Two upper limits at one energy with different confidence levels -/

noncomputable def limitTable (flux : ℝ) (cl : ℝ) : InTable := {
  energyU := some PhysUnit.erg, fluxU := some ergPerSCm2, fluxErrorU := some ergPerSCm2,
  ulType := some .int, cl := some (.num (fin cl)),
  rows := [{ energy := 1, flux := flux, fluxError := 1, ulInt := 1 }] }

theorem limits_value (sort : List Row → List Row)
    (hstable : ∀ a b : Row, a.energy = b.energy → sort [a, b] = [a, b])
    (f₁ c₁ f₂ c₂ : ℝ) (hc₂ : c₂ < 1) :
    ∃ out, validateDataTable sort [limitTable f₁ c₁, limitTable f₂ c₂] none = .ok out ∧
      ∀ m : ℝ, ((f₁ < m ∧ ¬ f₂ < m) ∨ (¬ f₁ < m ∧ f₂ < m)) →
      lnprobmodel ⟨out.rows.map fun _ => fin m, ergPerSCm2⟩ out = .ok (fin (Real.log (1 - c₂))) := by
  have v2 : ∀ f c, Valid (limitTable f c) := by
    intro f c
    refine ⟨⟨_, rfl, rfl⟩, ⟨_, rfl, Or.inl (Or.inl rfl)⟩, Or.inl ⟨_, rfl, Or.inl (Or.inl rfl)⟩,
      Or.inr ⟨rfl, Or.inr ⟨rfl, Or.inr ⟨by simp [limitTable], Or.inr (by simp [limitTable])⟩⟩⟩,
      Or.inr (Or.inl rfl), by simp [limitTable], by simp [limitTable]⟩
  have m2 : ∀ f c, ErrorsMatch (limitTable f c) := by
    intro f c u hu
    simp [limitTable] at hu ⊢
    rw [← hu]
  obtain ⟨out, ho⟩ := C34_accepts sort [limitTable f₁ c₁, limitTable f₂ c₂] none (by simp)
    (by simpa using ⟨v2 _ _, v2 _ _⟩) (by simpa using ⟨m2 _ _, m2 _ _⟩)
    (Or.inl (by simpa using ⟨⟨ergPerSCm2, rfl, Or.inl rfl⟩, ⟨ergPerSCm2, rfl, Or.inl rfl⟩⟩))
  refine ⟨out, ho, ?_⟩
  obtain ⟨t0, rest, u0, b, cs, s, hts, h1, h2, h3, h4, h5, h6, -⟩ := validate_ok sort _ none out ho
  simp only [List.cons.injEq] at hts
  obtain ⟨rfl, rfl⟩ := hts
  simp only [limitTable, Option.some.injEq] at h1
  subst h1
  have hb : b = true := by rw [h3]; simp [IsSed, ergPerSCm2]
  subst hb
  have hfu : out.fluxU = ergPerSCm2 := by
    simp [sedConversion, ergPerSCm2, Dim.flux, Dim.diffFlux, Dim.power, Dim.diffPower, Dim.energy,
      Dim.diffEnergy, Dim.diffNumDensity] at h6
    rw [← h6.1]; rfl
  match cs, h4 with
  | [x, y], ⟨⟨es, _, e2, e3⟩, ⟨⟨es', _, e2', e3'⟩, _⟩⟩ =>
    obtain ⟨e, rfl⟩ : ∃ e, es = [e] := List.length_eq_one_iff.1 (by simpa [limitTable] using e2)
    obtain ⟨e', rfl⟩ : ∃ e, es' = [e] := List.length_eq_one_iff.1 (by simpa [limitTable] using e2')
    have n3 : IsSed Dim.flux := by decide
    simp [limitTable, Spec.row, phys, PhysUnit.erg, ergPerSCm2, flag, factor, n3] at e3 e3'
    subst e3 e3'
    simp only [List.flatten_cons, List.flatten_nil, List.append_nil, List.cons_append,
      List.nil_append] at h5
    rw [hstable _ _ (by rfl)] at h5
    intro m hm
    rw [lnprobmodel_eq]
    simp only [toDataKind, hfu, ne_eq, not_true_eq_false, if_false, if_true, h5, List.map_cons,
      List.map_nil, lnCore, List.length_cons, List.length_nil, List.zip_cons_cons,
      List.zip_nil_right]
    have hcount : violatedCount [(fin m, (⟨1, f₁, 1, 1, 0, e.1, e.2, true, fin c₁⟩ : Row)),
        (fin m, ⟨1, f₂, 1, 1, 1, e'.1, e'.2, true, fin c₂⟩)] = 1 := by
      rcases hm with ⟨a, b⟩ | ⟨a, b⟩ <;> simp [violatedCount, a, b]
    simp [hcount, XR.log_fin, hc₂, XR.mul_fin]

/-- **C107 fails for ties with different confidence levels.** Two upper limits at the same energy from
tables with confidence levels 0.5 and 0.9, one of them violated: the likelihood depends on which table
is listed first (for every sort that keeps the order of two equal energies, such as numpy's for small
tables). -/
theorem C107_false_ties (sort : List Row → List Row)
    (hstable : ∀ a b : Row, a.energy = b.energy → sort [a, b] = [a, b]) :
    ∃ t₁ t₂ out out', validateDataTable sort [t₁, t₂] none = .ok out ∧
      validateDataTable sort [t₂, t₁] none = .ok out' ∧ (levelled [t₁, t₂]).Perm (levelled [t₂, t₁]) ∧
      lnprobmodel ⟨out.rows.map fun _ => fin 2, ergPerSCm2⟩ out ≠
        lnprobmodel ⟨out'.rows.map fun _ => fin 2, ergPerSCm2⟩ out' := by
  obtain ⟨out, h1, h2⟩ := limits_value sort hstable 1 0.5 3 0.9 (by norm_num)
  obtain ⟨out', h1', h2'⟩ := limits_value sort hstable 3 0.9 1 0.5 (by norm_num)
  refine ⟨_, _, out, out', h1, h1', ?_, ?_⟩
  · simp only [levelled, List.flatMap_cons, List.flatMap_nil, List.append_nil]
    exact List.perm_append_comm
  · rw [h2 2 (Or.inl ⟨by norm_num, by norm_num⟩), h2' 2 (Or.inr ⟨by norm_num, by norm_num⟩)]
    intro h
    simp only [Except.ok.injEq, XR.fin.injEq] at h
    have := Real.log_injOn_pos (by norm_num) (by norm_num) h
    norm_num at this

/-- such a sort -/
example : ∃ sort, IsEnergySort sort ∧
    ∀ a b : Row, a.energy = b.energy → sort [a, b] = [a, b] := by
  classical
  refine ⟨fun l => l.insertionSort (fun a b => a.energy ≤ b.energy), fun l =>
    ⟨List.perm_insertionSort _ _, ?_⟩, fun a b h => ?_⟩
  · have : Std.Total (fun a b : Row => a.energy ≤ b.energy) := ⟨fun a b => le_total _ _⟩
    have : IsTrans Row (fun a b : Row => a.energy ≤ b.energy) := ⟨fun a b c => le_trans⟩
    exact List.pairwise_insertionSort _ _
  · simp [h.le]

end Naima.Props
