import Verif.Proof.TableModel

/-!
# C25: TableModel interpolates its table and is zero outside it

`Interp` is scipy's spline; `Spec.CubicSpline` lists what is assumed of it, and
`C25_spline_exists` shows that the assumptions can be met.
-/

namespace Naima

open XR Classical Spec

noncomputable section

/-- `TableModel(energy * unit, values * vunit, amplitude)` for a table given by its rows
`(energy, value)`. -/
def tableOf (T : List (ℝ × XR)) (u : PhysUnit) (vunit : Option PhysUnit) (amp : XR) :
    Except PyErr TableModel :=
  TableModel.init (.qarr [T.length] (T.map (fun r => fin r.1)) u) (T.map (·.2)) vunit amp

/-- rows with finite values -/
def finRows (T : List (ℝ × ℝ)) : List (ℝ × XR) := T.map (fun r => (r.1, fin r.2))

/-- A table a user would build: at least four rows, positive distinct energies in an energy unit,
positive values. -/
structure GoodTable (T : List (ℝ × ℝ)) (u : PhysUnit) : Prop where
  isEnergy : u.dim = Dim.energy
  proper : 0 < u.scale
  rows : 4 ≤ T.length
  posE : ∀ r ∈ T, 0 < r.1
  posV : ∀ r ∈ T, 0 < r.2
  distinct : (T.map (·.1)).Nodup

/-- the nodes of a good table -/
theorem goodTable_nodes {T : List (ℝ × ℝ)} {u : PhysUnit} (h : GoodTable T u)
    (vunit : Option PhysUnit) (amp : XR) :
    ∃ pts : List (ℝ × ℝ), pts.Perm (T.map (fun r => (logEV (r.1 * u.scale), Real.logb 10 r.2))) ∧
      pts.Pairwise (fun a b => a.1 < b.1) ∧ 4 ≤ pts.length ∧
      tableOf (finRows T) u vunit amp = .ok ⟨amp, asNodes pts, vunit.getD unitOne⟩ := by
  have hpos : ∀ r ∈ finRows T, 0 < r.1 := by
    intro r hr
    obtain ⟨q, hq, rfl⟩ := List.mem_map.1 hr
    exact h.posE q hq
  have hd : ((finRows T).map (·.1)).Nodup := by
    have : (finRows T).map (·.1) = T.map (·.1) := by simp [finRows]
    rw [this]; exact h.distinct
  have hlog : logPts u.scale (finRows T) =
      (T.map (fun r => (logEV (r.1 * u.scale), Real.logb 10 r.2))).map
        (fun p => (p.1, fin p.2)) := by
    unfold logPts finRows
    rw [List.map_map, List.map_map]
    refine List.map_congr_left (fun r hr => ?_)
    simp [log10_fin _ (h.posV r hr)]
  have hd2 : ((T.map (fun r => (logEV (r.1 * u.scale), Real.logb 10 r.2))).map (·.1)).Nodup := by
    have h1 := (logPts_nodup u.scale h.proper (finRows T) hpos).2 hd
    rw [hlog] at h1
    simpa [Function.comp_def] using h1
  obtain ⟨pts, hp, hs, he⟩ := sortPts_real _ hd2
  refine ⟨pts, hp, hs, ?_, ?_⟩
  · rw [hp.length_eq]; simpa using h.rows
  · unfold tableOf
    rw [tableInit_eq _ _ h.proper hpos, if_pos h.isEnergy, if_neg, hlog, he, asNodes_eq]
    push Not
    refine ⟨by simpa [finRows] using h.rows, hd⟩

theorem goodTable_eval {T : List (ℝ × ℝ)} {u : PhysUnit}
    (vunit : Option PhysUnit) (amp : XR) {m : TableModel}
    (pts : List (ℝ × ℝ))
    (hp : pts.Perm (T.map (fun r => (logEV (r.1 * u.scale), Real.logb 10 r.2))))
    (hs : pts.Pairwise (fun a b => a.1 < b.1))
    (hm : m = ⟨amp, asNodes pts, vunit.getD unitOne⟩)
    (I : Interp) (e : Qty ℝ) (he : e.PosEnergy) (hpos : ∀ r ∈ T, 0 < r.1) (hu : 0 < u.scale)
    (hlo : ∃ r ∈ T, r.1 * u.scale ≤ e.phys) (hhi : ∃ r ∈ T, e.phys ≤ r.1 * u.scale) :
    Within pts (logEV e.phys) ∧
    m.call I e.lift = .ok ⟨amp * pow (fin 10) (I (asNodes pts) (fin (logEV e.phys))),
      vunit.getD unitOne⟩ := by
  have hW : Within pts (logEV e.phys) := by
    constructor
    · obtain ⟨r, hr, h1⟩ := hlo
      refine ⟨_, hp.mem_iff.2 (List.mem_map.2 ⟨r, hr, rfl⟩), ?_⟩
      exact (logEV_le_iff (mul_pos (hpos r hr) hu) he.phys_pos).2 h1
    · obtain ⟨r, hr, h1⟩ := hhi
      refine ⟨_, hp.mem_iff.2 (List.mem_map.2 ⟨r, hr, rfl⟩), ?_⟩
      exact (logEV_le_iff he.phys_pos (mul_pos (hpos r hr) hu)).2 h1
  refine ⟨hW, ?_⟩
  rw [tableCall_eq I m e he, hm]
  simp only
  rw [asNodes_eq, interpEval_inside I _ _ _ _ _ _]
  · rw [List.pairwise_map]; exact hs.imp (fun h => h.le)
  · intro p hpm
    obtain ⟨q, _, rfl⟩ := List.mem_map.1 hpm
    simp [IsNaN]
  · obtain ⟨p, h1, h2⟩ := hW.1
    exact ⟨(p.1, fin p.2), List.mem_map.2 ⟨p, h1, rfl⟩, h2⟩
  · obtain ⟨p, h1, h2⟩ := hW.2
    exact ⟨(p.1, fin p.2), List.mem_map.2 ⟨p, h1, rfl⟩, h2⟩

/-- At every tabulated energy, asked for in any energy unit, the model returns the amplitude times
the tabulated value, in the unit of the values. -/
theorem C25_nodes (I : Interp) (hI : CubicSpline I) (T : List (ℝ × ℝ)) (u : PhysUnit)
    (h : GoodTable T u) (vunit : Option PhysUnit) (amp : XR) :
    ∃ m, tableOf (finRows T) u vunit amp = .ok m ∧
      ∀ r ∈ T, ∀ e : Qty ℝ, e.PosEnergy → e.phys = r.1 * u.scale →
        m.call I e.lift = .ok ⟨amp * fin r.2, vunit.getD unitOne⟩ := by
  obtain ⟨pts, hp, hs, h4, hm⟩ := goodTable_nodes h vunit amp
  refine ⟨_, hm, fun r hr e he hee => ?_⟩
  obtain ⟨_, hc⟩ := goodTable_eval vunit amp pts hp hs rfl I e he h.posE h.proper
    ⟨r, hr, hee.ge⟩ ⟨r, hr, hee.le⟩
  rw [hc]
  have := hI.node pts h4 hs (logEV (r.1 * u.scale), Real.logb 10 r.2)
    (hp.mem_iff.2 (List.mem_map.2 ⟨r, hr, rfl⟩))
  rw [hee, this, pow_fin _ _ (by norm_num : (0 : ℝ) < 10),
    Real.rpow_logb (by norm_num) (by norm_num) (h.posV r hr)]

/-- Between the lowest and the highest tabulated energy the model is positive (finite) for a
positive amplitude. -/
theorem C25_inside_positive (I : Interp) (hI : CubicSpline I) (T : List (ℝ × ℝ)) (u : PhysUnit)
    (h : GoodTable T u) (vunit : Option PhysUnit) (A : ℝ) (hA : 0 < A) :
    ∃ m, tableOf (finRows T) u vunit (fin A) = .ok m ∧
      ∀ e : Qty ℝ, e.PosEnergy → (∃ r ∈ T, r.1 * u.scale ≤ e.phys) →
        (∃ r ∈ T, e.phys ≤ r.1 * u.scale) →
        ∃ v : ℝ, 0 < v ∧ m.call I e.lift = .ok ⟨fin v, vunit.getD unitOne⟩ := by
  obtain ⟨pts, hp, hs, h4, hm⟩ := goodTable_nodes h vunit (fin A)
  refine ⟨_, hm, fun e he hlo hhi => ?_⟩
  obtain ⟨hW, hc⟩ := goodTable_eval vunit (fin A) pts hp hs rfl I e he h.posE h.proper hlo hhi
  obtain ⟨y, hy⟩ := hI.finite pts h4 hs _ hW
  refine ⟨A * 10 ^ y, mul_pos hA (Real.rpow_pos_of_pos (by norm_num) _), ?_⟩
  rw [hc, hy, pow_fin _ _ (by norm_num : (0 : ℝ) < 10), mul_fin]

/-- A table sampled from a power law `K (E / 1 eV)^(-a)` reproduces that power law at every energy
within the table. -/
theorem C25_power_law (I : Interp) (hI : CubicSpline I) (T : List (ℝ × ℝ)) (u : PhysUnit)
    (h : GoodTable T u) (K a : ℝ) (hK : 0 < K)
    (hT : ∀ r ∈ T, r.2 = K * (r.1 * u.scale / PhysUnit.eV.scale) ^ (-a))
    (vunit : Option PhysUnit) (amp : XR) :
    ∃ m, tableOf (finRows T) u vunit amp = .ok m ∧
      ∀ e : Qty ℝ, e.PosEnergy → (∃ r ∈ T, r.1 * u.scale ≤ e.phys) →
        (∃ r ∈ T, e.phys ≤ r.1 * u.scale) →
        m.call I e.lift =
          .ok ⟨amp * fin (K * (e.phys / PhysUnit.eV.scale) ^ (-a)), vunit.getD unitOne⟩ := by
  obtain ⟨pts, hp, hs, h4, hm⟩ := goodTable_nodes h vunit amp
  refine ⟨_, hm, fun e he hlo hhi => ?_⟩
  obtain ⟨hW, hc⟩ := goodTable_eval vunit amp pts hp hs rfl I e he h.posE h.proper hlo hhi
  have hlog : ∀ x : ℝ, 0 < x → Real.logb 10 (K * x ^ (-a)) =
      Real.logb 10 K + (-a) * Real.logb 10 x := by
    intro x hx
    rw [Real.logb_mul hK.ne' (Real.rpow_pos_of_pos hx _).ne', Real.logb_rpow_eq_mul_logb_of_pos hx]
  have hcub := hI.cubic pts h4 hs (Real.logb 10 K) (-a) 0 0 (by
    intro p hpm
    obtain ⟨r, hr, rfl⟩ := List.mem_map.1 (hp.mem_iff.1 hpm)
    simp only [hT r hr]
    rw [hlog _ (div_pos (mul_pos (h.posE r hr) h.proper) eV_pos)]
    unfold logEV
    ring) _ hW
  rw [hc, hcub, pow_fin _ _ (by norm_num : (0 : ℝ) < 10)]
  have hx : 0 < e.phys / PhysUnit.eV.scale := div_pos he.phys_pos eV_pos
  have : Real.logb 10 K + -a * logEV e.phys + 0 * logEV e.phys ^ 2 + 0 * logEV e.phys ^ 3 =
      Real.logb 10 (K * (e.phys / PhysUnit.eV.scale) ^ (-a)) := by
    rw [hlog _ hx]; unfold logEV; ring
  rw [this, Real.rpow_logb (by norm_num) (by norm_num)
    (mul_pos hK (Real.rpow_pos_of_pos hx _))]

/-- Outside the tabulated energies the model is exactly zero, whatever the spline and whatever the
(finite, zero, negative or special) tabulated values. -/
theorem C25_outside_zero (I : Interp) (T : List (ℝ × XR)) (u : PhysUnit) (hu : 0 < u.scale)
    (hpos : ∀ r ∈ T, 0 < r.1) (vunit : Option PhysUnit) (A : ℝ) (m : TableModel)
    (hm : tableOf T u vunit (fin A) = .ok m) (e : Qty ℝ) (he : e.PosEnergy)
    (hout : (∀ r ∈ T, e.phys < r.1 * u.scale) ∨ (∀ r ∈ T, r.1 * u.scale < e.phys)) :
    m.call I e.lift = .ok ⟨fin 0, vunit.getD unitOne⟩ := by
  unfold tableOf at hm
  rw [tableInit_eq _ _ hu hpos] at hm
  split_ifs at hm with h1 h2
  push Not at h2
  injection hm with hm
  subst hm
  rw [tableCall_eq I _ e he]
  simp only
  have hperm := sortPts_perm (logPts u.scale T)
  rw [interpEval_outside I _ _ _ _]
  · have : pow (fin 10) ninf = fin 0 := by
      unfold pow; norm_num
    rw [this, mul_fin, mul_zero]
  · intro h0
    have := hperm.length_eq
    rw [h0] at this
    simp [logPts] at this
    have h4 := h2.1
    rw [← this] at h4
    norm_num at h4
  · rcases hout with h | h
    · left
      intro p hp
      obtain ⟨r, hr, rfl⟩ := List.mem_map.1 (hperm.mem_iff.1 hp)
      exact logEV_lt he.phys_pos (h r hr)
    · right
      intro p hp
      obtain ⟨r, hr, rfl⟩ := List.mem_map.1 (hperm.mem_iff.1 hp)
      exact logEV_lt (mul_pos (hpos r hr) hu) (h r hr)

/-- The unit the energies are given in does not matter: tables listing the same energies in other
units give the same model, and asking for the same energy in other units the same answer. -/
theorem C25_units (I : Interp) (T T' : List (ℝ × XR)) (u u' : PhysUnit) (hu : 0 < u.scale)
    (hu' : 0 < u'.scale) (hd : u.dim = Dim.energy) (hd' : u'.dim = Dim.energy)
    (hpos : ∀ r ∈ T, 0 < r.1)
    (hT : T'.map (fun r => (r.1 * u'.scale, r.2)) = T.map (fun r => (r.1 * u.scale, r.2)))
    (vunit : Option PhysUnit) (amp : XR) :
    tableOf T' u' vunit amp = tableOf T u vunit amp ∧
      ∀ m : TableModel, ∀ e e' : Qty ℝ, e.PosEnergy → e'.PosEnergy → e'.phys = e.phys →
        m.call I e'.lift = m.call I e.lift := by
  constructor
  · have hpos' : ∀ r ∈ T', 0 < r.1 := by
      intro r hr
      have : (r.1 * u'.scale, r.2) ∈ T.map (fun r => (r.1 * u.scale, r.2)) := by
        rw [← hT]; exact List.mem_map.2 ⟨r, hr, rfl⟩
      obtain ⟨q, hq, h⟩ := List.mem_map.1 this
      have h1 : q.1 * u.scale = r.1 * u'.scale := congrArg Prod.fst h
      have : 0 < r.1 * u'.scale := h1 ▸ mul_pos (hpos q hq) hu
      exact (pos_iff_pos_of_mul_pos this).2 hu'
    have hl : T'.length = T.length := by simpa using congrArg List.length hT
    have hlog : logPts u'.scale T' = logPts u.scale T := by
      have : ∀ (s : ℝ) (L : List (ℝ × XR)), logPts s L =
          (L.map (fun r => (r.1 * s, r.2))).map (fun r => (logEV r.1, log10 r.2)) := by
        intro s L; simp [logPts]
      rw [this, this, hT]
    have hnd : (T'.map (·.1)).Nodup ↔ (T.map (·.1)).Nodup := by
      rw [← logPts_nodup _ hu' T' hpos', ← logPts_nodup _ hu T hpos, hlog]
    unfold tableOf
    rw [tableInit_eq _ _ hu' hpos', tableInit_eq _ _ hu hpos, if_pos hd, if_pos hd', hl, hlog]
    by_cases hc : T.length < 4 ∨ ¬ (T.map (·.1)).Nodup
    · rw [if_pos hc, if_pos (by rw [hnd]; exact hc)]
    · rw [if_neg hc, if_neg (by rw [hnd]; exact hc)]
  · intro m e e' he he' h
    rw [tableCall_eq I m e he, tableCall_eq I m e' he', h]

/-- The order in which the rows are listed does not matter. -/
theorem C25_row_order (T T' : List (ℝ × XR)) (u : PhysUnit) (hu : 0 < u.scale)
    (hpos : ∀ r ∈ T, 0 < r.1) (hp : T'.Perm T) (vunit : Option PhysUnit) (amp : XR) :
    tableOf T' u vunit amp = tableOf T u vunit amp := by
  have hpos' : ∀ r ∈ T', 0 < r.1 := fun r hr => hpos r (hp.mem_iff.1 hr)
  have hnd : (T'.map (·.1)).Nodup ↔ (T.map (·.1)).Nodup := (hp.map _).nodup_iff
  unfold tableOf
  rw [tableInit_eq _ _ hu hpos', tableInit_eq _ _ hu hpos, hp.length_eq]
  by_cases hdim : u.dim = Dim.energy
  swap
  · rw [if_neg hdim, if_neg hdim]
  rw [if_pos hdim, if_pos hdim]
  by_cases hc : T.length < 4 ∨ ¬ (T.map (·.1)).Nodup
  · rw [if_pos hc, if_pos (by rw [hnd]; exact hc)]
  · rw [if_neg hc, if_neg (by rw [hnd]; exact hc)]
    push Not at hc
    have h1 : sortPts (logPts u.scale T') = sortPts (logPts u.scale T) := by
      have hpl : (sortPts (logPts u.scale T')).Perm (sortPts (logPts u.scale T)) :=
        (sortPts_perm _).trans ((hp.map _).trans (sortPts_perm _).symm)
      refine hpl.eq_of_pairwise ?_ (sortPts_lt _ ((logPts_nodup _ hu _ hpos').2 (hnd.2 hc.2)))
        (sortPts_lt _ ((logPts_nodup _ hu _ hpos).2 hc.2))
      intro a b _ _ h1 h2
      exact absurd h1 (not_lt.2 h2.le)
    rw [h1]

/-- A table of positive energies is accepted exactly if the energies are energies, there are at
least four rows and no energy is repeated; the error raised otherwise. -/
theorem C25_accepts (T : List (ℝ × XR)) (u : PhysUnit) (hu : 0 < u.scale)
    (hpos : ∀ r ∈ T, 0 < r.1) (vunit : Option PhysUnit) (amp : XR) :
    ((∃ m, tableOf T u vunit amp = .ok m) ↔
      u.dim = Dim.energy ∧ 4 ≤ T.length ∧ (T.map (·.1)).Nodup) ∧
    (u.dim ≠ Dim.energy → tableOf T u vunit amp = .error .typeError) ∧
    (u.dim = Dim.energy → ¬ (4 ≤ T.length ∧ (T.map (·.1)).Nodup) →
      tableOf T u vunit amp = .error .valueError) := by
  unfold tableOf
  rw [tableInit_eq _ _ hu hpos]
  refine ⟨?_, ?_, ?_⟩
  · constructor
    · rintro ⟨m, hm⟩
      split_ifs at hm with h1 h2
      push Not at h2
      exact ⟨h1, h2⟩
    · rintro ⟨h1, h2, h3⟩
      rw [if_pos h1, if_neg (by push Not; exact ⟨h2, h3⟩)]
      exact ⟨_, rfl⟩
  · intro h; rw [if_neg h]
  · intro h h'
    rw [if_pos h, if_pos]
    by_contra hc
    push Not at hc
    exact h' hc

/-- A values array of another length is a ValueError. -/
theorem C25_length_mismatch (es vs : List XR) (u : PhysUnit) (hd : u.dim = Dim.energy)
    (hl : es.length ≠ vs.length) (vunit : Option PhysUnit) (amp : XR) :
    TableModel.init (.qarr [es.length] es u) vs vunit amp = .error .valueError := by
  unfold TableModel.init
  have hv : validateArray (.qarr [es.length] es u) .positive 1 none
      (some [Dim.energy]) = .ok (.qarr [es.length] es u) := by
    simp [validateArray, validatePhysicalType, hd, bind, Except.bind, pure, Except.pure]
  rw [hv]
  simp [interp1d, hl]

/-- The property fails for tables with a value that is not positive: one negative value makes the
model NaN at every energy within the table, including the other tabulated energies. -/
theorem C25_false_negative_value (I : Interp) (T : List (ℝ × XR)) (u : PhysUnit)
    (hu : 0 < u.scale) (hpos : ∀ r ∈ T, 0 < r.1)
    (hneg : ∃ r ∈ T, ∃ v : ℝ, v < 0 ∧ r.2 = fin v) (vunit : Option PhysUnit) (amp : XR)
    (m : TableModel) (hm : tableOf T u vunit amp = .ok m) (e : Qty ℝ) (he : e.PosEnergy)
    (hlo : ∃ r ∈ T, r.1 * u.scale ≤ e.phys) (hhi : ∃ r ∈ T, e.phys ≤ r.1 * u.scale) :
    m.call I e.lift = .ok ⟨nan, vunit.getD unitOne⟩ := by
  unfold tableOf at hm
  rw [tableInit_eq _ _ hu hpos] at hm
  split_ifs at hm with h1 h2
  push Not at h2
  injection hm with hm
  subst hm
  rw [tableCall_eq I _ e he]
  simp only
  have hperm := sortPts_perm (logPts u.scale T)
  have hev : interpEval I (xNodes (sortPts (logPts u.scale T))) (fin (logEV e.phys)) = nan := by
    -- the same evaluation with a spline that is constantly NaN
    have hin : ∀ J : Interp, interpEval J (xNodes (sortPts (logPts u.scale T)))
        (fin (logEV e.phys)) = nan := by
      intro J
      unfold interpEval
      have hs := sortPts_le (logPts u.scale T)
      rw [if_neg, if_neg, if_pos]
      · obtain ⟨r, hr, v, hv, hrv⟩ := hneg
        refine ⟨(fin (logEV (r.1 * u.scale)), log10 r.2), List.mem_map.2
          ⟨(logEV (r.1 * u.scale), log10 r.2), hperm.mem_iff.2 (List.mem_map.2 ⟨r, hr, rfl⟩), rfl⟩,
          Or.inr ?_⟩
        simp [hrv, log10, hv, IsNaN]
      · rintro ⟨p, hp, h⟩
        obtain ⟨q, hq, rfl⟩ := xNodes_last _ _ hp
        obtain ⟨r, hr, hle⟩ := hhi
        have hm' := hperm.mem_iff.2 (List.mem_map.2 ⟨r, hr, rfl⟩ :
          (logEV (r.1 * u.scale), log10 r.2) ∈ logPts u.scale T)
        rw [List.getLast?_eq_some_iff] at hq
        obtain ⟨l, hl⟩ := hq
        rw [hl] at hm' hs
        have h3 : logEV (r.1 * u.scale) ≤ q.1 := by
          rcases List.mem_append.1 hm' with hh | hh
          · exact (List.pairwise_append.1 hs).2.2 _ hh q (by simp)
          · simp at hh; rw [← hh]
        have h4 := (logEV_le_iff he.phys_pos (mul_pos (hpos r hr) hu)).2 hle
        exact absurd ((lt_fin _ _).1 h) (not_lt.2 (h4.trans h3))
      · rintro ⟨p, hp, h⟩
        obtain ⟨q, hq, rfl⟩ := xNodes_head _ _ hp
        obtain ⟨r, hr, hle⟩ := hlo
        have hm' := hperm.mem_iff.2 (List.mem_map.2 ⟨r, hr, rfl⟩ :
          (logEV (r.1 * u.scale), log10 r.2) ∈ logPts u.scale T)
        rw [List.head?_eq_some_iff] at hq
        obtain ⟨l, hl⟩ := hq
        rw [hl] at hm' hs
        have h3 : q.1 ≤ logEV (r.1 * u.scale) := by
          rcases List.mem_cons.1 hm' with hh | hh
          · rw [← hh]
          · exact (List.pairwise_cons.1 hs).1 _ hh
        have h4 := (logEV_le_iff (mul_pos (hpos r hr) hu) he.phys_pos).2 hle
        exact absurd ((lt_fin _ _).1 h) (not_lt.2 (h3.trans h4))
    exact hin I
  rw [hev]
  have : pow (fin 10) nan = nan := by unfold pow; norm_num
  rw [this]
  cases amp <;> rfl

/-- Negative energies are let through by the constructor, whose `domain="positive"` is ignored: a table with a negative
energy and two different positive ones (none zero, at least four rows) is accepted, and the model is zero below the
positive energies and NaN from the lowest of them on, at tabulated energies and above the table as well. -/
theorem C25_false_negative_energy (I : Interp) (T : List (ℝ × XR)) (u : PhysUnit) (hd : u.dim = Dim.energy)
    (hu : 0 < u.scale) (h0 : ∀ r ∈ T, r.1 ≠ 0) (h4 : 4 ≤ T.length) (hneg : ∃ r ∈ T, r.1 < 0)
    (hpos : ∃ r ∈ T, ∃ q ∈ T, 0 < r.1 ∧ r.1 < q.1) (vunit : Option PhysUnit) (A : ℝ) :
    ∃ m, tableOf T u vunit (fin A) = .ok m ∧ ∀ e : Qty ℝ, e.PosEnergy →
      ((∀ r ∈ T, 0 < r.1 → e.phys < r.1 * u.scale) → m.call I e.lift = .ok ⟨fin 0, vunit.getD unitOne⟩) ∧
      ((∃ r ∈ T, 0 < r.1 ∧ r.1 * u.scale ≤ e.phys) → m.call I e.lift = .ok ⟨nan, vunit.getD unitOne⟩) := by
  set x := T.map (fun r => log10 (fin r.1 * fin (u.scale / PhysUnit.eV.scale))) with hx
  have hlogp : ∀ r : ℝ × XR, 0 < r.1 → log10 (fin r.1 * fin (u.scale / PhysUnit.eV.scale)) =
      fin (logEV (r.1 * u.scale)) := fun r hr => log10_energy _ _ hr hu
  have hlogn : ∀ r : ℝ × XR, r.1 < 0 → log10 (fin r.1 * fin (u.scale / PhysUnit.eV.scale)) = nan := by
    intro r hr
    have : r.1 * (u.scale / PhysUnit.eV.scale) < 0 := mul_neg_of_neg_of_pos hr (div_pos hu eV_pos)
    rw [mul_fin]
    simp [log10, this]
  have hcase : ∀ a ∈ x, a = nan ∨ ∃ r ∈ T, 0 < r.1 ∧ a = fin (logEV (r.1 * u.scale)) := by
    intro a ha
    obtain ⟨r, hr, rfl⟩ := List.mem_map.1 ha
    rcases lt_or_gt_of_ne (h0 r hr) with h | h
    · exact Or.inl (hlogn r h)
    · exact Or.inr ⟨r, hr, h, hlogp r h⟩
  set nodes := (x.zip ((T.map (·.2)).map log10)).mergeSort (fun a b => decide (npLE a.1 b.1)) with hnodes
  have hperm : nodes.Perm (x.zip ((T.map (·.2)).map log10)) := List.mergeSort_perm _ _
  have hsort : nodes.Pairwise (fun a b => npLE a.1 b.1) := by
    have := List.pairwise_mergeSort (le := fun a b : XR × XR => decide (npLE a.1 b.1))
      (fun a b c h h' => by simpa using npLE_trans _ _ _ (by simpa using h) (by simpa using h'))
      (fun a b => by simpa using npLE_total a.1 b.1) (x.zip ((T.map (·.2)).map log10))
    exact this.imp (by simp)
  have hzip : x.zip ((T.map (·.2)).map log10) =
      T.map (fun r => (log10 (fin r.1 * fin (u.scale / PhysUnit.eV.scale)), log10 r.2)) := by
    rw [hx, List.map_map, List.zip_map']; rfl
  have hmem : ∀ r ∈ T, (log10 (fin r.1 * fin (u.scale / PhysUnit.eV.scale)), log10 r.2) ∈ nodes := by
    intro r hr
    rw [hperm.mem_iff, hzip]
    exact List.mem_map.2 ⟨r, hr, rfl⟩
  have hfst : ∀ p ∈ nodes, p.1 ∈ x := by
    intro p hp
    rw [hperm.mem_iff, hzip] at hp
    obtain ⟨r, hr, rfl⟩ := List.mem_map.1 hp
    exact List.mem_map.2 ⟨r, hr, rfl⟩
  obtain ⟨rn, hrn, hrneg⟩ := hneg
  obtain ⟨r1, hr1, r2, hr2, hr0, hr12⟩ := hpos
  have hxn : ∃ a ∈ x, a.IsNaN := ⟨nan, by rw [← hlogn rn hrneg]; exact List.mem_map.2 ⟨rn, hrn, rfl⟩, trivial⟩
  have hok : tableOf T u vunit (fin A) = .ok ⟨fin A, nodes, vunit.getD unitOne⟩ := by
    unfold tableOf TableModel.init
    have hv : validateArray (.qarr [T.length] (T.map (fun r => fin r.1)) u) .positive 1 none
        (some [Dim.energy]) = .ok (.qarr [T.length] (T.map (fun r => fin r.1)) u) := by
      simp [validateArray, validatePhysicalType, hd, bind, Except.bind, pure, Except.pure]
    rw [hv]
    have hmap : (T.map (fun r => fin r.1)).map (fun e => log10 (e * fin (u.scale / PhysUnit.eV.scale))) = x := by
      rw [hx, List.map_map]; rfl
    simp only [hmap]
    have hi : interp1d x ((T.map (·.2)).map log10) = .ok nodes := by
      unfold interp1d
      rw [if_neg (by simp [hx]), if_neg (by simp only [hx, List.length_map]; omega)]
      simp only []
      rw [if_neg, if_neg]
      · rintro ⟨-, h⟩
        have := h (fin (logEV (r1.1 * u.scale))) (by rw [← hlogp r1 hr0]; exact List.mem_map.2 ⟨r1, hr1, rfl⟩)
          (fin (logEV (r2.1 * u.scale))) (by rw [← hlogp r2 (hr0.trans hr12)]; exact List.mem_map.2 ⟨r2, hr2, rfl⟩)
          (by simp [IsNaN]) (by simp [IsNaN])
        rw [eqv_fin] at this
        exact (logEV_lt (mul_pos hr0 hu) (mul_lt_mul_of_pos_right hr12 hu)).ne this
      · rintro ⟨h, -⟩
        obtain ⟨a, ha, hn⟩ := hxn
        exact h a ha hn
    rw [hi]
  refine ⟨_, hok, fun e he => ?_⟩
  rw [tableCall_eq I _ e he]
  simp only
  have hnm : (nan, log10 rn.2) ∈ nodes := by rw [← hlogn rn hrneg]; exact hmem rn hrn
  have hne : nodes ≠ [] := List.ne_nil_of_mem hnm
  -- NaN is last
  have hlast : ∀ p, nodes.getLast? = some p → p.1 = nan := by
    intro p hp
    rw [List.getLast?_eq_some_iff] at hp
    obtain ⟨l, hl⟩ := hp
    rw [hl] at hnm hsort
    rcases List.mem_append.1 hnm with hh | hh
    · have h := (List.pairwise_append.1 hsort).2.2 _ hh p (by simp)
      simp only at h
      generalize p.1 = a at h ⊢
      cases a <;> first | rfl | (simp [npLE, IsNaN, LE.le, XR.lt, XR.eqv] at h)
    · simp at hh; rw [← hh]
  have hhead : ∀ p, nodes.head? = some p → ∃ r ∈ T, 0 < r.1 ∧ p.1 = fin (logEV (r.1 * u.scale)) ∧
      ∀ q ∈ T, 0 < q.1 → logEV (r.1 * u.scale) ≤ logEV (q.1 * u.scale) := by
    intro p hp
    have hp' := hp
    rw [List.head?_eq_some_iff] at hp
    obtain ⟨l, hl⟩ := hp
    have hle : ∀ q ∈ T, 0 < q.1 → npLE p.1 (fin (logEV (q.1 * u.scale))) := by
      intro q hq hq0
      have h := hmem q hq
      rw [hlogp q hq0] at h
      rw [hl] at h hsort
      rcases List.mem_cons.1 h with hh | hh
      · rw [← hh]; exact (npLE_fin _ _).2 le_rfl
      · exact (List.pairwise_cons.1 hsort).1 _ hh
    rcases hcase p.1 (hfst p (by rw [hl]; simp)) with h | ⟨r, hr, hrp, h⟩
    · have := hle r1 hr1 hr0
      rw [h] at this
      simp [npLE, IsNaN, LE.le, XR.lt, XR.eqv] at this
    · refine ⟨r, hr, hrp, h, fun q hq hq0 => ?_⟩
      have := hle q hq hq0
      rw [h, npLE_fin] at this
      exact this
  constructor
  · intro hlow
    have : interpEval I nodes (fin (logEV e.phys)) = ninf := by
      unfold interpEval
      obtain ⟨p, hp⟩ : ∃ p, nodes.head? = some p := ⟨nodes.head hne, List.head?_eq_some_head hne⟩
      obtain ⟨r, hr, hrp, h, -⟩ := hhead p hp
      rw [if_pos ⟨p, hp, by rw [h, lt_fin]; exact logEV_lt he.phys_pos (hlow r hr hrp)⟩]
    rw [this]
    have : pow (fin 10) ninf = fin 0 := by
      unfold pow; norm_num
    rw [this, mul_fin, mul_zero]
  · rintro ⟨r, hr, hrp, hre⟩
    have : interpEval I nodes (fin (logEV e.phys)) = nan := by
      unfold interpEval
      rw [if_neg, if_neg, if_pos]
      · exact ⟨_, hnm, Or.inl trivial⟩
      · rintro ⟨p, hp, h⟩
        rw [hlast p hp] at h
        exact h
      · rintro ⟨p, hp, h⟩
        obtain ⟨r', hr', hrp', h', hmin⟩ := hhead p hp
        rw [h', lt_fin] at h
        have h1 := hmin r hr hrp
        have h2 := (logEV_le_iff (mul_pos hrp hu) he.phys_pos).2 hre
        linarith
    rw [this]
    have : pow (fin 10) nan = nan := by unfold pow; norm_num
    rw [this]
    rfl

/-- With negative energies and no two different positive ones it is a ValueError. -/
theorem C25_negative_energy_error (T : List (ℝ × XR)) (u : PhysUnit) (hd : u.dim = Dim.energy)
    (hu : 0 < u.scale) (h0 : ∀ r ∈ T, r.1 ≠ 0) (hneg : ∃ r ∈ T, r.1 < 0)
    (hpos : ∀ r ∈ T, ∀ q ∈ T, 0 < r.1 → 0 < q.1 → r.1 = q.1) (vunit : Option PhysUnit) (amp : XR) :
    tableOf T u vunit amp = .error .valueError := by
  unfold tableOf TableModel.init
  have hv : validateArray (.qarr [T.length] (T.map (fun r => fin r.1)) u) .positive 1 none
      (some [Dim.energy]) = .ok (.qarr [T.length] (T.map (fun r => fin r.1)) u) := by
    simp [validateArray, validatePhysicalType, hd, bind, Except.bind, pure, Except.pure]
  rw [hv]
  have hlogn : ∀ r : ℝ × XR, r.1 < 0 → log10 (fin r.1 * fin (u.scale / PhysUnit.eV.scale)) = nan := by
    intro r hr
    have : r.1 * (u.scale / PhysUnit.eV.scale) < 0 := mul_neg_of_neg_of_pos hr (div_pos hu eV_pos)
    rw [mul_fin]
    simp [log10, this]
  have hi : interp1d ((T.map (fun r => fin r.1)).map (fun e => log10 (e * fin (u.scale / PhysUnit.eV.scale))))
      ((T.map (·.2)).map log10) = .error .valueError := by
    unfold interp1d
    split
    · rfl
    split
    · rfl
    simp only []
    split
    · rfl
    rw [if_pos]
    rw [List.map_map]
    constructor
    · obtain ⟨r, hr, h⟩ := hneg
      exact ⟨nan, by rw [← hlogn r h]; exact List.mem_map.2 ⟨r, hr, rfl⟩, trivial⟩
    · intro a ha b hb han hbn
      obtain ⟨r, hr, rfl⟩ := List.mem_map.1 ha
      obtain ⟨q, hq, rfl⟩ := List.mem_map.1 hb
      have hr0 : 0 < r.1 := by
        rcases lt_or_gt_of_ne (h0 r hr) with h | h
        · simp only [Function.comp] at han
          rw [hlogn r h] at han; exact absurd trivial han
        · exact h
      have hq0 : 0 < q.1 := by
        rcases lt_or_gt_of_ne (h0 q hq) with h | h
        · simp only [Function.comp] at hbn
          rw [hlogn q h] at hbn; exact absurd trivial hbn
        · exact h
      simp only [Function.comp]
      rw [log10_energy _ _ hr0 hu, log10_energy _ _ hq0 hu, eqv_fin, hpos r hr q hq hr0 hq0]
  simp only [hi]

/-- Four rows in TeV, one with a negative energy: NaN at the tabulated 3 TeV, zero at 0.5 TeV. -/
example (I : Interp) : ∃ m, tableOf [(10, fin 3), (-1, fin 5), (100, fin 2), (3, fin 7)] PhysUnit.TeV none (fin 1) = .ok m ∧
    m.call I (⟨3, PhysUnit.TeV⟩ : Qty ℝ).lift = .ok ⟨nan, unitOne⟩ ∧
    m.call I (⟨0.5, PhysUnit.TeV⟩ : Qty ℝ).lift = .ok ⟨fin 0, unitOne⟩ := by
  have hs : 0 < PhysUnit.TeV.scale := by norm_num [PhysUnit.TeV]
  obtain ⟨m, h1, h2⟩ := C25_false_negative_energy I [(10, fin 3), (-1, fin 5), (100, fin 2), (3, fin 7)] PhysUnit.TeV rfl hs
    (by intro r hr; simp at hr; rcases hr with rfl | rfl | rfl | rfl <;> norm_num) (by simp)
    ⟨(-1, fin 5), by simp, by norm_num⟩ ⟨(10, fin 3), by simp, (100, fin 2), by simp, by norm_num, by norm_num⟩ none 1
  refine ⟨m, h1, (h2 _ ⟨rfl, hs, by norm_num⟩).2 ⟨(3, fin 7), by simp, by norm_num, le_rfl⟩,
    (h2 _ ⟨rfl, hs, by norm_num⟩).1 ?_⟩
  intro r hr
  simp at hr
  rcases hr with rfl | rfl | rfl | rfl <;> intro h0 <;> simp only [Qty.phys] at h0 ⊢ <;> linarith

/-- The spline facts assumed above can be met: the polynomial through all points has them. -/
theorem C25_spline_exists : ∃ I : Interp, CubicSpline I := by
  let pts (nodes : List (XR × XR)) : List (ℝ × ℝ) := nodes.map (fun p => (p.1.toReal, p.2.toReal))
  let P (q : List (ℝ × ℝ)) : Polynomial ℝ :=
    Lagrange.interpolate Finset.univ (fun i : Fin q.length => (q.get i).1)
      (fun i => (q.get i).2)
  refine ⟨fun nodes x => fin ((P (pts nodes)).eval x.toReal), ?_⟩
  have hpts : ∀ q : List (ℝ × ℝ), pts (asNodes q) = q := by
    intro q; simp [pts, asNodes, Function.comp_def]
  have hinj : ∀ q : List (ℝ × ℝ), q.Pairwise (fun a b => a.1 < b.1) →
      Set.InjOn (fun i : Fin q.length => (q.get i).1) (Finset.univ : Finset (Fin q.length)) := by
    intro q hq i _ j _ h
    rcases lt_trichotomy i j with hij | hij | hij
    · exact absurd h (List.pairwise_iff_get.1 hq i j hij).ne
    · exact hij
    · exact absurd h (List.pairwise_iff_get.1 hq j i hij).ne'
  refine ⟨?_, ?_, ?_⟩
  · intro q _ hq p hp
    simp only [hpts, toReal_fin]
    obtain ⟨i, rfl⟩ := List.get_of_mem hp
    exact congrArg fin (Lagrange.eval_interpolate_at_node _ (hinj q hq) (Finset.mem_univ i))
  · intro q _ _ x _
    exact ⟨_, rfl⟩
  · intro q h4 hq a b c d h x _
    simp only [hpts, toReal_fin]
    have hC : P q = Polynomial.C a + Polynomial.C b * Polynomial.X +
        Polynomial.C c * Polynomial.X ^ 2 + Polynomial.C d * Polynomial.X ^ 3 := by
      symm
      refine Lagrange.eq_interpolate_of_eval_eq _ (hinj q hq) ?_ ?_
      · refine lt_of_le_of_lt (b := (3 : WithBot ℕ)) ?_ ?_
        · compute_degree
        · simp only [Finset.card_univ, Fintype.card_fin]
          exact_mod_cast h4
      · intro i _
        have := h (q.get i) (List.get_mem q i)
        simp only [Polynomial.eval_add, Polynomial.eval_mul, Polynomial.eval_C, Polynomial.eval_X,
          Polynomial.eval_pow]
        exact this.symm
    rw [hC]
    simp

/-- A table of four rows in TeV. -/
def exampleTable : List (ℝ × ℝ) := [(10, 3), (1, 5), (100, 2), (3, 7)]

/-- The hypotheses are met by a concrete table. -/
example : GoodTable exampleTable PhysUnit.TeV := by
  refine ⟨rfl, by norm_num [PhysUnit.TeV], by norm_num [exampleTable], ?_, ?_, ?_⟩
  · intro r hr; simp [exampleTable] at hr; rcases hr with rfl | rfl | rfl | rfl <;> norm_num
  · intro r hr; simp [exampleTable] at hr; rcases hr with rfl | rfl | rfl | rfl <;> norm_num
  · norm_num [exampleTable]

end

end Naima
