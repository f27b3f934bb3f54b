import Verif.Model.LookupTable
import Verif.Props.Tight2
import Mathlib.Analysis.SpecialFunctions.Log.Deriv

/-! # C81: lookup tables hold the cross section they are named after -/

namespace Naima.Props

open Naima XR Classical

/-! ### Specification -/

/-- A spline that passes through its data (`s=0`): on coordinates that increase strictly, four or more of
them, and finite values. -/
def Interpolating (S : RectSpline) : Prop :=
  ∀ (X Y : List ℝ) (z : List (List XR)), X.Pairwise (· < ·) → Y.Pairwise (· < ·) → 4 ≤ X.length →
    4 ≤ Y.length → (∀ row ∈ z, ∀ v ∈ row, v.IsFin) →
    ∀ (i j : ℕ) (x y : ℝ) (row : List XR) (v : XR), X[i]? = some x → Y[j]? = some y → z[i]? = some row → row[j]? = some v →
      S X Y z x y = v

/-- A spline that is evaluated at the nearest point of the rectangle of its data (FITPACK `bispev`). -/
def Clamping (S : RectSpline) : Prop :=
  ∀ (X Y : List ℝ) (z : List (List XR)) (x y ymax : ℝ), Y.Pairwise (· < ·) → Y.getLast? = some ymax →
    ymax ≤ y → S X Y z x y = S X Y z x ymax

/-- A grid of positive energies in ascending order, at least four. -/
structure EnergyGrid (q : Qty (List ℝ)) : Prop where
  dim : q.unit.dim = Dim.energy
  scale : 0 < q.unit.scale
  pos : ∀ e ∈ q.value, 0 < e
  asc : q.value.Pairwise (· < ·)
  four : 4 ≤ q.value.length

/-! ### Proof -/

theorem pow10_log10 (r : ℝ) (hr : 0 ≤ r) : pow (fin 10) (log10 (fin r)) = fin r := by
  rcases eq_or_lt_of_le hr with h | h
  · subst h
    simp only [log10, lt_irrefl, if_false, if_true]
    show (if |(10 : ℝ)| = 1 then fin 1 else if |(10 : ℝ)| < 1 then pinf else fin 0) = _
    norm_num
  · rw [log10_fin r h, pow_fin _ _ (by norm_num), Real.rpow_logb (by norm_num) (by norm_num) h]

theorem inGeVs_ok (q : Qty (List ℝ)) (h : q.unit.dim = Dim.energy) :
    inGeVs q = .ok (q.value.map (· * (q.unit.scale / PhysUnit.GeV.scale))) := by
  unfold inGeVs; rw [if_pos h]

theorem asc_logb (l : List ℝ) (k : ℝ) (hk : 0 < k) (hp : ∀ e ∈ l, 0 < e) (h : l.Pairwise (· < ·)) :
    ((l.map (· * k)).map (Real.logb 10)).Pairwise (· < ·) := by
  rw [List.map_map, List.pairwise_map]
  apply List.Pairwise.imp_of_mem _ h
  intro a b ha hb hab
  simp only [Function.comp_apply]
  exact Real.logb_lt_logb (by norm_num) (mul_pos (hp a ha) hk) (by nlinarith)

theorem mapIdx_eq_map {α β : Type} (l : List α) (f : ℕ → α → β) (g : α → β)
    (h : ∀ j a, l[j]? = some a → f j a = g a) : l.mapIdx f = l.map g := by
  apply List.ext_getElem?
  intro j
  rw [List.getElem?_mapIdx, List.getElem?_map]
  cases hj : l[j]? with
  | none => rfl
  | some a => simp only [Option.map_some]; rw [h j a hj]

/-- **C81** (name of the file). With the default base name the file written is the one that a `PionDecay`
object with the same settings looks for (`lutName`), and no object with other settings
(`C21_table_names`). -/
theorem C81_file_name (tbls : ℕ → FTable) (h : HiE) (nuc : Bool) (Ep Eg : Qty (List ℝ)) (name : String)
    (f : LutFile) (he : generateLut lutBase tbls h nuc Ep Eg = .ok (name, f)) : name = lutName nuc h := by
  unfold generateLut at he
  cases h1 : inGeVs Ep with
  | error e => rw [h1] at he; cases he
  | ok ep =>
    cases h2 : inGeVs Eg with
    | error e => rw [h1, h2] at he; cases he
    | ok eg =>
      rw [h1, h2] at he
      injection he with he
      simp only [Prod.mk.injEq] at he
      rw [← he.1]
      rfl

/-- **C81** (values). For every high-energy model, with and without nuclear enhancement, for all grids of
photon energies and of proton energies above threshold, in any units, and however the work is distributed
over processes with whatever they computed before: the table can be loaded, and at every pair of grid
energies it returns the cross section of the paper. Missing: energies between those of the grid, where the
value depends on the spline, and the default grid (`C81_false_default_grid`). -/
theorem C81_values_partial (S : RectSpline) (hS : Interpolating S) (base : String) (tbls : ℕ → FTable)
    (hr : ∀ j, Reachable (tbls j)) (h : HiE) (nuc : Bool) (Ep Eg : Qty (List ℝ)) (hEp : EnergyGrid Ep)
    (hEg : EnergyGrid Eg)
    (hth : ∀ e ∈ Ep.value, Kafexhiu.Tth < e * Ep.unit.scale / (1e9 * cEV) - mProton) :
    ∃ name f, generateLut base tbls h nuc Ep Eg = .ok (name, f) ∧ f.load = .ok () ∧
      ∀ (i j : ℕ) (e E : ℝ), Ep.value[i]? = some e → Eg.value[j]? = some E →
        f.at S (e * Ep.unit.scale / (1e9 * cEV)) (E * Eg.unit.scale / (1e9 * cEV)) =
          fin (Kafexhiu.dσ (modelOf h) nuc mProton (e * Ep.unit.scale / (1e9 * cEV) - mProton)
            (E * Eg.unit.scale / (1e9 * cEV))) := by
  have hG : PhysUnit.GeV.scale = 1e9 * cEV := by unfold PhysUnit.GeV cEV; norm_num
  have hG0 := GeV_pos
  set kp := Ep.unit.scale / PhysUnit.GeV.scale with hkp
  set kg := Eg.unit.scale / PhysUnit.GeV.scale with hkg
  have hkp0 : 0 < kp := div_pos hEp.scale hG0
  have hkg0 : 0 < kg := div_pos hEg.scale hG0
  set ep := Ep.value.map (· * kp) with hep
  set eg := Eg.value.map (· * kg) with heg
  have hep1 : ∀ e ∈ ep, Kafexhiu.Tth < e - mProton := by
    intro e he
    obtain ⟨a, ha, rfl⟩ := List.mem_map.1 he
    have := hth a ha
    rw [hkp, hG, ← mul_div_assoc]
    exact this
  have heg1 : ∀ e ∈ eg, 0 < e := by
    intro e he
    obtain ⟨a, ha, rfl⟩ := List.mem_map.1 he
    exact mul_pos (hEg.pos a ha) hkg0
  have hcol : ∀ j E, eg[j]? = some E → (diffsigma h nuc (tbls j) ep E).2 =
      ep.map (fun e => fin (Kafexhiu.dσ (modelOf h) nuc mProton (e - mProton) E)) := by
    intro j E hE
    exact C73_cross_section (tbls j) (hr j) h nuc ep E (heg1 E (List.mem_of_getElem? hE)) hep1
  have hnn : ∀ e ∈ ep, ∀ E ∈ eg, 0 ≤ Kafexhiu.dσ (modelOf h) nuc mProton (e - mProton) E := by
    intro e he E hE
    have hc := C73_cross_section fmpInit .fresh h nuc [e] E (heg1 E hE) (by simpa using hep1 e he)
    have hv : (diffsigma h nuc fmpInit [e] E).2[0]? =
        some (fin (Kafexhiu.dσ (modelOf h) nuc mProton (e - mProton) E)) := by rw [hc]; rfl
    have hT : pTth < e - pM := by have := hep1 e he; rw [← pM_eq] at this; exact this
    obtain ⟨s1, s2⟩ := C19_sign_partial fmpInit .fresh h nuc [e] E (heg1 E hE) 0 e _ rfl hv hT
    by_cases c : Spec.egMin (e - pM) < E ∧ E < Spec.egMax (e - pM)
    · obtain ⟨r, hr, er⟩ := s1 c
      rw [fin_inj] at er; rw [er]; exact hr.le
    · have := s2 c
      rw [fin_inj] at this; rw [this]
  set cols := eg.mapIdx (fun j e => (diffsigma h nuc (tbls j) ep e).2) with hcols
  have hcols' : cols = eg.map (fun E => ep.map (fun e =>
      fin (Kafexhiu.dσ (modelOf h) nuc mProton (e - mProton) E))) := by
    exact mapIdx_eq_map _ _ _ hcol
  set f : LutFile := { X := ep.map (Real.logb 10), Y := eg.map (Real.logb 10), lut := (List.range ep.length).map (fun i => cols.map (fun c => log10 (c.getD i nan))) } with hf
  have hX : f.X.Pairwise (· < ·) := asc_logb _ _ hkp0 hEp.pos hEp.asc
  have hY : f.Y.Pairwise (· < ·) := asc_logb _ _ hkg0 hEg.pos hEg.asc
  have hXl : f.X.length = Ep.value.length := by simp [hf, hep]
  have hYl : f.Y.length = Eg.value.length := by simp [hf, heg]
  have hz : f.z = ep.map (fun e => eg.map (fun E =>
      fin (Kafexhiu.dσ (modelOf h) nuc mProton (e - mProton) E))) := by
    apply List.ext_getElem?
    intro i
    simp only [LutFile.z, hf, List.map_map, List.getElem?_map]
    by_cases hi : i < ep.length
    · rw [List.getElem?_range hi, List.getElem?_eq_getElem hi]
      simp only [Option.map_some, Function.comp_apply, Option.some.injEq, List.map_map, hcols']
      apply List.map_congr_left
      intro E hE
      simp only [Function.comp_apply]
      rw [List.getD_eq_getElem?_getD, List.getElem?_map, List.getElem?_eq_getElem hi]
      simp only [Option.map_some, Option.getD_some]
      exact pow10_log10 _ (hnn _ (List.getElem_mem hi) E hE)
    · rw [List.getElem?_eq_none (by simpa using hi), List.getElem?_eq_none (by simpa using hi)]
      rfl
  refine ⟨(base ++ (if nuc then "NucEnh_" else "")) ++ h.name ++ ".npz", f, ?_, ?_, ?_⟩
  · unfold generateLut
    rw [inGeVs_ok _ hEp.dim, inGeVs_ok _ hEg.dim]
    rfl
  · unfold LutFile.load
    rw [if_pos]
    refine ⟨hX, hY, by rw [hXl]; exact hEp.four, by rw [hYl]; exact hEg.four, by simp [hf], ?_⟩
    intro row hrow
    simp only [hf, List.mem_map] at hrow
    obtain ⟨i, -, rfl⟩ := hrow
    simp [hf, hcols']
  · intro i j e E hi hj
    have hi' : ep[i]? = some (e * kp) := by rw [hep, List.getElem?_map, hi]; rfl
    have hj' : eg[j]? = some (E * kg) := by rw [heg, List.getElem?_map, hj]; rfl
    have e1 : e * Ep.unit.scale / (1e9 * cEV) = e * kp := by rw [hkp, hG, mul_div_assoc]
    have e2 : E * Eg.unit.scale / (1e9 * cEV) = E * kg := by rw [hkg, hG, mul_div_assoc]
    rw [e1, e2]
    unfold LutFile.at
    apply hS f.X f.Y f.z hX hY (by rw [hXl]; exact hEp.four) (by rw [hYl]; exact hEg.four) _ i j _ _
      (eg.map (fun E => fin (Kafexhiu.dσ (modelOf h) nuc mProton (e * kp - mProton) E)))
    · show (ep.map (Real.logb 10))[i]? = _
      rw [List.getElem?_map, hi']; rfl
    · show (eg.map (Real.logb 10))[j]? = _
      rw [List.getElem?_map, hj']; rfl
    · rw [hz, List.getElem?_map, hi']; rfl
    · rw [List.getElem?_map, hj']; rfl
    · rw [hz]
      intro row hrow v hv
      obtain ⟨a, -, rfl⟩ := List.mem_map.1 hrow
      obtain ⟨b, -, rfl⟩ := List.mem_map.1 hv
      trivial

/-- **C81** (evaluation on a grid). For proton energies in ascending order, a call gives the value at each of
them; a `PionDecay` with its limits in order always asks for such. -/
theorem C81_call (S : RectSpline) (f : LutFile) (xs : List ℝ) (y : ℝ) (hp : ∀ x ∈ xs, 0 < x)
    (ha : xs.Pairwise (· ≤ ·)) : f.call S xs y = .ok (xs.map (fun x => f.at S x y)) := by
  unfold LutFile.call
  rw [if_pos]
  rw [List.pairwise_map]
  apply List.Pairwise.imp_of_mem _ ha
  intro a b h1 h2 h
  exact (Real.logb_le_logb (by norm_num) (hp a h1) (hp b h2)).2 h

theorem log10_bounds : Real.log 10 < 2.302585094 := by
  have h2 := Real.log_two_lt_d9
  have h10 : 3 * Real.log 10 = 10 * Real.log 2 - Real.log 1.024 := by
    have e1 : Real.log ((10 : ℝ) ^ 3 * 1.024) = Real.log ((2 : ℝ) ^ 10) := by norm_num
    rw [Real.log_mul (by norm_num) (by norm_num), Real.log_pow, Real.log_pow] at e1
    push_cast at e1
    linarith
  have h1 : 0.0237165266 < Real.log 1.024 := by
    have := Real.abs_log_sub_add_sum_range_le (x := -0.024) (by norm_num) 7
    norm_num [Finset.sum_range_succ, abs_le] at this
    have := this.1
    norm_num at this ⊢
    linarith
  linarith

theorem first_energy : (10 : ℝ) ^ (0.085623713910610105 : ℝ) < 1.2179339 := by
  rw [Real.rpow_def_of_pos (by norm_num)]
  have h1 : Real.log 10 * 0.085623713910610105 ≤ 0.1971558874 := by
    have := log10_bounds
    norm_num at this ⊢
    linarith
  refine lt_of_le_of_lt (Real.exp_le_exp.2 h1) ?_
  refine lt_of_le_of_lt (Real.exp_bound' (n := 8) (by norm_num) (by norm_num) (by norm_num)) ?_
  norm_num [Finset.sum_range_succ, Nat.factorial]

/-- **C81** fails for the default proton energies of `generate_lut_pp`: the first one is below the
threshold (with the proton mass of the 2018 constants), and the row of the table for it is NaN for
all photon energies, models and histories. -/
theorem C81_false_default_grid (base : String) (tbls : ℕ → FTable) (hr : ∀ j, Reachable (tbls j)) (h : HiE)
    (nuc : Bool) (Eg : Qty (List ℝ)) (hEg : Eg.unit.dim = Dim.energy) :
    ∃ name f rest, generateLut base tbls h nuc lutEpDefault Eg = .ok (name, f) ∧
      f.lut = Eg.value.map (fun _ => nan) :: rest ∧ rest.length = 799 := by
  have hG0 := GeV_pos
  have hu : (PhysUnit.GeV.scale / PhysUnit.GeV.scale : ℝ) = 1 := div_self hG0.ne'
  set e0 := (10 : ℝ) ^ (0.085623713910610105 : ℝ) with he0
  obtain ⟨rest, hrest⟩ : ∃ rest, lutEpDefault.value = e0 :: rest := by
    simp only [lutEpDefault, logspace]
    rw [List.range_eq_range', show 800 = 799 + 1 from rfl, List.range'_succ, List.map_cons]
    rw [he0, Nat.cast_zero, zero_mul, add_zero]
    exact ⟨_, rfl⟩
  have hlen : lutEpDefault.value.length = 800 := by simp [lutEpDefault, logspace]
  have hlr : rest.length = 799 := by rw [hrest] at hlen; simpa using hlen
  have hep : inGeVs lutEpDefault = .ok (e0 :: rest) := by
    rw [inGeVs_ok _ rfl, hrest]
    simp only [lutEpDefault, hu, mul_one, List.map_id']
  have hM : 0.9382720881 < pM := by
    unfold pM cMp cC
    rw [lt_div_iff₀ hG0]
    simp only [PhysUnit.GeV]; norm_num
  have hM' : pM < 0.9382720883 := by
    unfold pM cMp cC
    rw [div_lt_iff₀ hG0]
    simp only [PhysUnit.GeV]; norm_num
  have h1 : e0 < 1.2179339 := first_energy
  have h2 : 1 ≤ e0 := Real.one_le_rpow (by norm_num) (by norm_num)
  clear_value e0
  clear he0
  have hT : 2 * pM * (e0 - pM) < 4 * pM * pMpi + pMpi ^ 2 := by
    have : e0 - pM - 2 * pMpi ≤ 0.0097086119 := by unfold pMpi; norm_num at *; linarith
    have h3 : 2 * pM * (e0 - pM - 2 * pMpi) < pMpi ^ 2 := by
      calc 2 * pM * (e0 - pM - 2 * pMpi) ≤ 2 * pM * 0.0097086119 := by
            apply mul_le_mul_of_nonneg_left this; linarith [pM_pos]
        _ < pMpi ^ 2 := by unfold pMpi; norm_num at *; linarith
    linarith
  unfold generateLut
  rw [hep, inGeVs_ok _ hEg]
  simp only [bind, Except.bind, pure, Except.pure]
  rw [List.length_cons, List.range_succ_eq_map, List.map_cons]
  refine ⟨_, _, _, rfl, List.cons_eq_cons.2 ⟨?_, rfl⟩, ?_⟩
  · rw [mapIdx_eq_map _ _ (fun E => (diffsigma h nuc fmpInit (e0 :: rest) E).2)]
    · simp only [List.map_map]
      apply List.map_congr_left
      intro E _
      have := C19_false_below_threshold fmpInit .fresh h nuc (e0 :: rest)
        (E * (Eg.unit.scale / PhysUnit.GeV.scale)) 0 e0 rfl (by linarith [pM_lt]) hT
      simp only [Function.comp_apply, List.getD_eq_getElem?_getD, this]
      rfl
    · intro j E _
      rw [(diffsigma_spec h nuc (tbls j) _ E (hr j).static).2,
        (diffsigma_spec h nuc fmpInit _ E Reachable.fresh.static).2]
  · simp [hlr]

theorem lastEg : (lutEgDefault.value.map (· * (PhysUnit.TeV.scale / PhysUnit.GeV.scale))).getLast? =
    some 1e6 := by
  have hk : PhysUnit.TeV.scale / PhysUnit.GeV.scale = 1000 := by
    unfold PhysUnit.TeV PhysUnit.GeV; norm_num
  rw [List.getLast?_map, hk]
  have : lutEgDefault.value.getLast? = some 1000 := by
    simp only [lutEgDefault, logspace]
    rw [List.getLast?_map, show 1024 = 1023 + 1 from rfl, List.range_succ, List.getLast?_append]
    simp only [List.getLast?_singleton, Option.some_or, Option.map_some, Option.some.injEq]
    rw [show (-5 : ℝ) + ((1023 : ℕ) : ℝ) * ((3 - -5) / ((1023 + 1 : ℕ) - 1 : ℝ)) = (3 : ℕ) by
      push_cast; norm_num]
    rw [Real.rpow_natCast]; norm_num
  rw [this]
  norm_num

/-- **C81** fails outside the grid: with the default photon energies (up to 1 PeV) the table returns at all
higher energies the value at 1 PeV, for every proton energy. -/
theorem C81_false_above_grid (S : RectSpline) (hS : Clamping S) (base : String) (tbls : ℕ → FTable)
    (h : HiE) (nuc : Bool) (Ep : Qty (List ℝ)) (hEp : Ep.unit.dim = Dim.energy) :
    ∃ name f, generateLut base tbls h nuc Ep lutEgDefault = .ok (name, f) ∧
      ∀ e E, 1e6 ≤ E → f.at S e E = f.at S e 1e6 := by
  have hk : PhysUnit.TeV.scale / PhysUnit.GeV.scale = 1000 := by
    unfold PhysUnit.TeV PhysUnit.GeV; norm_num
  unfold generateLut
  rw [inGeVs_ok _ hEp, inGeVs_ok lutEgDefault rfl]
  simp only [bind, Except.bind, pure, Except.pure]
  refine ⟨_, _, rfl, ?_⟩
  intro e E hE
  unfold LutFile.at
  simp only
  apply hS
  · apply asc_logb
    · show 0 < PhysUnit.TeV.scale / PhysUnit.GeV.scale
      rw [hk]; norm_num
    · intro x hx
      simp only [lutEgDefault, logspace, List.mem_map] at hx
      obtain ⟨i, -, rfl⟩ := hx
      positivity
    · simp only [lutEgDefault, logspace]
      rw [List.pairwise_map]
      apply List.Pairwise.imp _ List.pairwise_lt_range
      intro a b hab
      apply Real.rpow_lt_rpow_of_exponent_lt (by norm_num)
      have : (a : ℝ) < b := by exact_mod_cast hab
      norm_num
      linarith
  · rw [List.getLast?_map]
    show Option.map _ (lutEgDefault.value.map (· * (PhysUnit.TeV.scale / PhysUnit.GeV.scale))).getLast? = _
    rw [lastEg]
    rfl
  · exact (Real.logb_le_logb (by norm_num) (by norm_num) (by linarith)).2 hE

/-- **C81** fails for the spectrum: a `PionDecay` object which reads that table emits at every energy above
1 PeV as much as at 1 PeV, also above the energy of its most energetic proton. Compare
`C82_pion_decay`. -/
theorem C81_false_spectrum_above_grid (S : RectSpline) (hS : Clamping S) (base : String) (tbls : ℕ → FTable)
    (h : HiE) (nuc : Bool) (Ep : Qty (List ℝ)) (hEp : Ep.unit.dim = Dim.energy) :
    ∃ name f, generateLut base tbls h nuc Ep lutEgDefault = .ok (name, f) ∧
      ∀ (m : PionModel) (pd : PDist) (es : List ℝ), (∀ E ∈ es, 1e15 * cEV ≤ E) →
        m.spectrumLUT pd (f.at S) es = m.spectrumLUT pd (f.at S) (es.map (fun _ => 1e15 * cEV)) := by
  obtain ⟨name, f, h1, h2⟩ := C81_false_above_grid S hS base tbls h nuc Ep hEp
  refine ⟨name, f, h1, ?_⟩
  intro m pd es hes
  have hG : PhysUnit.GeV.scale = 1e9 * cEV := by unfold PhysUnit.GeV cEV; norm_num
  have hG0 := GeV_pos
  have hc : 1e15 * cEV / PhysUnit.GeV.scale = 1e6 := by
    rw [hG]
    have : cEV ≠ 0 := by unfold cEV; norm_num
    field_simp
    norm_num
  unfold PionModel.spectrumLUT
  cases m.toPrModel.Ep with
  | error e => rfl
  | ok ep =>
    cases m.toPrModel.J pd with
    | error e => rfl
    | ok j =>
      simp only [bind, Except.bind, List.map_eq_nil_iff]
      have : (es.map (· / PhysUnit.GeV.scale)).map (fun eg =>
            trapz (List.zipWith (· * ·) (ep.map (fun e => f.at S e eg)) j) (ep.map fin)) =
          ((es.map (fun _ => 1e15 * cEV)).map (· / PhysUnit.GeV.scale)).map (fun eg =>
            trapz (List.zipWith (· * ·) (ep.map (fun e => f.at S e eg)) j) (ep.map fin)) := by
        simp only [List.map_map]
        apply List.map_congr_left
        intro E hE
        simp only [Function.comp_apply]
        congr 2
        apply List.map_congr_left
        intro e _
        rw [hc]
        apply h2
        rw [← hc]
        exact div_le_div_of_nonneg_right (hes E hE) hG0.le
      rw [this]

/-- There are splines as assumed: here the value at the first grid point not below the point asked for, or at
the last one. -/
theorem C81_spline_exists : ∃ S : RectSpline, Interpolating S ∧ Clamping S := by
  set idx : List ℝ → ℝ → ℕ := fun X x => min (X.findIdx (fun a => decide (x ≤ a))) (X.length - 1)
    with hidx
  have hnode : ∀ (X : List ℝ) (i : ℕ) (x : ℝ), X.Pairwise (· < ·) → X[i]? = some x → idx X x = i := by
    intro X i x hX hi
    obtain ⟨hlt, hx⟩ := List.getElem?_eq_some_iff.1 hi
    have : X.findIdx (fun a => decide (x ≤ a)) = i := by
      rw [List.findIdx_eq hlt]
      refine ⟨by simp [hx], ?_⟩
      intro j hj
      have := List.pairwise_iff_getElem.1 hX j i (by omega) hlt hj
      rw [hx] at this
      simpa using this
    simp only [hidx, this]
    omega
  refine ⟨fun X Y z x y => ((z[idx X x]?.getD [])[idx Y y]?).getD nan, ?_, ?_⟩
  · intro X Y z hX hY _ _ _ i j x y row v hi hj hz hv
    simp only [hnode X i x hX hi, hnode Y j y hY hj, hz, Option.getD_some, hv]
  · intro X Y z x y ymax hY hl hy
    have h1 : Y[Y.length - 1]? = some ymax := by rw [← List.getLast?_eq_getElem?]; exact hl
    have h2 : idx Y ymax = Y.length - 1 := hnode Y _ _ hY h1
    have h3 : idx Y y = Y.length - 1 := by
      simp only [hidx]
      obtain ⟨hlt, hx⟩ := List.getElem?_eq_some_iff.1 h1
      have : Y.length - 1 ≤ Y.findIdx (fun a => decide (y ≤ a)) := by
        by_contra hc
        push Not at hc
        have hlt' : Y.findIdx (fun a => decide (y ≤ a)) < Y.length := by omega
        have hp := List.findIdx_getElem (w := hlt')
        simp only [decide_eq_true_eq] at hp
        have := List.pairwise_iff_getElem.1 hY _ _ hlt' hlt hc
        rw [hx] at this
        linarith
      omega
    simp only [h2, h3]

/-- A grid as assumed: four proton and photon energies. -/
example : EnergyGrid ⟨[1, 2, 3, 4], PhysUnit.TeV⟩ ∧
    ∀ e ∈ ([1, 2, 3, 4] : List ℝ), Kafexhiu.Tth < e * PhysUnit.TeV.scale / (1e9 * cEV) - mProton := by
  refine ⟨⟨rfl, by unfold PhysUnit.TeV; norm_num, by simp, by simp; norm_num, by simp⟩, ?_⟩
  have h1 := pM_lt
  rw [pM_eq] at h1
  have hk : PhysUnit.TeV.scale / (1e9 * cEV) = 1000 := by unfold PhysUnit.TeV cEV; norm_num
  intro e he
  have h2 : 1 ≤ e := by
    simp only [List.mem_cons, List.not_mem_nil, or_false] at he
    rcases he with rfl | rfl | rfl | rfl <;> norm_num
  rw [mul_div_assoc, hk]
  unfold Kafexhiu.Tth
  norm_num at *
  linarith

end Naima.Props
