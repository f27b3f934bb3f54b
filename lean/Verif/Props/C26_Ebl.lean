import Verif.Props.C25_Table

/-!
# C26: EBL transmission

`d` is the content of the optical-depth file (`Spec.EblFile`), `I` scipy's spline
(`Spec.CubicSpline`).
-/

namespace Naima

open XR Classical Spec

noncomputable section

/-! ### the closest redshift -/

theorem argmin_spec : ∀ l : List ℝ, l ≠ [] →
    ∃ h : argmin (l.map fin) < l.length, ∀ k (hk : k < l.length),
      l[argmin (l.map fin)] ≤ l[k] ∧ (k < argmin (l.map fin) → l[argmin (l.map fin)] < l[k])
  | [], h => absurd rfl h
  | [a], _ => by
    refine ⟨by simp [argmin], fun k hk => ?_⟩
    have : k = 0 := by simpa using hk
    subst this
    simp [argmin]
  | a :: b :: l, _ => by
    obtain ⟨hj, hmin⟩ := argmin_spec (b :: l) (by simp)
    have hget : ((b :: l).map fin)[argmin ((b :: l).map fin)]? =
        some (fin (b :: l)[argmin ((b :: l).map fin)]) := by
      rw [List.getElem?_map, List.getElem?_eq_getElem hj]; rfl
    have hval : argmin ((a :: b :: l).map fin) =
        if (b :: l)[argmin ((b :: l).map fin)] < a then argmin ((b :: l).map fin) + 1 else 0 := by
      have h1 : argmin ((a :: b :: l).map fin) =
          (match ((b :: l).map fin)[argmin ((b :: l).map fin)]? with
            | some c => if c < fin a then argmin ((b :: l).map fin) + 1 else 0
            | none => 0) := rfl
      rw [h1, hget]
      simp only [lt_fin]
    by_cases hc : (b :: l)[argmin ((b :: l).map fin)] < a
    · rw [if_pos hc] at hval
      have hlt : argmin ((a :: b :: l).map fin) < (a :: b :: l).length := by
        rw [hval]; simpa using hj
      refine ⟨hlt, fun k hk => ?_⟩
      have he : (a :: b :: l)[argmin ((a :: b :: l).map fin)] =
          (b :: l)[argmin ((b :: l).map fin)] := by
        simp only [hval, List.getElem_cons_succ]
      rw [he]
      cases k with
      | zero => exact ⟨hc.le, fun _ => hc⟩
      | succ k =>
        have := hmin k (by simpa using hk)
        simp only [List.getElem_cons_succ]
        exact ⟨this.1, fun h => this.2 (by rw [hval] at h; omega)⟩
    · rw [if_neg hc] at hval
      have hlt : argmin ((a :: b :: l).map fin) < (a :: b :: l).length := by
        rw [hval]; simp
      refine ⟨hlt, fun k hk => ?_⟩
      have he : (a :: b :: l)[argmin ((a :: b :: l).map fin)] = a := by
        simp only [hval, List.getElem_cons_zero]
      rw [he]
      refine ⟨?_, fun h => by rw [hval] at h; omega⟩
      cases k with
      | zero => exact le_refl _
      | succ k =>
        simp only [List.getElem_cons_succ]
        exact (not_lt.1 hc).trans (hmin k (by simpa using hk)).1

/-- The column used is that of the closest tabulated redshift, for every redshift from 0.01 up. -/
theorem C26_closest_redshift (z : ℝ) : IsClosestColumn z (eblColumn (fin z)) := by
  have hmap : redshiftList.map (fun w => XR.abs (fin w - fin z)) =
      ((List.range 399).map (fun i : ℕ => |0.01 * ((i : ℝ) + 1) - z|)).map fin := by
    unfold redshiftList
    rw [List.map_map, List.map_map]
    refine List.map_congr_left (fun i _ => ?_)
    simp
  obtain ⟨h, hmin⟩ := argmin_spec ((List.range 399).map (fun i : ℕ => |0.01 * ((i : ℝ) + 1) - z|))
    (by simp)
  unfold eblColumn
  rw [hmap]
  generalize argmin (((List.range 399).map (fun i : ℕ => |0.01 * ((i : ℝ) + 1) - z|)).map fin) = j
    at h hmin
  simp at h
  refine ⟨⟨by omega, by omega⟩, fun k h1 h2 => ?_⟩
  have := hmin (k - 2) (by simp; omega)
  simp only [List.getElem_map, List.getElem_range] at this
  have hk : (((k - 2 : ℕ) : ℝ) + 1) = (k : ℝ) - 1 := by
    rw [Nat.cast_sub h1]; push_cast; ring
  have hj : (((2 + j : ℕ) : ℝ) - 1) = (j : ℝ) + 1 := by push_cast; ring
  unfold columnRedshift
  rw [hk] at this
  rw [hj]
  exact ⟨this.1, fun hlt => this.2 (by omega)⟩

/-! ### construction -/

theorem validateRedshift_num (z : ℝ) :
    validateRedshift (.num (fin z)) = if z < 0 then .error .valueError else .ok (fin z) := by
  unfold validateRedshift validateScalar validatePhysicalType unitOne
  by_cases h : z < 0
  · simp [cmpScalar, cmpQty, h, bind, Except.bind, throw, throwThe, MonadExceptOf.throw, pure,
      Except.pure]
  · simp [cmpScalar, cmpQty, h, bind, Except.bind, pure, Except.pure]

/-- rows of the table built from the file for given optical depths -/
def eblRows (d : EblData) (taus : List ℝ) : List (ℝ × ℝ) :=
  d.energy.zip (taus.map (fun t => (10 : ℝ) ^ t))

theorem eblRows_good {d : EblData} (hd : EblFile d) (taus : List ℝ)
    (hl : taus.length = d.energy.length) : GoodTable (eblRows d taus) PhysUnit.TeV := by
  have hfst : (eblRows d taus).map (·.1) = d.energy := by
    unfold eblRows
    exact List.map_fst_zip (by simp [hl])
  have hposE : ∀ E ∈ d.energy, (0.001 : ℝ) ≤ E := by
    intro E hE
    have hf := hd.first
    rw [List.head?_eq_some_iff] at hf
    obtain ⟨l, hl⟩ := hf
    have hs := hd.sorted
    rw [hl] at hE hs
    rcases List.mem_cons.1 hE with rfl | hE
    · exact le_refl _
    · exact ((List.pairwise_cons.1 hs).1 E hE).le
  refine ⟨rfl, by norm_num [PhysUnit.TeV], ?_, ?_, ?_, ?_⟩
  · unfold eblRows
    rw [List.length_zip]
    simpa [hl] using hd.rows
  · intro r hr
    have : r.1 ∈ d.energy := by rw [← hfst]; exact List.mem_map.2 ⟨r, hr, rfl⟩
    exact lt_of_lt_of_le (by norm_num) (hposE _ this)
  · intro r hr
    have h2 : r.2 ∈ taus.map (fun t => (10 : ℝ) ^ t) := (List.of_mem_zip hr).2
    obtain ⟨t, _, ht⟩ := List.mem_map.1 h2
    rw [← ht]
    exact Real.rpow_pos_of_pos (by norm_num) _
  · rw [hfst]
    exact hd.sorted.imp (fun h => ne_of_lt h)

theorem eblInit_eq (d : EblData) (z : ℝ) (hz : 0 ≤ z) (taus : List ℝ)
    (hl : taus.length = d.energy.length)
    (ht : eblTaus d (fin z) = .ok (taus.map (fun t => fin ((10 : ℝ) ^ t)))) :
    eblInit d (.num (fin z)) =
      tableOf (finRows (eblRows d taus)) PhysUnit.TeV (some unitOne) (fin 1) := by
  unfold eblInit
  rw [validateRedshift_num, if_neg (not_lt.2 hz)]
  simp only [ht, if_true]
  have h1 : (finRows (eblRows d taus)).map (fun r => fin r.1) = d.energy.map fin := by
    have : (eblRows d taus).map (·.1) = d.energy := by
      unfold eblRows; exact List.map_fst_zip (by simp [hl])
    rw [← this]; simp [finRows]
  have h2 : (finRows (eblRows d taus)).map (·.2) = taus.map (fun t => fin ((10 : ℝ) ^ t)) := by
    have : (eblRows d taus).map (·.2) = taus.map (fun t => (10 : ℝ) ^ t) := by
      unfold eblRows; exact List.map_snd_zip (by simp [hl])
    have h3 : (finRows (eblRows d taus)).map (·.2) = ((eblRows d taus).map (·.2)).map fin := by
      simp [finRows]
    rw [h3, this, List.map_map]; rfl
  unfold tableOf
  rw [h1, h2]
  have h3 : (finRows (eblRows d taus)).length = d.energy.length := by
    simp [finRows, eblRows, hl]
  rw [h3]

theorem eblTaus_high (d : EblData) (z : ℝ) (hz : 0.01 ≤ z) :
    eblTaus d (fin z) = .ok (((d.col (eblColumn (fin z))).map clip150).map
      (fun t => fin ((10 : ℝ) ^ t))) := by
  unfold eblTaus
  rw [if_pos ((le_fin _ _).2 hz), List.map_map]
  congr 1
  refine List.map_congr_left (fun t _ => ?_)
  simp [pow_fin]

theorem eblTaus_low (d : EblData) (z : ℝ) (hz : z < 0.01) :
    eblTaus d (fin z) = .ok ((List.replicate d.energy.length (0 : ℝ)).map
      (fun t => fin ((10 : ℝ) ^ t))) := by
  unfold eblTaus
  rw [if_neg (fun h => absurd ((le_fin _ _).1 h) (not_le.2 hz)), if_pos ((lt_fin _ _).2 hz)]
  simp [pow_fin]

/-! ### evaluation -/

/-- The transmission of one energy, for a table model built from real optical depths. -/
theorem eblPoint {d : EblData} (hd : EblFile d) (I : Interp) (hI : CubicSpline I) (taus : List ℝ)
    (hl : taus.length = d.energy.length) :
    ∃ m, tableOf (finRows (eblRows d taus)) PhysUnit.TeV (some unitOne) (fin 1) = .ok m ∧
      ∀ (u : PhysUnit), u.dim = Dim.energy → 0 < u.scale → ∀ e : ℝ,
        ∃ τ : ℝ, eblTau I m ⟨fin e, u⟩ = .ok (fin τ) ∧
          (e * u.scale < PhysUnit.GeV.scale → τ = 0) ∧
          (100 * PhysUnit.TeV.scale < e * u.scale → τ = Real.logb 10 6000) ∧
          (∀ p ∈ d.energy.zip taus, p.1 * PhysUnit.TeV.scale = e * u.scale → τ = p.2) ∧
          (∀ a b c k : ℝ, (∀ p ∈ d.energy.zip taus,
              p.2 = a + b * logEV (p.1 * PhysUnit.TeV.scale) +
                c * logEV (p.1 * PhysUnit.TeV.scale) ^ 2 +
                k * logEV (p.1 * PhysUnit.TeV.scale) ^ 3) →
            PhysUnit.GeV.scale ≤ e * u.scale →
            e * u.scale ≤ 100 * PhysUnit.TeV.scale →
            τ = a + b * logEV (e * u.scale) + c * logEV (e * u.scale) ^ 2 +
              k * logEV (e * u.scale) ^ 3) := by
  have hg := eblRows_good hd taus hl
  obtain ⟨pts, hp, hs, h4, hm⟩ := goodTable_nodes hg (some unitOne) (fin 1)
  refine ⟨_, hm, fun u hdim hu e => ?_⟩
  have hG : (0 : ℝ) < PhysUnit.GeV.scale := by norm_num [PhysUnit.GeV]
  have hT : (0 : ℝ) < PhysUnit.TeV.scale := by norm_num [PhysUnit.TeV]
  have hGT : PhysUnit.GeV.scale = 0.001 * PhysUnit.TeV.scale := by
    norm_num [PhysUnit.GeV, PhysUnit.TeV]
  have e1 : (⟨fin e, u⟩ : Qty XR).toValue PhysUnit.GeV =
      .ok (fin (e * (u.scale / PhysUnit.GeV.scale))) := by
    unfold Qty.toValue
    rw [if_pos (by rw [hdim]; rfl), mul_fin]
  have e2 : (⟨fin e, u⟩ : Qty XR).toValue PhysUnit.TeV =
      .ok (fin (e * (u.scale / PhysUnit.TeV.scale))) := by
    unfold Qty.toValue
    rw [if_pos (by rw [hdim]; rfl), mul_fin]
  have c1 : e * (u.scale / PhysUnit.GeV.scale) < 1 ↔ e * u.scale < PhysUnit.GeV.scale := by
    rw [← mul_div_assoc, div_lt_one hG]
  have c2 : 100 < e * (u.scale / PhysUnit.TeV.scale) ↔ 100 * PhysUnit.TeV.scale < e * u.scale := by
    rw [← mul_div_assoc, lt_div_iff₀ hT]
  -- energies of the file
  have hfirst : (0.001 : ℝ) ∈ d.energy := List.mem_of_mem_head? hd.first
  have hlast : (100 : ℝ) ∈ d.energy := List.mem_of_getLast? hd.last
  have hlow : ∀ E ∈ d.energy, (0.001 : ℝ) ≤ E := by
    intro E hE
    have hf := hd.first
    rw [List.head?_eq_some_iff] at hf
    obtain ⟨l, hl'⟩ := hf
    have hs' := hd.sorted
    rw [hl'] at hE hs'
    rcases List.mem_cons.1 hE with rfl | hE
    · exact le_refl _
    · exact ((List.pairwise_cons.1 hs').1 E hE).le
  have hhigh : ∀ E ∈ d.energy, E ≤ 100 := by
    intro E hE
    have hf := hd.last
    rw [List.getLast?_eq_some_iff] at hf
    obtain ⟨l, hl'⟩ := hf
    have hs' := hd.sorted
    rw [hl'] at hE hs'
    rcases List.mem_append.1 hE with hE | hE
    · exact ((List.pairwise_append.1 hs').2.2 E hE 100 (by simp)).le
    · simp at hE; rw [hE]
  have hfst : (eblRows d taus).map (·.1) = d.energy := by
    unfold eblRows; exact List.map_fst_zip (by simp [hl])
  have hrow : ∀ E ∈ d.energy, ∃ r ∈ eblRows d taus, r.1 = E := by
    intro E hE
    rw [← hfst] at hE
    obtain ⟨r, hr, h⟩ := List.mem_map.1 hE
    exact ⟨r, hr, h⟩
  unfold eblTau
  simp only [e1, e2, lt_fin, c1, c2]
  by_cases h1 : e * u.scale < PhysUnit.GeV.scale
  · refine ⟨0, by rw [if_pos h1], fun _ => rfl, fun h => ?_, fun p hpz h => ?_, fun _ _ _ _ _ h => ?_⟩
    · exfalso; rw [hGT] at h1; nlinarith
    · exfalso
      have := hlow p.1 (List.of_mem_zip hpz).1
      rw [hGT, ← h] at h1
      nlinarith
    · exact absurd h1 (not_lt.2 h)
  · rw [if_neg h1]
    by_cases h2 : 100 * PhysUnit.TeV.scale < e * u.scale
    · refine ⟨Real.logb 10 6000, by rw [if_pos h2, log10_fin _ (by norm_num)],
        fun h => absurd h h1, fun _ => rfl, fun p hpz h => ?_, 
        fun _ _ _ _ _ _ h => absurd h2 (not_lt.2 h)⟩
      exfalso
      have := hhigh p.1 (List.of_mem_zip hpz).1
      rw [← h] at h2
      nlinarith
    · rw [if_neg h2]
      have hE : 0 < e * u.scale := lt_of_lt_of_le hG (not_lt.1 h1)
      have he : (⟨e, u⟩ : Qty ℝ).PosEnergy := ⟨hdim, hu, (pos_iff_pos_of_mul_pos hE).2 hu⟩
      obtain ⟨r1, hr1, hr1e⟩ := hrow _ hfirst
      obtain ⟨r2, hr2, hr2e⟩ := hrow _ hlast
      obtain ⟨hW, hc⟩ := goodTable_eval (some unitOne) (fin 1) pts hp hs rfl I ⟨e, u⟩ he hg.posE
        hg.proper ⟨r1, hr1, by rw [hr1e, ← hGT]; exact not_lt.1 h1⟩
        ⟨r2, hr2, by rw [hr2e]; exact not_lt.1 h2⟩
      have hlift : (⟨e, u⟩ : Qty ℝ).lift = ⟨fin e, u⟩ := rfl
      rw [hlift] at hc
      rw [hc]
      obtain ⟨y, hy⟩ := hI.finite pts h4 hs _ hW
      have hval : log10 ((fin 1 * pow (fin 10) (I (asNodes pts) (fin (logEV (e * u.scale))))) *
          fin ((some unitOne).getD unitOne).scale) = I (asNodes pts) (fin (logEV (e * u.scale))) := by
        have hy' : I (asNodes pts) (fin (logEV (e * u.scale))) = fin y := hy
        rw [hy', pow_fin _ _ (by norm_num : (0 : ℝ) < 10)]
        simp only [Option.getD_some, unitOne, mul_fin, one_mul, mul_one]
        rw [log10_fin _ (Real.rpow_pos_of_pos (by norm_num) _),
          Real.logb_rpow (by norm_num) (by norm_num)]
      have hphys : (⟨e, u⟩ : Qty ℝ).phys = e * u.scale := rfl
      simp only [hphys] at hy ⊢
      rw [hval]
      refine ⟨y, by rw [hy], fun h => absurd h h1, fun h => absurd h h2, fun p hpz h => ?_,
        fun a b c k hcub0 _ _ => ?_⟩
      · have hmem : (p.1, (10 : ℝ) ^ p.2) ∈ eblRows d taus := by
          unfold eblRows
          rw [List.zip_map_right]
          exact List.mem_map.2 ⟨p, hpz, rfl⟩
        have hnode := hI.node pts h4 hs (logEV (p.1 * PhysUnit.TeV.scale),
          Real.logb 10 ((10 : ℝ) ^ p.2)) (hp.mem_iff.2 (List.mem_map.2 ⟨_, hmem, rfl⟩))
        simp only [h] at hnode
        rw [hy, Real.logb_rpow (by norm_num) (by norm_num)] at hnode
        exact (fin_inj _ _).1 hnode
      · have hcub := hI.cubic pts h4 hs a b c k (by
          intro q hq
          obtain ⟨r, hr, rfl⟩ := List.mem_map.1 (hp.mem_iff.1 hq)
          unfold eblRows at hr
          rw [List.zip_map_right] at hr
          obtain ⟨p, hpz, rfl⟩ := List.mem_map.1 hr
          simp only [Prod.map_fst, Prod.map_snd, id]
          rw [Real.logb_rpow (by norm_num) (by norm_num)]
          exact hcub0 p hpz) _ hW
        simp only [hphys] at hcub
        rw [hy] at hcub
        exact (fin_inj _ _).1 hcub

theorem eblArray (I : Interp) (m : TableModel) (u : PhysUnit) (hdim : u.dim = Dim.energy)
    (f : ℝ → ℝ) (h : ∀ e, eblTau I m ⟨fin e, u⟩ = .ok (fin (f e))) (es : List ℝ) :
    eblTransmission I m (.array (es.map fin) u) = .ok (es.map (fun e => fin (Real.exp (-f e)))) := by
  simp only [eblTransmission, if_pos hdim]
  induction es with
  | nil => rfl
  | cons e es ih =>
    rw [List.map_cons, List.mapM_cons, h e]
    simp only [bind, Except.bind, pure, Except.pure] at ih ⊢
    rw [ih]
    simp

/-- For redshifts from 0.01 up: the constructor succeeds, and for every list of energies in any
energy unit the transmission is 1 below 1 GeV, `exp(-min(tau, 150))` at every tabulated energy with
`tau` from the column of the closest redshift, positive everywhere, and `exp(-log10 6000)` above
100 TeV.  (`_partial`: between tabulated energies only positivity is shown: the interpolated
optical depth depends on the spline, and the last clause is not what the property asks,
`C26_false_above`.) -/
theorem C26_transmission_partial (d : EblData) (hd : EblFile d) (I : Interp) (hI : CubicSpline I)
    (z : ℝ) (hz : 0.01 ≤ z) :
    ∃ m n, eblInit d (.num (fin z)) = .ok m ∧ IsClosestColumn z n ∧
      ∀ (u : PhysUnit), u.dim = Dim.energy → 0 < u.scale → ∀ es : List ℝ,
        ∃ vs : List ℝ, eblTransmission I m (.array (es.map fin) u) = .ok (vs.map fin) ∧
          List.Forall₂ (fun e v =>
            0 < v ∧
            (e * u.scale < PhysUnit.GeV.scale → v = 1) ∧
            (∀ p ∈ d.energy.zip (d.col n), p.1 * PhysUnit.TeV.scale = e * u.scale →
              v = Real.exp (-(min p.2 150))) ∧
            (100 * PhysUnit.TeV.scale < e * u.scale → v = Real.exp (-Real.logb 10 6000))) es vs := by
  have hcl := C26_closest_redshift z
  have hlen : ((d.col (eblColumn (fin z))).map clip150).length = d.energy.length := by
    rw [List.length_map]; exact hd.cols _ hcl.1.1 hcl.1.2
  obtain ⟨m, hm, hpt⟩ := eblPoint hd I hI _ hlen
  refine ⟨m, eblColumn (fin z), ?_, hcl, fun u hdim hu es => ?_⟩
  · rw [eblInit_eq d z (by linarith) _ hlen (eblTaus_high d z hz)]; exact hm
  choose f hf using hpt u hdim hu
  refine ⟨es.map (fun e => Real.exp (-f e)), ?_, ?_⟩
  · rw [eblArray I m u hdim f (fun e => (hf e).1), List.map_map]; rfl
  · rw [List.forall₂_map_right_iff, List.forall₂_same]
    intro e _
    obtain ⟨_, h1, h2, h3, _⟩ := hf e
    refine ⟨Real.exp_pos _, fun h => by rw [h1 h]; simp, fun p hp h => ?_, fun h => by rw [h2 h]⟩
    have := h3 (p.1, clip150 p.2) (by
      rw [List.zip_map_right]; exact List.mem_map.2 ⟨p, hp, rfl⟩) h
    rw [this]
    congr 2
    unfold clip150
    split_ifs with hc
    · exact (min_eq_right hc.le).symm
    · exact (min_eq_left (not_lt.1 hc)).symm

/-- At tabulated energies with a non-negative optical depth the transmission is at most 1, and a
larger optical depth never gives a larger transmission. -/
theorem C26_decreasing (t t' : ℝ) (ht : 0 ≤ t) (h : t ≤ t') :
    Real.exp (-(min t 150)) ≤ 1 ∧ Real.exp (-(min t' 150)) ≤ Real.exp (-(min t 150)) := by
  constructor
  · rw [Real.exp_le_one_iff]
    have : 0 ≤ min t 150 := le_min ht (by norm_num)
    linarith
  · rw [Real.exp_le_exp]
    exact neg_le_neg (min_le_min_right _ h)

/-- For redshifts below 0.01 there is no absorption up to 100 TeV … -/
theorem C26_low_redshift_partial (d : EblData) (hd : EblFile d) (I : Interp) (hI : CubicSpline I)
    (z : ℝ) (hz0 : 0 ≤ z) (hz : z < 0.01) :
    ∃ m, eblInit d (.num (fin z)) = .ok m ∧
      ∀ (u : PhysUnit), u.dim = Dim.energy → 0 < u.scale → ∀ e : ℝ,
        (e * u.scale ≤ 100 * PhysUnit.TeV.scale →
          eblTransmission I m (.array [fin e] u) = .ok [fin 1]) ∧
        (100 * PhysUnit.TeV.scale < e * u.scale →
          eblTransmission I m (.array [fin e] u) = .ok [fin (Real.exp (-Real.logb 10 6000))]) := by
  have hlen : (List.replicate d.energy.length (0 : ℝ)).length = d.energy.length := by simp
  obtain ⟨m, hm, hpt⟩ := eblPoint hd I hI _ hlen
  refine ⟨m, ?_, fun u hdim hu e => ?_⟩
  · rw [eblInit_eq d z hz0 _ hlen (eblTaus_low d z hz)]; exact hm
  choose f hf using hpt u hdim hu
  have := eblArray I m u hdim f (fun e => (hf e).1) [e]
  simp only [List.map_cons, List.map_nil] at this
  rw [this]
  obtain ⟨_, h1, h2, _, h4⟩ := hf e
  constructor
  · intro h
    have : f e = 0 := by
      by_cases hc : e * u.scale < PhysUnit.GeV.scale
      · exact h1 hc
      · rw [h4 0 0 0 0 (fun p hp => by
          rw [(List.mem_replicate.1 (List.of_mem_zip hp).2).2]; ring) (not_lt.1 hc) h]
        ring
    rw [this]; simp
  · intro h
    rw [h2 h]

theorem log6000 : 3 < Real.logb 10 6000 := by
  rw [Real.lt_logb_iff_rpow_lt (by norm_num) (by norm_num)]
  norm_num

theorem log6000_lt : Real.logb 10 6000 < 4 := by
  rw [Real.logb_lt_iff_lt_rpow (by norm_num) (by norm_num)]
  norm_num

/-- … but the property fails just above 100 TeV: a source at redshift 0 (no absorption at any
energy up to 100 TeV) loses more than nine tenths of its photons there. -/
theorem C26_false_low_redshift (d : EblData) (hd : EblFile d) (I : Interp) (hI : CubicSpline I)
    (e : ℝ) (he : 100 < e) :
    ∃ m v, eblInit d (.num (fin 0)) = .ok m ∧
      eblTransmission I m (.array [fin 100] PhysUnit.TeV) = .ok [fin 1] ∧
      eblTransmission I m (.array [fin e] PhysUnit.TeV) = .ok [fin v] ∧ v < 1 / 10 := by
  obtain ⟨m, hm, h⟩ := C26_low_redshift_partial d hd I hI 0 le_rfl (by norm_num)
  have hT : (0 : ℝ) < PhysUnit.TeV.scale := by norm_num [PhysUnit.TeV]
  refine ⟨m, _, hm, (h PhysUnit.TeV rfl hT 100).1 le_rfl,
    (h PhysUnit.TeV rfl hT e).2 (mul_lt_mul_of_pos_right he hT), ?_⟩
  have h1 : Real.exp (-Real.logb 10 6000) < Real.exp (-3) := by
    rw [Real.exp_lt_exp]; linarith [log6000]
  have h2 : Real.exp (-3) < 1 / 10 := by
    rw [Real.exp_neg, ← one_div]
    apply one_div_lt_one_div_of_lt (by norm_num)
    have h6 : Real.exp 3 = Real.exp (1/2) ^ 6 := by rw [← Real.exp_nat_mul]; norm_num
    rw [h6]
    have h7 : (1.5 : ℝ) ≤ Real.exp (1/2) := by
      have := Real.add_one_le_exp (1/2 : ℝ); linarith
    calc (10 : ℝ) < 1.5 ^ 6 := by norm_num
      _ ≤ _ := pow_le_pow_left₀ (by norm_num) h7 6
  linarith

/-- The property fails above 100 TeV: when the optical depth at 100 TeV exceeds 4 (in the file it is
19.8 at redshift 0.01 and grows with redshift), the transmission jumps up just above 100 TeV. -/
theorem C26_false_above (d : EblData) (hd : EblFile d) (I : Interp) (hI : CubicSpline I)
    (z : ℝ) (hz : 0.01 ≤ z) (τ : ℝ)
    (hτ : ∀ n, IsClosestColumn z n → (d.col n).getLast? = some τ) (h4 : 4 < τ) (e : ℝ)
    (he : 100 < e) :
    ∃ m a b, eblInit d (.num (fin z)) = .ok m ∧
      eblTransmission I m (.array [fin 100] PhysUnit.TeV) = .ok [fin a] ∧
      eblTransmission I m (.array [fin e] PhysUnit.TeV) = .ok [fin b] ∧ a < b := by
  obtain ⟨m, n, hm, hn, h⟩ := C26_transmission_partial d hd I hI z hz
  have hT : (0 : ℝ) < PhysUnit.TeV.scale := by norm_num [PhysUnit.TeV]
  obtain ⟨vs, hvs, hf⟩ := h PhysUnit.TeV rfl hT [100]
  obtain ⟨ws, hws, hg⟩ := h PhysUnit.TeV rfl hT [e]
  obtain ⟨a, l, ha, hl, rfl⟩ := List.forall₂_cons_left_iff.1 hf
  obtain ⟨b, l', hb, hl', rfl⟩ := List.forall₂_cons_left_iff.1 hg
  rw [List.forall₂_nil_left_iff] at hl hl'
  subst hl hl'
  refine ⟨m, a, b, hm, hvs, hws, ?_⟩
  rw [hb.2.2.2 (mul_lt_mul_of_pos_right he hT)]
  have hmem : (100, τ) ∈ d.energy.zip (d.col n) := by
    have h1 := hτ n hn
    have h2 := hd.last
    have hlen := hd.cols n hn.1.1 hn.1.2
    rw [List.getLast?_eq_some_iff] at h1 h2
    obtain ⟨p, hp⟩ := h1
    obtain ⟨q, hq⟩ := h2
    rw [hp, hq] at hlen
    rw [hp, hq, List.zip_append (by simpa using hlen.symm)]
    simp
  rw [ha.2.2.1 _ hmem rfl]
  rw [Real.exp_lt_exp]
  have : 4 < min τ 150 := lt_min h4 (by norm_num)
  linarith [log6000_lt]

/-- The property fails at high redshift: every redshift above the table is silently treated as 3.99
(column 400), and an infinite one as 0.01 (column 2). -/
theorem C26_false_high_redshift :
    (∀ z : ℝ, 4 ≤ z → eblColumn (fin z) = 400) ∧ eblColumn pinf = 2 := by
  constructor
  · intro z hz
    obtain ⟨⟨h1, h2⟩, h⟩ := C26_closest_redshift z
    rcases h2.lt_or_eq with hlt | heq
    · have := (h 400 (by norm_num) le_rfl).1
      unfold columnRedshift at this
      have hc : ((eblColumn (fin z) : ℕ) : ℝ) ≤ 399 := by exact_mod_cast Nat.lt_succ_iff.1 hlt
      generalize ((eblColumn (fin z) : ℕ) : ℝ) = c at this hc
      have a1 : 0.01 * (c - 1) - z ≤ 0 := by linarith
      have a2 : 0.01 * (((400 : ℕ) : ℝ) - 1) - z ≤ 0 := by push_cast; linarith
      rw [abs_of_nonpos a1, abs_of_nonpos a2] at this
      push_cast at this
      linarith
    · exact heq
  · unfold eblColumn
    have h1 : ∀ n : ℕ, argmin (List.replicate n pinf) = 0 := by
      intro n
      induction n with
      | zero => rfl
      | succ n ih =>
        cases n with
        | zero => rfl
        | succ n =>
          rw [List.replicate_succ, List.replicate_succ]
          rw [List.replicate_succ] at ih
          unfold argmin
          rw [ih]
          have : ¬ (pinf < pinf) := fun h => h
          simp only [List.getElem?_cons_zero, if_neg this]
    have h2 : redshiftList.map (fun w => XR.abs (fin w - pinf)) = List.replicate 399 pinf := by
      unfold redshiftList
      rw [List.map_map, List.eq_replicate_iff]
      refine ⟨by rw [List.length_map, List.length_range], fun b hb => ?_⟩
      obtain ⟨i, _, rfl⟩ := List.mem_map.1 hb
      rfl
    rw [h2, h1]

/-- Errors: negative redshifts, unknown models, redshifts with a dimension; and a NaN redshift
escapes validation and ends in an UnboundLocalError. -/
theorem C26_errors (d : EblData) :
    (∀ z : ℝ, z < 0 → eblInit d (.num (fin z)) = .error .valueError) ∧
    (∀ (z : ℝ) (s : String), 0 ≤ z → s ≠ "Dominguez" →
      eblInit d (.num (fin z)) s = .error .valueError) ∧
    (∀ (x : XR) (u : PhysUnit), u.dim ≠ Dim.one → eblInit d (.qty x u) = .error .typeError) ∧
    eblInit d (.num nan) = .error .unboundLocalError := by
  refine ⟨?_, ?_, ?_, ?_⟩
  · intro z hz
    unfold eblInit
    rw [validateRedshift_num, if_pos hz]
  · intro z s hz hs
    unfold eblInit
    rw [validateRedshift_num, if_neg (not_lt.2 hz)]
    simp [hs]
  · intro x u hu
    unfold eblInit validateRedshift validateScalar validatePhysicalType
    simp [hu, bind, Except.bind]
  · unfold eblInit
    have h1 : validateRedshift (.num nan) = .ok nan := by
      unfold validateRedshift validateScalar validatePhysicalType unitOne
      have : ¬ (nan * fin 1 < fin 0) := fun h => h
      simp [cmpScalar, cmpQty, this, bind, Except.bind, pure, Except.pure]
      rfl
    rw [h1]
    have h2 : ¬ (fin 0.01 ≤ nan) := by
      intro h; rcases h with h | h <;> exact h
    have h3 : ¬ (nan < fin 0.01) := fun h => h
    simp [eblTaus, h2, h3]

/-- The property fails for a single energy: `transmission` of a scalar Quantity raises TypeError. -/
theorem C26_false_scalar (I : Interp) (m : TableModel) (e : Qty XR) :
    eblTransmission I m (.scalar e) = .error .typeError := rfl

/-! ### the transmission can exceed 1 between tabulated energies -/

/-- A file with four energies, evenly spaced in the logarithm up to 1 TeV … 100 TeV, and optical
depths 0, 0, 0, 6 at every redshift. -/
def overshootFile : EblData :=
  ⟨[0.001, 0.001 * 10 ^ (5/3 : ℝ), 0.001 * 10 ^ (10/3 : ℝ), 100], fun _ => [0, 0, 0, 6]⟩

theorem overshoot_ok : EblFile overshootFile := by
  have h1 : (1 : ℝ) < 10 ^ (5/3 : ℝ) := Real.one_lt_rpow (by norm_num) (by norm_num)
  have h2 : (10 : ℝ) ^ (5/3 : ℝ) < 10 ^ (10/3 : ℝ) :=
    Real.rpow_lt_rpow_of_exponent_lt (by norm_num) (by norm_num)
  have h3 : (10 : ℝ) ^ (10/3 : ℝ) < 10 ^ (5 : ℝ) :=
    Real.rpow_lt_rpow_of_exponent_lt (by norm_num) (by norm_num)
  have h5 : (10 : ℝ) ^ (5 : ℝ) = 100000 := by
    rw [show (5 : ℝ) = ((5 : ℕ) : ℝ) by norm_num, Real.rpow_natCast]; norm_num
  rw [h5] at h3
  refine ⟨by simp [overshootFile], ?_, rfl, rfl, fun n _ _ => by simp [overshootFile]⟩
  simp only [overshootFile, List.pairwise_cons, List.mem_cons, List.not_mem_nil, or_false,
    forall_eq_or_imp, forall_eq, IsEmpty.forall_iff, implies_true, List.Pairwise.nil, and_true]
  refine ⟨⟨?_, ?_, ?_⟩, ⟨?_, ?_⟩, ?_⟩ <;> first | linarith | norm_num

theorem logEV_tev (s : ℝ) : logEV (0.001 * 10 ^ s * PhysUnit.TeV.scale) = 9 + s := by
  unfold logEV
  have : 0.001 * (10 : ℝ) ^ s * PhysUnit.TeV.scale / PhysUnit.eV.scale = 10 ^ (9 + s) := by
    rw [Real.rpow_add (by norm_num)]
    have : (10 : ℝ) ^ (9 : ℝ) = 10 ^ (9 : ℕ) := by
      rw [show (9 : ℝ) = ((9 : ℕ) : ℝ) by norm_num, Real.rpow_natCast]
    rw [this]
    norm_num [PhysUnit.TeV, PhysUnit.eV]
    ring
  rw [this, Real.logb_rpow (by norm_num) (by norm_num)]

/-- The property fails between tabulated energies: with non-negative tabulated optical depths that
stay zero and then rise, the cubic through them dips below zero and the transmission exceeds 1.  (With
the values of `tau_dominguez11.npz` the excess is of order 1e-7.) -/
theorem C26_false_probability (I : Interp) (hI : CubicSpline I) (z : ℝ) (hz : 0.01 ≤ z) :
    ∃ m v, eblInit overshootFile (.num (fin z)) = .ok m ∧
      eblTransmission I m (.array [fin (0.001 * 10 ^ (5/2 : ℝ))] PhysUnit.TeV) = .ok [fin v] ∧
      1 < v := by
  have hd := overshoot_ok
  have hcol : (overshootFile.col (eblColumn (fin z))).map clip150 = [0, 0, 0, 6] := by
    simp [overshootFile, clip150]; norm_num
  have hlen : ((overshootFile.col (eblColumn (fin z))).map clip150).length =
      overshootFile.energy.length := by simp [overshootFile]
  obtain ⟨m, hm, hpt⟩ := eblPoint hd I hI _ hlen
  have hT : (0 : ℝ) < PhysUnit.TeV.scale := by norm_num [PhysUnit.TeV]
  choose f hf using hpt PhysUnit.TeV rfl hT
  refine ⟨m, Real.exp (-f (0.001 * 10 ^ (5/2 : ℝ))), ?_, ?_, ?_⟩
  · rw [eblInit_eq _ z (by linarith) _ hlen (eblTaus_high _ z hz)]; exact hm
  · exact eblArray I m PhysUnit.TeV rfl f (fun e => (hf e).1) [_]
  · obtain ⟨_, _, _, _, h4⟩ := hf (0.001 * 10 ^ (5/2 : ℝ))
    -- tau = (27/125) (x-9) (x-9-5/3) (x-9-10/3)
    have h := h4 (27/125 * (-(9 * (9 + 5/3) * (9 + 10/3))))
      (27/125 * (9 * (9 + 5/3) + 9 * (9 + 10/3) + (9 + 5/3) * (9 + 10/3)))
      (27/125 * (-(9 + (9 + 5/3) + (9 + 10/3)))) (27/125) ?_ ?_ ?_
    · rw [h, logEV_tev, Real.one_lt_exp_iff]
      norm_num
    · rw [hcol]
      have a0 : logEV (0.001 * PhysUnit.TeV.scale) = 9 := by
        have := logEV_tev 0; simpa using this
      have a3 : logEV (100 * PhysUnit.TeV.scale) = 14 := by
        have := logEV_tev 5
        rw [show (0.001 : ℝ) * 10 ^ (5 : ℝ) = 100 by
          rw [show (5 : ℝ) = ((5 : ℕ) : ℝ) by norm_num, Real.rpow_natCast]; norm_num] at this
        rw [this]; norm_num
      intro p hp
      simp only [overshootFile, List.zip_cons_cons, List.zip_nil_right, List.mem_cons,
        List.not_mem_nil, or_false] at hp
      rcases hp with rfl | rfl | rfl | rfl
      · simp only [a0]; norm_num
      · simp only [logEV_tev]; norm_num
      · simp only [logEV_tev]; norm_num
      · simp only [a3]; norm_num
    · have : (1 : ℝ) ≤ 10 ^ (5/2 : ℝ) := Real.one_le_rpow (by norm_num) (by norm_num)
      have hGT : PhysUnit.GeV.scale = 0.001 * PhysUnit.TeV.scale := by
        norm_num [PhysUnit.GeV, PhysUnit.TeV]
      rw [hGT]; nlinarith
    · have h3 : (10 : ℝ) ^ (5/2 : ℝ) ≤ 10 ^ (5 : ℝ) :=
        Real.rpow_le_rpow_of_exponent_le (by norm_num) (by norm_num)
      have h5 : (10 : ℝ) ^ (5 : ℝ) = 100000 := by
        rw [show (5 : ℝ) = ((5 : ℕ) : ℝ) by norm_num, Real.rpow_natCast]; norm_num
      rw [h5] at h3
      nlinarith

/-- a non-trivial file meets the hypotheses of the theorems above -/
example : EblFile overshootFile ∧
    ∀ n, IsClosestColumn 0.01 n → (overshootFile.col n).getLast? = some 6 :=
  ⟨overshoot_ok, fun _ _ => rfl⟩

end

end Naima
