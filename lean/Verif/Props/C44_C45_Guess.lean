import Verif.Spec.Guess
import Verif.Proof.XR
import Verif.Props.C33_Sed

/-! # C44, C45: normalisation guess and labels -/

namespace Naima.Props

open Naima Spec XR Classical

/-! ## C45 -/

/-- **C45 (sampler).** `get_sampler` uses at least one label per parameter; labels given by the user
are kept, in place, at the front; and exactly as many are added as were missing. -/
theorem C45_sampler_labels (labels : Option (List Label)) (npar : Nat) :
    npar ≤ (samplerLabels labels npar).length ∧
    (∀ l, labels = some l → l <+: samplerLabels labels npar ∧
      (samplerLabels labels npar).length = max l.length npar) ∧
    (labels = none → 1 ≤ npar → (samplerLabels labels npar).length = npar) := by
  cases labels with
  | none =>
    simp [samplerLabels]; omega
  | some l =>
    simp only [samplerLabels]
    split_ifs with h
    · simp; omega
    · simp; omega

/-- **C45 (interactive fitter).** The same for `InteractiveModelFitter`. -/
theorem C45_fitter_labels (labels : Option (List Label)) (npar : Nat) :
    npar ≤ (fitterLabels labels npar).length ∧
    (∀ l, labels = some l → l <+: fitterLabels labels npar ∧
      (fitterLabels labels npar).length = max l.length npar) ∧
    (labels = none → (fitterLabels labels npar).length = npar) := by
  cases labels with
  | none => simp [fitterLabels]
  | some l =>
    simp only [fitterLabels]
    split_ifs with h
    · simp; omega
    · simp; omega

/-- **C45 (added labels are the positions).** The label added at position `i` is `par<i>`. -/
theorem C45_added_labels (l : List Label) (npar i : Nat) (h1 : l.length ≤ i) (h2 : i < npar) :
    (samplerLabels (some l) npar)[i]? = some ("par".toList ++ (toString i).toList) ∧
    (fitterLabels (some l) npar)[i]? = some ("par".toList ++ (toString i).toList) := by
  have h : l.length < npar := by omega
  simp only [samplerLabels, fitterLabels, h, if_true, and_self]
  rw [List.getElem?_append_right h1]
  simp only [List.getElem?_map]
  rw [List.getElem?_range' (by omega)]
  simp [parLabel]
  congr 2
  omega

/-! ## C44 -/

theorem mem_normNames (n : Label) :
    n ∈ normNames ↔ ∃ pre ∈ [[], "log(".toList, "log10(".toList],
      ∃ name ∈ ["norm".toList, "ampl".toList, "we".toList, "wp".toList], n = pre ++ name := by
  simp [normNames, normBase, logPre, log10Pre]
  tauto

theorem denotes_iff (l : Label) :
    DenotesNorm l ↔ ∃ n ∈ normNames, n.isPrefixOf (lowerLabel l) = true := by
  simp only [DenotesNorm, lowerLabel]
  constructor
  · rintro ⟨p, hp, n, hn, h⟩
    exact ⟨p ++ n, (mem_normNames _).2 ⟨p, hp, n, hn, rfl⟩, List.isPrefixOf_iff_prefix.2 h⟩
  · rintro ⟨n, hn, h⟩
    obtain ⟨p, hp, m, hm, rfl⟩ := (mem_normNames _).1 hn
    exact ⟨p, hp, m, hm, List.isPrefixOf_iff_prefix.1 h⟩

theorem normNames_incomparable : normNames.Pairwise (fun a b => ¬ a <+: b ∧ ¬ b <+: a) := by decide

theorem filter_length_le_one (m : Label) :
    ∀ (l : List Label), l.Pairwise (fun a b => ¬ a <+: b ∧ ¬ b <+: a) →
      (l.filter (fun n => n.isPrefixOf m)).length = if (∃ n ∈ l, n.isPrefixOf m = true) then 1 else 0
  | [], _ => by simp
  | a :: l, h => by
    rw [List.pairwise_cons] at h
    have ih := filter_length_le_one m l h.2
    by_cases ha : a.isPrefixOf m = true
    · have hno : ¬ ∃ n ∈ l, n.isPrefixOf m = true := by
        rintro ⟨n, hn, hp⟩
        rcases List.prefix_or_prefix_of_prefix (List.isPrefixOf_iff_prefix.1 ha)
          (List.isPrefixOf_iff_prefix.1 hp) with h' | h'
        · exact (h.1 n hn).1 h'
        · exact (h.1 n hn).2 h'
      rw [if_neg hno] at ih
      rw [List.filter_cons_of_pos (by simpa using ha), List.length_cons, ih,
        if_pos ⟨a, List.mem_cons_self, ha⟩]
    · rw [List.filter_cons_of_neg (by simpa using ha), ih]
      congr 1
      simp only [List.mem_cons, exists_eq_or_imp, ha, Bool.false_eq_true, false_or]

theorem filter_names (l : Label) :
    (normNames.filter (fun n => n.isPrefixOf (lowerLabel l))).length = if DenotesNorm l then 1 else 0 := by
  rw [filter_length_le_one _ _ normNames_incomparable]
  congr 1
  rw [eq_iff_iff, denotes_iff]

/-- number of (name, label) matches -/
theorem matches_sum (names labels : List Label) (g : Label → Nat) :
    (names.flatMap (fun n =>
      (labels.filter (fun l => n.isPrefixOf (lowerLabel l))).map g)).length =
    (labels.map (fun l => (names.filter (fun n => n.isPrefixOf (lowerLabel l))).length)).sum := by
  induction labels with
  | nil => simp
  | cons a labels ih =>
    rw [List.map_cons, List.sum_cons, ← ih]
    clear ih
    induction names with
    | nil => simp
    | cons n names ih =>
      rw [List.flatMap_cons, List.flatMap_cons, List.length_append, List.length_append, ih]
      by_cases hn : n.isPrefixOf (lowerLabel a) = true
      · rw [List.filter_cons_of_pos (l := labels) (by simpa using hn),
          List.filter_cons_of_pos (l := names) (by simpa using hn)]
        simp only [List.map_cons, List.length_cons]; omega
      · rw [List.filter_cons_of_neg (l := labels) (by simpa using hn),
          List.filter_cons_of_neg (l := names) (by simpa using hn)]
        omega

/-- **C44 (which labels).** The number of indices found is the number of labels denoting a
normalisation: no label is counted twice and none is missed. -/
theorem C44_count (labels : List Label) :
    (normIdxs labels).length = labels.countP (fun l => decide (DenotesNorm l)) := by
  unfold normIdxs
  rw [matches_sum]
  induction labels with
  | nil => simp
  | cons a l ih =>
    rw [List.map_cons, List.sum_cons, ih, filter_names, List.countP_cons]
    simp only [decide_eq_true_eq]
    omega

/-- **C44 (which index).** If exactly one position holds a label denoting a normalisation, that
position is the one index found. -/
theorem C44_index (labels : List Label) (k : Nat) (hk : k < labels.length)
    (h1 : DenotesNorm labels[k]) (h2 : ∀ j (hj : j < labels.length), DenotesNorm labels[j] → j = k) :
    normIdxs labels = [k] := by
  have hcount : labels.countP (fun l => decide (DenotesNorm l)) = 1 := by
    have e : labels = labels.take k ++ labels[k] :: labels.drop (k + 1) := by
      rw [List.getElem_cons_drop, List.take_append_drop]
    rw [e, List.countP_append, List.countP_cons]
    have a : (labels.take k).countP (fun l => decide (DenotesNorm l)) = 0 := by
      rw [List.countP_eq_zero]
      intro l hl hd
      obtain ⟨j, hj, rfl⟩ := List.mem_iff_getElem.1 hl
      rw [List.getElem_take] at hd
      have := h2 j (by simp at hj; omega) (by simpa using hd)
      simp at hj; omega
    have b : (labels.drop (k + 1)).countP (fun l => decide (DenotesNorm l)) = 0 := by
      rw [List.countP_eq_zero]
      intro l hl hd
      obtain ⟨j, hj, rfl⟩ := List.mem_iff_getElem.1 hl
      rw [List.getElem_drop] at hd
      have := h2 (k + 1 + j) (by simp at hj; omega) (by simpa using hd)
      omega
    rw [a, b]; simp [h1]
  have hlen := C44_count labels
  rw [hcount] at hlen
  obtain ⟨n, hn, hp⟩ := (denotes_iff _).1 h1
  have hmem : labels.idxOf labels[k] ∈ normIdxs labels := by
    unfold normIdxs
    rw [List.mem_flatMap]
    exact ⟨n, hn, List.mem_map.2 ⟨_, List.mem_filter.2 ⟨List.getElem_mem hk, hp⟩, rfl⟩⟩
  have hidx : labels.idxOf labels[k] = k := by
    have hl : labels.idxOf labels[k] < labels.length := List.idxOf_lt_length_of_mem (List.getElem_mem hk)
    exact h2 _ hl (by rw [List.getElem_idxOf]; exact h1)
  rw [hidx] at hmem
  obtain ⟨x, hx⟩ := List.length_eq_one_iff.1 hlen
  rw [hx] at hmem ⊢
  simp at hmem
  rw [hmem]

/-- **C44 (unchanged otherwise).** If no label, or more than one, denotes a normalisation, or the guess
is not requested, `p0` is not changed (given that the units are acceptable). -/
theorem C44_unchanged (guess : Bool) (labels : List Label) (p0 : List XR) (data : VTable)
    (spec : Spectrum) (hs : SpectralType spec.unit.dim) (hd : SpectralType data.fluxU.dim)
    (h : guess = false ∨ labels.countP (fun l => decide (DenotesNorm l)) ≠ 1) :
    guessNorm guess labels p0 data spec = .ok p0 := by
  obtain ⟨fu, s, h1, -⟩ := C33_dimensions spec.unit hs false
  obtain ⟨fu', s', h2, -⟩ := C33_dimensions data.fluxU hd false
  have hu : unitsCheck spec.unit data.fluxU = .ok () := by simp [unitsCheck, h1, h2]
  simp only [guessNorm, hu]
  rw [← C44_count] at h
  rcases h with h | h
  · simp [h]
  · split
    · split
      · rename_i i hi
        rw [hi] at h; simp at h
      · rfl
    · rfl

theorem trapz_spec (isSed : Prop) [Decidable isSed] (c : ℝ → ℝ)
    (hc : ∀ E, 0 < E → c E = if isSed then 1 / E ^ 2 else 1) :
    ∀ (vs : List ℝ) (rows : List Row), vs.length = rows.length → (∀ r ∈ rows, 0 < r.energy) →
      npTrapezoid (List.zipWith (fun v r => fin r.energy * (v * fin (c r.energy))) (vs.map fin) rows)
        (rows.map (·.energy)) = fin (energyFlux isSed vs (rows.map (·.energy)))
  | [], [], _, _ => rfl
  | [v], [r], _, _ => rfl
  | v :: v' :: vs, r :: r' :: rows, hl, hE => by
    have ih := trapz_spec isSed c hc (v' :: vs) (r' :: rows) (by simpa using hl)
      (fun r h => hE r (List.mem_cons_of_mem _ h))
    simp only [List.map_cons, List.zipWith_cons_cons] at ih ⊢
    simp only [npTrapezoid, energyFlux]
    simp only [XR.mul_fin, XR.add_fin] at ih ⊢
    rw [ih, XR.div_fin _ _ (by norm_num), XR.add_fin]
    congr 2
    have e1 := hE r (by simp)
    have e2 := hE r' (by simp)
    rw [hc _ e1, hc _ e2]
    split_ifs <;> ring
  | [], _ :: _, hl, _ => by simp at hl
  | _ :: _, [], hl, _ => by simp at hl
  | [_], _ :: _ :: _, hl, _ => by simp at hl
  | _ :: _ :: _, [_], hl, _ => by simp at hl

theorem energyFluxOf_spec (vs : List ℝ) (u : PhysUnit) (hu : SpectralType u.dim) (rows : List Row)
    (hl : vs.length = rows.length) (hE : ∀ r ∈ rows, 0 < r.energy) :
    ∃ d, energyFluxOf (vs.map fin) u rows =
        .ok (fin (energyFlux (IsSedType u.dim) vs (rows.map (·.energy))), d) ∧
      SpectralType d ∧ ¬ IsSedType d ∧
      (d ∈ [Dim.flux, Dim.diffFlux] ↔ u.dim ∈ [Dim.flux, Dim.diffFlux]) ∧
      (d ∈ [Dim.power, Dim.diffPower] ↔ u.dim ∈ [Dim.power, Dim.diffPower]) := by
  obtain ⟨fu, s, h1, h2, h3, h4, h5, h6, h7⟩ := C33_dimensions u hu false
  have hs := C33_factor u hu false fu s h1
  refine ⟨fu.dim, ?_, h4, by simpa using h5, h6, h7⟩
  simp only [energyFluxOf, h1, List.length_map, hl, ne_eq, not_true_eq_false, if_false, ← h2, if_true]
  rw [trapz_spec (IsSedType u.dim) s.phys ?_ vs rows hl hE]
  intro E hE
  simp only [Bool.false_eq_true, if_false] at hs
  rw [hs]
  split_ifs <;> rfl

/-- differential type of the same family -/
theorem diff_family_eq (d e : Dim) (h1 : SpectralType d) (h2 : SpectralType e) (n1 : ¬ IsSedType d)
    (n2 : ¬ IsSedType e)
    (hf : d ∈ [Dim.flux, Dim.diffFlux] ↔ e ∈ [Dim.flux, Dim.diffFlux])
    (hp : d ∈ [Dim.power, Dim.diffPower] ↔ e ∈ [Dim.power, Dim.diffPower]) : d = e := by
  rcases h1 with rfl | rfl | rfl | rfl | rfl | rfl <;>
    rcases h2 with rfl | rfl | rfl | rfl | rfl | rfl <;>
    first | rfl | (exfalso; revert n1 n2 hf hp; decide)

/-- The physical types are comparable: both flux-like, both luminosity-like or both total-energy-like. -/
def SameKind (d e : Dim) : Prop :=
  (d ∈ [Dim.flux, Dim.diffFlux] ↔ e ∈ [Dim.flux, Dim.diffFlux]) ∧
  (d ∈ [Dim.power, Dim.diffPower] ↔ e ∈ [Dim.power, Dim.diffPower])

/-- the guess multiplies the normalisation by the ratio of the energy fluxes -/
theorem guess_value (labels : List Label) (p0 : List XR) (k : Nat) (hk : k < labels.length)
    (hkp : k < p0.length)
    (h1 : DenotesNorm labels[k]) (h2 : ∀ j (hj : j < labels.length), DenotesNorm labels[j] → j = k)
    (data : VTable) (ms : List ℝ) (u : PhysUnit) (hu : SpectralType u.dim)
    (hd : SpectralType data.fluxU.dim) (hsame : SameKind u.dim data.fluxU.dim)
    (hl : ms.length = data.rows.length) (hE : ∀ r ∈ data.rows, 0 < r.energy)
    (hm : energyFlux (IsSedType u.dim) ms (data.rows.map (·.energy)) ≠ 0) :
    guessNorm true labels p0 data ⟨ms.map fin, u⟩ =
      applyRatio labels[k] p0 k
        (fin (energyFlux (IsSedType data.fluxU.dim) (data.rows.map (·.flux)) (data.rows.map (·.energy)) /
          energyFlux (IsSedType u.dim) ms (data.rows.map (·.energy)))) := by
  obtain ⟨fu, s, e1, -⟩ := C33_dimensions u hu false
  obtain ⟨fu', s', e2, -⟩ := C33_dimensions data.fluxU hd false
  have hc : unitsCheck u data.fluxU = .ok () := by simp [unitsCheck, e1, e2]
  obtain ⟨d1, a1, a2, a3, a4, a5⟩ := energyFluxOf_spec ms u hu data.rows hl hE
  obtain ⟨d2, b1, b2, b3, b4, b5⟩ := energyFluxOf_spec (data.rows.map (·.flux)) data.fluxU hd data.rows
    (by simp) hE
  have hdd : d1 = d2 := diff_family_eq d1 d2 a2 b2 a3 b3 (a4.trans (hsame.1.trans b4.symm))
    (a5.trans (hsame.2.trans b5.symm))
  have hm' : (data.rows.map (fun r => fin r.flux)) = (data.rows.map (·.flux)).map fin := by simp
  simp only [guessNorm, hc, if_true, C44_index labels k hk h1 h2, guessAt, a1, hm', b1, hdd]
  rw [XR.div_fin _ _ hm, List.getD_eq_getElem?_getD, List.getElem?_eq_getElem hk]
  rfl

theorem energyFlux_smul (isSed : Prop) [Decidable isSed] (c : ℝ) :
    ∀ vs Es : List ℝ, energyFlux isSed (vs.map (fun v => c * v)) Es = c * energyFlux isSed vs Es
  | v :: v' :: vs, E :: E' :: Es => by
    have ih := energyFlux_smul isSed c (v' :: vs) (E' :: Es)
    simp only [List.map_cons, energyFlux] at ih ⊢
    rw [ih]
    split_ifs <;> ring
  | [], _ => by simp [energyFlux]
  | [_], _ => by simp [energyFlux]
  | _ :: _ :: _, [] => by simp [energyFlux]
  | _ :: _ :: _, [_] => by simp [energyFlux]

theorem modifyAt_fin (p0 : List ℝ) (k : Nat) (hk : k < p0.length) (g : XR → XR) (y : ℝ)
    (hg : g (fin p0[k]) = fin y) :
    modifyAt (p0.map fin) k g = .ok ((p0.set k y).map fin) := by
  unfold modifyAt
  rw [if_pos (by simpa using hk)]
  congr 1
  rw [List.map_set, List.modify_eq_set_getElem?]
  simp [hk, hg]

/-- **C44 (the guess matches the data).** Let exactly one label (at position `k`) denote a
normalisation, the parameters and the model spectrum be finite, model and data both flux-like or both
luminosity-like (differential or SED), energies positive, and the energy flux of the model and of the
data positive.  Suppose the model is proportional to that parameter, or for a label beginning `log(` /
`log10(` to its (10-)exponential.  Then after the guess all other parameters are unchanged and the
energy-weighted integral of the model equals that of the data. -/
theorem C44_matches_data (labels : List Label) (p0 : List ℝ) (k : Nat) (hk : k < labels.length)
    (hkp : k < p0.length) (h1 : DenotesNorm labels[k])
    (h2 : ∀ j (hj : j < labels.length), DenotesNorm labels[j] → j = k)
    (data : VTable) (hE : ∀ r ∈ data.rows, 0 < r.energy) (hd : SpectralType data.fluxU.dim)
    (model : List ℝ → List ℝ) (u : PhysUnit) (hu : SpectralType u.dim)
    (hsame : SameKind u.dim data.fluxU.dim)
    (hl : (model p0).length = data.rows.length)
    (hm : 0 < energyFlux (IsSedType u.dim) (model p0) (data.rows.map (·.energy)))
    (hdpos : 0 < energyFlux (IsSedType data.fluxU.dim) (data.rows.map (·.flux)) (data.rows.map (·.energy)))
    (hprop : ∀ c : ℝ, 0 < c →
      (if "log(".toList <+: labels[k] then model (p0.set k (p0[k] + Real.log c))
       else if "log10(".toList <+: labels[k] then model (p0.set k (p0[k] + Real.logb 10 c))
       else model (p0.set k (p0[k] * c))) = (model p0).map (fun v => c * v)) :
    ∃ y, guessNorm true labels (p0.map fin) data ⟨(model p0).map fin, u⟩ = .ok ((p0.set k y).map fin) ∧
      energyFlux (IsSedType u.dim) (model (p0.set k y)) (data.rows.map (·.energy)) =
      energyFlux (IsSedType data.fluxU.dim) (data.rows.map (·.flux)) (data.rows.map (·.energy)) := by
  set I := energyFlux (IsSedType u.dim) (model p0) (data.rows.map (·.energy)) with hI
  set J := energyFlux (IsSedType data.fluxU.dim) (data.rows.map (·.flux)) (data.rows.map (·.energy)) with hJ
  have hr : 0 < J / I := div_pos hdpos hm
  rw [guess_value labels (p0.map fin) k hk (by simpa using hkp) h1 h2 data (model p0) u hu hd hsame hl hE
    hm.ne', ← hI, ← hJ]
  have fin' : ∀ y, model (p0.set k y) = (model p0).map (fun v => J / I * v) →
      energyFlux (IsSedType u.dim) (model (p0.set k y)) (data.rows.map (·.energy)) = J := by
    intro y hy
    rw [hy, energyFlux_smul, ← hI]
    field_simp
  have hp := hprop _ hr
  have pl : "log(".toList = logPre := rfl
  have pl10 : "log10(".toList = log10Pre := rfl
  rw [pl, pl10] at hp
  unfold applyRatio
  by_cases c1 : logPre.isPrefixOf labels[k] = true
  · rw [if_pos c1]
    rw [if_pos (List.isPrefixOf_iff_prefix.1 c1)] at hp
    exact ⟨_, modifyAt_fin p0 k hkp _ _ (by rw [XR.log_fin _ hr, XR.add_fin]), fin' _ hp⟩
  · rw [if_neg c1]
    rw [if_neg (fun h => c1 (List.isPrefixOf_iff_prefix.2 h))] at hp
    by_cases c2 : log10Pre.isPrefixOf labels[k] = true
    · rw [if_pos c2]
      rw [if_pos (List.isPrefixOf_iff_prefix.1 c2)] at hp
      exact ⟨_, modifyAt_fin p0 k hkp _ _ (by rw [XR.log10_fin _ hr, XR.add_fin]), fin' _ hp⟩
    · rw [if_neg c2]
      rw [if_neg (fun h => c2 (List.isPrefixOf_iff_prefix.2 h))] at hp
      exact ⟨_, modifyAt_fin p0 k hkp _ _ (by rw [XR.mul_fin]), fin' _ hp⟩

/-- **C44 is false of the code for capitalised log labels**: `Log10(Norm)` is found (the search
ignores case) but the update does not recognise the prefix, and multiplies instead of adding. -/
theorem C44_false_capital_log :
    normIdxs ["Log10(Norm)".toList] = [0] ∧
    (∀ x r : ℝ, applyRatio "Log10(Norm)".toList [fin x] 0 (fin r) = .ok [fin (x * r)]) := by
  refine ⟨by decide, ?_⟩
  intro x r
  have h1 : logPre.isPrefixOf "Log10(Norm)".toList = false := by decide
  have h2 : log10Pre.isPrefixOf "Log10(Norm)".toList = false := by decide
  unfold applyRatio
  rw [h1, h2]
  rfl

/-- **C44 is false of the code for surplus labels**: if the label denoting the normalisation is beyond
the parameters, `get_sampler` raises IndexError instead of leaving `p0` alone. -/
theorem C44_false_surplus_label (lab : Label) (p0 : List XR) (i : Nat) (h : p0.length ≤ i) (r : XR) :
    applyRatio lab p0 i r = .error .indexError := by
  unfold applyRatio modifyAt
  simp [not_lt.2 h]

/-! ## C59: the announced check of model and data units -/

/-- Physical types the conversion knows: the six spectral types and differential number density. -/
def Convertible (d : Dim) : Prop := SpectralType d ∨ d = Dim.diffNumDensity

theorem sedConversion_ok_iff (u : PhysUnit) : (∃ r, sedConversion u false = .ok r) ↔ Convertible u.dim := by
  obtain ⟨sc, d⟩ := u
  constructor
  · rintro ⟨r, h⟩
    by_contra hc
    simp only [Convertible, SpectralType, not_or] at hc
    obtain ⟨⟨h1, h2, h3, h4, h5, h6⟩, h7⟩ := hc
    simp [sedConversion, h1, h2, h3, h4, h5, h6, h7] at h
  · intro h
    rcases h with h | h
    · obtain ⟨fu, s, h1, -⟩ := C33_dimensions ⟨sc, d⟩ h false
      exact ⟨_, h1⟩
    · simp only at h
      subst h
      exact ⟨_, rfl⟩

/-- **C59 (what is rejected), partial.** UnitsError is raised exactly when one of the two units is not
a spectral one.  Missing: units that are both spectral but not comparable pass (false, below). -/
theorem C59_units_check_partial (u d : PhysUnit) :
    (unitsCheck u d = .error .unitsError ↔ ¬ Convertible u.dim ∨ ¬ Convertible d.dim) ∧
    (unitsCheck u d = .ok () ↔ Convertible u.dim ∧ Convertible d.dim) := by
  rw [← sedConversion_ok_iff, ← sedConversion_ok_iff]
  unfold unitsCheck
  cases h1 : sedConversion u false <;> cases h2 : sedConversion d false <;> simp

/-- **C59 is false of the code**: flux data with a luminosity model passes the check (and the run
fails later, in the likelihood, with UnitConversionError). -/
theorem C59_false_flux_vs_luminosity (u d : PhysUnit) (hu : u.dim = Dim.diffPower)
    (hd : d.dim = Dim.diffFlux) (vals : List XR) (data : VTable) (hdata : data.fluxU = d) :
    unitsCheck u d = .ok () ∧ lnprobmodel ⟨vals, u⟩ data = .error .unitConversionError := by
  obtain ⟨a, b⟩ := u
  obtain ⟨a', b'⟩ := d
  simp only at hu hd
  subst hu hd
  refine ⟨rfl, ?_⟩
  have n1 : ¬ Dim.diffPower = Dim.diffFlux := by decide
  have n2 : unitIsSed Dim.diffPower = unitIsSed Dim.diffFlux := by
    simp [unitIsSed, Dim.diffPower, Dim.diffFlux, Dim.power, Dim.flux]
  unfold lnprobmodel toDataKind
  simp only [hdata, n2, ne_eq, not_true_eq_false, if_false, n1]
  rfl

/-- Non-vacuity: two points, a model proportional to a parameter labelled `norm`. -/
example : ∃ y, guessNorm true ["norm".toList, "index".toList] ([2, 3].map fin)
    { energyU := PhysUnit.TeV, fluxU := perSTeVCm2, fluxErrorLoU := perSTeVCm2, fluxErrorHiU := perSTeVCm2,
      energyErrorLoU := PhysUnit.TeV, energyErrorHiU := PhysUnit.TeV,
      rows := [⟨1, 4, 1, 1, 0, 0, 0, false, fin 0.9⟩, ⟨2, 1, 1, 1, 0, 0, 0, false, fin 0.9⟩] }
    ⟨[2, 2].map fin, perSTeVCm2⟩ = .ok (([2, 3].set 0 y).map fin) := by
  have hnd : ¬ DenotesNorm "index".toList := by
    rw [denotes_iff]; decide
  refine (C44_matches_data ["norm".toList, "index".toList] [2, 3] 0 (by simp) (by simp) ?_ ?_ _
    (by simp) (Or.inl rfl) (fun p => [p.headD 0, p.headD 0]) perSTeVCm2 (Or.inl rfl) ⟨Iff.rfl, Iff.rfl⟩ (by simp) ?_ ?_ ?_).imp
      (fun y h => h.1)
  · rw [denotes_iff]; decide
  · intro j hj h
    match j, hj with
    | 0, _ => rfl
    | 1, _ => exact absurd h hnd
  · have : ¬ IsSedType perSTeVCm2.dim := by decide
    simp [energyFlux, this]
    norm_num
  · have : ¬ IsSedType perSTeVCm2.dim := by decide
    simp [energyFlux, this]
    norm_num
  · intro c hc
    have a : ¬ ("log(".toList <+: "norm".toList) := by decide
    have b : ¬ ("log10(".toList <+: "norm".toList) := by decide
    simp only [List.getElem_cons_zero]
    rw [if_neg a, if_neg b]
    simp; ring

/-- No label, or two labels, that name a normalisation. -/
example (data : VTable) (h : data.fluxU = perSTeVCm2) :=
  C44_unchanged true ["norm1".toList, "amplitude".toList, "index".toList] [fin 1, fin 2, fin 3] data ⟨[], perSTeVCm2⟩
    (Or.inl rfl) (by rw [h]; exact Or.inl rfl) (Or.inr (by simp only [denotes_iff]; decide))

example := C45_added_labels ["norm".toList] 3 1 (by simp) (by norm_num)

end Naima.Props
