import Verif.Spec.Pion
import Verif.Proof.IC

namespace Naima

open XR Classical

theorem scatter_map (mask : ℝ → Bool) (G V : ℝ → XR) (Tps : List ℝ) :
    scatter mask Tps (Tps.map G) ((Tps.filter mask).map V) =
      Tps.map (fun t => if mask t then V t else G t) := by
  induction Tps with
  | nil => simp [scatter]
  | cons t ts ih =>
    cases h : mask t with
    | true => simp [scatter, h, ih]
    | false => simp [scatter, h, ih]

/-- The part of the table that evaluations never change. -/
def StaticOk (t : FTable) : Prop :=
  (t .expData).lam = .scalar (fin 1) ∧ (t .expData).al = .scalar (fin 1) ∧
  (t .expData).ga = .scalar (fin 0) ∧
  (t .geant4_0).lam = .scalar (fin 3) ∧ (t .geant4_0).al = .scalar (fin 1) ∧
  (t .geant4_1).lam = .scalar (fin 3) ∧ (t .geant4_1).al = .scalar (fin 1) ∧
  t .geant4_2 = fmpInit .geant4_2 ∧ ∀ h, t (.model h) = fmpInit (.model h)

theorem staticOk_init : StaticOk fmpInit := ⟨rfl, rfl, rfl, rfl, rfl, rfl, rfl, rfl, fun _ => rfl⟩

theorem fBlock_spec (Tps : List ℝ) (Eg : ℝ) (mask : ℝ → Bool) (key : FKey)
    (upd : List ℝ → FParams → FParams) (tbl : FTable) (G V : ℝ → XR)
    (hV : ∀ sel, fFuncVec sel Eg (upd sel (tbl key)) = sel.map V) :
    (fBlock Tps Eg mask key upd (tbl, Tps.map G)).2 = Tps.map (fun t => if mask t then V t else G t) := by
  unfold fBlock
  by_cases h : Tps.filter mask = []
  · simp only [h, if_true]
    apply List.map_congr_left
    intro t ht
    rw [List.filter_eq_nil_iff] at h
    simp [h t ht]
  · simp only [h, if_false, hV]
    exact scatter_map mask G V Tps

theorem fBlock_table (Tps : List ℝ) (Eg : ℝ) (mask : ℝ → Bool) (key : FKey)
    (upd : List ℝ → FParams → FParams) (tbl : FTable) (F : List XR) (k : FKey) :
    (fBlock Tps Eg mask key upd (tbl, F)).1 k = tbl k ∨
      k = key ∧ (fBlock Tps Eg mask key upd (tbl, F)).1 k = upd (Tps.filter mask) (tbl key) := by
  unfold fBlock
  by_cases h : Tps.filter mask = []
  · simp [h]
  · simp only [h, if_false]
    by_cases hk : k = key
    · right; simp [hk]
    · left; simp [hk]

theorem fBlock_static (Tps : List ℝ) (Eg : ℝ) (mask : ℝ → Bool) (key : FKey)
    (upd : List ℝ → FParams → FParams) (tbl : FTable) (F : List XR) (h : StaticOk tbl)
    (hu : ∀ sel, StaticOk (fun k => if k = key then upd sel (tbl key) else tbl k)) :
    StaticOk (fBlock Tps Eg mask key upd (tbl, F)).1 := by
  unfold fBlock
  by_cases h' : Tps.filter mask = []
  · simpa [h'] using h
  · simp only [h', if_false]
    exact hu _

theorem mapIdx_vec (sel : List ℝ) (f : ℝ → XR) (g : ℕ → ℝ → XR → XR) (k : ℝ → XR)
    (hg : ∀ i t, g i t (f t) = k t) :
    sel.mapIdx (fun i t => g i t ((sel.map f).getD i nan)) = sel.map k := by
  apply List.ext_getElem
  · simp
  · intro i h1 h2
    have hi : i < sel.length := by simpa using h2
    rw [List.getElem_mapIdx, List.getElem_map, List.getD_eq_getElem?_getD, List.getElem?_map,
      List.getElem?_eq_getElem hi]
    exact hg i _

theorem fEval_spec (h : HiE) (tbl : FTable) (Tps : List ℝ) (Eg : ℝ) (hs : StaticOk tbl) :
    StaticOk (fEval h tbl Tps Eg).1 ∧ (fEval h tbl Tps Eg).2 = Tps.map (Spec.shape h Eg) := by
  -- the five blocks in turn
  set T0 := (tbl, Tps.map (fun _ : ℝ => fin 0)) with hT0
  set m1 : ℝ → Bool := fun t => decide (pTth ≤ t ∧ t ≤ 1)
  set m2 : ℝ → Bool := fun t => decide (1 < t ∧ t ≤ 4)
  set m3 : ℝ → Bool := fun t => decide (4 < t ∧ t ≤ 20)
  set m4 : ℝ → Bool := fun t => decide (20 < t ∧ t ≤ 100)
  set m5 : ℝ → Bool := fun t => decide (h.etrans < t)
  set B1 := fBlock Tps Eg m1 .expData (fun sel mp => { mp with be := .vec (sel.map pKappa) }) T0 with hB1
  set B2 := fBlock Tps Eg m2 .geant4_0
    (fun sel mp => { mp with be := .vec (sel.map (fun t => pMu t + fin 2.45)),
                             ga := .vec (sel.map (fun t => pMu t + fin 1.45)) }) B1 with hB2
  set B3 := fBlock Tps Eg m3 .geant4_1
    (fun sel mp => { mp with be := .vec (sel.map (fun t => fin 1.5 * pMu t + fin 4.95)),
                             ga := .vec (sel.map (fun t => pMu t + fin 1.50)) }) B2 with hB3
  set B4 := fBlock Tps Eg m4 .geant4_2 (fun _ mp => mp) B3 with hB4
  set B5 := fBlock Tps Eg m5 (.model h) (fun _ mp => mp) B4 with hB5
  have hE : fEval h tbl Tps Eg = B5 := rfl
  rw [hE]
  -- static invariants
  have s0 : StaticOk T0.1 := hs
  have s1 : StaticOk B1.1 := by
    apply fBlock_static _ _ _ _ _ _ _ s0
    intro sel
    obtain ⟨a1, a2, a3, a4, a5, a6, a7, a8, a9⟩ := s0
    exact ⟨a1, a2, a3, a4, a5, a6, a7, a8, a9⟩
  have s2 : StaticOk B2.1 := by
    apply fBlock_static _ _ _ _ _ _ _ s1
    intro sel
    obtain ⟨a1, a2, a3, a4, a5, a6, a7, a8, a9⟩ := s1
    exact ⟨a1, a2, a3, a4, a5, a6, a7, a8, a9⟩
  have s3 : StaticOk B3.1 := by
    apply fBlock_static _ _ _ _ _ _ _ s2
    intro sel
    obtain ⟨a1, a2, a3, a4, a5, a6, a7, a8, a9⟩ := s2
    exact ⟨a1, a2, a3, a4, a5, a6, a7, a8, a9⟩
  have s4 : StaticOk B4.1 := by
    apply fBlock_static _ _ _ _ _ _ _ s3
    intro sel
    obtain ⟨a1, a2, a3, a4, a5, a6, a7, a8, a9⟩ := s3
    exact ⟨a1, a2, a3, a4, a5, a6, a7, a8, a9⟩
  have s5 : StaticOk B5.1 := by
    apply fBlock_static _ _ _ _ _ _ _ s4
    intro sel
    obtain ⟨a1, a2, a3, a4, a5, a6, a7, a8, a9⟩ := s4
    refine ⟨a1, a2, a3, a4, a5, a6, a7, a8, ?_⟩
    intro h'
    by_cases hh : FKey.model h' = .model h
    · simp only [hh, if_true]; rw [a9 h]
    · simp only [hh, if_false]; exact a9 h'
  refine ⟨s5, ?_⟩
  -- values
  have v1 : B1.2 = Tps.map (fun t => if m1 t then fFunc t Eg (fin 1) (fin 1) (pKappa t) (fin 0)
      else fin 0) := by
    rw [hB1, hT0]
    apply fBlock_spec
    intro sel
    obtain ⟨a1, a2, a3, a4, a5, a6, a7, a8, a9⟩ := hs
    unfold fFuncVec
    simp only [a1, a2, a3, Param.at]
    exact mapIdx_vec sel pKappa (fun _ t b => fFunc t Eg (fin 1) (fin 1) b (fin 0)) _ (fun _ _ => rfl)
  have v2 : B2.2 = Tps.map (fun t => if m2 t then
      fFunc t Eg (fin 3) (fin 1) (pMu t + fin 2.45) (pMu t + fin 1.45) else
      if m1 t then fFunc t Eg (fin 1) (fin 1) (pKappa t) (fin 0) else fin 0) := by
    rw [hB2, show B1 = (B1.1, B1.2) from rfl, v1]
    apply fBlock_spec
    intro sel
    obtain ⟨a1, a2, a3, a4, a5, a6, a7, a8, a9⟩ := s1
    unfold fFuncVec
    simp only [a4, a5, Param.at]
    apply List.ext_getElem
    · simp
    · intro i h1 h2
      have hi : i < sel.length := by simpa using h2
      simp [List.getD_eq_getElem?_getD, List.getElem?_eq_getElem hi]
  have v3 : B3.2 = Tps.map (fun t => if m3 t then
      fFunc t Eg (fin 3) (fin 1) (fin 1.5 * pMu t + fin 4.95) (pMu t + fin 1.50) else if m2 t then
      fFunc t Eg (fin 3) (fin 1) (pMu t + fin 2.45) (pMu t + fin 1.45) else
      if m1 t then fFunc t Eg (fin 1) (fin 1) (pKappa t) (fin 0) else fin 0) := by
    rw [hB3, show B2 = (B2.1, B2.2) from rfl, v2]
    apply fBlock_spec
    intro sel
    obtain ⟨a1, a2, a3, a4, a5, a6, a7, a8, a9⟩ := s2
    unfold fFuncVec
    simp only [a6, a7, Param.at]
    apply List.ext_getElem
    · simp
    · intro i h1 h2
      have hi : i < sel.length := by simpa using h2
      simp [List.getD_eq_getElem?_getD, List.getElem?_eq_getElem hi]
  have v4 : B4.2 = Tps.map (fun t => if m4 t then fFunc t Eg (fin 3) (fin 0.5) (fin 4.2) (fin 1) else
      if m3 t then
      fFunc t Eg (fin 3) (fin 1) (fin 1.5 * pMu t + fin 4.95) (pMu t + fin 1.50) else if m2 t then
      fFunc t Eg (fin 3) (fin 1) (pMu t + fin 2.45) (pMu t + fin 1.45) else
      if m1 t then fFunc t Eg (fin 1) (fin 1) (pKappa t) (fin 0) else fin 0) := by
    rw [hB4, show B3 = (B3.1, B3.2) from rfl, v3]
    apply fBlock_spec
    intro sel
    obtain ⟨a1, a2, a3, a4, a5, a6, a7, a8, a9⟩ := s3
    unfold fFuncVec
    rw [a8]
    simp only [fmpInit, Param.at]
    apply List.ext_getElem
    · simp
    · intro i h1 h2; simp
  have v5 : B5.2 = Tps.map (fun t => if m5 t then
      fFunc t Eg (Spec.hiParams h).1 (Spec.hiParams h).2.1 (Spec.hiParams h).2.2.1
        (Spec.hiParams h).2.2.2 else
      if m4 t then fFunc t Eg (fin 3) (fin 0.5) (fin 4.2) (fin 1) else
      if m3 t then
      fFunc t Eg (fin 3) (fin 1) (fin 1.5 * pMu t + fin 4.95) (pMu t + fin 1.50) else if m2 t then
      fFunc t Eg (fin 3) (fin 1) (pMu t + fin 2.45) (pMu t + fin 1.45) else
      if m1 t then fFunc t Eg (fin 1) (fin 1) (pKappa t) (fin 0) else fin 0) := by
    rw [hB5, show B4 = (B4.1, B4.2) from rfl, v4]
    apply fBlock_spec
    intro sel
    obtain ⟨a1, a2, a3, a4, a5, a6, a7, a8, a9⟩ := s4
    unfold fFuncVec
    rw [a9]
    have : fmpInit (.model h) = ⟨.scalar (Spec.hiParams h).1, .scalar (Spec.hiParams h).2.1,
      .scalar (Spec.hiParams h).2.2.1, .scalar (Spec.hiParams h).2.2.2⟩ := by cases h <;> rfl
    rw [this]
    simp only [Param.at]
    apply List.ext_getElem
    · simp
    · intro i h1 h2; simp
  rw [v5]
  apply List.map_congr_left
  intro t _
  have het : 20 ≤ h.etrans ∧ h.etrans ≤ 100 := by cases h <;> norm_num [HiE.etrans]
  have hth : pTth < 1 := by norm_num [pTth]
  unfold Spec.shape Spec.shapeParams
  simp only [m1, m2, m3, m4, m5, decide_eq_true_eq]
  by_cases c0 : t < pTth
  · rw [if_neg (by linarith), if_neg (by rintro ⟨a, _⟩; linarith), if_neg (by rintro ⟨a, _⟩; linarith),
      if_neg (by rintro ⟨a, _⟩; linarith), if_neg (by rintro ⟨a, _⟩; linarith), if_pos c0]
  rw [if_neg c0]
  by_cases c5 : h.etrans < t
  · simp only [c5, if_true]
  rw [if_neg c5]
  by_cases c4 : 20 < t
  · rw [if_pos ⟨c4, by linarith⟩]; simp only [c5, c4, if_true, if_false]
  rw [if_neg (by rintro ⟨a, _⟩; exact c4 a)]
  by_cases c3 : 4 < t
  · rw [if_pos ⟨c3, by linarith⟩]; simp only [c5, c4, c3, if_true, if_false]
  rw [if_neg (by rintro ⟨a, _⟩; exact c3 a)]
  by_cases c2 : 1 < t
  · rw [if_pos ⟨c2, by linarith⟩]; simp only [c5, c4, c3, c2, if_true, if_false]
  rw [if_neg (by rintro ⟨a, _⟩; exact c2 a), if_pos ⟨by linarith, by linarith⟩]
  simp only [c5, c4, c3, c2, if_false]

theorem diffsigma_spec (h : HiE) (nuc : Bool) (tbl : FTable) (Eps : List ℝ) (Eg : ℝ)
    (hs : StaticOk tbl) :
    StaticOk (diffsigma h nuc tbl Eps Eg).1 ∧
    (diffsigma h nuc tbl Eps Eg).2 = Eps.map (fun e => Spec.dsigma h nuc Eg (e - pM)) := by
  obtain ⟨h1, h2⟩ := fEval_spec h tbl (Eps.map (· - pM)) Eg hs
  unfold diffsigma
  refine ⟨h1, ?_⟩
  simp only [h2]
  cases nuc <;> simp [Spec.dsigma, List.zipWith_map, List.zipWith_self]

/-- the integral at one photon energy in GeV -/
noncomputable def pionAt (m : PionModel) (ep : List ℝ) (j : List XR) (eg : ℝ) : XR :=
  trapz (List.zipWith (· * ·) (ep.map (fun e => Spec.dsigma m.hiE m.nuc eg (e - pM))) j) (ep.map fin)

theorem pionLoop_spec (m : PionModel) (ep : List ℝ) (j : List XR) (tbl : FTable) (egs : List ℝ)
    (hs : StaticOk tbl) :
    StaticOk (pionLoop m ep j tbl egs).1 ∧
    (pionLoop m ep j tbl egs).2 = egs.map (pionAt m ep j) := by
  induction egs generalizing tbl with
  | nil => exact ⟨hs, rfl⟩
  | cons eg egs ih =>
    obtain ⟨h1, h2⟩ := diffsigma_spec m.hiE m.nuc tbl ep eg hs
    obtain ⟨h3, h4⟩ := ih _ h1
    simp only [pionLoop]
    refine ⟨h3, ?_⟩
    rw [h4, h2]; rfl

/-- the spectrum at one photon energy in erg, in 1/(s eV) -/
noncomputable def pionTotal (m : PionModel) (ep : List ℝ) (j : List XR) (nh : ℝ) (e : ℝ) : XR :=
  pionAt m ep j (e / PhysUnit.GeV.scale) * fin (nh * cC) * fin 1e-9

theorem pion_spectrum_eq (m : PionModel) (pd : PDist) (tbl : FTable) (es : List ℝ)
    (hs : StaticOk tbl) :
    (m.spectrum pd tbl es).map Prod.snd = (do
      let ep ← m.toPrModel.Ep
      let j ← m.toPrModel.J pd
      if es = [] then throw .unitConversionError
      let nh ← m.nh.toReal perCm3
      return es.map (pionTotal m ep j nh)) ∧
    ∀ t' out, m.spectrum pd tbl es = .ok (t', out) → StaticOk t' := by
  unfold PionModel.spectrum
  cases m.toPrModel.Ep with
  | error e => exact ⟨rfl, fun _ _ h => by cases h⟩
  | ok ep =>
    cases m.toPrModel.J pd with
    | error e => exact ⟨rfl, fun _ _ h => by cases h⟩
    | ok j =>
      obtain ⟨h1, h2⟩ := pionLoop_spec m ep j tbl (es.map (· / PhysUnit.GeV.scale)) hs
      simp only [bind, Except.bind, pure, Except.pure]
      rw [h2]
      by_cases hnil : es = []
      · simp only [hnil, if_true]
        exact ⟨rfl, fun _ _ h => by cases h⟩
      simp only [hnil, if_false]
      cases m.nh.toReal perCm3 with
      | error e => exact ⟨rfl, fun _ _ h => by cases h⟩
      | ok nh =>
        simp only [Except.map, List.map_map]
        refine ⟨rfl, fun t' out h => ?_⟩
        injection h with h
        injection h with h _
        rw [← h]; exact h1

end Naima
