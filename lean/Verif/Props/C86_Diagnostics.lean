import Verif.Model.Diagnostics
import Mathlib.Data.List.Nodup
import Std.Data.String.ToNat

/-! # C86: diagnostic plots -/

namespace Naima.Props

open Naima

/-! ### Specification -/

/-- The part of the file name that stands for a parameter: the inside of the parentheses for a label that
contains `log(` or `log10(`, otherwise the label. -/
def parName (label : Label) : Label := if isLogLabel label then labelInner label else label

/-- The file with the chain of the parameter with label `l`. -/
def nameOfChain (out l : Label) : Label := out ++ "_chain_".toList ++ parName l ++ ".png".toList

/-- The file with the corner plot. -/
def nameOfCorner (out : Label) : Label := out ++ "_corner.png".toList

/-- The file with model output `i`. -/
def nameOfModel (out : Label) (i : ℕ) : Label := out ++ "_model".toList ++ (toString i).toList ++ ".png".toList

/-- The label expected for the `k`-th model plotted, which is model output number `i`; the default is
`Model output i`. -/
def expectedLabel (bl : BlobLabels) (k i : ℕ) : Label :=
  match bl with
  | .none => "Model output ".toList ++ (toString i).toList
  | .str s => s
  | .list ls => ls[k]?.getD ("Model output ".toList ++ (toString i).toList)

/-- A label for each model: none, a list (of any length), or one string for one model. -/
def LabelsGood (bl : BlobLabels) (n : ℕ) : Prop :=
  match bl with
  | .none => True
  | .str _ => n = 1
  | .list _ => True

/-- The flag `sed` of the `k`-th model. -/
def expectedSed (sed : SedArg) (k : ℕ) : Option Bool :=
  match sed with
  | .all b => some b
  | .each bs => bs[k]?

/-- One flag for each model. -/
def SedGood (sed : SedArg) (n : ℕ) : Prop :=
  match sed with
  | .all _ => True
  | .each bs => n ≤ bs.length

/-! ### The two loops -/

/-- saving those items whose drawing succeeded -/
def saveItems (pdf : Bool) (items : List (Label × Fig × Bool)) (w : PlotWorld) : PlotWorld :=
  items.foldl (fun w it => if it.2.2 then w.save pdf it.1 it.2.1 else w) w

def succeeds {α : Type} : Except PyErr α → Bool
  | .ok _ => true
  | .error _ => false

theorem chainLoop_eq (D : Draw) (pdf : Bool) (out : Label) (l : List (ℕ × Label)) (w : PlotWorld) :
    chainLoop D pdf out l w = saveItems pdf (l.map (fun q =>
      (chainFile out q.2, Fig.chain q.1, succeeds (D.chain q.1)))) w := by
  induction l generalizing w with
  | nil => rfl
  | cons q l ih =>
    obtain ⟨p, x⟩ := q
    simp only [chainLoop, List.map_cons, saveItems, List.foldl_cons]
    rw [ih]
    cases D.chain p <;> simp [succeeds, saveItems]

theorem blobLoop_eq (D : Draw) (pdf : Bool) (out : Label) (l : List (ℕ × Bool × Label)) (w : PlotWorld) :
    blobLoop D pdf out l w = saveItems pdf (l.map (fun q =>
      (modelFile out q.1, Fig.blob q.1 q.2.1 q.2.2, succeeds (D.blob q.1 q.2.1 q.2.2)))) w := by
  induction l generalizing w with
  | nil => rfl
  | cons q l ih =>
    obtain ⟨p, s, x⟩ := q
    simp only [blobLoop, List.map_cons, saveItems, List.foldl_cons]
    rw [ih]
    cases D.blob p s x <;> simp [succeeds, saveItems]

theorem save_other (pdf : Bool) (w : PlotWorld) (n : Label) (f : Fig) :
    (w.save pdf n f).interactive = w.interactive ∧ (w.save pdf n f).linewidth = w.linewidth ∧
    (w.save pdf n f).fonttype = w.fonttype ∧ (w.save pdf n f).pdfOpen = w.pdfOpen := by
  unfold PlotWorld.save; cases pdf <;> simp

theorem saveItems_other (pdf : Bool) (items : List (Label × Fig × Bool)) (w : PlotWorld) :
    (saveItems pdf items w).interactive = w.interactive ∧ (saveItems pdf items w).linewidth = w.linewidth ∧
    (saveItems pdf items w).fonttype = w.fonttype ∧ (saveItems pdf items w).pdfOpen = w.pdfOpen := by
  induction items generalizing w with
  | nil => exact ⟨rfl, rfl, rfl, rfl⟩
  | cons it items ih =>
    unfold saveItems at ih ⊢
    rw [List.foldl_cons]
    obtain ⟨a, b, c, d⟩ := ih (if it.2.2 then w.save pdf it.1 it.2.1 else w)
    obtain ⟨a', b', c', d'⟩ := save_other pdf w it.1 it.2.1
    rw [a, b, c, d]
    split
    · exact ⟨a', b', c', d'⟩
    · exact ⟨rfl, rfl, rfl, rfl⟩

theorem saveItems_files_of_not (items : List (Label × Fig × Bool)) (w : PlotWorld) (n : Label)
    (h : ∀ it ∈ items, it.2.2 = true → it.1 ≠ n) :
    (saveItems false items w).files.get? n = w.files.get? n := by
  induction items generalizing w with
  | nil => rfl
  | cons it items ih =>
    have := ih (if it.2.2 then w.save false it.1 it.2.1 else w) (fun x hx => h x (by simp [hx]))
    unfold saveItems at this ⊢
    rw [List.foldl_cons, this]
    by_cases hb : it.2.2 = true
    · rw [if_pos hb]
      unfold PlotWorld.save
      simp only [Bool.false_eq_true, if_false]
      exact Dict.get?_set_other _ _ _ _ (fun e => h it (by simp) hb e.symm)
    · rw [if_neg hb]

theorem saveItems_files (items : List (Label × Fig × Bool)) (w : PlotWorld)
    (hn : (items.map (·.1)).Nodup) (it : Label × Fig × Bool) (hm : it ∈ items) (hb : it.2.2 = true) :
    (saveItems false items w).files.get? it.1 = some it.2.1 := by
  induction items generalizing w with
  | nil => simp at hm
  | cons a items ih =>
    rw [List.map_cons, List.nodup_cons] at hn
    rcases List.mem_cons.1 hm with rfl | hm
    · have h := saveItems_files_of_not items (w.save false it.1 it.2.1) it.1 (by
        intro x hx _ e
        exact hn.1 (e ▸ List.mem_map_of_mem hx))
      unfold saveItems at h ⊢
      rw [List.foldl_cons, if_pos hb, h]
      unfold PlotWorld.save
      simp only [Bool.false_eq_true, if_false]
      exact Dict.get?_set_self _ _ _
    · have := ih (if a.2.2 then w.save false a.1 a.2.1 else w) hn.2 hm
      unfold saveItems at this ⊢
      rw [List.foldl_cons, this]

theorem saveItems_pages (items : List (Label × Fig × Bool)) (w : PlotWorld) :
    (saveItems true items w).pages = w.pages ++ (items.filter (·.2.2)).map (·.2.1) := by
  induction items generalizing w with
  | nil => simp [saveItems]
  | cons it items ih =>
    have := ih (if it.2.2 then w.save true it.1 it.2.1 else w)
    unfold saveItems at this ⊢
    rw [List.foldl_cons, this]
    by_cases hb : it.2.2 = true
    · simp [hb, PlotWorld.save]
    · simp [hb]

/-! ### File names -/

theorem chainFile_inj (out a b : Label) : chainFile out a = chainFile out b ↔ parName a = parName b := by
  unfold chainFile parName
  simp

theorem modelFile_inj (out : Label) (i j : ℕ) : modelFile out i = modelFile out j ↔ i = j := by
  unfold modelFile
  constructor
  · intro h
    simp only [List.append_assoc, List.append_cancel_left_eq, List.append_cancel_right_eq] at h
    have h2 : (toString i) = toString j := String.toList_inj.1 h
    exact Nat.repr_injective h2
  · rintro rfl; rfl

theorem chain_ne_corner (out a : Label) : chainFile out a ≠ cornerFile out := by
  unfold chainFile cornerFile
  simp

theorem chain_ne_model (out a : Label) (i : ℕ) : chainFile out a ≠ modelFile out i := by
  unfold chainFile modelFile
  simp

theorem corner_ne_model (out : Label) (i : ℕ) : cornerFile out ≠ modelFile out i := by
  unfold cornerFile modelFile
  simp

/-! ### Labels and flags -/

theorem blobLabels_good (models : List ℕ) (bl : BlobLabels) (h : LabelsGood bl models.length) :
    ∃ ls, blobLabelsOf models bl = .ok ls ∧
      ∀ k i, models[k]? = some i → ls[k]? = some (expectedLabel bl k i) := by
  cases bl with
  | none =>
    refine ⟨_, rfl, fun k i hk => ?_⟩
    rw [List.getElem?_map, hk]; rfl
  | str s =>
    have h1 : models.length = 1 := h
    refine ⟨[s], if_pos h1, fun k i hk => ?_⟩
    have : k < models.length := (List.getElem?_eq_some_iff.1 hk).1
    have hk0 : k = 0 := by omega
    subst hk0
    rfl
  | list ls =>
    by_cases hl : ls.length < models.length
    · refine ⟨ls ++ (models.drop ls.length).map defaultLabel, if_pos hl, fun k i hk => ?_⟩
      by_cases hkl : k < ls.length
      · rw [List.getElem?_append_left hkl, List.getElem?_eq_getElem hkl]
        show _ = some (ls[k]?.getD _)
        rw [List.getElem?_eq_getElem hkl]; rfl
      · push Not at hkl
        rw [List.getElem?_append_right hkl, List.getElem?_map, List.getElem?_drop]
        rw [show ls.length + (k - ls.length) = k by omega, hk]
        show _ = some (ls[k]?.getD _)
        rw [List.getElem?_eq_none hkl]; rfl
    · refine ⟨ls, if_neg hl, fun k i hk => ?_⟩
      have : k < models.length := (List.getElem?_eq_some_iff.1 hk).1
      have hkl : k < ls.length := by omega
      show _ = some (ls[k]?.getD _)
      rw [List.getElem?_eq_getElem hkl]; rfl

theorem sed_good (models : List ℕ) (sed : SedArg) (h : SedGood sed models.length) (k i : ℕ)
    (hk : models[k]? = some i) : ∃ b, expectedSed sed k = some b ∧ (sedOfArg models sed)[k]? = some b := by
  have hkm : k < models.length := (List.getElem?_eq_some_iff.1 hk).1
  cases sed with
  | all b => exact ⟨b, rfl, by simp [sedOfArg, hkm]⟩
  | each bs =>
    have h' : models.length ≤ bs.length := h
    have hk' : k < bs.length := by omega
    exact ⟨bs[k], by simp [expectedSed, hk'], by simp [sedOfArg, hk']⟩

/-- the triples the loop over the models runs over -/
theorem blob_triples (models : List ℕ) (sed : SedArg) (bl : BlobLabels) (hs : SedGood sed models.length)
    (ls : List Label) (hls : ∀ k i, models[k]? = some i → ls[k]? = some (expectedLabel bl k i)) :
    models.zip ((sedOfArg models sed).zip ls) = models.zipIdx.map (fun q =>
      (q.1, (expectedSed sed q.2).getD false, expectedLabel bl q.2 q.1)) := by
  apply List.ext_getElem?
  intro k
  rw [List.getElem?_map, List.getElem?_zipIdx]
  cases hk : models[k]? with
  | none =>
    rw [List.getElem?_eq_none_iff] at hk
    simp only [Option.map_none, List.getElem?_eq_none_iff, List.length_zip]
    omega
  | some i =>
    obtain ⟨b, h1, h2⟩ := sed_good models sed hs k i hk
    simp only [Option.map_some, Nat.zero_add, h1, Option.getD_some]
    exact List.getElem?_zip_eq_some.2 ⟨hk, List.getElem?_zip_eq_some.2 ⟨h2, hls k i hk⟩⟩

/-- the corner plot saved if it was drawn -/
def cornerSaved (pdf : Bool) (out : Label) (r : Option Unit) (w : PlotWorld) : PlotWorld :=
  if r.isSome then w.save pdf (cornerFile out) .corner else w

theorem run_eq (D : Draw) (out : Label) (labels : List Label) (npars nblobs : ℕ)
    (modelidxs : Option (List ℕ)) (pdf : Bool) (sed : SedArg) (bl : BlobLabels) (w : PlotWorld)
    (models : List ℕ) (hm : models = modelidxs.getD (List.range nblobs))
    (hs : SedGood sed models.length) (hb : LabelsGood bl models.length) (r : Option Unit)
    (hc : D.corner = .ok r) :
    saveDiagnosticPlots D out labels npars nblobs modelidxs pdf sed bl w =
      (let w₁ : PlotWorld := { w with interactive := false }
       let w₁ := if pdf then { w₁ with fonttype := 42, pages := [], pdfOpen := true } else w₁
       let w₄ := saveItems pdf ((models.zipIdx.map (fun q =>
          (q.1, (expectedSed sed q.2).getD false, expectedLabel bl q.2 q.1))).map (fun q =>
          (modelFile out q.1, Fig.blob q.1 q.2.1 q.2.2, succeeds (D.blob q.1 q.2.1 q.2.2))))
        (cornerSaved pdf out r (saveItems pdf (((List.range npars).zip labels).map (fun q =>
          (chainFile out q.2, Fig.chain q.1, succeeds (D.chain q.1)))) w₁))
       let w₅ := if pdf then { w₄ with pdfOpen := false } else w₄
       ({ w₅ with interactive := w.interactive }, .ok ())) := by
  obtain ⟨ls, hls, hlk⟩ := blobLabels_good models bl hb
  have ht := blob_triples models sed bl hs ls hlk
  unfold saveDiagnosticPlots plotCorner
  simp only [hc, ← hm, hls, ht, chainLoop_eq, blobLoop_eq]
  cases r <;> rfl

/-! ### The theorems -/

/-- The names used by the program are the expected ones. -/
theorem names_eq (out l : Label) (i : ℕ) : nameOfChain out l = chainFile out l ∧
    nameOfCorner out = cornerFile out ∧ nameOfModel out i = modelFile out i := ⟨rfl, rfl, rfl⟩

/-- **C86 (files).** If every parameter has its own name once the logarithm is taken off, the labels and
flags are one for each model (or default) and drawing the corner plot does not raise, then, whichever of the
other drawings raise: the call returns normally; the chain of each parameter, the corner plot and each model
(with its flag and label) are found in files of their own, those that could not be drawn leave the file
as it was, all other files are as before, and matplotlib is set as before. -/
theorem C86_files_partial (D : Draw) (out : Label) (labels : List Label) (npars nblobs : ℕ)
    (modelidxs : Option (List ℕ)) (sed : SedArg) (bl : BlobLabels) (w : PlotWorld)
    (hl : labels.length = npars) (hn : (labels.map parName).Nodup)
    (models : List ℕ) (hm : models = modelidxs.getD (List.range nblobs)) (hmn : models.Nodup)
    (hs : SedGood sed models.length) (hb : LabelsGood bl models.length) (r : Option Unit)
    (hc : D.corner = .ok r) :
    ∃ w', saveDiagnosticPlots D out labels npars nblobs modelidxs false sed bl w = (w', .ok ()) ∧
      (∀ (p : ℕ) (l : Label), labels[p]? = some l → w'.files.get? (nameOfChain out l) =
        if succeeds (D.chain p) then some (.chain p) else w.files.get? (nameOfChain out l)) ∧
      w'.files.get? (nameOfCorner out) = (if r.isSome then some .corner else w.files.get? (nameOfCorner out)) ∧
      (∀ (k i : ℕ) (b : Bool), models[k]? = some i → expectedSed sed k = some b →
        w'.files.get? (nameOfModel out i) =
          if succeeds (D.blob i b (expectedLabel bl k i)) then some (.blob i b (expectedLabel bl k i))
          else w.files.get? (nameOfModel out i)) ∧
      (∀ n, (∀ l ∈ labels, n ≠ nameOfChain out l) → n ≠ nameOfCorner out → (∀ i ∈ models, n ≠ nameOfModel out i) →
        w'.files.get? n = w.files.get? n) ∧
      w'.interactive = w.interactive ∧ w'.linewidth = w.linewidth ∧ w'.fonttype = w.fonttype ∧
      w'.pages = w.pages ∧ w'.pdfOpen = w.pdfOpen := by
  simp only [(names_eq out _ 0).1, (names_eq out [] 0).2.1, (names_eq out [] _).2.2]
  let items₁ : List (Label × Fig × Bool) := ((List.range npars).zip labels).map (fun q =>
      (chainFile out q.2, Fig.chain q.1, succeeds (D.chain q.1)))
  let items₂ : List (Label × Fig × Bool) := (models.zipIdx.map (fun q =>
      (q.1, (expectedSed sed q.2).getD false, expectedLabel bl q.2 q.1))).map (fun q =>
      (modelFile out q.1, Fig.blob q.1 q.2.1 q.2.2, succeeds (D.blob q.1 q.2.1 q.2.2)))
  let w₁ : PlotWorld := { w with interactive := false }
  let w₂ := saveItems false items₁ w₁
  let w₃ : PlotWorld := cornerSaved false out r w₂
  let w₄ := saveItems false items₂ w₃
  have run : saveDiagnosticPlots D out labels npars nblobs modelidxs false sed bl w =
      ({ w₄ with interactive := w.interactive }, .ok ()) := by
    rw [run_eq D out labels npars nblobs modelidxs false sed bl w models hm hs hb r hc]
    rfl
  have n1 : (items₁.map (·.1)).Nodup := by
    have e : items₁.map (·.1) = labels.map (chainFile out) := by
      simp only [items₁, List.map_map]
      rw [show ((fun x : Label × Fig × Bool => x.1) ∘ fun q : ℕ × Label =>
        (chainFile out q.2, Fig.chain q.1, succeeds (D.chain q.1))) = chainFile out ∘ Prod.snd from rfl,
        ← List.map_map, List.map_snd_zip (by simp [hl])]
    rw [e]
    have e2 := List.pairwise_map.1 hn
    refine List.pairwise_map.2 (e2.imp ?_)
    intro a b h h'
    exact h ((chainFile_inj out a b).1 h')
  have n2 : (items₂.map (·.1)).Nodup := by
    have e : items₂.map (·.1) = models.map (modelFile out) := by
      simp only [items₂, List.map_map]
      rw [show ((fun x : Label × Fig × Bool => x.1) ∘ (fun q : ℕ × Bool × Label =>
        (modelFile out q.1, Fig.blob q.1 q.2.1 q.2.2, succeeds (D.blob q.1 q.2.1 q.2.2))) ∘
        fun q : ℕ × ℕ => (q.1, (expectedSed sed q.2).getD false, expectedLabel bl q.2 q.1)) =
        modelFile out ∘ Prod.fst from rfl, ← List.map_map, List.zipIdx_map_fst]
    rw [e]
    refine List.pairwise_map.2 (hmn.imp ?_)
    intro a b h h'
    exact h ((modelFile_inj out a b).1 h')
  have m1 : ∀ it ∈ items₁, ∃ p l, labels[p]? = some l ∧
      it = (chainFile out l, Fig.chain p, succeeds (D.chain p)) := by
    intro it hit
    obtain ⟨q, hq, rfl⟩ := List.mem_map.1 hit
    obtain ⟨i, hi⟩ := List.mem_iff_getElem?.1 hq
    obtain ⟨h1, h2⟩ := List.getElem?_zip_eq_some.1 hi
    have : q.1 = i := by
      rw [List.getElem?_eq_some_iff] at h1
      obtain ⟨_, h⟩ := h1
      rw [← h, List.getElem_range]
    exact ⟨q.1, q.2, by rw [this]; exact h2, rfl⟩
  have m1' : ∀ p l, labels[p]? = some l →
      (chainFile out l, Fig.chain p, succeeds (D.chain p)) ∈ items₁ := by
    intro p l h
    refine List.mem_map.2 ⟨(p, l), List.mem_iff_getElem?.2 ⟨p, List.getElem?_zip_eq_some.2 ⟨?_, h⟩⟩, rfl⟩
    have : p < npars := hl ▸ (List.getElem?_eq_some_iff.1 h).1
    simp [this]
  have m2 : ∀ it ∈ items₂, ∃ k i, models[k]? = some i ∧ it = (modelFile out i,
      Fig.blob i ((expectedSed sed k).getD false) (expectedLabel bl k i),
      succeeds (D.blob i ((expectedSed sed k).getD false) (expectedLabel bl k i))) := by
    intro it hit
    obtain ⟨q, hq, rfl⟩ := List.mem_map.1 hit
    obtain ⟨z, hz, rfl⟩ := List.mem_map.1 hq
    obtain ⟨k, hk⟩ := List.mem_iff_getElem?.1 hz
    rw [List.getElem?_zipIdx] at hk
    obtain ⟨i, hi, e⟩ := Option.map_eq_some_iff.1 hk
    simp only [Nat.zero_add] at e
    subst e
    exact ⟨k, i, hi, rfl⟩
  have m2' : ∀ k i, models[k]? = some i → (modelFile out i,
      Fig.blob i ((expectedSed sed k).getD false) (expectedLabel bl k i),
      succeeds (D.blob i ((expectedSed sed k).getD false) (expectedLabel bl k i))) ∈ items₂ := by
    intro k i h
    refine List.mem_map.2 ⟨_, List.mem_map.2 ⟨(i, k), List.mem_iff_getElem?.2 ⟨k, ?_⟩, rfl⟩, rfl⟩
    rw [List.getElem?_zipIdx, h]; simp
  have f3 : ∀ n, n ≠ cornerFile out → w₃.files.get? n = w₂.files.get? n := by
    intro n h
    simp only [w₃, cornerSaved]
    cases r with
    | none => rfl
    | some _ =>
      simp only [PlotWorld.save, Bool.false_eq_true, if_false, Option.isSome_some, if_true]
      exact Dict.get?_set_other _ _ _ _ h
  have keep2 : ∀ n, (∀ i ∈ models, n ≠ modelFile out i) → w₄.files.get? n = w₃.files.get? n := by
    intro n h
    apply saveItems_files_of_not
    intro it hit _ e
    obtain ⟨k, i, hk, rfl⟩ := m2 it hit
    exact h i (List.mem_of_getElem? hk) e.symm
  have keep1 : ∀ n, (∀ l ∈ labels, n ≠ chainFile out l) → w₂.files.get? n = w.files.get? n := by
    intro n h
    refine (saveItems_files_of_not items₁ w₁ n ?_).trans rfl
    intro it hit _ e
    obtain ⟨p, l, hp, rfl⟩ := m1 it hit
    exact h l (List.mem_of_getElem? hp) e.symm
  refine ⟨_, run, ?_, ?_, ?_, ?_, rfl, ?_, ?_, ?_, ?_⟩
  · intro p l hp
    show w₄.files.get? _ = _
    rw [keep2 _ (fun i _ => chain_ne_model out l i), f3 _ (chain_ne_corner out l)]
    by_cases hb : succeeds (D.chain p) = true
    · rw [if_pos hb]
      exact saveItems_files items₁ w₁ n1 _ (m1' p l hp) hb
    · rw [if_neg hb]
      refine (saveItems_files_of_not items₁ w₁ _ ?_).trans rfl
      intro it hit hs' e
      obtain ⟨p', l', hp', rfl⟩ := m1 it hit
      have h1 : (labels.map parName)[p']? = some (parName l') := by simp [hp']
      have h2 : (labels.map parName)[p]? = some (parName l) := by simp [hp]
      rw [(chainFile_inj out l' l).1 e] at h1
      have := (List.Nodup.getElem_inj_iff hn (hi := (List.getElem?_eq_some_iff.1 h1).1)
        (hj := (List.getElem?_eq_some_iff.1 h2).1)).1
        ((List.getElem?_eq_some_iff.1 h1).2.trans (List.getElem?_eq_some_iff.1 h2).2.symm)
      subst this
      exact hb hs'
  · show w₄.files.get? _ = _
    rw [keep2 _ (fun i _ => corner_ne_model out i)]
    simp only [w₃, cornerSaved]
    cases r with
    | none => exact keep1 _ (fun l _ => (chain_ne_corner out l).symm)
    | some _ =>
      simp only [PlotWorld.save, Bool.false_eq_true, if_false, Option.isSome_some, if_true]
      exact Dict.get?_set_self _ _ _
  · intro k i b hk hbk
    have hgd : (expectedSed sed k).getD false = b := by rw [hbk]; rfl
    show w₄.files.get? _ = _
    by_cases hb : succeeds (D.blob i b (expectedLabel bl k i)) = true
    · rw [if_pos hb]
      have := saveItems_files items₂ w₃ n2 _ (m2' k i hk) (by rw [hgd]; exact hb)
      rw [hgd] at this
      exact this
    · rw [if_neg hb]
      have e : w₄.files.get? (modelFile out i) = w₃.files.get? (modelFile out i) := by
        apply saveItems_files_of_not
        intro it hit hs' e
        obtain ⟨k', i', hk', rfl⟩ := m2 it hit
        have hii := (modelFile_inj out i' i).1 e
        subst hii
        have := (List.Nodup.getElem_inj_iff hmn (hi := (List.getElem?_eq_some_iff.1 hk').1)
          (hj := (List.getElem?_eq_some_iff.1 hk).1)).1
          ((List.getElem?_eq_some_iff.1 hk').2.trans (List.getElem?_eq_some_iff.1 hk).2.symm)
        subst this
        rw [hgd] at hs'
        exact hb hs'
      rw [e, f3 _ (corner_ne_model out i).symm]
      exact keep1 _ (fun l _ => (chain_ne_model out l i).symm)
  · intro n h1 h2 h3
    show w₄.files.get? _ = _
    rw [keep2 n h3, f3 n h2, keep1 n h1]
  all_goals
    have a := saveItems_other false items₂ w₃
    have b := saveItems_other false items₁ w₁
    have c : w₃.linewidth = w₂.linewidth ∧ w₃.fonttype = w₂.fonttype ∧ w₃.pdfOpen = w₂.pdfOpen ∧
        w₃.pages = w₂.pages := by
      simp only [w₃, cornerSaved]
      cases r <;> simp [PlotWorld.save]
  · exact a.2.1.trans (c.1.trans (b.2.1.trans rfl))
  · exact a.2.2.1.trans (c.2.1.trans (b.2.2.1.trans rfl))
  · have pg : ∀ items (v : PlotWorld), (saveItems false items v).pages = v.pages := by
      intro items
      induction items with
      | nil => intro v; rfl
      | cons it items ih =>
        intro v
        have := ih (if it.2.2 then v.save false it.1 it.2.1 else v)
        unfold saveItems at this ⊢
        rw [List.foldl_cons, this]
        split <;> simp [PlotWorld.save]
    exact (pg items₂ w₃).trans (c.2.2.2.trans ((pg items₁ w₁).trans rfl))
  · exact a.2.2.2.trans (c.2.2.1.trans (b.2.2.2.trans rfl))

/-- **C86 (pdf).** With `pdf=True`, under the same conditions (names need not differ), the pages are the
chains in the order of the parameters, the corner plot and the models in the order asked for, without those
that could not be drawn; the file is closed, no other file is written, and matplotlib is set as before
but for the font type. -/
theorem C86_pdf_partial (D : Draw) (out : Label) (labels : List Label) (npars nblobs : ℕ)
    (modelidxs : Option (List ℕ)) (sed : SedArg) (bl : BlobLabels) (w : PlotWorld)
    (hl : labels.length = npars)
    (models : List ℕ) (hm : models = modelidxs.getD (List.range nblobs))
    (hs : SedGood sed models.length) (hb : LabelsGood bl models.length) (r : Option Unit)
    (hc : D.corner = .ok r) :
    ∃ w', saveDiagnosticPlots D out labels npars nblobs modelidxs true sed bl w = (w', .ok ()) ∧
      w'.pages = ((List.range npars).filter (fun p => succeeds (D.chain p))).map Fig.chain ++
        (if r.isSome then [Fig.corner] else []) ++
        ((models.zipIdx.map (fun q => (q.1, (expectedSed sed q.2).getD false, expectedLabel bl q.2 q.1))).filter
          (fun q => succeeds (D.blob q.1 q.2.1 q.2.2))).map (fun q => Fig.blob q.1 q.2.1 q.2.2) ∧
      w'.pdfOpen = false ∧ w'.files = w.files ∧
      w'.interactive = w.interactive ∧ w'.linewidth = w.linewidth := by
  have files : ∀ items (v : PlotWorld), (saveItems true items v).files = v.files := by
    intro items
    induction items with
    | nil => intro v; rfl
    | cons it items ih =>
      intro v
      have := ih (if it.2.2 then v.save true it.1 it.2.1 else v)
      unfold saveItems at this ⊢
      rw [List.foldl_cons, this]
      split <;> simp [PlotWorld.save]
  have e1 : (((List.range npars).zip labels).map (fun q : ℕ × Label =>
      (chainFile out q.2, Fig.chain q.1, succeeds (D.chain q.1)))).filter (·.2.2) =
      (((List.range npars).zip labels).filter (fun q => succeeds (D.chain q.1))).map (fun q =>
      (chainFile out q.2, Fig.chain q.1, succeeds (D.chain q.1))) := by
    rw [List.filter_map]; rfl
  have e2 : (((List.range npars).zip labels).filter (fun q => succeeds (D.chain q.1))).map Prod.fst =
      (List.range npars).filter (fun p => succeeds (D.chain p)) := by
    have h : (List.range npars) = ((List.range npars).zip labels).map Prod.fst :=
      (List.map_fst_zip (by simp [hl])).symm
    conv_rhs => rw [h, List.filter_map]
    rfl
  refine ⟨_, run_eq D out labels npars nblobs modelidxs true sed bl w models hm hs hb r hc, ?_, rfl, ?_, rfl, ?_⟩
  · simp only [if_true]
    rw [saveItems_pages]
    have hp : (cornerSaved true out r (saveItems true (((List.range npars).zip labels).map (fun q =>
          (chainFile out q.2, Fig.chain q.1, succeeds (D.chain q.1))))
          { w with interactive := false, fonttype := 42, pages := [], pdfOpen := true })).pages =
        ((List.range npars).filter (fun p => succeeds (D.chain p))).map Fig.chain ++
        (if r.isSome then [Fig.corner] else []) := by
      unfold cornerSaved
      have := saveItems_pages (((List.range npars).zip labels).map (fun q =>
          (chainFile out q.2, Fig.chain q.1, succeeds (D.chain q.1))))
          { w with interactive := false, fonttype := 42, pages := [], pdfOpen := true }
      rw [e1, List.map_map, List.nil_append] at this
      rw [show ((fun x : Label × Fig × Bool => x.2.1) ∘ fun q : ℕ × Label =>
        (chainFile out q.2, Fig.chain q.1, succeeds (D.chain q.1))) = Fig.chain ∘ Prod.fst from rfl,
        ← List.map_map, e2] at this
      cases r with
      | none => simpa using this
      | some _ =>
        simp only [Option.isSome_some, if_true, PlotWorld.save]
        rw [this]
    rw [hp]
    congr 1
    rw [List.filter_map, List.map_map]
    rfl
  · simp only [if_true]
    rw [files]
    unfold cornerSaved
    cases r with
    | none => simp [files]
    | some _ => simp [PlotWorld.save, files]
  · simp only [if_true]
    rw [(saveItems_other true _ _).2.1]
    unfold cornerSaved
    cases r with
    | none => simp [saveItems_other]
    | some _ => simp [PlotWorld.save, saveItems_other]

/-! ### What is false of the code -/

/-- **C86 is false** when two parameters differ only by the logarithm: their chains go to the same file, and
the first is lost. -/
theorem C86_false_same_file (D : Draw) (out : Label) (sed : SedArg) (w : PlotWorld)
    (h0 : D.chain 0 = .ok ()) (h1 : D.chain 1 = .ok ()) (hc : D.corner = .ok none) :
    ∃ w', saveDiagnosticPlots D out ["log10(norm)".toList, "norm".toList] 2 0 none false sed .none w =
        (w', .ok ()) ∧
      ∀ name, w'.files.get? name = some (.chain 0) → w.files.get? name = some (.chain 0) := by
  have l1 : isLogLabel "log10(norm)".toList = true := by
    unfold isLogLabel; rw [decide_eq_true (show log10Pre <:+: "log10(norm)".toList by decide), Bool.true_or]
  have l2 : isLogLabel "norm".toList = false := by
    unfold isLogLabel
    rw [decide_eq_false (show ¬ log10Pre <:+: "norm".toList by decide),
      decide_eq_false (show ¬ logPre <:+: "norm".toList by decide), Bool.or_false]
  have e : chainFile out "log10(norm)".toList = chainFile out "norm".toList := by
    rw [chainFile_inj]
    unfold parName
    rw [l1, l2, if_pos rfl, if_neg (by simp)]
    decide
  refine ⟨_, run_eq D out _ 2 0 none false sed .none w [] rfl (by cases sed <;> simp [SedGood])
    trivial none hc, ?_⟩
  intro name h
  have h2 : (List.range 2).zip ["log10(norm)".toList, "norm".toList] =
      [(0, "log10(norm)".toList), (1, "norm".toList)] := rfl
  simp only [h2, Bool.false_eq_true, if_false, List.zipIdx_nil, List.map_nil, List.map_cons, saveItems,
    List.foldl_nil, List.foldl_cons, cornerSaved, Option.isSome_none, h0, h1, succeeds, if_true, PlotWorld.save,
    e] at h
  by_cases hn : name = chainFile out "norm".toList
  · subst hn
    rw [Dict.get?_set_self] at h
    simp at h
  · rw [Dict.get?_set_other _ _ _ _ hn, Dict.get?_set_other _ _ _ _ hn] at h
    exact h

/-- **C86 is false** when drawing the corner plot raises: no model is plotted, the error is passed on,
matplotlib stays non-interactive with lines of width 0.7, and the pdf is not closed. -/
theorem C86_false_corner_raises (D : Draw) (out : Label) (labels : List Label) (npars nblobs : ℕ)
    (modelidxs : Option (List ℕ)) (pdf : Bool) (sed : SedArg) (bl : BlobLabels) (w : PlotWorld) (e : PyErr)
    (hc : D.corner = .error e) :
    ∃ w', saveDiagnosticPlots D out labels npars nblobs modelidxs pdf sed bl w = (w', .error e) ∧
      w'.interactive = false ∧ w'.linewidth = 7 / 10 ∧ (pdf = true → w'.pdfOpen = true) := by
  refine ⟨(saveDiagnosticPlots D out labels npars nblobs modelidxs pdf sed bl w).1, ?_, ?_⟩
  · unfold saveDiagnosticPlots plotCorner
    simp only [hc]
  · unfold saveDiagnosticPlots plotCorner
    simp only [hc, chainLoop_eq]
    cases pdf <;> simp [saveItems_other]

/-- **C86 is false** of the font type: `pdf=True` leaves 42 behind. -/
theorem C86_false_fonttype (D : Draw) (out : Label) (labels : List Label) (npars nblobs : ℕ)
    (modelidxs : Option (List ℕ)) (sed : SedArg) (bl : BlobLabels) (w : PlotWorld) :
    (saveDiagnosticPlots D out labels npars nblobs modelidxs true sed bl w).1.fonttype = 42 := by
  unfold saveDiagnosticPlots plotCorner
  simp only [chainLoop_eq, blobLoop_eq, if_true]
  cases D.corner with
  | error e => simp [saveItems_other]
  | ok r =>
    cases blobLabelsOf (modelidxs.getD (List.range nblobs)) bl with
    | error e => cases r <;> simp [PlotWorld.save, saveItems_other]
    | ok ls => cases r <;> simp [PlotWorld.save, saveItems_other]

/-- **C86 is false** of one string for several models: the labels are its first letters, or it raises
TypeError if there are fewer letters than models. -/
theorem C86_false_string (models : List ℕ) (s : Label) (hm : 1 < models.length) :
    blobLabelsOf models (.str s) =
      if s.length < models.length then .error .typeError else .ok (s.map (fun c => [c])) :=
  if_neg (by omega)

/-- **C86 is false** of a list of flags shorter than that of models: the remaining models are silently not
plotted. -/
theorem C86_false_short_sed (D : Draw) (out : Label) (w : PlotWorld) (hc : D.corner = .ok none)
    (h : ∀ i s l, D.blob i s l = .ok ()) :
    ∃ w', saveDiagnosticPlots D out [] 0 2 none false (.each [true]) .none w = (w', .ok ()) ∧
      w'.files.get? (nameOfModel out 0) = some (.blob 0 true "Model output 0".toList) ∧
      w'.files.get? (nameOfModel out 1) = w.files.get? (nameOfModel out 1) := by
  rw [(names_eq out [] 0).2.2, (names_eq out [] 1).2.2]
  have run : saveDiagnosticPlots D out [] 0 2 none false (.each [true]) .none w =
      ({ w with files := w.files.set (modelFile out 0) (.blob 0 true (defaultLabel 0)) }, .ok ()) := by
    unfold saveDiagnosticPlots plotCorner
    simp only [hc, Bool.false_eq_true, if_false]
    have hz : ((none : Option (List ℕ)).getD (List.range 2)).zip ((sedOfArg
      ((none : Option (List ℕ)).getD (List.range 2)) (.each [true])).zip
        (((none : Option (List ℕ)).getD (List.range 2)).map defaultLabel)) = [(0, true, defaultLabel 0)] := rfl
    have hb : blobLabelsOf ((none : Option (List ℕ)).getD (List.range 2)) .none =
      .ok (((none : Option (List ℕ)).getD (List.range 2)).map defaultLabel) := rfl
    simp only [hb, hz]
    simp only [blobLoop, h, PlotWorld.save, Bool.false_eq_true, if_false]
    rfl
  refine ⟨_, run, Dict.get?_set_self _ _ _, ?_⟩
  exact Dict.get?_set_other _ _ _ _ (by rw [Ne, modelFile_inj]; simp)

/-- **C86 is false** of the caller's list of labels: if it is short it is extended. -/
theorem C86_false_labels_extended (models : List ℕ) (ls : List Label) (h : ls.length < models.length) :
    blobLabelsAfter models (.list ls) = .list (ls ++ (models.drop ls.length).map defaultLabel) ∧
    ls ++ (models.drop ls.length).map defaultLabel ≠ ls := by
  refine ⟨if_pos h, fun e => ?_⟩
  have := congrArg List.length e
  simp at this
  omega

/-! ### The hypotheses are met -/

/-- Three parameters, two models, one label given; nothing raises. -/
example : (["log10(norm)".toList, "index".toList, "log(B)".toList].map parName).Nodup ∧
    SedGood (.all true) 2 ∧ LabelsGood (.list ["Spectrum".toList]) 2 ∧
    expectedLabel (.list ["Spectrum".toList]) 0 0 = "Spectrum".toList ∧
    expectedLabel (.list ["Spectrum".toList]) 1 1 = "Model output 1".toList := by
  have l1 : isLogLabel "log10(norm)".toList = true := by
    unfold isLogLabel; rw [decide_eq_true (show log10Pre <:+: "log10(norm)".toList by decide), Bool.true_or]
  have l3 : isLogLabel "log(B)".toList = true := by
    unfold isLogLabel; rw [decide_eq_true (show logPre <:+: "log(B)".toList by decide), Bool.or_true]
  have l2 : isLogLabel "index".toList = false := by
    unfold isLogLabel
    rw [decide_eq_false (show ¬ log10Pre <:+: "index".toList by decide),
      decide_eq_false (show ¬ logPre <:+: "index".toList by decide), Bool.or_false]
  refine ⟨?_, trivial, trivial, rfl, by decide⟩
  simp only [List.map_cons, List.map_nil, parName, l1, l2, l3, if_true, Bool.false_eq_true, if_false]
  decide

end Naima.Props
