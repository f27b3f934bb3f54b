import Verif.Props.C46_C47_NelderMead
import Verif.Props.C87_ResultsMeta
import Verif.Props.C53_C55_SaveRun
import Verif.Props.C70_SyncFormula
import Mathlib.Data.List.GetD

/-! # Theorems added after wrong programs went unnoticed (C47, C54, C70, C87) -/

namespace Naima.Props

open XR Classical

/-! ## C47: the geometry of a step -/

theorem foldl_zip_get (N : ℕ) (rest : List (Vec × XR)) (acc : Vec) (hacc : acc.length = N)
    (hr : ∀ q ∈ rest, q.1.length = N) :
    (rest.foldl (fun acc q => List.zipWith (· + ·) acc q.1) acc).length = N ∧
    ∀ j < N, (rest.foldl (fun acc q => List.zipWith (· + ·) acc q.1) acc).getD j 0 =
      acc.getD j 0 + (rest.map (fun q => q.1.getD j 0)).sum := by
  induction rest generalizing acc with
  | nil => simp [hacc]
  | cons q rest ih =>
    have hq : q.1.length = N := hr q (by simp)
    obtain ⟨h1, h2⟩ := ih (List.zipWith (· + ·) acc q.1) (by simp [hacc, hq])
      (fun p hp => hr p (by simp [hp]))
    refine ⟨h1, ?_⟩
    intro j hj
    rw [List.foldl_cons, h2 j hj, List.map_cons, List.sum_cons]
    have : (List.zipWith (· + ·) acc q.1).getD j 0 = acc.getD j 0 + q.1.getD j 0 := by
      rw [List.getD_eq_getElem _ _ (by simp [hacc, hq, hj]), List.getElem_zipWith,
        List.getD_eq_getElem _ _ (by omega), List.getD_eq_getElem _ _ (by omega)]
    rw [this]; ring

theorem centroid_get (N : ℕ) (pts : List (Vec × XR)) (hne : pts ≠ []) (hl : ∀ q ∈ pts, q.1.length = N) :
    (centroid pts).length = N ∧
    ∀ j < N, (pts.length : ℝ) * (centroid pts).getD j 0 = (pts.map (fun q => q.1.getD j 0)).sum := by
  cases pts with
  | nil => exact absurd rfl hne
  | cons p rest =>
    obtain ⟨h1, h2⟩ := foldl_zip_get N rest p.1 (hl p (by simp)) (fun q hq => hl q (by simp [hq]))
    have hlen : (0:ℝ) < ((p :: rest).length : ℝ) := by simp; positivity
    refine ⟨by simp only [centroid, List.length_map]; exact h1, ?_⟩
    intro j hj
    have : (centroid (p :: rest)).getD j 0 =
        (rest.foldl (fun acc q => List.zipWith (· + ·) acc q.1) p.1).getD j 0 / ((p :: rest).length : ℝ) := by
      simp only [centroid]
      rw [List.getD_eq_getElem _ _ (by simpa using h1 ▸ hj), List.getElem_map,
        List.getD_eq_getElem _ _ (by omega)]
    rw [this, h2 j hj, List.map_cons, List.sum_cons]
    field_simp

theorem vlin_get (N : ℕ) (a b : ℝ) (x y : Vec) (hx : x.length = N) (hy : y.length = N) :
    (vlin a x b y).length = N ∧ ∀ j < N, (vlin a x b y).getD j 0 = a * x.getD j 0 + b * y.getD j 0 := by
  refine ⟨by simp [vlin, hx, hy], ?_⟩
  intro j hj
  unfold vlin
  rw [List.getD_eq_getElem _ _ (by simp [hx, hy, hj]), List.getElem_zipWith,
    List.getD_eq_getElem _ _ (by omega), List.getD_eq_getElem _ _ (by omega)]

/-- `x` is obtained from the vertex `w` by going through the mean `c` of the other vertices, to the distance
`t` times that of `w` on the other side. -/
def Opposite (N : ℕ) (others : List Vec) (w : Vec) (t : ℝ) (x : Vec) : Prop :=
  x.length = N ∧ ∀ j < N, ∃ c : ℝ, (others.length : ℝ) * c = (others.map (fun v => v.getD j 0)).sum ∧
    x.getD j 0 = c + t * (c - w.getD j 0)

/-- `x` is half-way between `b` and `y`. -/
def Halfway (N : ℕ) (b y x : Vec) : Prop :=
  x.length = N ∧ ∀ j < N, x.getD j 0 = (b.getD j 0 + y.getD j 0) / 2

/-- **C47 (the moves of the search).** For every objective and every simplex of two or more points with `N`
coordinates (values sorted or not), one step of the search for a float vector either replaces the last (worst)
point by the one opposite to it with respect to the others — at the same distance, at twice the distance, at half
of it, or half-way back inside — or moves all points but the first (best) half-way towards the first; and each new
point is stored with its own value of the objective. -/
theorem C47_moves (f : Vec → XR) (N : ℕ) (b w : Vec × XR) (mid : List (Vec × XR))
    (hl : ∀ p ∈ b :: mid ++ [w], p.1.length = N) :
    (∃ t : ℝ, (t = 1 ∨ t = 2 ∨ t = 1 / 2 ∨ t = -(1 / 2)) ∧ ∃ x,
      Opposite N ((b :: mid).map (·.1)) w.1 t x ∧
      (nmMove f id (b :: mid ++ [w])).1 = b :: mid ++ [(x, f x)]) ∨
    (∃ xs : List Vec, List.Forall₂ (fun p x => Halfway N b.1 p.1 x) (mid ++ [w]) xs ∧
      (nmMove f id (b :: mid ++ [w])).1 = b :: xs.map (fun x => (x, f x))) := by
  have hd : (b :: mid ++ [w]).dropLast = b :: mid := by
    rw [List.dropLast_append_of_ne_nil (by simp)]; simp
  have hlast : (b :: mid ++ [w]).getLastD ([], nan) = w := by simp [List.getLastD]
  have hw : w.1.length = N := hl w (by simp)
  obtain ⟨hc1, hc2⟩ := centroid_get N (b :: mid) (by simp) (fun q hq => hl q (by
    simp only [List.cons_append, List.mem_cons, List.mem_append] at hq ⊢; tauto))
  have opp : ∀ (p q t : ℝ), p = 1 + t → q = -t →
      Opposite N ((b :: mid).map (·.1)) w.1 t (vlin p (centroid (b :: mid)) q w.1) := by
    intro p q t hp hq
    obtain ⟨v1, v2⟩ := vlin_get N p q (centroid (b :: mid)) w.1 hc1 hw
    refine ⟨v1, fun j hj => ⟨(centroid (b :: mid)).getD j 0, ?_, ?_⟩⟩
    · rw [List.length_map, hc2 j hj, List.map_map]; rfl
    · rw [v2 j hj, hp, hq]; ring
  have shr : List.Forall₂ (fun p x => Halfway N b.1 p.1 x) (mid ++ [w])
      ((mid ++ [w]).map (fun p => shrinkPt id b.1 p.1)) := by
    rw [List.forall₂_map_right_iff, List.forall₂_same]
    intro p hp
    have hpl : p.1.length = N := hl p (by
      simp only [List.cons_append, List.mem_cons, List.mem_append] at hp ⊢; tauto)
    have hbl : b.1.length = N := hl b (by simp)
    refine ⟨by simp [shrinkPt, hpl, hbl], ?_⟩
    intro j hj
    unfold shrinkPt
    rw [List.map_id, List.getD_eq_getElem _ _ (by simp [hpl, hbl, hj]), List.getElem_zipWith,
      List.getD_eq_getElem _ _ (by omega), List.getD_eq_getElem _ _ (by omega)]
    ring
  have shrt : (b :: mid ++ [w]).tail = mid ++ [w] := rfl
  have hhead : (b :: mid ++ [w]).headD ([], nan) = b := rfl
  unfold nmMove
  simp only [hd, hlast, shrt, hhead, List.map_id]
  split_ifs
  · exact Or.inl ⟨2, by norm_num, _, opp 3 (-2) 2 (by norm_num) (by norm_num), rfl⟩
  · exact Or.inl ⟨1, by norm_num, _, opp 2 (-1) 1 (by norm_num) (by norm_num), rfl⟩
  · exact Or.inl ⟨1, by norm_num, _, opp 2 (-1) 1 (by norm_num) (by norm_num), rfl⟩
  · exact Or.inl ⟨1 / 2, by norm_num, _, opp 1.5 (-0.5) (1 / 2) (by norm_num) (by norm_num), rfl⟩
  · exact Or.inr ⟨_, shr, rfl⟩
  · exact Or.inl ⟨-(1 / 2), by norm_num, _, opp 0.5 0.5 (-(1 / 2)) (by norm_num) (by norm_num), rfl⟩
  · exact Or.inr ⟨_, shr, rfl⟩

/-- Non-vacuity: a triangle; the point opposite to (1, 1) with respect to (0, 0), (2, 0) is (1, -1). -/
example : Opposite 2 [[0, 0], [2, 0]] [1, 1] 1 [1, -1] := by
  refine ⟨rfl, fun j hj => ?_⟩
  interval_cases j
  · exact ⟨1, by norm_num, by norm_num⟩
  · exact ⟨0, by norm_num, by norm_num⟩

/-! ## C54: which file names are accepted -/

theorem fileSuffix_of (stem ext : Label) (hs : stem ≠ []) (he : ext ≠ []) (hd : '.' ∉ ext) :
    fileSuffix (stem ++ '.' :: ext) = '.' :: ext := by
  have h1 : (stem ++ '.' :: ext).reverse.takeWhile (· ≠ '.') = ext.reverse := by
    rw [List.reverse_append, List.reverse_cons, List.append_assoc,
      List.takeWhile_append_of_pos (by intro c hc; simp at hc ⊢; rintro rfl; exact hd hc)]
    simp
  unfold fileSuffix
  simp only [h1, List.reverse_reverse]
  have h2 : (stem ++ '.' :: ext).take ((stem ++ '.' :: ext).length - ext.length - 1) = stem := by
    have : (stem ++ '.' :: ext).length - ext.length - 1 = stem.length := by simp; omega
    rw [this, List.take_left]
  rw [h2, if_pos ⟨by simp; omega, he, hs⟩]

theorem of_fileSuffix (name s : Label) (hs : s ≠ []) (h : fileSuffix name = s) :
    ∃ stem, stem ≠ [] ∧ name = stem ++ s := by
  unfold fileSuffix at h
  simp only at h
  split_ifs at h with hc
  · obtain ⟨hlt, -, hst⟩ := hc
    refine ⟨_, hst, ?_⟩
    set r := name.reverse with hr
    have hsplit : r.takeWhile (· ≠ '.') ++ r.dropWhile (· ≠ '.') = r := List.takeWhile_append_dropWhile
    have hlen : r.length = name.length := by simp [hr]
    cases hdw : r.dropWhile (· ≠ '.') with
    | nil =>
      exfalso
      rw [hdw, List.append_nil] at hsplit
      rw [hsplit] at hlt; simp [hr] at hlt
    | cons c tl =>
      have hc : c = '.' := by
        have := List.head?_dropWhile_not (p := fun a : Char => decide (a ≠ '.')) r
        rw [hdw] at this
        simpa using this
      have hn : name = tl.reverse ++ '.' :: (r.takeWhile (· ≠ '.')).reverse := by
        have : name = r.reverse := by simp [hr]
        rw [this]
        conv_lhs => rw [← hsplit, hdw, hc]
        simp
      have e : name.length - (r.takeWhile (· ≠ '.')).reverse.length - 1 = tl.reverse.length := by
        have := congrArg List.length hn
        simp only [List.length_append, List.length_cons] at this
        omega
      rw [← h, e]
      conv_lhs => rw [hn]
      congr 1
      conv_rhs => rw [hn]
      rw [List.take_left]
  · exact absurd h.symm hs

/-- **C54 (accepted names).** For every file name without directory, run and files: the name is refused with
ValueError, no file being touched, exactly if it is not of the form "something.h5" or "something.hdf5", with at least
one character before the dot. -/
theorem C54_accepted_names {V T : Type} (storable : V → Bool) (fs : FS V T) (name : Label) (clobber : Bool) (s : Run V T) :
    ((∃ stem, stem ≠ [] ∧ (name = stem ++ ".h5".toList ∨ name = stem ++ ".hdf5".toList)) ∧
      saveRun storable fs name clobber s =
        (if fs name ≠ none ∧ clobber = false then ([], none) else saveOps storable s)) ∨
    ((∀ stem, stem ≠ [] → name ≠ stem ++ ".h5".toList ∧ name ≠ stem ++ ".hdf5".toList) ∧
      saveRun storable fs name clobber s = ([], some .valueError)) := by
  by_cases h : ∃ stem, stem ≠ [] ∧ (name = stem ++ ".h5".toList ∨ name = stem ++ ".hdf5".toList)
  · left
    refine ⟨h, ?_⟩
    obtain ⟨stem, h0, h1⟩ := h
    have : fileSuffix name ∈ [".hdf5".toList, ".h5".toList] := by
      rcases h1 with rfl | rfl
      · rw [show (".h5".toList : Label) = '.' :: "h5".toList from rfl,
          fileSuffix_of stem _ h0 (by decide) (by decide)]; simp
      · rw [show (".hdf5".toList : Label) = '.' :: "hdf5".toList from rfl,
          fileSuffix_of stem _ h0 (by decide) (by decide)]; simp
    unfold saveRun
    rw [if_neg (not_not.2 this)]
  · right
    push Not at h
    refine ⟨h, ?_⟩
    unfold saveRun
    rw [if_pos]
    intro hm
    simp only [List.mem_cons, List.not_mem_nil, or_false] at hm
    rcases hm with hm | hm
    · obtain ⟨stem, h0, h1⟩ := of_fileSuffix name _ (by decide) hm
      exact (h stem h0).2 h1
    · obtain ⟨stem, h0, h1⟩ := of_fileSuffix name _ (by decide) hm
      exact (h stem h0).1 h1

/-! ## C70: the cube root -/

/-- **C70 (cube root).** The cube root used in the synchrotron kernel is the real one, for negative numbers too. -/
theorem C70_cube_root (x : ℝ) : ∃ y : ℝ, cbrt (fin x) = fin y ∧ y ^ 3 = x := by
  have key : ∀ z : ℝ, 0 ≤ z → (z ^ ((1 : ℝ) / 3)) ^ 3 = z := by
    intro z hz
    rw [← Real.rpow_natCast, ← Real.rpow_mul hz]; norm_num
  by_cases hx : 0 ≤ x
  · exact ⟨_, by simp only [cbrt, if_pos hx], key x hx⟩
  · refine ⟨_, by simp only [cbrt, if_neg hx]; rfl, ?_⟩
    have := key (-x) (by linarith)
    linear_combination -this

/-! ## C87: blobs of mixed kinds -/

theorem mapM_error_of {α β : Type} (g : α → Except PyErr β) (l : List α) (a : α) (h : a ∈ l) (e : PyErr)
    (ha : g a = .error e) : ∃ e', l.mapM g = .error e' := by
  induction l with
  | nil => cases h
  | cons b l ih =>
    rw [List.mapM_cons]
    cases hb : g b with
    | error x => exact ⟨x, rfl⟩
    | ok y =>
      rcases List.mem_cons.1 h with rfl | h
      · rw [hb] at ha; cases ha
      · obtain ⟨e', he⟩ := ih h
        exact ⟨e', by rw [he]; rfl⟩

/-- **C87 (blobs of mixed kinds).** If a blob is a quantity for one of the samples described and a plain number
for the first walker of the last step, or the other way around, asking for the blobs raises an error and no file
is written. -/
theorem C87_mixed_blobs {V : Type} (hasYaml : Bool) (out : Label) (format : TableFormat)
    (conv last overwrite : Bool) (run : ResRun V) (files : Dict Label (ResTable V))
    (b : List (List (List UBlob))) (hb : run.blobs = some b) (idx : ℕ)
    (y : List UBlob) (hy : y ∈ if last then b.getLastD [] else b.flatten) (u v : ℝ) (lab : Label)
    (hk : (((b.getLastD []).headD []).getD idx .other = .qty u lab ∧ y.getD idx .other = .num v) ∨
      (((b.getLastD []).headD []).getD idx .other = .num u ∧ y.getD idx .other = .qty v lab)) :
    ∃ e, saveResultsTable hasYaml out format conv last true overwrite run files = (files, .error e) := by
  have hgf : ∀ x : List UBlob, (x.map UBlob.forget).getD idx .other = (x.getD idx .other).forget := by
    intro x
    by_cases hi : idx < x.length
    · rw [List.getD_eq_getElem _ _ (by simpa using hi), List.getElem_map, List.getD_eq_getElem _ _ hi]
    · rw [List.getD_eq_default _ _ (by simpa using hi), List.getD_eq_default _ _ (by simpa using hi)]; rfl
  set b' := b.map (fun step => step.map (fun w => w.map UBlob.forget)) with hb'
  have hlast : b'.getLastD [] = (b.getLastD []).map (fun w => w.map UBlob.forget) := by
    rw [hb']
    rcases List.eq_nil_or_concat b with h | ⟨l, a, h⟩
    · simp [h]
    · simp [h]
  have hfl : b'.flatten = b.flatten.map (fun w => w.map UBlob.forget) := by rw [hb', List.map_flatten]
  have hhd : (b'.getLastD []).headD [] = ((b.getLastD []).headD []).map UBlob.forget := by
    rw [hlast]; cases b.getLastD [] <;> rfl
  have hidx : idx < ((b'.getLastD []).headD []).length := by
    rw [hhd, List.length_map]
    by_contra hc
    rw [List.getD_eq_default _ _ (by omega)] at hk
    rcases hk with ⟨h, -⟩ | ⟨h, -⟩ <;> cases h
  have hmem : (y.getD idx .other).forget ∈ blobSamples last b' idx := by
    unfold blobSamples
    rw [List.mem_map]
    refine ⟨y.map UBlob.forget, ?_, hgf y⟩
    cases last with
    | true => simp only [if_true] at hy ⊢; rw [hlast]; exact List.mem_map_of_mem hy
    | false =>
      simp only [Bool.false_eq_true, if_false] at hy ⊢
      rw [hfl]; exact List.mem_map_of_mem hy
  have hrow : ∃ e, blobRow last b' idx (blobLabel idx) = .error e := by
    unfold blobRow
    rw [hhd, hgf]
    rcases hk with ⟨h1, h2⟩ | ⟨h1, h2⟩
    · rw [h1]; rw [h2] at hmem
      obtain ⟨e, he⟩ := mapM_error_of (blobValue true) _ _ hmem .attributeError rfl
      refine ⟨e, ?_⟩
      simp only [UBlob.forget, he]; rfl
    · rw [h1]; rw [h2] at hmem
      obtain ⟨e, he⟩ := mapM_error_of (blobValue false) _ _ hmem .typeError rfl
      refine ⟨e, ?_⟩
      simp only [UBlob.forget, he]; rfl
  have hmk : ∃ e, makeTable hasYaml format conv last true run = .error e := by
    obtain ⟨e0, hrow⟩ := hrow
    unfold makeTable
    cases h1 : resultSamples last run.chain with
    | error e => exact ⟨e, rfl⟩
    | ok dists =>
      cases h2 : findML run.lnprob run.chain run.lnprob with
      | error e => exact ⟨e, rfl⟩
      | ok r =>
        obtain ⟨ml, mlp, k⟩ := r
        simp only [hb, Option.getD_some]
        have : ∃ e, resultsTable conv last true run.labels run.chain b' = .error e := by
          unfold resultsTable
          rw [h1]
          simp only
          cases h3 : paramRows conv dists 0 run.labels none with
          | error e => exact ⟨e, rfl⟩
          | ok rows =>
            obtain ⟨e', he⟩ := mapM_error_of (fun idx => blobRow last b' idx (blobLabel idx)) (List.range _) idx
              (List.mem_range.2 hidx) e0 hrow
            exact ⟨e', by simp only [if_true, he]; rfl⟩
        obtain ⟨e, he⟩ := this
        exact ⟨e, by rw [← hb', he]⟩
  obtain ⟨e, he⟩ := hmk
  exact ⟨e, by unfold saveResultsTable; rw [he]⟩

/-- Non-vacuity: two walkers, one step. -/
example : (([[[UBlob.qty 1 "erg".toList], [UBlob.num 2]]]).getLastD []).headD [] = [UBlob.qty 1 "erg".toList] ∧
    [UBlob.num 2] ∈ (if false then ([[[UBlob.qty 1 "erg".toList], [UBlob.num 2]]]).getLastD []
      else ([[[UBlob.qty 1 "erg".toList], [UBlob.num 2]]]).flatten) := by simp

end Naima.Props
