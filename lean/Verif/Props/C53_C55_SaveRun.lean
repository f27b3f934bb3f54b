import Verif.Proof.SaveRun

/-! # C53–C55: saving and reading runs -/

namespace Naima.Props

open Naima XR Classical Spec

variable {V T : Type}

/-- The keys that `save_run` itself uses for attributes. -/
def Reserved (k : Label) : Prop := k = accKey ∨ ∃ i, k = labelKey i

/-- The writes after the blobs. -/
theorem tailOps_file (storable : V → Bool) (s : Run V T) (f : H5 V T) (hn : (Dict.keys s.runInfo).Nodup)
    (hres : ∀ k ∈ Dict.keys s.runInfo, ¬ Reserved k) :
    ∃ f', applyOps (tailOps storable s) (some f) = some f' ∧ f'.chain = f.chain ∧ f'.logProb = f.logProb ∧
      f'.dsets = f.dsets ∧ f'.table = some s.data ∧
      Dict.get? f'.attrs accKey = some (.num s.acceptance) ∧
      (∀ i (h : i < s.labels.length), Dict.get? f'.attrs (labelKey i) = some (.label s.labels[i])) ∧
      (∀ kv ∈ s.runInfo, Dict.get? f'.attrs kv.1 = some (if storable kv.2 then .val kv.2 else .str kv.2)) := by
  unfold tailOps
  rw [infoOps_eq, labelOps_eq, applyOps_cons, applyOps_append]
  set info := s.runInfo.map (fun kv => (kv.1, if storable kv.2 then Attr.val kv.2 else .str kv.2)) with hinfo
  have hik : info.map (·.1) = Dict.keys s.runInfo := by rw [hinfo, List.map_map]; rfl
  obtain ⟨f1, a1, a2, a3, a4, a5, a6, a7⟩ := applyOps_attrs (T := T) info { f with table := some s.data }
  set labs := s.labels.zipIdx.map (fun li => (labelKey li.2, (Attr.label li.1 : Attr V))) with hlabs
  have hlk : labs.map (·.1) = s.labels.zipIdx.map (fun li => labelKey li.2) := by rw [hlabs, List.map_map]; rfl
  obtain ⟨f2, b1, b2, b3, b4, b5, b6, b7⟩ :=
    applyOps_attrs (T := T) labs { f1 with attrs := Dict.set f1.attrs accKey (.num s.acceptance) }
  have hmem : ∀ k, k ∈ labs.map (·.1) → ∃ i, k = labelKey i := by
    intro k hk
    rw [hlk] at hk
    obtain ⟨li, _, rfl⟩ := List.mem_map.1 hk
    exact ⟨_, rfl⟩
  refine ⟨f2, ?_, b2.trans a2, b3.trans a3, b4.trans a4, b5.trans a5, ?_, ?_, ?_⟩
  · show applyOps (Op.attr accKey _ :: attrOps labs) (applyOps (attrOps info) (some _)) = _
    rw [a1, applyOps_cons]
    exact b1
  · rw [b6 accKey (fun h => by obtain ⟨i, hi⟩ := hmem _ h; exact labelKey_ne_acc i hi.symm)]
    exact Dict.get?_set_self _ _ _
  · intro i hi
    refine b7 (by rw [hlk]; exact labelKeys_nodup s.labels 0) (labelKey i, .label s.labels[i]) ?_
    rw [hlabs]
    refine List.mem_map.2 ⟨(s.labels[i], i), ?_, rfl⟩
    rw [List.mem_zipIdx_iff_getElem?]
    exact List.getElem?_eq_getElem hi
  · intro kv hkv
    have hk : kv.1 ∈ Dict.keys s.runInfo := List.mem_map.2 ⟨kv, hkv, rfl⟩
    rw [b6 kv.1 (fun h => hres _ hk (Or.inr (hmem _ h)))]
    show Dict.get? (Dict.set f1.attrs accKey _) kv.1 = _
    rw [Dict.get?_set_other _ _ _ _ (fun h => hres _ hk (Or.inl h))]
    refine a7 (by rw [hik]; exact hn) (kv.1, _) ?_
    exact List.mem_map.2 ⟨kv, hkv, rfl⟩

/-- **C53 (round trip), partial.** A run with at least one sample, blobs of at most a hundred fixed kinds
(scalar or vector Quantity, float, pair of vectors) and a label for every parameter is saved without
exception, and reading the file gives the same chain, log-probabilities, labels, data, run information
and blobs, each blob with the same numbers and units at the same step and walker.
Missing (false of the code, see below): tuples that are not pairs, unsaveable blobs, more than a hundred
blobs, blobs whose unit varies between samples, blobs that all have the same length, surplus labels. -/
theorem C53_roundtrip_partial (storable : V → Bool) (fs : FS V T) (name : Label) (clobber : Bool) (s : Run V T)
    (hname : fileSuffix name = ".h5".toList ∨ fileSuffix name = ".hdf5".toList)
    (hnew : fs name = none ∨ clobber = true)
    (nsteps nwalkers : Nat) (kinds : List Kind) (hS : 0 < nsteps) (hW : 0 < nwalkers)
    (hc1 : s.chain.length = nsteps) (hc2 : ∀ st ∈ s.chain, st.length = nwalkers)
    (hc3 : ∀ st ∈ s.chain, ∀ w ∈ st, w.length = s.labels.length)
    (hb : GoodBlobs s.blobs nsteps nwalkers kinds)
    (hn : (Dict.keys s.runInfo).Nodup) (hres : ∀ k ∈ Dict.keys s.runInfo, ¬ Reserved k) :
    (saveRun storable fs name clobber s).2 = none ∧
    ∃ f r, afterSave storable fs name clobber s name = some f ∧ readRun f = .ok r ∧
      r.chain = s.chain ∧ r.logProb = s.logProb ∧ r.data = s.data ∧ r.acceptance = .num s.acceptance ∧
      r.labels = s.labels.map Attr.label ∧
      (∀ kv ∈ s.runInfo, storable kv.2 = true → Dict.get? r.runInfo kv.1 = some (.val kv.2)) ∧
      ∃ l, r.blobs = .objects l ∧ List.Forall₂ (List.Forall₂ (List.Forall₂ SameBlob)) s.blobs l := by
  have hsave : saveRun storable fs name clobber s = saveOps storable s := by
    unfold saveRun
    rw [if_neg (by rcases hname with h | h <;> rw [h] <;> simp), if_neg]
    rintro ⟨h1, h2⟩
    rcases hnew with h | h
    · exact h1 h
    · rw [h2] at h; cases h
  have hbne : s.blobs ≠ [] := by
    intro h; have := hb.steps; rw [h] at this; simp at this; omega
  have hwne : ∀ st ∈ s.blobs, st ≠ [] := by
    intro st hst h; have := hb.walkers st hst; rw [h] at this; simp at this; omega
  have hfl : s.blobs.flatten ≠ [] := by
    intro h
    obtain ⟨st, rest, e⟩ := List.exists_cons_of_ne_nil hbne
    rw [e] at h
    simp at h
    exact hwne st (by rw [e]; simp) h.1
  -- the blob list that is traversed
  obtain ⟨items, hitems, hik⟩ : ∃ items, (s.blobs.getLast?).bind (·.head?) = some items ∧
      List.Forall₂ HasKind kinds items := by
    rw [List.getLast?_eq_getLast_of_ne_nil hbne, Option.bind_some]
    have hm := List.getLast_mem hbne
    have h0 := hwne _ hm
    refine ⟨(s.blobs.getLast hbne).head h0, List.head?_eq_some_head h0, ?_⟩
    exact hb.each _ hm _ (List.head_mem h0)
  obtain ⟨ops, hops, hf⟩ := blobOps_kinds (V := V) (T := T) s.blobs kinds hb.proper hb.each hfl items kinds 0
    (by simp) hik
  obtain ⟨f1, a1, a2, a3, a4, a5, a6, a7, a8⟩ := hf { chain := some s.chain, logProb := some s.logProb }
  obtain ⟨f2, b1, b2, b3, b4, b5, b6, b7, b8⟩ := tailOps_file storable s f1 hn hres
  have hso : saveOps storable s = ([.openW, .chain s.chain, .logProb s.logProb] ++ ops ++ tailOps storable s, none) := by
    unfold saveOps
    rw [hitems]
    simp only [hops]
  have hfile : afterSave storable fs name clobber s name = some f2 := by
    unfold afterSave
    rw [if_pos rfl, hsave, hso]
    simp only
    rw [applyOps_append, applyOps_append]
    show applyOps _ (applyOps ops (some { chain := some s.chain, logProb := some s.logProb })) = _
    rw [a1, b1]
  refine ⟨by rw [hsave, hso], f2, ?_⟩
  -- reading
  have hlen : ∀ st ∈ s.blobs, ∀ w ∈ st, w.length = kinds.length :=
    fun st hst w hw => (hb.each st hst w hw).length_eq.symm
  have hcount : s.blobs.flatten.length = nsteps * nwalkers := by
    rw [List.length_flatten, List.map_congr_left (g := fun _ => nwalkers) (fun st h => hb.walkers st h),
      List.map_const', List.sum_replicate, hb.steps]
    rfl
  obtain ⟨L, l1, l2, l3⟩ := readBlobs_ok f2 (nsteps * nwalkers)
    (fun j t => view ((s.blobs.flatten.getD t []).getD j .other)) kinds.length 100 0 hb.count
    (by
      intro j hj
      have hcolk : ∀ b ∈ s.blobs.flatten.map (fun w => w.getD (0 + j) .other), HasKind kinds[j] b := by
        intro b hbm
        obtain ⟨w, hw, rfl⟩ := List.mem_map.1 hbm
        obtain ⟨st, hst, hw⟩ := List.mem_flatten.1 hw
        have hl : 0 + j < w.length := by rw [hlen st hst w hw]; omega
        rw [getD_get _ _ hl]
        have := (hb.each st hst w hw).get hj (by omega)
        simpa using this
      obtain ⟨sr, s1, s2⟩ := readSeries_kind kinds[j] _ (by simpa using hfl) hcolk
      refine ⟨_, sr, by rw [b4]; exact a6 j hj, s1, ?_⟩
      intro t ht
      have ht' : t < (s.blobs.flatten.map (fun w => w.getD (0 + j) .other)).length := by
        rw [List.length_map, hcount]; exact ht
      rw [s2 t ht', List.getElem_map]
      have e : s.blobs.flatten.getD t [] = s.blobs.flatten[t]'(by rw [hcount]; exact ht) :=
        getD_get _ _ (by rw [hcount]; exact ht)
      show _ = Except.ok (view ((s.blobs.flatten.getD t []).getD (0 + j) .other))
      rw [e])
    (by
      rw [b4, a8 kinds.length (le_refl _)]; rfl)
  have horg := organise_ok s.blobs nsteps nwalkers kinds.length hb.steps hb.walkers hlen L l2 (by
    intro j hj t ht
    have := l3 j hj t ht
    rwa [Nat.zero_add] at this)
  -- shape of the chain
  obtain ⟨st, rest, hchain⟩ := List.exists_cons_of_ne_nil (show s.chain ≠ [] by
    intro h; rw [h] at hc1; simp at hc1; omega)
  have hst : st.length = nwalkers := hc2 st (by rw [hchain]; simp)
  obtain ⟨w, rest', hw⟩ := List.exists_cons_of_ne_nil (show st ≠ [] by
    intro h; rw [h] at hst; simp at hst; omega)
  have hwl : w.length = s.labels.length := hc3 st (by rw [hchain]; simp) w (by rw [hw]; simp)
  have hlabs : (List.range ((s.chain.headD []).headD []).length).mapM
      (fun i => lookupOr (Dict.get? f2.attrs (labelKey i))) = .ok (s.labels.map Attr.label) := by
    have : ((s.chain.headD []).headD []).length = s.labels.length := by rw [hchain, ← hwl, ← show (st.headD []) = w by rw [hw]; rfl]; rfl
    apply mapM_ok_get _ _ _ (by rw [this]; simp)
    intro i hi hi'
    rw [List.getElem_range, b7 i (by simpa using hi'), List.getElem_map]
    rfl
  have hread : readRun f2 = .ok
      { chain := s.chain, logProb := s.logProb, blobs := npObject (s.blobs.map (fun st => st.map (fun w => w.map view))),
        runInfo := f2.attrs, acceptance := .num s.acceptance, labels := s.labels.map Attr.label, data := s.data } := by
    unfold readRun
    have e1 : lookupOr f2.chain = .ok s.chain := by rw [b2, a2]; rfl
    have e2 : lookupOr f2.logProb = .ok s.logProb := by rw [b3, a3]; rfl
    have e3 : organise L s.chain.length (s.chain.headD []).length = .ok (s.blobs.map (fun st => st.map (fun w => w.map view))) := by
      rw [hc1, show (s.chain.headD []).length = nwalkers by rw [hchain]; exact hst]
      exact horg
    have e4 : lookupOr (Dict.get? f2.attrs accKey) = .ok (.num s.acceptance) := by rw [b6]; rfl
    have e5 : lookupOr f2.table = .ok s.data := by rw [b5]; rfl
    simp only [e1, e2, e4, e5, l1, bind, Except.bind]
    rw [e3]
    simp only
    rw [hlabs]
    rfl
  refine ⟨_, hfile, hread, rfl, rfl, rfl, rfl, rfl, ?_, ?_⟩
  · intro kv hkv hst
    have := b8 kv hkv
    rwa [if_pos hst] at this
  · refine ⟨s.blobs.map (fun st => st.map (fun w => w.map view)), ?_, ?_⟩
    · show npObject _ = _
      unfold npObject
      rw [if_neg]
      rintro ⟨n, h1, h2⟩
      rcases hb.varied with h | h
      · apply h1
        have : ∀ b, b ∉ (s.blobs.map (fun st => st.map (fun w => w.map view))).flatten.flatten := by
          intro b hbm
          obtain ⟨l', hl', hbm⟩ := List.mem_flatten.1 hbm
          obtain ⟨st', hst', hl'⟩ := List.mem_flatten.1 hl'
          obtain ⟨st0, hst0, rfl⟩ := List.mem_map.1 hst'
          obtain ⟨w0, hw0, rfl⟩ := List.mem_map.1 hl'
          have := hlen st0 hst0 w0 hw0
          rw [h] at this
          rw [List.length_eq_zero_iff.1 this] at hbm
          simp at hbm
        exact List.eq_nil_iff_forall_not_mem.2 this
      · apply h
        refine ⟨n, ?_⟩
        intro k hk
        obtain ⟨i, hi, rfl⟩ := List.getElem_of_mem hk
        obtain ⟨st0, hst0⟩ := List.exists_mem_of_ne_nil _ hbne
        obtain ⟨w0, hw0⟩ := List.exists_mem_of_ne_nil _ (hwne st0 hst0)
        have hf := hb.each st0 hst0 w0 hw0
        have hl : i < w0.length := by rw [← hf.length_eq]; exact hi
        have hv : (view w0[i]).lead = kinds[i].lead := view_lead _ _ (hf.get hi hl)
        rw [← hv]
        apply h2
        exact List.mem_flatten.2 ⟨w0.map view, List.mem_flatten.2 ⟨st0.map (fun w => w.map view),
          List.mem_map.2 ⟨st0, hst0, rfl⟩, List.mem_map.2 ⟨w0, hw0, rfl⟩⟩,
          List.mem_map.2 ⟨_, List.getElem_mem hl, rfl⟩⟩
    · rw [List.forall₂_map_right_iff, List.forall₂_same]
      intro st0 hst0
      rw [List.forall₂_map_right_iff, List.forall₂_same]
      intro w0 hw0
      rw [List.forall₂_map_right_iff, List.forall₂_same]
      intro b hbm
      obtain ⟨i, hi, rfl⟩ := List.getElem_of_mem hbm
      have hf := hb.each st0 hst0 w0 hw0
      have hl : i < kinds.length := by rw [hf.length_eq]; exact hi
      exact view_same _ _ (hf.get hl hi)

/-- Non-vacuity: two steps, two walkers, one parameter; the blobs are a spectrum and a float. -/
example : GoodBlobs
    [[[.qty (.d1 [fin 1, fin 2]) PhysUnit.erg, .num nan], [.qty (.d1 [fin 3, fin 4]) PhysUnit.erg, .num nan]],
     [[.qty (.d1 [fin 5, fin 6]) PhysUnit.erg, .num nan], [.qty (.d1 [fin 7, pinf]) PhysUnit.erg, .num (fin 0)]]]
    2 2 [.vec 2 PhysUnit.erg, .num] ∧ fileSuffix "run.h5".toList = ".h5".toList := by
  refine ⟨⟨rfl, by simp, ?_, ?_, by simp, Or.inr ?_⟩, by decide⟩
  · simp [HasKind]
  · simp [Kind.Proper, PhysUnit.Proper, PhysUnit.erg]
  · rintro ⟨n, h⟩
    have := h .num (by simp)
    simp [Kind.lead] at this

/-- A run with one parameter, and as many steps and walkers as the blobs given. -/
noncomputable def runWith (blobs : List (List (List SBlob))) (labels : List Label) : Run Nat Nat where
  chain := blobs.map (fun s => s.map (fun _ => [0]))
  logProb := blobs.map (fun s => s.map (fun _ => fin 0))
  blobs := blobs
  data := 0
  runInfo := []
  acceptance := 0
  labels := labels

/-- What saving to a new file and reading it gives. -/
noncomputable def saveThenRead (s : Run Nat Nat) : Except PyErr (ReadResult Nat Nat) :=
  match afterSave (fun _ => true) (fun _ => none) "run.h5".toList false s "run.h5".toList with
  | some f => readRun f
  | none => .error .ioError

theorem npObject_objects (l : List (List (List RBlob))) (b : RBlob) (h : b ∈ l.flatten.flatten)
    (hb : b.lead = none) : npObject l = .objects l := by
  unfold npObject
  rw [if_neg]
  rintro ⟨n, _, h2⟩
  rw [h2 b h] at hb
  cases hb

theorem npObject_nil : npObject [[[]]] = .objects [[[]]] := by
  unfold npObject; rw [if_neg]
  rintro ⟨n, h, _⟩
  exact h rfl

/-- Saving and reading, step by step. -/
theorem saveThenRead_eq (blobs : List (List (List SBlob))) (lab : Label) (blob : List SBlob)
    (ops : List (Op Nat Nat)) (D : Dict Label Dataset) (L : List Series) (O : List (List (List RBlob)))
    (hne : blobs ≠ []) (hne' : blobs.headD [] ≠ [])
    (h1 : (blobs.getLast?).bind (·.head?) = some blob) (h2 : blobOps blobs blob 0 = (ops, none))
    (h3 : ∀ f : H5 Nat Nat, f.dsets = [] → ∃ f', applyOps ops (some f) = some f' ∧ f'.chain = f.chain ∧
      f'.logProb = f.logProb ∧ f'.dsets = D)
    (h4 : ∀ f : H5 Nat Nat, f.dsets = D → readBlobs f 100 0 = .ok L)
    (h5 : organise L blobs.length (blobs.headD []).length = .ok O) :
    ∃ r, saveThenRead (runWith blobs [lab]) = .ok r ∧ r.blobs = npObject O ∧ r.labels = [.label lab] := by
  set s := runWith blobs [lab] with hs
  obtain ⟨f1, a1, a2, a3, a4⟩ := h3 { chain := some s.chain, logProb := some s.logProb } rfl
  obtain ⟨f2, b1, b2, b3, b4, b5, b6, b7, b8⟩ := tailOps_file (fun _ => true) s f1 (by simp [hs, runWith, Dict.keys])
    (by simp [hs, runWith, Dict.keys])
  have hso : saveOps (fun _ => true) s =
      ([.openW, .chain s.chain, .logProb s.logProb] ++ ops ++ tailOps (fun _ => true) s, none) := by
    unfold saveOps
    rw [show s.blobs = blobs from rfl, h1]
    simp only [h2]
  have hfile : afterSave (fun _ => true) (fun _ => none) "run.h5".toList false s "run.h5".toList = some f2 := by
    unfold afterSave
    have : saveRun (fun _ => true) (fun _ => none) "run.h5".toList false s = saveOps (fun _ => true) s := by
      unfold saveRun
      rw [if_neg (by decide), if_neg (by simp)]
    rw [if_pos rfl, this, hso]
    simp only
    rw [applyOps_append, applyOps_append]
    show applyOps _ (applyOps ops (some { chain := some s.chain, logProb := some s.logProb })) = _
    rw [a1, b1]
  obtain ⟨st, rest, e⟩ := List.exists_cons_of_ne_nil hne
  obtain ⟨w, rest', e'⟩ := List.exists_cons_of_ne_nil (show st ≠ [] by rw [e] at hne'; exact hne')
  have hchain : s.chain = (([0] : List ℝ) :: rest'.map (fun _ => [0])) :: rest.map (fun s => s.map (fun _ => [0])) := by
    rw [hs, runWith, e, e']; rfl
  unfold saveThenRead
  rw [hfile]
  simp only
  have e1 : lookupOr f2.chain = .ok s.chain := by rw [b2, a2]; rfl
  have e2 : lookupOr f2.logProb = .ok s.logProb := by rw [b3, a3]; rfl
  have e3 : organise L s.chain.length (s.chain.headD []).length = .ok O := by
    rw [show s.chain.length = blobs.length by rw [hs, runWith]; simp,
      show (s.chain.headD []).length = (blobs.headD []).length by rw [hchain, e, e']; simp]
    exact h5
  have e4 : lookupOr (Dict.get? f2.attrs accKey) = .ok (.num s.acceptance) := by rw [b6]; rfl
  have e5 : lookupOr f2.table = .ok s.data := by rw [b5]; rfl
  have e6 : (List.range ((s.chain.headD []).headD []).length).mapM
      (fun i => lookupOr (Dict.get? f2.attrs (labelKey i))) = .ok [.label lab] := by
    rw [hchain]
    show [0].mapM _ = _
    have := b7 0 (by simp [hs, runWith])
    simp only [List.mapM_cons, List.mapM_nil, this]
    rfl
  unfold readRun
  simp only [e1, e2, e4, e5, h4 f2 (b4.trans a4), bind, Except.bind]
  rw [e3]
  simp only
  rw [e6]
  exact ⟨_, rfl, rfl, rfl⟩

theorem key10 : blobKey 1 ≠ blobKey 0 := fun h => absurd (blobKey_inj h) (by decide)
theorem key20 : blobKey 2 ≠ blobKey 0 := fun h => absurd (blobKey_inj h) (by decide)
theorem key21 : blobKey 2 ≠ blobKey 1 := fun h => absurd (blobKey_inj h) (by decide)
theorem ukey : unitKey 0 ≠ unitKey0 := by decide

/-- **C53 is false of the code for a blob of a format that cannot be saved**: the blobs after it were
saved but are not read. -/
theorem C53_false_unsaveable (x : XR) :
    ∃ r, saveThenRead (runWith [[[.other, .num x]]] ["par".toList]) = .ok r ∧
      r.blobs = .objects [[[]]] := by
  obtain ⟨r, h1, h2, -⟩ := saveThenRead_eq [[[.other, .num x]]] "par".toList _
    [.dset (blobKey 1) [.d0 x], .dsetAttr (blobKey 1) unitKey0 dimless]
    [(blobKey 1, ⟨[.d0 x], [(unitKey0, dimless)]⟩)] [] [[[]]] (by simp) (by simp) rfl rfl
    (by
      rintro ⟨c, l, d, t, a⟩ rfl
      refine ⟨_, rfl, rfl, rfl, ?_⟩
      simp [Dict.get?, Dict.set, Dict.keys])
    (by
      intro f hf
      unfold readBlobs
      rw [hf]
      simp [Dict.get?, key10])
    rfl
  exact ⟨r, h1, by rw [h2, npObject_nil]⟩

/-- **... for tuples of three arrays**: the third is lost without notice. -/
theorem C53_false_triple (a b c : XR) (u : PhysUnit) (x : XR) :
    ∃ r, saveThenRead (runWith [[[.tup [([a], some u), ([b], some u), ([c], some u)], .num x]]] ["par".toList]) = .ok r ∧
      r.blobs = .objects [[[.pair [a] u [b] u, .qty (.d0 x) dimless]]] := by
  have k01 : unitKey 1 ≠ unitKey 0 := unitKey01.symm
  have k02 : unitKey 2 ≠ unitKey 0 := fun h => absurd (unitKey_inj h) (by decide)
  have k12 : unitKey 2 ≠ unitKey 1 := fun h => absurd (unitKey_inj h) (by decide)
  obtain ⟨r, h1, h2, -⟩ := saveThenRead_eq
    [[[.tup [([a], some u), ([b], some u), ([c], some u)], .num x]]] "par".toList _
    [.dset (blobKey 0) [.d2 [[a], [b], [c]]], .dsetAttr (blobKey 0) (unitKey 0) u, .dsetAttr (blobKey 0) (unitKey 1) u,
      .dsetAttr (blobKey 0) (unitKey 2) u,
      .dset (blobKey 1) [.d0 x], .dsetAttr (blobKey 1) unitKey0 dimless]
    [(blobKey 0, ⟨[.d2 [[a], [b], [c]]], [(unitKey 0, u), (unitKey 1, u), (unitKey 2, u)]⟩),
     (blobKey 1, ⟨[.d0 x], [(unitKey0, dimless)]⟩)]
    [.pair [[a]] u [[b]] u, .flat [.d0 x] dimless] [[[.pair [a] u [b] u, .qty (.d0 x) dimless]]]
    (by simp) (by simp) rfl rfl
    (by
      rintro ⟨c, l, d, t, a⟩ rfl
      refine ⟨_, rfl, rfl, rfl, ?_⟩
      simp [Dict.get?, Dict.set, Dict.keys, key10, key10.symm, k01, k02, k12, k01.symm, k02.symm, k12.symm])
    (by
      intro f hf
      have s0 : readSeries ⟨[.d2 [[a], [b], [c]]], [(unitKey 0, u), (unitKey 1, u), (unitKey 2, u)]⟩ =
          .ok (.pair [[a]] u [[b]] u) := by
        have g0 : attrOr [(unitKey 0, u), (unitKey 1, u), (unitKey 2, u)] (unitKey 0) = .ok u := by
          simp [attrOr, Dict.get?]
        have g1 : attrOr [(unitKey 0, u), (unitKey 1, u), (unitKey 2, u)] (unitKey 1) = .ok u := by
          simp [attrOr, Dict.get?, k01.symm]
        unfold readSeries
        simp only
        rw [if_neg (by simp [Arr.rank]), g0, g1]
        rfl
      have s1 : readSeries ⟨[.d0 x], [(unitKey0, dimless)]⟩ = .ok (.flat [.d0 x] dimless) := by
        have g0 : attrOr [(unitKey0, dimless)] unitKey0 = .ok dimless := by
          simp [attrOr, Dict.get?]
        unfold readSeries
        simp only
        rw [if_pos (by simp [Arr.rank]), g0]
        rfl
      unfold readBlobs
      rw [hf]
      unfold readBlobs
      rw [hf]
      unfold readBlobs
      rw [hf]
      simp [Dict.get?, key10, key10.symm, key20.symm, key21.symm, s0, s1, Except.map])
    rfl
  exact ⟨r, h1, by rw [h2]; exact npObject_objects _ (.qty (.d0 x) dimless) (by simp) rfl⟩

/-- **... for tuples of one array**: it is lost, and so are all blobs after it. -/
theorem C53_false_single (a : XR) (u : PhysUnit) (x : XR) :
    ∃ r, saveThenRead (runWith [[[.tup [([a], some u)], .num x]]] ["par".toList]) = .ok r ∧
      r.blobs = .objects [[[]]] := by
  obtain ⟨r, h1, h2, -⟩ := saveThenRead_eq [[[.tup [([a], some u)], .num x]]] "par".toList _
    [.dset (blobKey 0) [.d2 [[a]]], .dsetAttr (blobKey 0) unitKey0 u,
      .dset (blobKey 1) [.d0 x], .dsetAttr (blobKey 1) unitKey0 dimless]
    [(blobKey 0, ⟨[.d2 [[a]]], [(unitKey0, u)]⟩), (blobKey 1, ⟨[.d0 x], [(unitKey0, dimless)]⟩)] [] [[[]]]
    (by simp) (by simp) rfl rfl
    (by
      rintro ⟨c, l, d, t, a⟩ rfl
      refine ⟨_, rfl, rfl, rfl, ?_⟩
      simp [Dict.get?, Dict.set, Dict.keys, key10, key10.symm])
    (by
      intro f hf
      have s0 : readSeries ⟨[.d2 [[a]]], [(unitKey0, u)]⟩ = .error .keyError := by
        have g0 : attrOr [(unitKey0, u)] (unitKey 0) = .error .keyError := by
          simp [attrOr, Dict.get?, ukey.symm]
        unfold readSeries
        simp only
        rw [if_neg (by simp [Arr.rank]), g0]
        rfl
      unfold readBlobs
      rw [hf]
      simp [Dict.get?, s0])
    rfl
  exact ⟨r, h1, by rw [h2, npObject_nil]⟩

/-- **... when all blobs have the same length**: the units are lost. -/
theorem C53_false_same_length (a b : XR) (u : PhysUnit) (hu : u.Proper) :
    ∃ r, saveThenRead (runWith [[[.qty (.d1 [a, b]) u]]] ["par".toList]) = .ok r ∧
      r.blobs = .exploded [[[.d1 [a, b]]]] := by
  have hq : quantityValue [.qty (.d1 [a, b]) u] = .ok [.d1 [a, b]] :=
    quantityValue_kind (.vec 2 u) hu [.qty (.d1 [a, b]) u] (by simp) (by simp [HasKind])
  obtain ⟨r, h1, h2, -⟩ := saveThenRead_eq [[[.qty (.d1 [a, b]) u]]] "par".toList _
    [.dset (blobKey 0) [.d1 [a, b]], .dsetAttr (blobKey 0) unitKey0 u]
    [(blobKey 0, ⟨[.d1 [a, b]], [(unitKey0, u)]⟩)] [.flat [.d1 [a, b]] u] [[[.qty (.d1 [a, b]) u]]]
    (by simp) (by simp) rfl
    (by
      have : (blobColumn [[[.qty (.d1 [a, b]) u]]] 0).bind quantityValue = .ok [.d1 [a, b]] := hq
      simp only [blobOps, blobUnits, this, datasetOps, List.append_nil])
    (by
      rintro ⟨c, l, d, t, a⟩ rfl
      refine ⟨_, rfl, rfl, rfl, ?_⟩
      simp [Dict.get?, Dict.set, Dict.keys])
    (by
      intro f hf
      have s0 : readSeries ⟨[.d1 [a, b]], [(unitKey0, u)]⟩ = .ok (.flat [.d1 [a, b]] u) := by
        have g0 : attrOr [(unitKey0, u)] unitKey0 = .ok u := by simp [attrOr, Dict.get?]
        unfold readSeries
        simp only
        rw [if_pos (by simp [Arr.rank]), g0]
        rfl
      unfold readBlobs
      rw [hf]
      unfold readBlobs
      rw [hf]
      simp [Dict.get?, key10.symm, s0, Except.map])
    rfl
  refine ⟨r, h1, ?_⟩
  rw [h2]
  unfold npObject
  rw [if_pos ⟨2, by simp, by simp [RBlob.lead]⟩]
  rfl

/-- **... when the unit of a blob differs between samples**: all values are converted to the unit of the
first sample, but labelled with the unit of the last step.  Here one kilometre, then one metre, comes
back as one metre and one millimetre. -/
theorem C53_false_mixed_units :
    ∃ r, saveThenRead (runWith [[[.qty (.d0 (fin 1)) ⟨100000, Dim.length⟩]], [[.qty (.d0 (fin 1)) ⟨100, Dim.length⟩]]]
        ["par".toList]) = .ok r ∧
      r.blobs = .objects [[[.qty (.d0 (fin 1)) ⟨100, Dim.length⟩]], [[.qty (.d0 (fin (1/1000))) ⟨100, Dim.length⟩]]] := by
  set km : PhysUnit := ⟨100000, Dim.length⟩ with hkm
  set me : PhysUnit := ⟨100, Dim.length⟩ with hme
  have hq : quantityValue [.qty (.d0 (fin 1)) km, .qty (.d0 (fin 1)) me] =
      .ok [.d0 (fin 1), .d0 (fin (1/1000))] := by
    have t1 : SBlob.toUnit km (.qty (.d0 (fin 1)) km) = .ok (.d0 (fin 1)) := by
      simp [SBlob.toUnit, Arr.scale, hkm]
    have t2 : SBlob.toUnit km (.qty (.d0 (fin 1)) me) = .ok (.d0 (fin (1/1000))) := by
      simp only [SBlob.toUnit, Arr.scale, hkm, hme, if_true, XR.mul_fin]
      norm_num
    have : [SBlob.qty (.d0 (fin 1)) km, .qty (.d0 (fin 1)) me].mapM (SBlob.toUnit km) =
        .ok [.d0 (fin 1), .d0 (fin (1/1000))] := by
      simp only [List.mapM_cons, List.mapM_nil, t1, t2]
      rfl
    show ([SBlob.qty (.d0 (fin 1)) km, .qty (.d0 (fin 1)) me].mapM (SBlob.toUnit km)).bind checkShapes = _
    rw [this]
    exact checkShapes_ok [.d0 (fin 1), .d0 (fin (1/1000))] [] (by simp [Arr.shape])
  obtain ⟨r, h1, h2, -⟩ := saveThenRead_eq [[[.qty (.d0 (fin 1)) km]], [[.qty (.d0 (fin 1)) me]]] "par".toList _
    [.dset (blobKey 0) [.d0 (fin 1), .d0 (fin (1/1000))], .dsetAttr (blobKey 0) unitKey0 me]
    [(blobKey 0, ⟨[.d0 (fin 1), .d0 (fin (1/1000))], [(unitKey0, me)]⟩)]
    [.flat [.d0 (fin 1), .d0 (fin (1/1000))] me]
    [[[.qty (.d0 (fin 1)) me]], [[.qty (.d0 (fin (1/1000))) me]]]
    (by simp) (by simp) rfl
    (by
      have : (blobColumn [[[.qty (.d0 (fin 1)) km]], [[.qty (.d0 (fin 1)) me]]] 0).bind quantityValue =
        .ok [.d0 (fin 1), .d0 (fin (1/1000))] := hq
      simp only [blobOps, blobUnits, this, datasetOps, List.append_nil])
    (by
      rintro ⟨c, l, d, t, a⟩ rfl
      refine ⟨_, rfl, rfl, rfl, ?_⟩
      simp [Dict.get?, Dict.set, Dict.keys])
    (by
      intro f hf
      have s0 : readSeries ⟨[.d0 (fin 1), .d0 (fin (1/1000))], [(unitKey0, me)]⟩ =
          .ok (.flat [.d0 (fin 1), .d0 (fin (1/1000))] me) := by
        have g0 : attrOr [(unitKey0, me)] unitKey0 = .ok me := by simp [attrOr, Dict.get?]
        unfold readSeries
        simp only
        rw [if_pos (by simp [Arr.rank]), g0]
        rfl
      unfold readBlobs
      rw [hf]
      unfold readBlobs
      rw [hf]
      simp only [one_div] at s0 ⊢
      simp [Dict.get?, key10.symm, s0, Except.map])
    rfl
  refine ⟨r, h1, ?_⟩
  rw [h2]
  exact npObject_objects _ (.qty (.d0 (fin 1)) me) (by simp) rfl

theorem readBlobs_length {V T : Type} (f : H5 V T) : ∀ (n i : Nat) (L : List Series),
    readBlobs f n i = .ok L → L.length ≤ n
  | 0, i, L, h => by unfold readBlobs at h; cases h; simp
  | n + 1, i, L, h => by
    unfold readBlobs at h
    cases hd : Dict.get? f.dsets (blobKey i) with
    | none => rw [hd] at h; cases h; simp
    | some d =>
      rw [hd] at h
      simp only at h
      cases hs : readSeries d with
      | error e =>
        rw [hs] at h
        cases e <;> first | (cases h; simp; done) | cases h
      | ok s =>
        rw [hs] at h
        simp only at h
        cases hr : readBlobs f n (i + 1) with
        | error e => rw [hr] at h; cases h
        | ok L' =>
          rw [hr] at h
          have := readBlobs_length f n (i + 1) L' hr
          cases h
          simp; omega

/-- The steps of a successful read. -/
theorem readRun_ok {V T : Type} (f : H5 V T) (r : ReadResult V T) (h : readRun f = .ok r) :
    ∃ L O, f.chain = some r.chain ∧ f.logProb = some r.logProb ∧ readBlobs f 100 0 = .ok L ∧
      organise L r.chain.length (r.chain.headD []).length = .ok O ∧ r.blobs = npObject O ∧
      Dict.get? f.attrs accKey = some r.acceptance ∧
      (List.range ((r.chain.headD []).headD []).length).mapM
        (fun i => lookupOr (Dict.get? f.attrs (labelKey i))) = .ok r.labels ∧
      f.table = some r.data := by
  have lk : ∀ {α : Type} (o : Option α) (a : α), lookupOr o = .ok a → o = some a := by
    intro α o a h; cases o with
    | none => cases h
    | some b => cases h; rfl
  unfold readRun at h
  simp only [bind, Except.bind] at h
  cases h1 : lookupOr f.chain with
  | error e => rw [h1] at h; cases h
  | ok c =>
  rw [h1] at h; simp only at h
  cases h2 : lookupOr f.logProb with
  | error e => rw [h2] at h; cases h
  | ok l =>
  rw [h2] at h; simp only at h
  cases h3 : readBlobs f 100 0 with
  | error e => rw [h3] at h; cases h
  | ok L =>
  rw [h3] at h; simp only at h
  cases h4 : organise L c.length (c.headD []).length with
  | error e => rw [h4] at h; cases h
  | ok O =>
  rw [h4] at h; simp only at h
  cases h5 : lookupOr (Dict.get? f.attrs accKey) with
  | error e => rw [h5] at h; cases h
  | ok acc =>
  rw [h5] at h; simp only at h
  cases h6 : (List.range ((c.headD []).headD []).length).mapM
        (fun i => lookupOr (Dict.get? f.attrs (labelKey i))) with
  | error e => rw [h6] at h; cases h
  | ok labs =>
  rw [h6] at h; simp only at h
  cases h7 : lookupOr f.table with
  | error e => rw [h7] at h; cases h
  | ok t =>
  rw [h7] at h
  cases h
  exact ⟨L, O, lk _ _ h1, lk _ _ h2, rfl, h4, rfl, lk _ _ h5, h6, lk _ _ h7⟩

/-- **... for more than a hundred blobs**: whatever was saved, at most a hundred blobs per sample are
read back. -/
theorem C53_false_hundred {V T : Type} (f : H5 V T) (r : ReadResult V T) (h : readRun f = .ok r)
    (l : List (List (List RBlob))) (hl : r.blobs = .objects l) : ∀ s ∈ l, ∀ w ∈ s, w.length ≤ 100 := by
  obtain ⟨L, O, -, -, h3, h4, h5, -⟩ := readRun_ok f r h
  have hL := readBlobs_length f _ _ _ h3
  have : O = l := by
    rw [h5] at hl
    unfold npObject at hl
    split_ifs at hl
    cases hl; rfl
  subst this
  intro s hs w hw
  obtain ⟨-, g1⟩ := mapM_ok_iff_get _ _ _ h4
  obtain ⟨i, hi, rfl⟩ := List.getElem_of_mem hs
  have hi' := hi
  rw [(mapM_ok_iff_get _ _ _ h4).1] at hi'
  obtain ⟨g2, g3⟩ := mapM_ok_iff_get _ _ _ (g1 i hi' hi)
  obtain ⟨j, hj, rfl⟩ := List.getElem_of_mem hw
  obtain ⟨g4, -⟩ := mapM_ok_iff_get _ _ _ (g3 j (by rw [← g2]; exact hj) hj)
  omega

/-- **... for labels**: exactly as many labels are read as the chain has parameters, so surplus labels
are lost and a missing one raises KeyError. -/
theorem C53_false_labels {V T : Type} (f : H5 V T) (r : ReadResult V T) (h : readRun f = .ok r) :
    r.labels.length = ((r.chain.headD []).headD []).length := by
  obtain ⟨L, O, -, -, -, -, -, -, h7, -⟩ := readRun_ok f r h
  rw [(mapM_ok_iff_get _ _ _ h7).1, List.length_range]

/-! ## C54 -/

/-- **C54 (rejected names).** A file name whose suffix is neither `.h5` nor `.hdf5` raises ValueError and
no file is touched, whenever the process is stopped. -/
theorem C54_bad_suffix (storable : V → Bool) (fs : FS V T) (name : Label) (clobber : Bool) (s : Run V T)
    (h : fileSuffix name ≠ ".h5".toList) (h' : fileSuffix name ≠ ".hdf5".toList) :
    (saveRun storable fs name clobber s).2 = some .valueError ∧
    afterSave storable fs name clobber s = fs ∧ ∀ k, crashAfter storable fs name clobber s k = fs := by
  have hs : saveRun storable fs name clobber s = ([], some .valueError) := by
    unfold saveRun; rw [if_pos (by simp only [List.mem_cons, List.not_mem_nil, or_false, not_or]; exact ⟨h', h⟩)]
  refine ⟨by rw [hs], ?_, ?_⟩
  · funext p
    unfold afterSave; rw [hs]
    by_cases hp : p = name
    · rw [if_pos hp, hp]; rfl
    · rw [if_neg hp]
  · intro k
    funext p
    unfold crashAfter; rw [hs]
    by_cases hp : p = name
    · rw [if_pos hp, hp]; simp [applyOps]
    · rw [if_neg hp]

/-- **C54 (no clobber).** With `clobber=False` no existing file is ever changed, neither by a complete
call nor by one stopped at any point. -/
theorem C54_no_clobber (storable : V → Bool) (fs : FS V T) (name : Label) (s : Run V T)
    (p : Label) (hp : fs p ≠ none) :
    afterSave storable fs name false s p = fs p ∧ ∀ k, crashAfter storable fs name false s k p = fs p := by
  by_cases e : p = name
  · subst e
    have hs : (saveRun storable fs p false s).1 = [] := by
      unfold saveRun
      by_cases h1 : fileSuffix p ∉ [".hdf5".toList, ".h5".toList]
      · rw [if_pos h1]
      · rw [if_neg h1, if_pos ⟨hp, rfl⟩]
    refine ⟨by unfold afterSave; rw [if_pos rfl, hs]; rfl, fun k => by unfold crashAfter; rw [if_pos rfl, hs]; simp [applyOps]⟩
  · exact ⟨by unfold afterSave; rw [if_neg e], fun k => by unfold crashAfter; rw [if_neg e]⟩

/-- **C54 (other files).** No call changes any file but the one named. -/
theorem C54_other_files (storable : V → Bool) (fs : FS V T) (name : Label) (clobber : Bool) (s : Run V T)
    (p : Label) (hp : p ≠ name) :
    afterSave storable fs name clobber s p = fs p ∧ ∀ k, crashAfter storable fs name clobber s k p = fs p :=
  ⟨by unfold afterSave; rw [if_neg hp], fun k => by unfold crashAfter; rw [if_neg hp]⟩

theorem openW_blobOps (blobs : List (List (List SBlob))) : ∀ (items : List SBlob) (idx : Nat),
    Op.openW ∉ (blobOps blobs items idx : List (Op V T) × Option PyErr).1
  | [], idx => by simp [blobOps]
  | item :: items, idx => by
    have ih := openW_blobOps blobs items (idx + 1)
    unfold blobOps
    cases blobUnits item with
    | none => exact ih
    | some units =>
      simp only
      cases (blobColumn blobs idx).bind quantityValue with
      | error e => simp
      | ok rows =>
        simp only
        have hd : Op.openW ∉ (datasetOps idx units rows : List (Op V T) × Option PyErr).1 := by
          unfold datasetOps
          split <;> simp
        cases h : (datasetOps idx units rows : List (Op V T) × Option PyErr) with
        | mk ops e =>
          rw [h] at hd
          cases e with
          | some e => exact hd
          | none =>
            simp only [List.mem_append, not_or]
            exact ⟨hd, ih⟩

theorem openW_once (storable : V → Bool) (s : Run V T) (rest : List (Op V T))
    (h : (saveOps storable s).1 = .openW :: .chain s.chain :: .logProb s.logProb :: rest) :
    Op.openW ∉ (Op.logProb s.logProb :: rest : List (Op V T)) := by
  have key : ∃ rest', Op.openW ∉ rest' ∧
      (saveOps storable s).1 = .openW :: .chain s.chain :: .logProb s.logProb :: rest' := by
    unfold saveOps
    cases (s.blobs.getLast?).bind (·.head?) with
    | none => exact ⟨[], by simp, rfl⟩
    | some b =>
      simp only
      have hb := openW_blobOps (V := V) (T := T) s.blobs b 0
      cases h : (blobOps s.blobs b 0 : List (Op V T) × Option PyErr) with
      | mk ops e =>
        rw [h] at hb
        cases e with
        | some e => exact ⟨ops, hb, rfl⟩
        | none =>
          refine ⟨ops ++ tailOps storable s, ?_, rfl⟩
          simp only [List.mem_append, not_or]
          refine ⟨hb, ?_⟩
          simp [tailOps, infoOps, labelOps]
  obtain ⟨rest', h1, h2⟩ := key
  rw [h] at h2
  simp only [List.cons.injEq, true_and] at h2
  subst h2
  simpa using h1

/-- **C54 is false of the code for `clobber=True`**: a call stopped after its first write has destroyed the
old contents and left a file that is neither the old nor the new one; and a later call with
`clobber=False` then silently keeps the damaged file. -/
theorem C54_false_crash (s : Run Nat Nat) (storable : Nat → Bool) (old : H5 Nat Nat) (hold : old.chain ≠ none) :
    let fs : FS Nat Nat := fun _ => some old
    let fs' := crashAfter storable fs "run.h5".toList true s 1
    fs' "run.h5".toList = some {} ∧ fs' "run.h5".toList ≠ fs "run.h5".toList ∧
    fs' "run.h5".toList ≠ afterSave storable fs "run.h5".toList true s "run.h5".toList ∧
    readRun ({} : H5 Nat Nat) = .error .keyError ∧
    afterSave storable fs' "run.h5".toList false s = fs' := by
  intro fs fs'
  have hsv : saveRun storable fs "run.h5".toList true s = saveOps storable s := by
    unfold saveRun; rw [if_neg (by decide), if_neg (by simp)]
  obtain ⟨rest, hrest⟩ : ∃ rest, (saveOps storable s).1 = .openW :: .chain s.chain :: .logProb s.logProb :: rest := by
    unfold saveOps
    cases (s.blobs.getLast?).bind (·.head?) with
    | none => exact ⟨_, rfl⟩
    | some b =>
      simp only
      cases h : (blobOps s.blobs b 0 : List (Op Nat Nat) × Option PyErr) with
      | mk ops e =>
        cases e with
        | none => exact ⟨_, rfl⟩
        | some e => exact ⟨_, rfl⟩
  have h1 : fs' "run.h5".toList = some {} := by
    show crashAfter storable fs "run.h5".toList true s 1 "run.h5".toList = _
    unfold crashAfter
    rw [if_pos rfl, hsv, hrest]
    rfl
  have hmono : ∀ (ops : List (Op Nat Nat)) (f : H5 Nat Nat), f.chain ≠ none →
      ∃ f', applyOps ops (some f) = some f' ∧ (Op.openW ∉ ops → f'.chain ≠ none) := by
    intro ops
    induction ops with
    | nil => intro f hf; exact ⟨f, rfl, fun _ => hf⟩
    | cons op ops ih =>
      intro f hf
      rw [applyOps_cons]
      cases op with
      | openW =>
        obtain ⟨f', h⟩ : ∃ f', applyOps ops (some ({} : H5 Nat Nat)) = some f' := by
          have : ∀ (ops : List (Op Nat Nat)) (f : H5 Nat Nat), ∃ f', applyOps ops (some f) = some f' := by
            intro ops
            induction ops with
            | nil => intro f; exact ⟨f, rfl⟩
            | cons op ops ih => intro f; rw [applyOps_cons]; cases op <;> exact ih _
          exact this ops {}
        exact ⟨f', h, fun hn => absurd (List.mem_cons_self) hn⟩
      | dsetAttr n k u =>
        simp only [Op.apply, Option.map_some]
        cases Dict.get? f.dsets n with
        | none =>
          obtain ⟨f', a, b⟩ := ih f hf
          exact ⟨f', a, fun hn => b (fun hm => hn (List.mem_cons_of_mem _ hm))⟩
        | some d =>
          obtain ⟨f', a, b⟩ := ih { f with dsets := Dict.set f.dsets n ⟨d.rows, Dict.set d.attrs k u⟩ } hf
          exact ⟨f', a, fun hn => b (fun hm => hn (List.mem_cons_of_mem _ hm))⟩
      | chain c =>
        obtain ⟨f', a, b⟩ := ih { f with chain := some c } (by simp)
        exact ⟨f', a, fun hn => b (fun hm => hn (List.mem_cons_of_mem _ hm))⟩
      | logProb c =>
        obtain ⟨f', a, b⟩ := ih { f with logProb := some c } hf
        exact ⟨f', a, fun hn => b (fun hm => hn (List.mem_cons_of_mem _ hm))⟩
      | dset n rows =>
        obtain ⟨f', a, b⟩ := ih { f with dsets := Dict.set f.dsets n ⟨rows, []⟩ } hf
        exact ⟨f', a, fun hn => b (fun hm => hn (List.mem_cons_of_mem _ hm))⟩
      | table t =>
        obtain ⟨f', a, b⟩ := ih { f with table := some t } hf
        exact ⟨f', a, fun hn => b (fun hm => hn (List.mem_cons_of_mem _ hm))⟩
      | attr k v =>
        obtain ⟨f', a, b⟩ := ih { f with attrs := Dict.set f.attrs k v } hf
        exact ⟨f', a, fun hn => b (fun hm => hn (List.mem_cons_of_mem _ hm))⟩
  refine ⟨h1, ?_, ?_, rfl, ?_⟩
  · rw [h1]
    intro h
    have : ({} : H5 Nat Nat) = old := Option.some.inj h
    rw [← this] at hold
    exact hold rfl
  · rw [h1]
    unfold afterSave
    rw [if_pos rfl, hsv, hrest, applyOps_cons, applyOps_cons]
    intro h
    obtain ⟨f', a, b⟩ := hmono (.logProb s.logProb :: rest) { chain := some s.chain } (by simp)
    have hopen : Op.openW ∉ ((Op.logProb s.logProb :: rest : List (Op Nat Nat))) := by
      exact openW_once storable s rest hrest
    have := b hopen
    have e : some ({} : H5 Nat Nat) = some f' := by rw [← a]; exact h
    rw [← Option.some.inj e] at this
    exact this rfl
  · funext p
    by_cases hp : p = "run.h5".toList
    · subst hp
      exact (C54_no_clobber storable fs' _ s _ (by rw [h1]; simp)).1
    · exact (C54_other_files storable fs' _ false s p hp).1

theorem noAttr_keep (K : Label) : ∀ (ops : List (Op V T)) (f : Option (H5 V T)), (∀ v, Op.attr K v ∉ ops) →
    (∀ g, f = some g → Dict.get? g.attrs K = none) →
    ∀ g, applyOps ops f = some g → Dict.get? g.attrs K = none
  | [], f, _, hf => hf
  | op :: ops, f, hn, hf => by
    rw [applyOps_cons]
    apply noAttr_keep K ops _ (fun v h => hn v (List.mem_cons_of_mem _ h))
    intro g hg
    cases op with
    | openW => cases hg; rfl
    | attr k v =>
      cases f with
      | none => cases hg
      | some f0 =>
        cases hg
        have : K ≠ k := by
          intro e; subst e; exact hn v (by simp)
        show Dict.get? (Dict.set f0.attrs k v) K = none
        rw [Dict.get?_set_other _ _ _ _ this]
        exact hf f0 rfl
    | dsetAttr n k u =>
      cases f with
      | none => cases hg
      | some f0 =>
        simp only [Op.apply, Option.map_some] at hg
        cases hd : Dict.get? f0.dsets n with
        | none => rw [hd] at hg; cases hg; exact hf f0 rfl
        | some d => rw [hd] at hg; cases hg; exact hf f0 rfl
    | chain c => cases f with
      | none => cases hg
      | some f0 => cases hg; exact hf f0 rfl
    | logProb c => cases f with
      | none => cases hg
      | some f0 => cases hg; exact hf f0 rfl
    | dset n rows => cases f with
      | none => cases hg
      | some f0 => cases hg; exact hf f0 rfl
    | table t => cases f with
      | none => cases hg
      | some f0 => cases hg; exact hf f0 rfl

theorem attr_blobOps (blobs : List (List (List SBlob))) (K : Label) (v : Attr V) : ∀ (items : List SBlob) (idx : Nat),
    Op.attr K v ∉ (blobOps blobs items idx : List (Op V T) × Option PyErr).1
  | [], idx => by simp [blobOps]
  | item :: items, idx => by
    have ih := attr_blobOps blobs K v items (idx + 1)
    unfold blobOps
    cases blobUnits item with
    | none => exact ih
    | some units =>
      simp only
      cases (blobColumn blobs idx).bind quantityValue with
      | error e => simp
      | ok rows =>
        simp only
        have hd : Op.attr K v ∉ (datasetOps idx units rows : List (Op V T) × Option PyErr).1 := by
          unfold datasetOps
          split <;> simp
        cases h : (datasetOps idx units rows : List (Op V T) × Option PyErr) with
        | mk ops e =>
          rw [h] at hd
          cases e with
          | some e => exact hd
          | none =>
            simp only [List.mem_append, not_or]
            exact ⟨hd, ih⟩

/-- The writes of a call: a part that sets no reserved attribute, and, if no exception is raised, the
acceptance fraction and the labels. -/
theorem saveOps_split (storable : V → Bool) (s : Run V T) (hres : ∀ k ∈ Dict.keys s.runInfo, ¬ Reserved k) :
    ∃ A : List (Op V T), (∀ K v, Reserved K → Op.attr K v ∉ Op.openW :: A) ∧
      (((saveOps storable s).1 = .openW :: A ∧ (saveOps storable s).2 ≠ none) ∨
       ((saveOps storable s).1 = .openW :: A ++ (Op.attr accKey (.num s.acceptance) :: labelOps s.labels) ∧
         (saveOps storable s).2 = none)) := by
  unfold saveOps
  cases (s.blobs.getLast?).bind (·.head?) with
  | none => exact ⟨[.chain s.chain, .logProb s.logProb], by simp, Or.inl ⟨rfl, by simp⟩⟩
  | some b =>
    simp only
    have hb := fun K (v : Attr V) => attr_blobOps (V := V) (T := T) s.blobs K v b 0
    cases h : (blobOps s.blobs b 0 : List (Op V T) × Option PyErr) with
    | mk ops e =>
      rw [h] at hb
      cases e with
      | some e =>
        refine ⟨.chain s.chain :: .logProb s.logProb :: ops, ?_, Or.inl ⟨rfl, by simp⟩⟩
        intro K v _
        simpa using hb K v
      | none =>
        refine ⟨.chain s.chain :: .logProb s.logProb :: (ops ++ (.table s.data :: infoOps storable s.runInfo)),
          ?_, Or.inr ⟨by simp [tailOps], rfl⟩⟩
        intro K v hK
        have h1 := hb K v
        simp only [List.mem_cons, List.mem_append, reduceCtorEq, false_or, not_or]
        refine ⟨h1, ?_⟩
        intro hm
        unfold infoOps at hm
        obtain ⟨kv, h2, h3⟩ := List.mem_map.1 hm
        have : kv.1 = K := by
          injection h3
        exact hres kv.1 (List.mem_map.2 ⟨kv, h2, rfl⟩) (this ▸ hK)

/-- Reading depends on the file only through these parts. -/
theorem readRun_mono (f g : H5 V T) (h1 : f.chain = g.chain) (h2 : f.logProb = g.logProb) (h3 : f.dsets = g.dsets)
    (h4 : f.table = g.table) (h5 : Dict.get? f.attrs accKey = Dict.get? g.attrs accKey)
    (h6 : ∀ i a, Dict.get? f.attrs (labelKey i) = some a → Dict.get? g.attrs (labelKey i) = some a)
    (r : ReadResult V T) (h : readRun f = .ok r) : ∃ r', readRun g = .ok r' ∧ SameRun r r' := by
  obtain ⟨L, O, a1, a2, a3, a4, a5, a6, a7, a8⟩ := readRun_ok f r h
  have hblobs : ∀ n i, readBlobs f n i = readBlobs g n i := by
    intro n
    induction n with
    | zero => intro i; rfl
    | succ n ih => intro i; unfold readBlobs; rw [h3, ih]
  have hlab : (List.range ((r.chain.headD []).headD []).length).mapM
        (fun i => lookupOr (Dict.get? g.attrs (labelKey i))) = .ok r.labels := by
    obtain ⟨c1, c2⟩ := mapM_ok_iff_get _ _ _ a7
    apply mapM_ok_get _ _ _ c1
    intro i hi hi'
    have := c2 i hi hi'
    cases hg : Dict.get? f.attrs (labelKey (List.range ((r.chain.headD []).headD []).length)[i]) with
    | none => rw [hg] at this; cases this
    | some a =>
      rw [hg] at this
      rw [h6 _ _ hg]
      exact this
  refine ⟨{ r with runInfo := g.attrs }, ?_, rfl, rfl, rfl, rfl, rfl, rfl⟩
  unfold readRun
  have e1 : lookupOr g.chain = .ok r.chain := by rw [← h1, a1]; rfl
  have e2 : lookupOr g.logProb = .ok r.logProb := by rw [← h2, a2]; rfl
  have e4 : lookupOr (Dict.get? g.attrs accKey) = .ok r.acceptance := by rw [← h5, a6]; rfl
  have e5 : lookupOr g.table = .ok r.data := by rw [← h4, a8]; rfl
  simp only [e1, e2, e4, e5, ← hblobs, a3, bind, Except.bind]
  rw [a4]
  simp only
  rw [hlab]
  simp only [a5]
  rfl

/-- **C54 (crash), partial.** A file left behind by a call that was stopped at any point after it began
writing, or that raised, cannot be mistaken for a run: reading it raises, unless all of the run that
`read_run` reads had already been written.  Missing (false, above): that the previous contents survive. -/
theorem C54_crash_detected_partial (storable : V → Bool) (fs : FS V T) (name : Label) (clobber : Bool) (s : Run V T)
    (hname : fileSuffix name = ".h5".toList ∨ fileSuffix name = ".hdf5".toList)
    (hnew : fs name = none ∨ clobber = true)
    (hres : ∀ k ∈ Dict.keys s.runInfo, ¬ Reserved k) (k : Nat) (hk : 0 < k) (f : H5 V T)
    (hf : crashAfter storable fs name clobber s k name = some f) (r : ReadResult V T) (hr : readRun f = .ok r) :
    (saveRun storable fs name clobber s).2 = none ∧
    ∃ f' r', afterSave storable fs name clobber s name = some f' ∧ readRun f' = .ok r' ∧ SameRun r r' := by
  have hsave : saveRun storable fs name clobber s = saveOps storable s := by
    unfold saveRun
    rw [if_neg (by rcases hname with h | h <;> rw [h] <;> simp), if_neg]
    rintro ⟨h1, h2⟩
    rcases hnew with h | h
    · exact h1 h
    · rw [h2] at h; cases h
  unfold crashAfter at hf
  rw [if_pos rfl, hsave] at hf
  unfold afterSave
  rw [if_pos rfl, hsave]
  obtain ⟨A, hA, hcase⟩ := saveOps_split storable s hres
  obtain ⟨-, -, -, -, -, -, -, hacc, -⟩ := readRun_ok f r hr
  -- a prefix that sets no acceptance fraction cannot be read
  have bad : ∀ n, 0 < n → applyOps ((Op.openW :: A).take n) (fs name) = some f → False := by
    intro n hn h
    obtain ⟨m, rfl⟩ : ∃ m, n = m + 1 := ⟨n - 1, by omega⟩
    rw [List.take_succ_cons, applyOps_cons] at h
    have := noAttr_keep accKey (A.take m) _ (fun v hm => hA accKey v (Or.inl rfl)
      (List.mem_cons_of_mem _ (List.mem_of_mem_take hm))) (by
        intro g hg; cases hg; rfl) f h
    rw [this] at hacc
    cases hacc
  rcases hcase with ⟨h1, h2⟩ | ⟨h1, h2⟩
  · rw [h1] at hf
    exact (bad k hk hf).elim
  · refine ⟨h2, ?_⟩
    rw [h1] at hf ⊢
    rw [List.take_append] at hf
    by_cases hlt : k - (Op.openW :: A).length = 0
    · rw [hlt, List.take_zero, List.append_nil] at hf
      exact (bad k hk hf).elim
    · obtain ⟨m, hm⟩ : ∃ m, k - (Op.openW :: A).length = m + 1 := ⟨_, (Nat.succ_pred_eq_of_ne_zero hlt).symm⟩
      rw [hm, List.take_succ_cons, List.take_of_length_le (by omega), applyOps_append] at hf
      rw [applyOps_append]
      cases hg : applyOps (Op.openW :: A) (fs name) with
      | none =>
        exfalso
        have : ∀ (ops : List (Op V T)) (f : H5 V T), ∃ f', applyOps ops (some f) = some f' := by
          intro ops
          induction ops with
          | nil => intro f; exact ⟨f, rfl⟩
          | cons op ops ih => intro f; rw [applyOps_cons]; cases op <;> exact ih _
        rw [applyOps_cons] at hg
        obtain ⟨f', h'⟩ := this A {}
        have : applyOps A (some ({} : H5 V T)) = none := hg
        rw [h'] at this; cases this
      | some g =>
        have hlabnone : ∀ K, Reserved K → Dict.get? g.attrs K = none := by
          intro K hK
          rw [applyOps_cons] at hg
          exact noAttr_keep K A _ (fun v hm => hA K v hK (List.mem_cons_of_mem _ hm))
            (by intro g hg; cases hg; rfl) g hg
        rw [hg] at hf
        set labs := s.labels.zipIdx.map (fun li => (labelKey li.2, (Attr.label li.1 : Attr V))) with hlabs
        have hlo : (labelOps s.labels : List (Op V T)) = attrOps labs := labelOps_eq _
        have hnd : (labs.map (·.1)).Nodup := by
          have := labelKeys_nodup s.labels 0
          rw [hlabs, List.map_map]; exact this
        have htake : (attrOps labs : List (Op V T)).take m = attrOps (labs.take m) := by
          unfold attrOps; rw [List.map_take]
        have hnda : ∀ n, (((accKey, (Attr.num s.acceptance : Attr V)) :: labs.take n).map (·.1)).Nodup := by
          intro n
          rw [List.map_cons, List.nodup_cons]
          refine ⟨?_, by rw [List.map_take]; exact hnd.sublist (List.take_sublist _ _)⟩
          intro hm
          obtain ⟨kv, h3, h4⟩ := List.mem_map.1 hm
          obtain ⟨li, -, rfl⟩ := List.mem_map.1 (List.mem_of_mem_take h3)
          exact labelKey_ne_acc _ h4
        obtain ⟨f1, c1, c2, c3, c4, c5, c6, c7⟩ := applyOps_attrs (T := T)
          ((accKey, Attr.num s.acceptance) :: labs.take m) g
        obtain ⟨f2, d1, d2, d3, d4, d5, d6, d7⟩ := applyOps_attrs (T := T)
          ((accKey, Attr.num s.acceptance) :: labs) g
        have hff : f1 = f := by
          have : applyOps (attrOps ((accKey, Attr.num s.acceptance) :: labs.take m)) (some g) = some f := by
            rw [hlo, htake] at hf
            exact hf
          rw [c1] at this
          exact Option.some.inj this
        subst hff
        have hnd2 := hnda labs.length
        rw [List.take_length] at hnd2
        obtain ⟨r', g1, g2⟩ := readRun_mono f1 f2 (c2.trans d2.symm) (c3.trans d3.symm) (c4.trans d4.symm)
          (c5.trans d5.symm)
          ((c7 (hnda m) (accKey, Attr.num s.acceptance) (by simp)).trans
            (d7 hnd2 (accKey, Attr.num s.acceptance) (by simp)).symm) (by
            intro i a ha
            by_cases hm : labelKey i ∈ ((accKey, (Attr.num s.acceptance : Attr V)) :: labs.take m).map (·.1)
            · obtain ⟨kv, h3, h4⟩ := List.mem_map.1 hm
              have h5 := c7 (hnda m) kv h3
              rw [h4, ha] at h5
              have h6 : kv ∈ (accKey, (Attr.num s.acceptance : Attr V)) :: labs := by
                rcases List.mem_cons.1 h3 with e | e
                · rw [e]; simp
                · exact List.mem_cons_of_mem _ (List.mem_of_mem_take e)
              have h7 := d7 hnd2 kv h6
              rw [h4] at h7
              rw [h7, h5]
            · rw [c6 _ hm, hlabnone _ (Or.inr ⟨i, rfl⟩)] at ha
              cases ha) r hr
        refine ⟨f2, r', ?_, g1, g2⟩
        rw [hlo]
        exact d1

/-- Non-vacuity: there are readable files among those left by crashes (the complete one). -/
example : ∃ k f r, 0 < k ∧ crashAfter (fun _ => true) (fun _ => none) "run.h5".toList false
    (runWith [[[.other, .num nan]]] ["par".toList]) k "run.h5".toList = some f ∧ readRun f = .ok r := by
  obtain ⟨r, h, -⟩ := C53_false_unsaveable nan
  set s := runWith [[[.other, .num nan]]] ["par".toList]
  have e : crashAfter (fun _ => true) (fun _ => none) "run.h5".toList false s
      ((saveRun (fun _ => true) (fun _ => none) "run.h5".toList false s).1.length + 1) "run.h5".toList =
      afterSave (fun _ => true) (fun _ => none) "run.h5".toList false s "run.h5".toList := by
    unfold crashAfter afterSave
    rw [if_pos rfl, if_pos rfl, List.take_of_length_le (by omega)]
  unfold saveThenRead at h
  cases hf : afterSave (fun _ => true) (fun _ => none) "run.h5".toList false s "run.h5".toList with
  | none => rw [hf] at h; cases h
  | some f => rw [hf] at h; exact ⟨_, f, r, Nat.succ_pos _, e.trans hf, h⟩

/-! ## C55 -/

theorem cOffset_flat (a b : Nat) (ns : List Nat) (i j : Nat) (rest : List Nat) :
    cOffset (a * b :: ns) ((i * b + j) :: rest) = cOffset (a :: b :: ns) (i :: j :: rest) := by
  simp only [cOffset, List.prod_cons]
  ring

/-- **C55.** For an array indexed `[step, walker, ...]` (chain, log-probabilities and blobs all are),
`flat=True` gives the array whose entry `step * nwalkers + walker` is the entry `[step, walker]`: samples
of chain, log-probability and blobs at the same flat position belong together. -/
theorem C55_flat_order {α : Type} (nsteps nwalkers : Nat) (trailing : List Nat) (v : NDArray α)
    (hshape : v.shape = nsteps :: nwalkers :: trailing) (hlen : v.data.length = v.shape.prod) :
    ∃ w, getValue v true = .ok w ∧ w.shape = (nsteps * nwalkers) :: trailing ∧
      ∀ step walker rest, w.get ((step * nwalkers + walker) :: rest) = v.get (step :: walker :: rest) := by
  refine ⟨⟨nsteps * nwalkers :: trailing, v.data⟩, ?_, rfl, ?_⟩
  · unfold getValue NDArray.reshape
    rw [if_pos rfl, hshape]
    simp only [List.drop_succ_cons, List.drop_zero, List.take_succ_cons, List.take_zero, List.prod_cons, List.prod_nil,
      mul_one]
    rw [if_pos]
    rw [hlen, hshape]
    simp [mul_assoc]
  · intro step walker rest
    unfold NDArray.get
    rw [hshape, cOffset_flat]

/-- without `flat` the array is returned as it is -/
theorem C55_not_flat {α : Type} (v : NDArray α) : getValue v false = .ok v := rfl

/-- Non-vacuity: 2 steps, 3 walkers, 2 parameters. -/
example : ([2, 3, 2] : List Nat) = 2 :: 3 :: [2] ∧ (List.range 12).length = ([2, 3, 2] : List Nat).prod := by
  decide

/-- the order in which `read_run` attaches blobs to samples is the same flat order -/
theorem C55_blob_order (L : List Series) (nsteps nwalkers : Nat) (O : List (List (List RBlob)))
    (h : organise L nsteps nwalkers = .ok O) (step walker : Nat) (hs : step < nsteps) (hw : walker < nwalkers) :
    ∃ b, (O[step]?.bind (·[walker]?)) = some b ∧ L.mapM (Series.at (step * nwalkers + walker)) = .ok b := by
  obtain ⟨h1, h2⟩ := mapM_ok_iff_get _ _ _ h
  have hs1 : step < (List.range nsteps).length := by simpa using hs
  have hs2 : step < O.length := by rw [h1]; exact hs1
  have h3 := h2 step hs1 hs2
  rw [List.getElem_range] at h3
  obtain ⟨h4, h5⟩ := mapM_ok_iff_get _ _ _ h3
  have hw1 : walker < (List.range nwalkers).length := by simpa using hw
  have hw2 : walker < O[step].length := by rw [h4]; exact hw1
  have h6 := h5 walker hw1 hw2
  rw [List.getElem_range] at h6
  refine ⟨O[step][walker], ?_, h6⟩
  rw [List.getElem?_eq_getElem hs2, Option.bind_some, List.getElem?_eq_getElem hw2]

/-- A run as the round trip asks for: two steps of two walkers, a vector with a unit and a number as blobs,
one entry of `run_info`. -/
noncomputable def exSaved : Run Nat Nat where
  chain := [[[1, 2], [1, 3]], [[2, 2], [1, 1]]]
  logProb := [[fin 0, fin (-1)], [fin (-2), ninf]]
  blobs := [[[.qty (.d1 [fin 1, fin 2]) PhysUnit.erg, .num nan], [.qty (.d1 [fin 3, fin 4]) PhysUnit.erg, .num nan]],
     [[.qty (.d1 [fin 5, fin 6]) PhysUnit.erg, .num nan], [.qty (.d1 [fin 7, pinf]) PhysUnit.erg, .num (fin 0)]]]
  data := 7
  runInfo := [("n_walkers".toList, 2)]
  acceptance := 1 / 2
  labels := ["norm".toList, "index".toList]

theorem exSaved_reserved : ∀ k ∈ Dict.keys exSaved.runInfo, ¬ Reserved k := by
  intro k hk
  simp only [exSaved, Dict.keys, List.map_cons, List.map_nil, List.mem_singleton] at hk
  subst hk
  rintro (h | ⟨i, h⟩)
  · revert h; decide
  · have := congrArg (fun l : List Char => l.head?) h
    simp [labelKey, numbered] at this

theorem exSaved_blobs : GoodBlobs exSaved.blobs 2 2 [.vec 2 PhysUnit.erg, .num] := by
  refine ⟨rfl, by simp [exSaved], ?_, ?_, by simp, Or.inr ?_⟩
  · simp [exSaved, HasKind]
  · simp [Kind.Proper, PhysUnit.Proper, PhysUnit.erg]
  · rintro ⟨n, h⟩
    have := h .num (by simp)
    simp [Kind.lead] at this

/-- It is saved to a new file and read back; no blob has more than 100 entries. -/
example : ∃ f r, afterSave (fun _ => true) (fun _ => none) "run.h5".toList false exSaved "run.h5".toList = some f ∧
    readRun f = .ok r ∧ r.chain = exSaved.chain ∧ ∃ l, r.blobs = .objects l ∧ ∀ s ∈ l, ∀ w ∈ s, w.length ≤ 100 := by
  obtain ⟨-, f, r, h1, h2, h3, -, -, -, -, -, l, h4, -⟩ := C53_roundtrip_partial (fun _ => true) (fun _ => none)
    "run.h5".toList false exSaved (Or.inl (by decide)) (Or.inl rfl) 2 2 _ (by norm_num) (by norm_num) rfl
    (by simp [exSaved]) (by simp [exSaved]) exSaved_blobs (by simp [exSaved, Dict.keys]) exSaved_reserved
  exact ⟨f, r, h1, h2, h3, l, h4, C53_false_hundred f r h2 l h4⟩

/-- Six entries of two series, as three steps of two walkers. -/
example : ∃ O b, organise [.flat [.d0 (fin 0), .d0 (fin 1), .d0 (fin 2), .d0 (fin 3), .d0 (fin 4), .d0 (fin 5)] PhysUnit.erg]
    3 2 = .ok O ∧ (O[1]?.bind (·[1]?)) = some b := by
  refine ⟨_, _, rfl, rfl⟩

end Naima.Props
