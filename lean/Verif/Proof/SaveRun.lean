import Verif.Spec.SaveRun
import Verif.Proof.Results

/-! # Lemmas about saving and reading runs -/

namespace Naima

open XR Classical Spec

/-! ## Names -/

theorem numbered_inj (stem : Label) {i j : Nat} (h : numbered stem i = numbered stem j) : i = j := by
  unfold numbered at h
  have h1 := List.append_cancel_left h
  have h2 : Nat.repr i = Nat.repr j := String.toList_inj.1 h1
  exact Nat.repr_injective h2

theorem blobKey_inj {i j : Nat} (h : blobKey i = blobKey j) : i = j := numbered_inj _ h
theorem labelKey_inj {i j : Nat} (h : labelKey i = labelKey j) : i = j := numbered_inj _ h
theorem unitKey_inj {i j : Nat} (h : unitKey i = unitKey j) : i = j := numbered_inj _ h

theorem labelKey_ne_acc (i : Nat) : labelKey i ≠ accKey := by
  intro h
  have : (labelKey i).head? = accKey.head? := by rw [h]
  revert this
  show ¬ (some 'l' = some 'a')
  decide

/-! ## mapM -/

theorem mapM_ok_get {α β : Type} (f : α → Except PyErr β) : ∀ (l : List α) (r : List β),
    r.length = l.length → (∀ i (h : i < l.length) (h' : i < r.length), f l[i] = .ok r[i]) → l.mapM f = .ok r
  | [], r, hl, _ => by
    have : r = [] := List.length_eq_zero_iff.1 hl
    subst this; rfl
  | a :: l, [], hl, _ => by simp at hl
  | a :: l, b :: r, hl, h => by
    have h0 := h 0 (by simp) (by simp)
    have ih := mapM_ok_get f l r (by simpa using hl) (fun i h1 h2 => by
      have := h (i + 1) (by simpa using h1) (by simpa using h2)
      simpa using this)
    simp only [List.getElem_cons_zero] at h0
    rw [List.mapM_cons, h0, ih]
    rfl

theorem mapM_ok_iff_get {α β : Type} (f : α → Except PyErr β) : ∀ (l : List α) (r : List β),
    l.mapM f = .ok r → r.length = l.length ∧
      ∀ i (h : i < l.length) (h' : i < r.length), f l[i] = .ok r[i]
  | [], r, h => by
    have : (Except.ok [] : Except PyErr (List β)) = .ok r := h
    cases this
    exact ⟨rfl, fun i h => by simp at h⟩
  | a :: l, r, h => by
    rw [List.mapM_cons] at h
    cases ha : f a with
    | error e => rw [ha] at h; cases h
    | ok b =>
      rw [ha] at h
      cases hl : l.mapM f with
      | error e => rw [hl] at h; cases h
      | ok r' =>
        rw [hl] at h
        have : (Except.ok (b :: r') : Except PyErr (List β)) = .ok r := h
        cases this
        obtain ⟨h1, h2⟩ := mapM_ok_iff_get f l r' hl
        refine ⟨by simp [h1], ?_⟩
        intro i hi hi'
        cases i with
        | zero => simpa using ha
        | succ i => simpa using h2 i (by simpa using hi) (by simpa using hi')

/-! ## Writes -/

theorem applyOps_append {V T : Type} (a b : List (Op V T)) (f : Option (H5 V T)) :
    applyOps (a ++ b) f = applyOps b (applyOps a f) := by
  unfold applyOps; rw [List.foldl_append]

theorem applyOps_cons {V T : Type} (a : Op V T) (b : List (Op V T)) (f : Option (H5 V T)) :
    applyOps (a :: b) f = applyOps b (a.apply f) := rfl

theorem applyOps_nil {V T : Type} (f : Option (H5 V T)) : applyOps [] f = f := rfl

/-- a list of attribute writes -/
def attrOps {V T : Type} (kvs : List (Label × Attr V)) : List (Op V T) := kvs.map (fun kv => .attr kv.1 kv.2)

theorem applyOps_attrs {V T : Type} : ∀ (kvs : List (Label × Attr V)) (f : H5 V T),
    ∃ f', applyOps (attrOps kvs) (some f) = some f' ∧ f'.chain = f.chain ∧ f'.logProb = f.logProb ∧
      f'.dsets = f.dsets ∧ f'.table = f.table ∧
      (∀ k, k ∉ kvs.map (·.1) → Dict.get? f'.attrs k = Dict.get? f.attrs k) ∧
      ((kvs.map (·.1)).Nodup → ∀ kv ∈ kvs, Dict.get? f'.attrs kv.1 = some kv.2)
  | [], f => ⟨f, rfl, rfl, rfl, rfl, rfl, fun _ _ => rfl, fun _ kv h => by simp at h⟩
  | kv :: kvs, f => by
    obtain ⟨f', h1, h2, h3, h4, h5, h6, h7⟩ :=
      applyOps_attrs kvs { f with attrs := Dict.set f.attrs kv.1 kv.2 }
    refine ⟨f', h1, h2, h3, h4, h5, ?_, ?_⟩
    · intro k hk
      simp only [List.map_cons, List.mem_cons, not_or] at hk
      rw [h6 k hk.2]
      exact Dict.get?_set_other _ _ _ _ hk.1
    · intro hnd kv' hkv'
      simp only [List.map_cons, List.nodup_cons] at hnd
      rcases List.mem_cons.1 hkv' with rfl | h
      · rw [h6 _ hnd.1]; exact Dict.get?_set_self _ _ _
      · exact h7 hnd.2 _ h

theorem infoOps_eq {V T : Type} (storable : V → Bool) (info : Dict Label V) :
    (infoOps storable info : List (Op V T)) =
      attrOps (info.map (fun kv => (kv.1, if storable kv.2 then .val kv.2 else .str kv.2))) := by
  unfold infoOps attrOps; rw [List.map_map]; rfl

theorem labelOps_eq {V T : Type} (labels : List Label) :
    (labelOps labels : List (Op V T)) =
      attrOps (labels.zipIdx.map (fun li => (labelKey li.2, .label li.1))) := by
  unfold labelOps attrOps; rw [List.map_map]; rfl

theorem labelKeys_nodup : ∀ (labels : List Label) (n : Nat),
    ((labels.zipIdx n).map (fun li => labelKey li.2)).Nodup := by
  intro labels n
  have : (labels.zipIdx n).map (fun li => labelKey li.2) = (List.range' n labels.length).map labelKey := by
    rw [← List.zipIdx_map_snd n labels, List.map_map]; rfl
  rw [this]
  exact (List.nodup_range' (step := 1)).map (fun a b h => labelKey_inj h)

/-! ## Blobs -/

theorem XR.mul_fin_one (x : XR) : x * fin 1 = x := by
  rcases x with _ | _ | x | _
  · rfl
  · show XR.mul ninf (fin 1) = ninf
    simp [XR.mul, XR.infMul]
  · rw [XR.mul_fin, mul_one]
  · show XR.mul pinf (fin 1) = pinf
    simp [XR.mul, XR.infMul]

theorem Arr.scale_one (a : Arr) : a.scale 1 = a := by
  cases a with
  | d0 x => simp [Arr.scale, XR.mul_fin_one]
  | d1 l => simp [Arr.scale, XR.mul_fin_one]
  | d2 m => simp [Arr.scale, XR.mul_fin_one]

/-- the numbers of a saved blob -/
noncomputable def rowOf : SBlob → Arr
  | .qty a _ => a
  | .num x => .d0 x
  | .tup ms => .d2 (ms.map (·.1))
  | .other => .d0 nan

theorem checkShapes_ok (rows : List Arr) (s : List Nat) (h : ∀ r ∈ rows, r.shape = some s) :
    checkShapes rows = .ok rows := by
  unfold checkShapes
  cases rows with
  | nil => rfl
  | cons r rs =>
    have h0 := h r (by simp)
    simp only
    rw [if_pos]
    refine ⟨by rw [h0]; simp, fun r' hr' => by rw [h r' hr', h0]⟩

/-- The shape of the entries of a kind. -/
def kindShape : Kind → List Nat
  | .scalar _ => []
  | .vec m _ => [m]
  | .num => []
  | .pair m _ _ => [2, m]

theorem rowOf_shape (k : Kind) (b : SBlob) (h : HasKind k b) : (rowOf b).shape = some (kindShape k) := by
  cases k with
  | scalar u => obtain ⟨x, rfl⟩ := h; rfl
  | vec m u => obtain ⟨l, h1, rfl⟩ := h; simp [rowOf, Arr.shape, kindShape, h1]
  | num => obtain ⟨x, rfl⟩ := h; rfl
  | pair m ua ub =>
    obtain ⟨l, l', h1, h2, rfl⟩ := h
    simp [rowOf, Arr.shape, kindShape, h1, h2]

theorem quantityValue_kind (k : Kind) (hk : k.Proper) (col : List SBlob) (hne : col ≠ [])
    (h : ∀ b ∈ col, HasKind k b) : quantityValue col = .ok (col.map rowOf) := by
  have hshape : ∀ r ∈ col.map rowOf, r.shape = some (kindShape k) := by
    intro r hr
    obtain ⟨b, hb, rfl⟩ := List.mem_map.1 hr
    exact rowOf_shape k b (h b hb)
  have hq : ∀ u : PhysUnit, u.Proper → (∀ b ∈ col, ∃ a, b = .qty a u) →
      quantityValue col = .ok (col.map rowOf) := by
    intro u hu hb
    cases col with
    | nil => exact absurd rfl hne
    | cons b rest =>
      obtain ⟨a, rfl⟩ := hb b (by simp)
      unfold quantityValue
      have : (((.qty a u : SBlob) :: rest).mapM (SBlob.toUnit u)) = .ok (((.qty a u : SBlob) :: rest).map rowOf) := by
        apply mapM_ok_get _ _ _ (by simp)
        intro i hi hi'
        obtain ⟨a', ha'⟩ := hb _ (List.getElem_mem hi)
        rw [List.getElem_map, ha']
        have : u.scale / u.scale = 1 := div_self (ne_of_gt hu)
        simp [SBlob.toUnit, rowOf, this, Arr.scale_one]
      show (((.qty a u : SBlob) :: rest).mapM (SBlob.toUnit u)).bind checkShapes = _
      rw [this]
      exact checkShapes_ok _ _ hshape
  have hr : (∀ b ∈ col, (∃ x, b = .num x) ∨ ∃ ms, b = .tup ms) →
      quantityValue col = .ok (col.map rowOf) := by
    intro hb
    cases col with
    | nil => exact absurd rfl hne
    | cons b rest =>
      have : ((b :: rest).mapM SBlob.rawArr) = .ok ((b :: rest).map rowOf) := by
        apply mapM_ok_get _ _ _ (by simp)
        intro i hi hi'
        rw [List.getElem_map]
        rcases hb _ (List.getElem_mem hi) with ⟨x, hx⟩ | ⟨x, hx⟩ <;> rw [hx] <;> rfl
      have h2 : quantityValue (b :: rest) = ((b :: rest).mapM SBlob.rawArr).bind checkShapes := by
        rcases hb b (by simp) with ⟨x, rfl⟩ | ⟨x, rfl⟩ <;> rfl
      rw [h2, this]
      exact checkShapes_ok _ _ hshape
  cases k with
  | scalar u => exact hq u hk (fun b hb => by obtain ⟨x, rfl⟩ := h b hb; exact ⟨_, rfl⟩)
  | vec m u => exact hq u hk (fun b hb => by obtain ⟨x, _, rfl⟩ := h b hb; exact ⟨_, rfl⟩)
  | num => exact hr (fun b hb => Or.inl (h b hb))
  | pair m ua ub =>
    exact hr (fun b hb => by obtain ⟨l, l', _, _, rfl⟩ := h b hb; exact Or.inr ⟨_, rfl⟩)

/-- The units written for a kind. -/
noncomputable def kindUnits : Kind → List PhysUnit
  | .scalar u => [u]
  | .vec _ u => [u]
  | .num => [dimless]
  | .pair _ ua ub => [ua.getD dimless, ub.getD dimless]

theorem blobUnits_kind (k : Kind) (b : SBlob) (h : HasKind k b) : blobUnits b = some (kindUnits k) := by
  cases k with
  | scalar u => obtain ⟨x, rfl⟩ := h; rfl
  | vec m u => obtain ⟨l, _, rfl⟩ := h; rfl
  | num => obtain ⟨x, rfl⟩ := h; rfl
  | pair m ua ub => obtain ⟨l, l', _, _, rfl⟩ := h; rfl

/-- The attributes of the dataset of a kind. -/
noncomputable def kindAttrs : Kind → Dict Label PhysUnit
  | .scalar u => [(unitKey0, u)]
  | .vec _ u => [(unitKey0, u)]
  | .num => [(unitKey0, dimless)]
  | .pair _ ua ub => [(unitKey 0, ua.getD dimless), (unitKey 1, ub.getD dimless)]

/-- What is read back for a blob. -/
noncomputable def view : SBlob → RBlob
  | .qty a u => .qty a u
  | .num x => .qty (.d0 x) dimless
  | .tup [(a, ua), (b, ub)] => .pair a (ua.getD dimless) b (ub.getD dimless)
  | _ => .qty (.d0 nan) dimless

theorem view_same (k : Kind) (b : SBlob) (h : HasKind k b) : SameBlob b (view b) := by
  cases k with
  | scalar u => obtain ⟨x, rfl⟩ := h; exact .qty _ _
  | vec m u => obtain ⟨l, _, rfl⟩ := h; exact .qty _ _
  | num => obtain ⟨x, rfl⟩ := h; exact .num _
  | pair m ua ub => obtain ⟨l, l', _, _, rfl⟩ := h; exact .pair _ _ _ _

theorem view_lead (k : Kind) (b : SBlob) (h : HasKind k b) : (view b).lead = k.lead := by
  cases k with
  | scalar u => obtain ⟨x, rfl⟩ := h; rfl
  | vec m u => obtain ⟨l, h1, rfl⟩ := h; simp [view, RBlob.lead, Kind.lead, h1]
  | num => obtain ⟨x, rfl⟩ := h; rfl
  | pair m ua ub => obtain ⟨l, l', _, _, rfl⟩ := h; rfl

theorem unitKey01 : unitKey 0 ≠ unitKey 1 := fun h => absurd (unitKey_inj h) (by decide)

theorem readSeries_kind (k : Kind) (col : List SBlob) (hne : col ≠ []) (h : ∀ b ∈ col, HasKind k b) :
    ∃ s, readSeries ⟨col.map rowOf, kindAttrs k⟩ = .ok s ∧
      ∀ n (hn : n < col.length), s.at n = .ok (view col[n]) := by
  have hflat : ∀ u : PhysUnit, kindAttrs k = [(unitKey0, u)] → (∀ b ∈ col, (rowOf b).rank ≤ 1 ∧ view b = .qty (rowOf b) u) →
      ∃ s, readSeries ⟨col.map rowOf, kindAttrs k⟩ = .ok s ∧
      ∀ n (hn : n < col.length), s.at n = .ok (view col[n]) := by
    intro u hu hb
    refine ⟨.flat (col.map rowOf) u, ?_, ?_⟩
    · cases col with
      | nil => exact absurd rfl hne
      | cons b rest =>
        unfold readSeries
        simp only [List.map_cons]
        rw [if_pos (hb b (by simp)).1, hu]
        simp [attrOr, Dict.get?]
    · intro n hn
      have : n < (col.map rowOf).length := by simpa using hn
      simp only [Series.at]
      rw [List.getElem?_eq_getElem this, List.getElem_map, (hb _ (List.getElem_mem hn)).2]
  cases k with
  | scalar u => exact hflat u rfl (fun b hb => by obtain ⟨x, rfl⟩ := h b hb; exact ⟨by simp [rowOf, Arr.rank], rfl⟩)
  | vec m u => exact hflat u rfl (fun b hb => by obtain ⟨x, _, rfl⟩ := h b hb; exact ⟨by simp [rowOf, Arr.rank], rfl⟩)
  | num => exact hflat dimless rfl (fun b hb => by obtain ⟨x, rfl⟩ := h b hb; exact ⟨by simp [rowOf, Arr.rank], rfl⟩)
  | pair m ua ub =>
    let fa : SBlob → List XR := fun b => match b with | .tup ((a, _) :: _) => a | _ => []
    let fb : SBlob → List XR := fun b => match b with | .tup (_ :: (a, _) :: _) => a | _ => []
    have h0 : memberRows (col.map rowOf) 0 = .ok (col.map fa) := by
      apply mapM_ok_get _ _ _ (by simp)
      intro i hi hi'
      obtain ⟨l, l', _, _, e⟩ := h _ (List.getElem_mem (by simpa using hi : i < col.length))
      simp only [List.getElem_map, e]; rfl
    have h1 : memberRows (col.map rowOf) 1 = .ok (col.map fb) := by
      apply mapM_ok_get _ _ _ (by simp)
      intro i hi hi'
      obtain ⟨l, l', _, _, e⟩ := h _ (List.getElem_mem (by simpa using hi : i < col.length))
      simp only [List.getElem_map, e]; rfl
    refine ⟨.pair (col.map fa) (ua.getD dimless) (col.map fb) (ub.getD dimless), ?_, ?_⟩
    · have g0 : attrOr (kindAttrs (.pair m ua ub)) (unitKey 0) = .ok (ua.getD dimless) := by
        simp [attrOr, Dict.get?, kindAttrs]
      have g1 : attrOr (kindAttrs (.pair m ua ub)) (unitKey 1) = .ok (ub.getD dimless) := by
        simp [attrOr, Dict.get?, kindAttrs, unitKey01]
      unfold readSeries
      cases col with
      | nil => exact absurd rfl hne
      | cons b rest =>
        obtain ⟨l, l', _, _, e⟩ := h b (by simp)
        simp only [List.map_cons] at h0 h1 ⊢
        rw [if_neg (by rw [e]; simp [rowOf, Arr.rank]), h0, h1, g0, g1]
        rfl
    · intro n hn
      obtain ⟨l, l', _, _, e⟩ := h _ (List.getElem_mem hn)
      have h3 : n < (col.map fa).length := by simpa using hn
      have h4 : n < (col.map fb).length := by simpa using hn
      simp only [Series.at]
      rw [List.getElem?_eq_getElem h3, List.getElem?_eq_getElem h4]
      simp only [List.getElem_map, e]
      rfl

/-- The dataset operations produce the dataset. -/
theorem datasetOps_kind {V T : Type} (k : Kind) (idx : Nat) (rows : List Arr) :
    ∃ ops, (datasetOps idx (kindUnits k) rows : List (Op V T) × Option PyErr) = (ops, none) ∧
      ∀ f : H5 V T, ∃ f', applyOps ops (some f) = some f' ∧ f'.chain = f.chain ∧ f'.logProb = f.logProb ∧
        f'.table = f.table ∧ f'.attrs = f.attrs ∧
        Dict.get? f'.dsets (blobKey idx) = some ⟨rows, kindAttrs k⟩ ∧
        ∀ key, key ≠ blobKey idx → Dict.get? f'.dsets key = Dict.get? f.dsets key := by
  have one : ∀ u, kindUnits k = [u] → kindAttrs k = [(unitKey0, u)] →
      ∃ ops, (datasetOps idx (kindUnits k) rows : List (Op V T) × Option PyErr) = (ops, none) ∧
      ∀ f : H5 V T, ∃ f', applyOps ops (some f) = some f' ∧ f'.chain = f.chain ∧ f'.logProb = f.logProb ∧
        f'.table = f.table ∧ f'.attrs = f.attrs ∧
        Dict.get? f'.dsets (blobKey idx) = some ⟨rows, kindAttrs k⟩ ∧
        ∀ key, key ≠ blobKey idx → Dict.get? f'.dsets key = Dict.get? f.dsets key := by
    intro u hu ha
    rw [hu, ha]
    refine ⟨_, rfl, ?_⟩
    intro f
    simp only [applyOps_cons, applyOps_nil, Op.apply, Option.map_some, Dict.get?_set_self]
    refine ⟨_, rfl, rfl, rfl, rfl, rfl, ?_, ?_⟩
    · simp only [Dict.get?_set_self]; rfl
    · intro key hkey
      simp only [Dict.get?_set_other _ _ _ _ hkey]
  cases k with
  | scalar u => exact one u rfl rfl
  | vec m u => exact one u rfl rfl
  | num => exact one _ rfl rfl
  | pair m ua ub =>
    refine ⟨_, rfl, ?_⟩
    intro f
    simp only [List.zipIdx_cons, List.zipIdx_nil, List.map_cons, List.map_nil, applyOps_cons, applyOps_nil, Op.apply,
      Option.map_some, Dict.get?_set_self]
    refine ⟨_, rfl, rfl, rfl, rfl, rfl, ?_, ?_⟩
    · simp only [Dict.get?_set_self, kindAttrs]
      have : unitKey 1 ∉ Dict.keys [(unitKey 0, ua.getD dimless)] := by
        simp [Dict.keys, unitKey01.symm]
      have h2 : Dict.set ([] : Dict Label PhysUnit) (unitKey 0) (ua.getD dimless) = [(unitKey 0, ua.getD dimless)] := rfl
      rw [h2, zero_add]
      unfold Dict.set
      rw [if_neg this]
      rfl
    · intro key hkey
      simp only [Dict.get?_set_other _ _ _ _ hkey]

theorem blobColumn_ok (blobs : List (List (List SBlob))) (idx n : Nat)
    (h : ∀ s ∈ blobs, ∀ w ∈ s, w.length = n) (hi : idx < n) :
    blobColumn blobs idx = .ok (blobs.flatten.map (fun w => w.getD idx .other)) := by
  apply mapM_ok_get _ _ _ (List.length_map _)
  intro i hi1 hi2
  have hm := List.getElem_mem hi1
  obtain ⟨s, hs, hw⟩ := List.mem_flatten.1 hm
  have hl := h s hs _ hw
  rw [List.getElem_map]
  have h3 : idx < blobs.flatten[i].length := by rw [hl]; exact hi
  rw [getD_get _ _ h3]
  simp only [List.getElem?_eq_getElem h3]

/-- The writes of all blobs from number `idx` on. -/
theorem blobOps_kinds {V T : Type} (blobs : List (List (List SBlob))) (kinds : List Kind)
    (hk : ∀ k ∈ kinds, k.Proper) (hb : ∀ s ∈ blobs, ∀ w ∈ s, List.Forall₂ HasKind kinds w)
    (hne : blobs.flatten ≠ []) : ∀ (items : List SBlob) (ks : List Kind) (idx : Nat),
    kinds.drop idx = ks → List.Forall₂ HasKind ks items →
    ∃ ops, (blobOps blobs items idx : List (Op V T) × Option PyErr) = (ops, none) ∧
      ∀ f : H5 V T, ∃ f', applyOps ops (some f) = some f' ∧ f'.chain = f.chain ∧ f'.logProb = f.logProb ∧
        f'.table = f.table ∧ f'.attrs = f.attrs ∧
        (∀ j (hj : j < ks.length), Dict.get? f'.dsets (blobKey (idx + j)) =
          some ⟨(blobs.flatten.map (fun w => w.getD (idx + j) .other)).map rowOf, kindAttrs ks[j]⟩) ∧
        (∀ key, (∀ j, key ≠ blobKey (idx + j)) → Dict.get? f'.dsets key = Dict.get? f.dsets key) ∧
        (∀ j, ks.length ≤ j → Dict.get? f'.dsets (blobKey (idx + j)) = Dict.get? f.dsets (blobKey (idx + j)))
  | [], ks, idx, hd, hf => by
    cases hf
    exact ⟨[], rfl, fun f => ⟨f, rfl, rfl, rfl, rfl, rfl, fun j hj => by simp at hj, fun _ _ => rfl, fun _ _ => rfl⟩⟩
  | item :: items, ks, idx, hd, hf => by
    cases hf with
    | @cons k _ ks _ h1 h2 =>
    have hlt : idx < kinds.length := by
      have := congrArg List.length hd
      simp at this; omega
    have hkidx : kinds[idx] = k := by
      have := List.drop_eq_getElem_cons hlt
      exact ((List.cons.inj (hd.symm.trans this)).1).symm
    have hd' : kinds.drop (idx + 1) = ks := by
      have := List.drop_eq_getElem_cons hlt
      exact ((List.cons.inj (hd.symm.trans this)).2).symm
    have hkm : k ∈ kinds := by rw [← hkidx]; exact List.getElem_mem hlt
    have hlen : ∀ s ∈ blobs, ∀ w ∈ s, w.length = kinds.length := fun s hs w hw => (hb s hs w hw).length_eq.symm
    set col := blobs.flatten.map (fun w => w.getD idx .other) with hcol
    have hcolk : ∀ b ∈ col, HasKind k b := by
      intro b hbm
      obtain ⟨w, hw, rfl⟩ := List.mem_map.1 hbm
      obtain ⟨s, hs, hw⟩ := List.mem_flatten.1 hw
      have hf := hb s hs w hw
      have hl : idx < w.length := by rw [← hf.length_eq]; exact hlt
      rw [getD_get _ _ hl, ← hkidx]
      exact hf.get hlt hl
    have hcne : col ≠ [] := by simpa [hcol] using hne
    have hq := quantityValue_kind k (hk k hkm) col hcne hcolk
    obtain ⟨ops1, hops1, hf1⟩ := datasetOps_kind (V := V) (T := T) k idx (col.map rowOf)
    obtain ⟨ops2, hops2, hf2⟩ := blobOps_kinds (V := V) (T := T) blobs kinds hk hb hne items ks (idx + 1) hd' h2
    refine ⟨ops1 ++ ops2, ?_, ?_⟩
    · unfold blobOps
      rw [blobUnits_kind k item h1]
      simp only
      rw [blobColumn_ok blobs idx kinds.length hlen hlt]
      show (match quantityValue col with
        | .error e => ([], some e)
        | .ok rows => match (datasetOps idx (kindUnits k) rows : List (Op V T) × Option PyErr) with
          | (ops, some e) => (ops, some e)
          | (ops, none) => (ops ++ (blobOps blobs items (idx + 1)).1, (blobOps blobs items (idx + 1)).2)) = _
      rw [hq]
      simp only [hops1, hops2]
    · intro f
      obtain ⟨f1, a1, a2, a3, a4, a5, a6, a7⟩ := hf1 f
      obtain ⟨f2, b1, b2, b3, b4, b5, b6, b7, b8⟩ := hf2 f1
      refine ⟨f2, by rw [applyOps_append, a1, b1], b2.trans a2, b3.trans a3, b4.trans a4, b5.trans a5, ?_, ?_, ?_⟩
      · intro j hj
        cases j with
        | zero =>
          rw [b7 (blobKey (idx + 0)) (fun j h => by have := blobKey_inj h; omega)]
          exact a6
        | succ j =>
          have := b6 j (by simpa using hj)
          rw [show idx + (j + 1) = idx + 1 + j by omega]
          simpa using this
      · intro key hkey
        rw [b7 key (fun j h => hkey (1 + j) (by rw [h]; congr 1; omega)), a7 key (fun h => hkey 0 (by rw [h]; rfl))]
      · intro j hj
        cases j with
        | zero => simp at hj
        | succ j =>
          have h4 := b8 j (by simpa using hj)
          have h5 := a7 (blobKey (idx + (j + 1))) (fun h => by have := blobKey_inj h; omega)
          rw [show idx + 1 + j = idx + (j + 1) by omega] at h4
          rw [h4, h5]

/-- Reading the datasets back. -/
theorem readBlobs_ok {V T : Type} (f : H5 V T) (N : Nat) (vals : Nat → Nat → RBlob) : ∀ (m : Nat) (n i : Nat),
    m ≤ n → (∀ j, j < m → ∃ d s, Dict.get? f.dsets (blobKey (i + j)) = some d ∧ readSeries d = .ok s ∧
      ∀ t, t < N → s.at t = .ok (vals (i + j) t)) →
    Dict.get? f.dsets (blobKey (i + m)) = none →
    ∃ L, readBlobs f n i = .ok L ∧ L.length = m ∧
      ∀ j (hj : j < L.length), ∀ t, t < N → L[j].at t = .ok (vals (i + j) t)
  | 0, n, i, _, _, hnone => by
    refine ⟨[], ?_, rfl, fun j hj => by simp at hj⟩
    cases n with
    | zero => rfl
    | succ n => unfold readBlobs; rw [Nat.add_zero] at hnone; rw [hnone]
  | m + 1, 0, i, h, _, _ => by omega
  | m + 1, n + 1, i, h, hd, hnone => by
    obtain ⟨L, h1, h2, h3⟩ := readBlobs_ok f N vals m n (i + 1) (by omega)
      (fun j hj => by
        have := hd (j + 1) (by omega)
        rwa [show i + (j + 1) = i + 1 + j by omega] at this)
      (by rwa [show i + (m + 1) = i + 1 + m by omega] at hnone)
    obtain ⟨d, s, d1, d2, d3⟩ := hd 0 (by omega)
    refine ⟨s :: L, ?_, by simp [h2], ?_⟩
    · unfold readBlobs
      rw [Nat.add_zero] at d1
      rw [d1]
      simp only [d2, h1, Except.map]
    · intro j hj t ht
      cases j with
      | zero => exact d3 t ht
      | succ j =>
        have := h3 j (by simpa using hj) t ht
        rw [show i + (j + 1) = i + 1 + j by omega]
        simpa using this

theorem organise_ok (blobs : List (List (List SBlob))) (S W B : Nat) (h1 : blobs.length = S)
    (h2 : ∀ s ∈ blobs, s.length = W) (h3 : ∀ s ∈ blobs, ∀ w ∈ s, w.length = B) (L : List Series) (hL : L.length = B)
    (h : ∀ j (hj : j < L.length), ∀ t, t < S * W →
      L[j].at t = .ok (view ((blobs.flatten.getD t []).getD j .other))) :
    organise L S W = .ok (blobs.map (fun s => s.map (fun w => w.map view))) := by
  apply mapM_ok_get _ _ _ (by simp [h1])
  intro i hi hi'
  have hi2 : i < blobs.length := by simpa using hi'
  rw [List.getElem_range, List.getElem_map]
  have hs := h2 _ (List.getElem_mem hi2)
  apply mapM_ok_get _ _ _ (by simp [hs])
  intro j hj hj'
  have hj2 : j < blobs[i].length := by simpa using hj'
  rw [List.getElem_range, List.getElem_map]
  have hw := h3 _ (List.getElem_mem hi2) _ (List.getElem_mem hj2)
  have hWpos : 0 < W := by omega
  have hjW : j < W := by omega
  have hf := flatten_index W hWpos blobs h2 (i * W + j)
  have e1 : (i * W + j) / W = i := by
    rw [mul_comm, Nat.mul_add_div hWpos, Nat.div_eq_of_lt hjW, Nat.add_zero]
  have e2 : (i * W + j) % W = j := by
    rw [mul_comm, Nat.mul_add_mod, Nat.mod_eq_of_lt hjW]
  rw [e1, e2, List.getElem?_eq_getElem hi2, Option.bind_some, List.getElem?_eq_getElem hj2] at hf
  have hlt : i * W + j < S * W := by
    have : i + 1 ≤ S := by omega
    calc i * W + j < i * W + W := by omega
      _ = (i + 1) * W := by ring
      _ ≤ S * W := Nat.mul_le_mul_right _ this
  apply mapM_ok_get _ _ _ (by simp [hL, hw])
  intro k hk hk'
  have hk2 : k < blobs[i][j].length := by simpa using hk'
  have hf' : blobs.flatten.getD (i * W + j) [] = blobs[i][j] := by
    rw [List.getD_eq_getElem?_getD, hf, Option.getD_some]
  rw [h k hk _ hlt, hf', getD_get _ _ hk2, List.getElem_map]

end Naima
