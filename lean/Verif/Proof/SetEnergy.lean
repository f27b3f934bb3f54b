import Verif.Proof.Electron

namespace Naima

open XR Classical

/-- attribute names are distinct and every attribute refers to an existing object -/
structure DistObj.WF (o : DistObj) (h : Store) : Prop where
  nodup : o.attrs.keys.Nodup
  valid : ∀ p ∈ o.attrs, p.2 < h.length

theorem get?_map_vals (l : Dict String Nat) (g : Nat → Qty XR) (k : String) :
    Dict.get? (l.map (fun p => (p.1, g p.2))) k = (Dict.get? l k).map g := by
  unfold Dict.get?
  induction l with
  | nil => rfl
  | cons a l ih =>
    by_cases h : a.1 = k
    · simp [List.find?, h]
    · simp only [List.map_cons, List.find?, h, decide_false]
      exact ih

theorem vals_get? (o : DistObj) (h : Store) (k : String) :
    (o.vals h).get? k = (o.attrs.get? k).map (fun r => h.getD r ⟨nan, PhysUnit.erg⟩) :=
  get?_map_vals o.attrs (fun r => h.getD r ⟨nan, PhysUnit.erg⟩) k

theorem keys_nodup_mem_eq (l : Dict String Nat) (hn : l.keys.Nodup) (p : String × Nat) (r : Nat)
    (hp : p ∈ l) (hg : l.get? p.1 = some r) : p.2 = r := by
  induction l with
  | nil => simp at hp
  | cons a l ih =>
    simp only [Dict.keys, List.map_cons, List.nodup_cons] at hn
    by_cases h : a.1 = p.1
    · have hra : a.2 = r := by simpa [Dict.get?, List.find?, h] using hg
      rcases List.mem_cons.1 hp with e | e
      · rw [e]; exact hra
      · exfalso; apply hn.1; rw [h]; exact List.mem_map.2 ⟨p, e, rfl⟩
    · rcases List.mem_cons.1 hp with e | e
      · exact absurd (by rw [e]) h
      · apply ih hn.2 e
        simpa [Dict.get?, List.find?, h] using hg

/-- the in-place branch: only the attribute's cell changes -/
theorem vals_modify (o : DistObj) (h : Store) (hw : o.WF h) (nm : String) (r : Nat)
    (hg : o.attrs.get? nm = some r) (hal : ∀ p ∈ o.attrs, p.1 ≠ nm → p.2 ≠ r)
    (f : Qty XR → Qty XR) :
    o.vals (h.modify r f) = (o.vals h).set nm (f (h.getD r ⟨nan, PhysUnit.erg⟩)) := by
  have hmem : (nm, r) ∈ o.attrs := Dict.get?_some_mem _ _ _ hg
  have hk : nm ∈ (o.vals h).keys := by
    simp only [Dict.keys, DistObj.vals, List.map_map]
    exact List.mem_map.2 ⟨(nm, r), hmem, rfl⟩
  unfold Dict.set
  rw [if_pos hk]
  unfold DistObj.vals
  rw [List.map_map]
  apply List.map_congr_left
  intro p hp
  simp only [Function.comp_apply]
  by_cases hn : p.1 = nm
  · rw [if_pos hn]
    have hpr : p.2 = r := keys_nodup_mem_eq _ hw.nodup p r hp (by rw [hn]; exact hg)
    have hlt := hw.valid p hp
    rw [hn, hpr]
    congr 1
    rw [hpr] at hlt
    rw [List.getD_eq_getElem?_getD, List.getElem?_modify]
    rw [List.getD_eq_getElem?_getD, List.getElem?_eq_getElem hlt]
    simp
  · rw [if_neg hn]
    congr 1
    have hne : ¬ r = p.2 := fun e => hal p hp hn e.symm
    rw [List.getD_eq_getElem?_getD, List.getElem?_modify, List.getD_eq_getElem?_getD]
    simp [hne]

/-- the `setattr` branch -/
theorem vals_append (o : DistObj) (h : Store) (hw : o.WF h) (nm : String) (q : Qty XR) (r : Nat)
    (hg : o.attrs.get? nm = some r) :
    DistObj.vals ⟨o.attrs.set nm h.length⟩ (h ++ [q]) = (o.vals h).set nm q := by
  have hmem : (nm, r) ∈ o.attrs := Dict.get?_some_mem _ _ _ hg
  have hk : nm ∈ (o.vals h).keys := by
    simp only [Dict.keys, DistObj.vals, List.map_map]
    exact List.mem_map.2 ⟨(nm, r), hmem, rfl⟩
  have hk' : nm ∈ o.attrs.keys := List.mem_map.2 ⟨(nm, r), hmem, rfl⟩
  unfold Dict.set
  rw [if_pos hk, if_pos hk']
  unfold DistObj.vals
  simp only [List.map_map]
  apply List.map_congr_left
  intro p hp
  simp only [Function.comp_apply]
  by_cases hn : p.1 = nm
  · simp [hn]
  · have hlt := hw.valid p hp
    simp only [if_neg hn]
    congr 1
    rw [List.getD_eq_getElem?_getD, List.getD_eq_getElem?_getD, List.getElem?_append_left hlt]

end Naima
