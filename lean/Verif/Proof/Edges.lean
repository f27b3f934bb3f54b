import Verif.Model.Edges
import Mathlib.Tactic.Linarith
import Mathlib.Tactic.FieldSimp
import Mathlib.Tactic.Ring
import Mathlib.Data.List.GetD

namespace Naima

theorem getD_zipWith (f : ℝ → ℝ → ℝ) (a b : List ℝ) (i : Nat) (h1 : i < a.length)
    (h2 : i < b.length) :
    (List.zipWith f a b).getD i 0 = f (a.getD i 0) (b.getD i 0) := by
  simp [List.getD, List.getElem?_zipWith, List.getElem?_eq_getElem h1, List.getElem?_eq_getElem h2]

/-- Everything `_generate_energy_edges_single` computes, by index. -/
theorem edgesSingle_spec (ene : List ℝ) (hne : ene ≠ []) :
    ∃ elo ehi, edgesSingle ene = .ok (elo, ehi) ∧ elo.length = ene.length ∧
      ehi.length = ene.length ∧
      (∀ i, i + 1 < ene.length →
        elo.getD (i + 1) 0 = ene.getD (i + 1) 0 - Real.sqrt (ene.getD (i + 1) 0 * ene.getD i 0)) ∧
      (∀ i, i + 1 < ene.length →
        ehi.getD i 0 = Real.sqrt (ene.getD (i + 1) 0 * ene.getD i 0) - ene.getD i 0) ∧
      elo.getD 0 0 = ene.getD 0 0 * (1 - ene.getD 0 0 / (ene.getD 0 0 +
        (if ene.length = 1 then 0 else ehi.getD 0 0))) ∧
      ehi.getD (ene.length - 1) 0 = elo.getD (ene.length - 1) 0 := by
  cases ene with
  | nil => exact absurd rfl hne
  | cons e0 rest =>
    refine ⟨_, _, rfl, ?_, ?_, ?_, ?_, ?_, ?_⟩
    · simp
    · simp
    · intro i hi
      simp only [List.length_cons, Nat.add_lt_add_iff_right] at hi
      rw [List.getD_cons_succ, getD_zipWith _ _ _ _ hi (by simp; omega),
        getD_zipWith _ _ _ _ hi (by simp; omega), List.getD_cons_succ]
    · intro i hi
      simp only [List.length_cons, Nat.add_lt_add_iff_right] at hi
      rw [List.getD_append _ _ _ _ (by simp; omega), getD_zipWith _ _ _ _ (by simp; omega)
        (by simp; omega), getD_zipWith _ _ _ _ hi (by simp; omega), List.getD_cons_succ]
    · cases rest with
      | nil => simp
      | cons e1 rest => simp
    · cases rest with
      | nil => simp
      | cons e1 rest =>
        simp only [List.length_cons, Nat.add_sub_cancel]
        rw [List.getD_append_right _ _ _ _ (by simp)]
        simp [List.getLastD_eq_getLast?, List.getLast?_eq_getElem?, List.getD]

/-! ### masks -/

theorem maskSel_length {α : Type} (m : List Bool) (l : List α) (h : m.length = l.length) :
    (maskSel m l).length = m.count true := by
  unfold maskSel
  induction m generalizing l with
  | nil => simp
  | cons b m ih =>
    cases l with
    | nil => simp at h
    | cons a l =>
      simp only [List.length_cons, Nat.add_right_cancel_iff] at h
      cases b <;> simp [ih l h]

theorem maskSet_length {α : Type} (m : List Bool) (d v : List α) :
    (maskSet m d v).length = d.length := by
  induction m generalizing d v with
  | nil => simp [maskSet]
  | cons b m ih =>
    cases d with
    | nil => cases b <;> cases v <;> simp [maskSet]
    | cons a d => cases b <;> cases v <;> simp [maskSet, ih]

/-- reading back what was assigned under the mask -/
theorem maskSel_maskSet {α : Type} (m : List Bool) (d v : List α) (h : m.length = d.length)
    (hv : v.length = m.count true) : maskSel m (maskSet m d v) = v := by
  unfold maskSel
  induction m generalizing d v with
  | nil => simp at hv; simp [hv]
  | cons b m ih =>
    cases d with
    | nil => simp at h
    | cons a d =>
      simp only [List.length_cons, Nat.add_right_cancel_iff] at h
      cases b with
      | true =>
        cases v with
        | nil => simp at hv
        | cons x v =>
          simp at hv
          simp [maskSet, ih d v h hv]
      | false =>
        simp at hv
        have : maskSet (false :: m) (a :: d) v = a :: maskSet m d v := by cases v <;> rfl
        rw [this]; simp [ih d v h hv]

/-- an assignment under a disjoint mask is not seen -/
theorem maskSel_maskSet_disjoint {α : Type} (m m' : List Bool) (d v : List α)
    (h' : m'.length = m.length)
    (hdis : ∀ i : Nat, m[i]? = some true → m'[i]? = some true → False) :
    maskSel m' (maskSet m d v) = maskSel m' d := by
  unfold maskSel
  induction m generalizing m' d v with
  | nil => simp [maskSet]
  | cons b m ih =>
    cases m' with
    | nil => simp
    | cons b' m' =>
      simp only [List.length_cons, Nat.add_right_cancel_iff] at h'
      have hd : ∀ i : Nat, m[i]? = some true → m'[i]? = some true → False := by
        intro i h1 h2; exact hdis (i + 1) (by simpa using h1) (by simpa using h2)
      cases d with
      | nil => cases b <;> cases v <;> simp [maskSet]
      | cons a d =>
        cases b with
        | false =>
          have : maskSet (false :: m) (a :: d) v = a :: maskSet m d v := by cases v <;> rfl
          rw [this]
          cases b' <;> simp [ih m' d v h' hd]
        | true =>
          have hb' : b' = false := by
            cases b' with
            | false => rfl
            | true => exact (hdis 0 (by simp) (by simp)).elim
          subst hb'
          cases v with
          | nil => simp [maskSet]
          | cons x v => simp [maskSet, ih m' d v h' hd]

theorem maskOf_disjoint (groups : List ℤ) (g g' : ℤ) (hne : g ≠ g') (i : Nat)
    (h1 : (maskOf groups g)[i]? = some true) (h2 : (maskOf groups g')[i]? = some true) : False := by
  unfold maskOf at *
  simp only [List.getElem?_map, Option.map_eq_some_iff, decide_eq_true_eq] at h1 h2
  obtain ⟨a, ha, rfl⟩ := h1
  obtain ⟨b, hb, rfl⟩ := h2
  rw [ha] at hb
  simp at hb
  exact hne hb

theorem maskSel_mem_ne_nil (groups : List ℤ) (ene : List ℝ) (h : ene.length = groups.length)
    (g : ℤ) (hg : g ∈ groups) : maskSel (maskOf groups g) ene ≠ [] := by
  intro hc
  have h1 := maskSel_length (maskOf groups g) ene (by simp [maskOf, h])
  rw [hc] at h1
  simp only [List.length_nil] at h1
  have : true ∈ maskOf groups g := by unfold maskOf; simp; exact hg
  have := List.count_pos_iff.2 this
  omega

/-- The loop over groups: after processing the (distinct) groups `gs`, each processed group's rows
hold that group's own edges and the other rows are untouched. -/
theorem edgesLoop (ene : List ℝ) (groups : List ℤ) (h : ene.length = groups.length)
    (gs : List ℤ) (hnd : gs.Nodup) (hsub : ∀ g ∈ gs, g ∈ groups) (acc : List ℝ × List ℝ)
    (ha1 : acc.1.length = ene.length) (ha2 : acc.2.length = ene.length) :
    ∃ elo ehi, gs.foldlM (edgesStep ene groups) acc = .ok (elo, ehi) ∧
      elo.length = ene.length ∧ ehi.length = ene.length ∧
      (∀ g ∈ gs, edgesSingle (maskSel (maskOf groups g) ene)
        = .ok (maskSel (maskOf groups g) elo, maskSel (maskOf groups g) ehi)) ∧
      (∀ g, g ∉ gs → maskSel (maskOf groups g) elo = maskSel (maskOf groups g) acc.1 ∧
        maskSel (maskOf groups g) ehi = maskSel (maskOf groups g) acc.2) := by
  induction gs generalizing acc with
  | nil => exact ⟨acc.1, acc.2, rfl, ha1, ha2, by simp, by simp⟩
  | cons g gs ih =>
    have hg := hsub g (by simp)
    obtain ⟨elo, ehi, he, hl1, hl2, -⟩ :=
      edgesSingle_spec (maskSel (maskOf groups g) ene) (maskSel_mem_ne_nil groups ene h g hg)
    have hmlen : (maskOf groups g).length = ene.length := by simp [maskOf, h]
    have hc : (maskSel (maskOf groups g) ene).length = (maskOf groups g).count true :=
      maskSel_length _ _ hmlen
    have hnd' := List.nodup_cons.1 hnd
    obtain ⟨elo', ehi', hf, hl1', hl2', hin, hout⟩ :=
      ih hnd'.2 (fun x hx => hsub x (by simp [hx]))
        (maskSet (maskOf groups g) acc.1 elo, maskSet (maskOf groups g) acc.2 ehi)
        (by simp [maskSet_length, ha1]) (by simp [maskSet_length, ha2])
    refine ⟨elo', ehi', ?_, hl1', hl2', ?_, ?_⟩
    · rw [List.foldlM_cons]
      have : edgesStep ene groups acc g
          = .ok (maskSet (maskOf groups g) acc.1 elo, maskSet (maskOf groups g) acc.2 ehi) := by
        unfold edgesStep; rw [he]; rfl
      rw [this]; exact hf
    · intro g' hg'
      rcases List.mem_cons.1 hg' with rfl | hg'
      · obtain ⟨h1, h2⟩ := hout g' hnd'.1
        rw [h1, h2, maskSel_maskSet _ _ _ (by rw [hmlen, ha1]) (by rw [hl1, hc]),
          maskSel_maskSet _ _ _ (by rw [hmlen, ha2]) (by rw [hl2, hc])]
        exact he
      · exact hin g' hg'
    · intro g' hg'
      have hne : g ≠ g' := by rintro rfl; simp at hg'
      have hg'' : g' ∉ gs := fun hm => hg' (by simp [hm])
      obtain ⟨h1, h2⟩ := hout g' hg''
      rw [h1, h2]
      constructor <;>
      · apply maskSel_maskSet_disjoint
        · simp [maskOf]
        · exact fun i a b => maskOf_disjoint groups g g' hne i a b

end Naima
