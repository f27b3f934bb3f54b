import Verif.Model.Results
import Verif.Proof.NelderMead
import Mathlib.Tactic.Linarith
import Mathlib.Data.List.Basic

/-! Lemmas for the maximum-likelihood sample, bands and percentiles. -/

namespace Naima

open XR Classical

theorem firstIdx_some (p : XR → Bool) : ∀ (l : List XR) (i k : Nat), firstIdx p l i = some k →
    ∃ j, k = i + j ∧ ∃ h : j < l.length, p l[j] = true
  | [], i, k, h => by simp [firstIdx] at h
  | a :: l, i, k, h => by
    unfold firstIdx at h
    split_ifs at h with hp
    · cases h
      exact ⟨0, by simp, by simp, by simpa using hp⟩
    · obtain ⟨j, h1, h2, h3⟩ := firstIdx_some p l (i + 1) k h
      exact ⟨j + 1, by omega, by simp; omega, by simpa using h3⟩

theorem firstIdx_none (p : XR → Bool) : ∀ (l : List XR) (i : Nat), firstIdx p l i = none →
    ∀ a ∈ l, p a = false
  | [], i, h => by simp
  | a :: l, i, h => by
    unfold firstIdx at h
    split_ifs at h with hp
    intro b hb
    rcases List.mem_cons.1 hb with rfl | hb
    · simpa using hp
    · exact firstIdx_none p l (i + 1) h b hb

theorem XR.le_total' {a b : XR} (ha : a ≠ nan) (hb : b ≠ nan) : a ≤ b ∨ b ≤ a := by
  by_cases h : a < b
  · exact Or.inl (XR.le_of_lt' h)
  · exact Or.inr (XR.le_of_not_lt h ha hb)

theorem exists_max (l : List XR) (hne : l ≠ []) (hn : ∀ a ∈ l, a ≠ nan) : ∃ a ∈ l, ∀ b ∈ l, b ≤ a := by
  induction l with
  | nil => exact absurd rfl hne
  | cons a l ih =>
    by_cases hl : l = []
    · subst hl
      exact ⟨a, by simp, by simpa using XR.le_refl' (hn a (by simp))⟩
    · obtain ⟨m, hm, hmax⟩ := ih hl (fun b hb => hn b (by simp [hb]))
      have na := hn a (by simp)
      have nm := hn m (by simp [hm])
      rcases XR.le_total' na nm with h | h
      · refine ⟨m, by simp [hm], ?_⟩
        intro b hb
        rcases List.mem_cons.1 hb with rfl | hb
        · exact h
        · exact hmax b hb
      · refine ⟨a, by simp, ?_⟩
        intro b hb
        rcases List.mem_cons.1 hb with rfl | hb
        · exact XR.le_refl' na
        · exact XR.le_trans' (hmax b hb) h

theorem npArgmax_spec (l : List XR) (hne : l ≠ []) (hn : ∀ a ∈ l, a ≠ nan) :
    ∃ n, npArgmax l = .ok n ∧ ∃ h : n < l.length, ∀ b ∈ l, b ≤ l[n] := by
  unfold npArgmax
  have h1 : firstIdx (fun a => decide (a = nan)) l 0 = none := by
    cases h : firstIdx (fun a => decide (a = nan)) l 0 with
    | none => rfl
    | some k =>
      obtain ⟨j, -, h2, h3⟩ := firstIdx_some _ _ _ _ h
      simp at h3
      exact absurd h3 (hn _ (List.getElem_mem h2))
  rw [h1]
  simp only
  cases h : firstIdx (fun a => decide (∀ b ∈ l, b ≤ a)) l 0 with
  | none =>
    obtain ⟨a, ha, hmax⟩ := exists_max l hne hn
    have := firstIdx_none _ _ _ h a ha
    simp at this
    obtain ⟨b, hb, hb'⟩ := this
    exact absurd (hmax b hb) hb'
  | some k =>
    obtain ⟨j, h1, h2, h3⟩ := firstIdx_some _ _ _ _ h
    simp at h3 h1
    subst h1
    exact ⟨k, rfl, h2, h3⟩

theorem flatten_index {α : Type} (w : Nat) (hw : 0 < w) : ∀ (L : List (List α)), (∀ r ∈ L, r.length = w) →
    ∀ n, L.flatten[n]? = (L[n / w]?.bind (·[n % w]?))
  | [], _, n => by simp
  | r :: L, hL, n => by
    have hr := hL r (by simp)
    have ih := flatten_index w hw L (fun r h => hL r (by simp [h]))
    rw [List.flatten_cons]
    by_cases h : n < w
    · rw [List.getElem?_append_left (by omega), Nat.div_eq_of_lt h, Nat.mod_eq_of_lt h]
      simp
    · rw [List.getElem?_append_right (by omega), hr, ih]
      have e1 : n / w = (n - w) / w + 1 := by
        rw [Nat.div_eq_sub_div hw (by omega)]
      have e2 : n % w = (n - w) % w := Nat.mod_eq_sub_mod (by omega)
      rw [e1, e2]; simp

/-! ### order statistics -/

theorem getD_get {α : Type} (l : List α) (d : α) {i : Nat} (h : i < l.length) : l.getD i d = l[i] := by
  rw [List.getD_eq_getElem?_getD, List.getElem?_eq_getElem h]; rfl

theorem npSort_perm (l : List XR) : (npSort l).Perm l := List.mergeSort_perm _ _

theorem npSort_sorted (l : List XR) : (npSort l).Pairwise npLe := by
  have := List.pairwise_mergeSort (le := fun a b : XR => decide (npLe a b))
    (by intro a b c h1 h2; simp at *; exact npLe_trans h1 h2)
    (by intro a b; simp; exact npLe_total _ _) l
  simpa [npSort] using this

theorem sorted_get {α : Type} {R : α → α → Prop} (hrefl : ∀ a, R a a) (l : List α) (h : l.Pairwise R)
    (i j : Nat) (hij : i ≤ j) (hj : j < l.length) : R (l[i]'(by omega)) l[j] := by
  rcases Nat.lt_or_ge i j with h' | h'
  · exact List.pairwise_iff_getElem.1 h i j (by omega) hj h'
  · have : i = j := by omega
    subst this
    exact hrefl _

theorem realSort_sorted (l : List ℝ) :
    (l.mergeSort (fun a b => decide (a ≤ b))).Pairwise (fun a b => a ≤ b) := by
  have := List.pairwise_mergeSort (le := fun a b : ℝ => decide (a ≤ b))
    (by intro a b c h1 h2; simp at *; linarith)
    (by intro a b; simp; exact le_total _ _) l
  simpa using this

/-- piecewise linear interpolation of a sequence -/
theorem interp_mono (s : List ℝ) (hs : s.Pairwise (fun a b => a ≤ b)) (t t' : ℝ) (h0 : 0 ≤ t) (htt : t ≤ t')
    (hmax : t' ≤ (s.length : ℝ) - 1) :
    s.getD ⌊t⌋₊ 0 + (t - ⌊t⌋₊) * (s.getD (min (⌊t⌋₊ + 1) (s.length - 1)) 0 - s.getD ⌊t⌋₊ 0) ≤
    s.getD ⌊t'⌋₊ 0 + (t' - ⌊t'⌋₊) * (s.getD (min (⌊t'⌋₊ + 1) (s.length - 1)) 0 - s.getD ⌊t'⌋₊ 0) := by
  have hlen : 0 < s.length := by
    by_contra h
    have : s.length = 0 := by omega
    rw [this] at hmax; norm_num at hmax; linarith
  have hl1 : ((s.length - 1 : ℕ) : ℝ) = (s.length : ℝ) - 1 := by
    rw [Nat.cast_sub hlen]; simp
  have hle : ∀ i j, i ≤ j → j < s.length → s.getD i 0 ≤ s.getD j 0 := by
    intro i j hij hj
    rw [getD_get _ _ (by omega), getD_get _ _ hj]
    exact sorted_get (fun a => le_refl a) s hs i j hij hj
  have hf : ⌊t⌋₊ ≤ ⌊t'⌋₊ := Nat.floor_le_floor htt
  have hf' : ⌊t'⌋₊ ≤ s.length - 1 := by
    have : (⌊t'⌋₊ : ℝ) ≤ ((s.length - 1 : ℕ) : ℝ) := by
      rw [hl1]; exact le_trans (Nat.floor_le (by linarith)) hmax
    exact_mod_cast this
  have ft := Nat.floor_le h0
  have ft1 := Nat.lt_floor_add_one t
  have ft' := Nat.floor_le (h0.trans htt)
  have ft1' := Nat.lt_floor_add_one t'
  have d : ∀ i, i ≤ s.length - 1 → s.getD i 0 ≤ s.getD (min (i + 1) (s.length - 1)) 0 := by
    intro i hi
    exact hle _ _ (by omega) (by omega)
  rcases Nat.lt_or_ge ⌊t⌋₊ ⌊t'⌋₊ with hlt | hge
  · have a1 : s.getD ⌊t⌋₊ 0 + (t - ⌊t⌋₊) * (s.getD (min (⌊t⌋₊ + 1) (s.length - 1)) 0 - s.getD ⌊t⌋₊ 0) ≤
        s.getD (min (⌊t⌋₊ + 1) (s.length - 1)) 0 := by
      have := d ⌊t⌋₊ (by omega)
      nlinarith
    have a2 : s.getD (min (⌊t⌋₊ + 1) (s.length - 1)) 0 ≤ s.getD ⌊t'⌋₊ 0 := hle _ _ (by omega) (by omega)
    have a3 : 0 ≤ (t' - ⌊t'⌋₊) * (s.getD (min (⌊t'⌋₊ + 1) (s.length - 1)) 0 - s.getD ⌊t'⌋₊ 0) :=
      mul_nonneg (by linarith) (by linarith [d ⌊t'⌋₊ hf'])
    linarith
  · have he : ⌊t⌋₊ = ⌊t'⌋₊ := by omega
    rw [he]
    have := d ⌊t'⌋₊ hf'
    nlinarith

theorem percentile_mono (l : List ℝ) (hl : l ≠ []) (q q' : ℝ) (h0 : 0 ≤ q) (hq : q ≤ q') (h1 : q' ≤ 100) :
    percentile l q ≤ percentile l q' := by
  have hp := List.mergeSort_perm l (fun a b : ℝ => decide (a ≤ b))
  have hlen : (l.mergeSort (fun a b : ℝ => decide (a ≤ b))).length = l.length := hp.length_eq
  have hpos : (1 : ℝ) ≤ l.length := by
    have : 0 < l.length := List.length_pos_iff.2 hl
    exact_mod_cast this
  have := interp_mono _ (realSort_sorted l) (((l.length : ℝ) - 1) * (q / 100))
    (((l.length : ℝ) - 1) * (q' / 100)) (mul_nonneg (by linarith) (by linarith))
    (mul_le_mul_of_nonneg_left (by linarith) (by linarith))
    (by rw [hlen]; nlinarith)
  unfold percentile
  rw [hlen] at this
  exact this

theorem percentile_zero (l : List ℝ) (hl : l ≠ []) : percentile l 0 ∈ l ∧ ∀ x ∈ l, percentile l 0 ≤ x := by
  have hp := List.mergeSort_perm l (fun a b : ℝ => decide (a ≤ b))
  set s := l.mergeSort (fun a b : ℝ => decide (a ≤ b)) with hs
  have hlen : 0 < s.length := by rw [hp.length_eq]; exact List.length_pos_iff.2 hl
  have e : percentile l 0 = s[0] := by
    unfold percentile
    simp only [← hs]
    norm_num
    rw [List.getElem?_eq_getElem hlen]; rfl
  rw [e]
  refine ⟨hp.mem_iff.1 (List.getElem_mem _), fun x hx => ?_⟩
  obtain ⟨i, hi, rfl⟩ := List.mem_iff_getElem.1 (hp.mem_iff.2 hx)
  exact sorted_get (fun a => le_refl a) s (realSort_sorted l) 0 i (by omega) hi

theorem percentile_hundred (l : List ℝ) (hl : l ≠ []) :
    percentile l 100 ∈ l ∧ ∀ x ∈ l, x ≤ percentile l 100 := by
  have hp := List.mergeSort_perm l (fun a b : ℝ => decide (a ≤ b))
  set s := l.mergeSort (fun a b : ℝ => decide (a ≤ b)) with hs
  have hlen : 0 < s.length := by rw [hp.length_eq]; exact List.length_pos_iff.2 hl
  have hll : s.length = l.length := hp.length_eq
  have e : percentile l 100 = s[s.length - 1] := by
    unfold percentile
    simp only [← hs]
    have h1 : ((l.length : ℝ) - 1) * (100 / 100) = ((s.length - 1 : ℕ) : ℝ) := by
      rw [Nat.cast_sub hlen, hll]; norm_num
    rw [h1, Nat.floor_natCast, sub_self, zero_mul, add_zero, getD_get _ _ (by omega)]
  rw [e]
  refine ⟨hp.mem_iff.1 (List.getElem_mem _), fun x hx => ?_⟩
  obtain ⟨i, hi, rfl⟩ := List.mem_iff_getElem.1 (hp.mem_iff.2 hx)
  exact sorted_get (fun a => le_refl a) s (realSort_sorted l) i (s.length - 1) (by omega) (by omega)

theorem percentile_perm (l m : List ℝ) (h : l.Perm m) (q : ℝ) : percentile l q = percentile m q := by
  have e : l.mergeSort (fun a b : ℝ => decide (a ≤ b)) = m.mergeSort (fun a b : ℝ => decide (a ≤ b)) := by
    refine List.Perm.eq_of_pairwise (le := fun a b : ℝ => a ≤ b) ?_ (realSort_sorted l) (realSort_sorted m)
      (((List.mergeSort_perm _ _).trans h).trans (List.mergeSort_perm _ _).symm)
    intro a b _ _ h1 h2
    exact le_antisymm h1 h2
  unfold percentile
  rw [e, h.length_eq]

end Naima
