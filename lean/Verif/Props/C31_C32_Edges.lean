import Verif.Model.Edges
import Verif.Proof.Edges
import Mathlib.Tactic.NormNum

/-! # C31, C32: generated energy bins -/

namespace Naima.Props

open Naima

theorem sqrt_between (a b : ℝ) (ha : 0 < a) (hab : a < b) :
    a < Real.sqrt (b * a) ∧ Real.sqrt (b * a) < b := by
  constructor
  · apply Real.lt_sqrt_of_sq_lt; nlinarith
  · rw [Real.sqrt_lt' (ha.trans hab)]; nlinarith

/-- **C31.** For a strictly increasing array of at least two positive energies
`generate_energy_edges` returns two arrays of the same length such that

* all half-widths are strictly positive and every lower edge is strictly positive,
* the upper edge of each bin is the lower edge of the next one, and is the geometric mean of the
  two energies,
* the first bin is logarithmically symmetric, `(E₀ - lo)(E₀ + hi) = E₀²`, and
* the last bin is linearly symmetric. -/
theorem C31_bins_tile (ene : List ℝ) (h2 : 2 ≤ ene.length) (hpos : ∀ e ∈ ene, 0 < e)
    (hs : ene.Pairwise (· < ·)) :
    ∃ elo ehi, generateEnergyEdges ene none = .ok (elo, ehi) ∧
      elo.length = ene.length ∧ ehi.length = ene.length ∧
      (∀ i, i < ene.length → 0 < elo.getD i 0 ∧ 0 < ehi.getD i 0 ∧
        0 < ene.getD i 0 - elo.getD i 0) ∧
      (∀ i, i + 1 < ene.length →
        ene.getD i 0 + ehi.getD i 0 = ene.getD (i + 1) 0 - elo.getD (i + 1) 0 ∧
        ene.getD i 0 + ehi.getD i 0 = Real.sqrt (ene.getD i 0 * ene.getD (i + 1) 0)) ∧
      (ene.getD 0 0 - elo.getD 0 0) * (ene.getD 0 0 + ehi.getD 0 0) = ene.getD 0 0 ^ 2 ∧
      ehi.getD (ene.length - 1) 0 = elo.getD (ene.length - 1) 0 := by
  have hne : ene ≠ [] := by intro h; simp [h] at h2
  obtain ⟨elo, ehi, he, hl1, hl2, hlo, hhi, hlo0, hlast⟩ := edgesSingle_spec ene hne
  have hE : ∀ i, i < ene.length → 0 < ene.getD i 0 := by
    intro i hi
    apply hpos
    simp [List.getD, List.getElem?_eq_getElem hi]
  have hmono : ∀ i, i + 1 < ene.length → ene.getD i 0 < ene.getD (i + 1) 0 := by
    intro i hi
    have := List.pairwise_iff_getElem.1 hs i (i + 1) (by omega) hi (by omega)
    simpa [List.getD, List.getElem?_eq_getElem hi,
      List.getElem?_eq_getElem (show i < ene.length by omega)] using this
  have hb : ∀ i, i + 1 < ene.length → ene.getD i 0 < Real.sqrt (ene.getD (i + 1) 0 * ene.getD i 0) ∧
      Real.sqrt (ene.getD (i + 1) 0 * ene.getD i 0) < ene.getD (i + 1) 0 :=
    fun i hi => sqrt_between _ _ (hE i (by omega)) (hmono i hi)
  have hn1 : ¬ ene.length = 1 := by omega
  simp only [hn1, if_false] at hlo0
  have hE0 := hE 0 (by omega)
  have hh0 : 0 < ehi.getD 0 0 := by
    rw [hhi 0 (by omega)]; linarith [(hb 0 (by omega)).1]
  have hsum : ene.getD 0 0 + ehi.getD 0 0 ≠ 0 := by positivity
  have h0 : (ene.getD 0 0 - elo.getD 0 0) * (ene.getD 0 0 + ehi.getD 0 0) = ene.getD 0 0 ^ 2 := by
    rw [hlo0]; field_simp; ring
  have hpos0 : 0 < elo.getD 0 0 ∧ 0 < ene.getD 0 0 - elo.getD 0 0 := by
    constructor
    · rw [hlo0]
      apply mul_pos hE0
      rw [sub_pos, div_lt_one (by positivity)]
      linarith
    · by_contra hcon
      push Not at hcon
      have : 0 < ene.getD 0 0 ^ 2 := by positivity
      have := mul_nonpos_of_nonpos_of_nonneg hcon (show 0 ≤ ene.getD 0 0 + ehi.getD 0 0 by positivity)
      linarith
  have hlopos : ∀ i, i < ene.length → 0 < elo.getD i 0 ∧ 0 < ene.getD i 0 - elo.getD i 0 := by
    intro i hi
    cases i with
    | zero => exact hpos0
    | succ i =>
      rw [hlo i hi]
      have := hb i hi
      have := hE i (by omega)
      constructor <;> linarith
  refine ⟨elo, ehi, he, hl1, hl2, ?_, ?_, h0, hlast⟩
  · intro i hi
    refine ⟨(hlopos i hi).1, ?_, (hlopos i hi).2⟩
    by_cases hlast' : i + 1 < ene.length
    · rw [hhi i hlast']; linarith [(hb i hlast').1]
    · have : i = ene.length - 1 := by omega
      rw [this, hlast]
      exact (hlopos _ (by omega)).1
  · intro i hi
    rw [hhi i hi, hlo i hi]
    constructor
    · ring
    · rw [mul_comm (ene.getD i 0)]; ring

/-- **C31 (edges).** A single energy gets an empty bin (both half-widths 0), and an empty array
raises IndexError: the hypotheses of `C31_bins_tile` exclude nothing else. -/
theorem C31_short_arrays (e : ℝ) (he : 0 < e) :
    generateEnergyEdges [e] none = .ok ([0], [0]) ∧
    generateEnergyEdges [] none = .error .indexError := by
  constructor
  · have : e * (1 - e / (e + 0)) = 0 := by rw [add_zero, div_self he.ne']; ring
    simp [generateEnergyEdges, edgesSingle]
    exact Or.inr (by rw [div_self he.ne', sub_self])
  · rfl

/-- **C31 (units).** Expressing the energies in another unit (multiplying all by `c > 0`) multiplies
all edges by the same factor. -/
theorem C31_unit_change (ene : List ℝ) (hne : ene ≠ []) (c : ℝ) (hc : 0 < c) (elo ehi : List ℝ)
    (h : generateEnergyEdges ene none = .ok (elo, ehi)) :
    generateEnergyEdges (ene.map (c * ·)) none = .ok (elo.map (c * ·), ehi.map (c * ·)) := by
  obtain ⟨elo', ehi', he, hl1, hl2, hlo, hhi, hlo0, hlast⟩ :=
    edgesSingle_spec (ene.map (c * ·)) (by simpa using hne)
  obtain ⟨elo'', ehi'', he2, hl12, hl22, hlo2, hhi2, hlo02, hlast2⟩ := edgesSingle_spec ene hne
  have : elo'' = elo ∧ ehi'' = ehi := by
    simp only [generateEnergyEdges] at h
    rw [he2] at h
    simpa using h
  obtain ⟨rfl, rfl⟩ := this
  have hm : ∀ (l : List ℝ) i, (l.map (c * ·)).getD i 0 = c * l.getD i 0 := by
    intro l i
    simp [List.getD]
    cases l[i]? <;> simp
  have hsq : ∀ a b : ℝ, Real.sqrt (c * a * (c * b)) = c * Real.sqrt (a * b) := by
    intro a b
    rw [show c * a * (c * b) = c ^ 2 * (a * b) by ring, Real.sqrt_mul (by positivity),
      Real.sqrt_sq hc.le]
  simp only [List.length_map] at hl1 hl2 hlo hhi hlo0 hlast
  have ehi_eq : ∀ i, i + 1 < ene.length → ehi'.getD i 0 = c * ehi''.getD i 0 := by
    intro i hi; rw [hhi i hi, hhi2 i hi, hm, hm, hsq]; ring
  have elo_eq : ∀ i, i < ene.length → elo'.getD i 0 = c * elo''.getD i 0 := by
    intro i hi
    cases i with
    | succ i => rw [hlo i hi, hlo2 i hi, hm, hm, hsq]; ring
    | zero =>
      rw [hlo0, hlo02, hm]
      by_cases h1 : ene.length = 1
      · simp only [h1, if_true, add_zero]
        rw [mul_div_mul_left _ _ hc.ne']; ring
      · simp only [h1, if_false]
        rw [ehi_eq 0 (by omega), ← mul_add, mul_div_mul_left _ _ hc.ne']; ring
  show edgesSingle (ene.map (c * ·)) = _
  rw [he]
  have ext : ∀ (a b : List ℝ), a.length = ene.length → b.length = ene.length →
      (∀ i, i < ene.length → a.getD i 0 = c * b.getD i 0) → a = b.map (c * ·) := by
    intro a b ha hb hab
    apply List.ext_getElem (by simp [ha, hb])
    intro i h1 h2
    have := hab i (by omega)
    simpa [List.getD, List.getElem?_eq_getElem h1,
      List.getElem?_eq_getElem (show i < b.length by omega)] using this
  rw [ext elo' elo'' hl1 hl12 elo_eq, ext ehi' ehi'' hl2 hl22]
  intro i hi
  by_cases h1 : i + 1 < ene.length
  · exact ehi_eq i h1
  · have : i = ene.length - 1 := by omega
    rw [this, hlast, hlast2]
    exact elo_eq _ (by omega)

/-- The entries of `l` in the rows labelled `g` (specification). -/
def rowsOf {α : Type} (groups : List ℤ) (g : ℤ) (l : List α) : List α :=
  ((groups.zip l).filter (fun p => p.1 = g)).map (·.2)

theorem maskSel_eq_rowsOf {α : Type} (groups : List ℤ) (g : ℤ) (l : List α) :
    maskSel (maskOf groups g) l = rowsOf groups g l := by
  unfold maskSel maskOf rowsOf
  induction groups generalizing l with
  | nil => simp
  | cons a groups ih =>
    cases l with
    | nil => simp
    | cons x l =>
      by_cases h : a = g <;> simp [h, ih]

/-- **C32.** With one group label per energy, the edges are as many as the energies and, for every
group, the rows of the group hold exactly the edges generated from that group's energies alone. -/
theorem C32_edges_per_group (ene : List ℝ) (groups : List ℤ) (h : ene.length = groups.length) :
    ∃ elo ehi, generateEnergyEdges ene (some groups) = .ok (elo, ehi) ∧
      elo.length = ene.length ∧ ehi.length = ene.length ∧
      ∀ g ∈ groups, generateEnergyEdges (rowsOf groups g ene) none
        = .ok (rowsOf groups g elo, rowsOf groups g ehi) := by
  have hmem : ∀ g, g ∈ npUnique groups ↔ g ∈ groups := by
    intro g
    unfold npUnique
    rw [(List.mergeSort_perm _ _).mem_iff]
    simp
  have hnd : (npUnique groups).Nodup := by
    unfold npUnique
    exact (List.mergeSort_perm _ _).nodup_iff.2 (List.nodup_dedup groups)
  obtain ⟨elo, ehi, hf, h1, h2, hin, -⟩ := edgesLoop ene groups h (npUnique groups) hnd
    (fun g hg => (hmem g).1 hg) (List.replicate ene.length 0, List.replicate ene.length 0)
    (by simp) (by simp)
  refine ⟨elo, ehi, ?_, h1, h2, ?_⟩
  · simp only [generateEnergyEdges]
    rw [if_neg (by simpa using h)]
    exact hf
  · intro g hg
    have := hin g ((hmem g).2 hg)
    rw [maskSel_eq_rowsOf, maskSel_eq_rowsOf, maskSel_eq_rowsOf] at this
    exact this

/-- **C32 (no usable labels).** Without labels, or with a wrong number of them, all energies are
treated as one group. -/
theorem C32_no_groups (ene : List ℝ) (groups : List ℤ) (h : ene.length ≠ groups.length) :
    generateEnergyEdges ene (some groups) = generateEnergyEdges ene none := by
  simp only [generateEnergyEdges]
  rw [if_pos h]

/-- non-vacuity -/
example : 2 ≤ ([1, 4, 9] : List ℝ).length ∧ (∀ e ∈ ([1, 4, 9] : List ℝ), 0 < e) ∧
    ([1, 4, 9] : List ℝ).Pairwise (· < ·) := by
  refine ⟨by simp, ?_, ?_⟩
  · intro e he; simp at he; rcases he with rfl | rfl | rfl <;> norm_num
  · simp; norm_num
example : rowsOf [0, 1, 0] 0 ([1, 2, 3] : List ℝ) = [1, 3] := by simp [rowsOf]

end Naima.Props
