import Verif.Props.C110_PlotInput
import Verif.Props.C31_C32_Edges

/-! # C110: tables without bin columns can be drawn

The bins generated for them lie at positive energies, which is what `C110_tables` and `C110_sampler` ask for. -/

namespace Naima.Props

open Naima XR Classical Spec

/-- The energies of the rows of one group, in the order of the table; without a group column all rows are of one
group. -/
noncomputable def groupEnergies (t : InTable) (g : ℤ) : List ℝ :=
  (t.rows.filter (fun r => !t.hasGroup || decide (r.group = g))).map (·.energy)

theorem rowsOf_map {α β : Type} (rows : List α) (grp : α → ℤ) (f : α → β) (g : ℤ) :
    rowsOf (rows.map grp) g (rows.map f) = (rows.filter (fun r => decide (grp r = g))).map f := by
  unfold rowsOf
  induction rows with
  | nil => rfl
  | cons a rows ih =>
    simp only [List.map_cons, List.zip_cons_cons, List.filter_cons]
    by_cases h : grp a = g
    · simp only [h, decide_true, if_true, List.map_cons]; rw [ih]
    · simp only [h, decide_false]; exact ih

theorem rowsOf_zip {α β : Type} (groups : List ℤ) (g : ℤ) (a : List α) (b : List β) :
    rowsOf groups g (a.zip b) = (rowsOf groups g a).zip (rowsOf groups g b) ∨
      a.length ≠ groups.length ∨ b.length ≠ groups.length := by
  by_cases h : a.length = groups.length ∧ b.length = groups.length
  · left
    obtain ⟨ha, hb⟩ := h
    unfold rowsOf
    induction groups generalizing a b with
    | nil => simp
    | cons c groups ih =>
      match a, b, ha, hb with
      | x :: a, y :: b, ha, hb =>
        have := ih a b (by simpa using ha) (by simpa using hb)
        simp only [List.zip_cons_cons, List.filter_cons]
        by_cases hc : c = g
        · simp only [hc, decide_true, if_true, List.map_cons, List.zip_cons_cons]; rw [this]
        · simp only [hc, decide_false]; exact this
  · right
    by_contra hc
    push Not at hc
    exact h hc

theorem mem_rowsOf {α : Type} (groups : List ℤ) (l : List α) (h : l.length = groups.length) (x : α) (hx : x ∈ l) :
    ∃ g ∈ groups, x ∈ rowsOf groups g l := by
  obtain ⟨k, hk, rfl⟩ := List.getElem_of_mem hx
  refine ⟨groups[k]'(h ▸ hk), List.getElem_mem _, ?_⟩
  unfold rowsOf
  refine List.mem_map.2 ⟨(groups[k]'(h ▸ hk), l[k]), List.mem_filter.2 ⟨?_, by simp⟩, rfl⟩
  rw [List.mem_iff_getElem]
  exact ⟨k, by rw [List.length_zip]; omega, by simp⟩

/-- the generated bins of one group -/
theorem single_bins (ene elo ehi : List ℝ) (hpos : ∀ e ∈ ene, 0 < e) (hs : ene.Pairwise (· < ·))
    (h : generateEnergyEdges ene none = .ok (elo, ehi)) :
    ∀ q ∈ ene.zip (elo.zip ehi), 0 ≤ q.2.1 ∧ q.2.1 < q.1 ∧ 0 ≤ q.2.2 := by
  match ene, hpos, hs, h with
  | [], _, _, _ => simp
  | [e], hpos, _, h =>
    rw [(C31_short_arrays e (hpos e (by simp))).1] at h
    cases h
    simp only [List.zip_cons_cons, List.zip_nil_right, List.mem_singleton, forall_eq]
    exact ⟨le_rfl, hpos e (by simp), le_rfl⟩
  | a :: b :: rest, hpos, hs, h =>
    obtain ⟨elo', ehi', h', l1, l2, hb, -⟩ := C31_bins_tile (a :: b :: rest) (by simp) hpos hs
    rw [h] at h'
    cases h'
    intro q hq
    obtain ⟨k, hk, rfl⟩ := List.getElem_of_mem hq
    rw [List.length_zip, List.length_zip] at hk
    have hk1 : k < (a :: b :: rest).length := by omega
    have := hb k hk1
    rw [List.getD_eq_getElem _ _ (by omega), List.getD_eq_getElem _ _ (by omega),
      List.getD_eq_getElem _ _ (by omega)] at this
    simp only [List.getElem_zip]
    exact ⟨this.1.le, by linarith [this.2.2], this.2.1.le⟩

/-- **C110 (generated bins).** Tables without columns for the energy bins, whose energies are positive and increase
from row to row within each group, have bins at positive energies. -/
theorem C110_generated_bins (ts : List InTable)
    (h : ∀ t ∈ ts, ¬ GivenWidths t ∧ (∃ u, t.energyU = some u ∧ 0 < u.scale) ∧ (∀ r ∈ t.rows, 0 < r.energy) ∧
      ∀ g, (groupEnergies t g).Pairwise (· < ·)) : BinsPositive ts := by
  intro i t hi widths hw q hq
  obtain ⟨hng, ⟨u, hu, hup⟩, hpos, hs⟩ := h t (List.mem_of_getElem? hi)
  obtain ⟨lo, hi', hgen, rfl⟩ := hw.2 hng
  set grp : RawRow → ℤ := fun r => if t.hasGroup then r.group else (i : ℤ) with hgrp
  obtain ⟨elo, ehi, h1, l1, l2, hsub⟩ := C32_edges_per_group (t.rows.map (·.energy)) (t.rows.map grp) (by simp)
  rw [h1] at hgen
  cases hgen
  have key : ∀ p ∈ (t.rows.map (·.energy)).zip (lo.zip hi'), 0 ≤ p.2.1 ∧ p.2.1 < p.1 ∧ 0 ≤ p.2.2 := by
    intro p hp
    simp only [List.length_map] at l1 l2
    obtain ⟨g, hg, hpg⟩ := mem_rowsOf (t.rows.map grp) _ (by simp; omega) p hp
    have z1 := (rowsOf_zip (t.rows.map grp) g (t.rows.map (·.energy)) (lo.zip hi')).resolve_right (by
      simp; omega)
    have z2 := (rowsOf_zip (t.rows.map grp) g lo hi').resolve_right (by simp; omega)
    rw [z1, z2] at hpg
    refine single_bins _ _ _ ?_ ?_ (hsub g hg) p hpg
    · rw [rowsOf_map]
      intro e he
      obtain ⟨r, hr, rfl⟩ := List.mem_map.1 he
      exact hpos r (List.mem_filter.1 hr).1
    · rw [rowsOf_map]
      have := hs g
      unfold groupEnergies at this
      by_cases hG : t.hasGroup = true
      · simpa [hgrp, hG] using this
      · have hG' : t.hasGroup = false := by simpa using hG
        obtain ⟨r, -, hr⟩ := List.mem_map.1 hg
        simp only [hgrp, hG', Bool.false_eq_true, if_false] at hr
        simpa [hgrp, hG', hr] using this
  obtain ⟨k, hk, rfl⟩ := List.getElem_of_mem hq
  simp only [List.length_zip, List.length_map] at hk l1 l2
  have hkk := key (t.rows[k].energy, (lo[k], hi'[k])) (by
    rw [List.mem_iff_getElem]
    exact ⟨k, by simp; omega, by simp⟩)
  simp only [List.getElem_zip, List.getElem_map, phys, hu]
  obtain ⟨a, b, c⟩ := hkk
  exact ⟨mul_nonneg a hup.le, mul_lt_mul_of_pos_right b hup, mul_nonneg c hup.le⟩

/-! ### The hypotheses are met -/

/-- Two groups measured at interleaved energies (1 and 4 TeV, 2 and 3 TeV), no bins given. -/
noncomputable def exNoBins : InTable where
  energyU := some PhysUnit.TeV
  fluxU := some ⟨1, Dim.diffFlux⟩
  fluxErrorU := some ⟨1, Dim.diffFlux⟩
  hasGroup := true
  rows := [{ energy := 1, flux := 5, fluxError := 1, group := 0 }, { energy := 2, flux := 3, fluxError := 1, group := 1 },
    { energy := 4, flux := 1, fluxError := 1 / 2, group := 0 }, { energy := 3, flux := 2, fluxError := 1, group := 1 }]

example : BinsPositive [exNoBins] := by
  apply C110_generated_bins
  simp only [List.mem_singleton, forall_eq]
  refine ⟨by simp [GivenWidths, exNoBins], ⟨PhysUnit.TeV, rfl, by simp only [PhysUnit.TeV]; norm_num⟩, ?_, fun g => ?_⟩
  · simp [exNoBins]
  · by_cases h0 : g = 0
    · subst h0; simp [groupEnergies, exNoBins]
    · by_cases h1 : g = 1
      · subst h1; simp [groupEnergies, exNoBins]; norm_num
      · simp [groupEnergies, exNoBins, List.filter_cons, Ne.symm h0, Ne.symm h1]

end Naima.Props
