import Verif.Model.SeedText
import Verif.Props.C01_C04_Memo
import Verif.Props.C98_Scaling
import Verif.Props.C125_Descending

/-!
# C127: exchanging the photons of an InverseCompton object

Spec: after `ic.seed_photon_fields[name]["photon_density"] = new`, a flux request is answered for the new photons, whatever was
asked before.
-/

namespace Naima.Props

open Naima XR Classical

/-- **C127 (finding).** Two tables of the same energies, with more than 1000 rows, whose densities agree in the first three and
the last three rows, have the same cache key: the second request, made after the densities were exchanged, is answered with the
result of the first, whatever the difference in between. -/
theorem C127_false_long_table {ρ : Type} (fmt : List ℝ → List PyStr) (sha : PyStr → PyStr) (before after unitE unitN : PyStr)
    (r : FluxReq Unit) (t t' : List (ℝ × ℝ)) (hE : t'.map (·.1) = t.map (·.1)) (hlen : 1000 < t.length)
    (hfirst : (t'.map (·.2)).take 3 = (t.map (·.2)).take 3)
    (hlast : (t'.map (·.2)).drop (t.length - 3) = (t.map (·.2)).drop (t.length - 3))
    (compute : FluxReq (List (ℝ × ℝ)) → Except PyErr ρ) (v : ρ)
    (hv : compute (tableReq fmt before after unitE unitN r t) = .ok v) :
    (Memo.run compute (FluxReq.key sha) Memo.empty
        [(true, tableReq fmt before after unitE unitN r t), (true, tableReq fmt before after unitE unitN r t')]).1 =
      [.ok v, .ok v] := by
  have hl : t'.length = t.length := by simpa using congrArg List.length hE
  have hk : FluxReq.key sha (tableReq fmt before after unitE unitN r t') =
      FluxReq.key sha (tableReq fmt before after unitE unitN r t) := by
    have : seedText fmt before after unitE unitN t' = seedText fmt before after unitE unitN t := by
      unfold seedText quantityText arrayText
      simp only [List.length_map, hl, hE, if_neg (not_le.2 hlen), hfirst, hlast]
    unfold FluxReq.key FluxReq.token tableReq
    rw [this]
  simp [Memo.run, Memo.call, Memo.empty, Dict.get?, hv, Memo.store, Dict.set, Dict.keys, hk]

/-- **C127, the part that holds.** If the new table is written differently, the keys are different (no collision of the
hash), and the request made after the exchange is answered with the result for the new table. -/
theorem C127_shown_difference_partial {ρ : Type} (fmt : List ℝ → List PyStr) (sha : PyStr → PyStr)
    (before after unitE unitN : PyStr) (r : FluxReq Unit) (t t' : List (ℝ × ℝ))
    (hdiff : seedText fmt before after unitE unitN t ≠ seedText fmt before after unitE unitN t')
    (hcol : NoCollision sha (FluxReq.token sha (tableReq fmt before after unitE unitN r t))
      (FluxReq.token sha (tableReq fmt before after unitE unitN r t')))
    (compute : FluxReq (List (ℝ × ℝ)) → Except PyErr ρ) :
    (Memo.run compute (FluxReq.key sha) Memo.empty
        [(true, tableReq fmt before after unitE unitN r t), (true, tableReq fmt before after unitE unitN r t')]).1 =
      [compute (tableReq fmt before after unitE unitN r t), compute (tableReq fmt before after unitE unitN r t')] := by
  have hk : FluxReq.key sha (tableReq fmt before after unitE unitN r t) ≠
      FluxReq.key sha (tableReq fmt before after unitE unitN r t') := by
    intro h
    have ht := hcol h
    unfold FluxReq.token tableReq at ht
    simp [PyScalar.str] at ht
    exact hdiff ht
  have hk' : ¬ FluxReq.key sha (tableReq fmt before after unitE unitN r t) =
      FluxReq.key sha (tableReq fmt before after unitE unitN r t') := hk
  cases h1 : compute (tableReq fmt before after unitE unitN r t) <;>
  cases h2 : compute (tableReq fmt before after unitE unitN r t') <;>
  simp [Memo.run, Memo.call, Memo.empty, Dict.get?, h1, h2, Memo.store, Dict.set, Dict.keys, hk']

/-- The text of a table with at most 1000 rows shows every density: densities written differently by numpy give another text. -/
theorem C127_short_tables (fmt : List ℝ → List PyStr) (before after unitE unitN : PyStr) (t t' : List (ℝ × ℝ))
    (hE : t'.map (·.1) = t.map (·.1)) (hlen : t.length ≤ 1000)
    (hdiff : List.intercalate ", ".toList (fmt (t.map (·.2))) ≠ List.intercalate ", ".toList (fmt (t'.map (·.2)))) :
    seedText fmt before after unitE unitN t ≠ seedText fmt before after unitE unitN t' := by
  have hl : t'.length = t.length := by simpa using congrArg List.length hE
  intro h
  unfold seedText at h
  rw [hE] at h
  simp only [List.append_assoc, List.append_cancel_left_eq] at h
  have h1 : quantityText fmt (t.map (·.2)) unitN ++ ("}".toList ++ after) =
      quantityText fmt (t'.map (·.2)) unitN ++ ("}".toList ++ after) := h
  have h2 := List.append_cancel_right h1
  unfold quantityText at h2
  simp only [List.append_assoc, List.append_cancel_left_eq, List.cons_append] at h2
  have h3 : arrayText fmt (t.map (·.2)) = arrayText fmt (t'.map (·.2)) := List.append_cancel_right h2
  unfold arrayText at h3
  simp only [List.length_map, hl, if_pos hlen, List.cons_append, List.cons.injEq, true_and] at h3
  exact hdiff (List.append_cancel_right h3)

/-! ### A field for which the stale answer is wrong -/

/-- non-negative samples with two neighbouring positive ones -/
theorem trapzLL_pos_of_pair (l1 l2 : List (ℝ × ℝ)) (p q : ℝ × ℝ) (hx : ∀ r ∈ l1 ++ p :: q :: l2, 0 < r.1)
    (hy : ∀ r ∈ l1 ++ p :: q :: l2, 0 ≤ r.2) (hs : ((l1 ++ p :: q :: l2).map (·.1)).Pairwise (· < ·))
    (hp : 0 < p.2) (hq : 0 < q.2) :
    ∃ r : ℝ, 0 < r ∧ trapzLL ((l1 ++ p :: q :: l2).map (fun p => (fin p.1, fin p.2))) = fin r := by
  have hs' : (l1 ++ p :: q :: l2).Pairwise (fun a b => a.1 < b.1) := List.pairwise_map.1 hs
  have hpq : p.1 < q.1 := by
    rw [List.pairwise_append] at hs'
    exact (List.pairwise_cons.1 hs'.2.1).1 q (by simp)
  obtain ⟨a, ha, ea⟩ := C30_nonneg (l1 ++ [p]) (fun r hr => hx r (by simp at hr ⊢; tauto))
    (fun r hr => hy r (by simp at hr ⊢; tauto)) (by
      rw [List.pairwise_map]
      exact (hs'.sublist (by simp)).imp le_of_lt)
  obtain ⟨b, hb, eb⟩ := C30_positive_bin p.1 q.1 p.2 q.2 (hx p (by simp)) hpq hp hq
  obtain ⟨c, hc, ec⟩ := C30_nonneg (q :: l2) (fun r hr => hx r (by simp at hr ⊢; tauto))
    (fun r hr => hy r (by simp at hr ⊢; tauto)) (by
      rw [List.pairwise_map]
      exact (hs'.sublist (by
        refine List.Sublist.trans ?_ (List.sublist_append_right _ _)
        exact List.sublist_cons_self _ _)).imp le_of_lt)
  refine ⟨a + (b + c), by linarith, ?_⟩
  have s1 := C30_splits (l1.map (fun p => (fin p.1, fin p.2))) ((q :: l2).map (fun p => (fin p.1, fin p.2))) (fin p.1, fin p.2)
  have s2 := C30_splits [(fin p.1, fin p.2)] (l2.map (fun p => (fin p.1, fin p.2))) (fin q.1, fin q.2)
  simp only [List.cons_append, List.nil_append] at s2
  simp only [List.map_append, List.map_cons, List.map_nil] at ea ec s1 ⊢
  rw [s1, ea, s2, eb, ec, add_fin, add_fin]

/-- A photon table of 2K + 2 rows from 10⁻³ to 2·10⁻³ mc², with photons in the two rows in the middle. -/
noncomputable def spike (K : ℕ) (c : ℝ) : List (ℝ × ℝ) :=
  (List.range (K + (2 + K))).map (fun i : ℕ => ((1e-3 : ℝ) + (i : ℝ) * (1e-3 / (2 * K + 1)), if i = K ∨ i = K + 1 then c else (0 : ℝ)))

theorem spike_split (K : ℕ) (c : ℝ) : spike K c =
    (List.range K).map (fun i : ℕ => ((1e-3 : ℝ) + i * (1e-3 / (2 * K + 1)), (0 : ℝ))) ++
    ((1e-3 : ℝ) + (K : ℝ) * (1e-3 / (2 * K + 1)), c) :: ((1e-3 : ℝ) + ((K + 1 : ℕ) : ℝ) * (1e-3 / (2 * K + 1)), c) ::
      (List.range K).map (fun i : ℕ => ((1e-3 : ℝ) + ((K + (2 + i) : ℕ) : ℝ) * (1e-3 / (2 * K + 1)), (0 : ℝ))) := by
  unfold spike
  rw [List.range_add, List.range_add, List.map_append]
  congr 1
  · apply List.map_congr_left
    intro i hi
    have : i < K := List.mem_range.1 hi
    rw [if_neg (by omega)]
  · rw [show List.range 2 = [0, 1] from rfl]
    simp only [List.map_append, List.map_cons, List.map_nil, List.map_map, List.cons_append, List.nil_append, add_zero]
    rw [if_pos (by simp), if_pos (by simp)]
    congr 2
    apply List.map_congr_left
    intro i _
    simp only [Function.comp_apply]
    rw [if_neg (by omega)]

theorem spike_mem (K : ℕ) (c : ℝ) (hc : 0 ≤ c) : ∀ q ∈ spike K c, 1e-3 ≤ q.1 ∧ q.1 ≤ 2e-3 ∧ 0 ≤ q.2 := by
  intro q hq
  obtain ⟨i, hi, rfl⟩ := List.mem_map.1 hq
  have h1 : (i : ℝ) ≤ 2 * K + 1 := by
    have := List.mem_range.1 hi
    exact_mod_cast (by omega : i ≤ 2 * K + 1)
  have h0 : (0 : ℝ) ≤ i := Nat.cast_nonneg i
  have hK : (0 : ℝ) < 2 * K + 1 := by positivity
  have hr : (i : ℝ) / (2 * K + 1) ≤ 1 := (div_le_one hK).2 h1
  have hr0 : 0 ≤ (i : ℝ) / (2 * K + 1) := by positivity
  have e : (i : ℝ) * (1e-3 / (2 * K + 1)) = i / (2 * K + 1) * 1e-3 := by ring
  simp only [e]
  refine ⟨by nlinarith, by nlinarith, ?_⟩
  split <;> [exact hc; exact le_rfl]

theorem spike_sorted (K : ℕ) (c : ℝ) : ((spike K c).map (·.1)).Pairwise (· < ·) := by
  unfold spike
  rw [List.map_map, List.pairwise_map]
  apply List.pairwise_lt_range.imp
  intro i j hij
  have : (i : ℝ) < j := by exact_mod_cast hij
  have hK : (0 : ℝ) < 1e-3 / (2 * K + 1) := by positivity
  simp only [Function.comp_apply]
  nlinarith

theorem spike_length (K : ℕ) (c : ℝ) : (spike K c).length = 2 * K + 2 := by
  unfold spike
  rw [List.length_map, List.length_range]
  omega

/-- **C127 (finding, in numbers).** For every electron population above 1000 mc²: the table `spike K 1` gives a positive spectrum
at the energy mc²; doubling its densities doubles the spectrum; but an object that has answered the first request answers the
second, made after the densities were doubled, with the first value. -/
theorem C127_false_stale_spectrum (fmt : List ℝ → List PyStr) (sha : PyStr → PyStr) (before after unitE unitN : PyStr)
    (r : FluxReq Unit) (m : ElModel) (pd : PDist) (hu : pd.unit.dim = Dim.diffEnergy)
    (hlo : m.Eemin.PosEnergy) (hhi : m.Eemax.PosEnergy) (hus : 0 < pd.unit.scale)
    (K : ℕ) (hK : 500 ≤ K) (hlt : m.Eemin.phys < m.Eemax.phys) (h1000 : 1000 * (cMe * cC ^ 2) ≤ m.Eemin.phys)
    (hp : ∀ E ∈ Set.Icc m.Eemin.phys m.Eemax.phys, ∃ r : ℝ, pd.f E = fin r ∧ 0 < r) :
    ∃ v : ℝ, 0 < v ∧
      icSpectrum m [.array ((spike K 1).map (·.1)) ((spike K 1).map (fun q => fin q.2)) none] pd [cMe * cC ^ 2] = .ok [fin v] ∧
      icSpectrum m [.array ((spike K 2).map (·.1)) ((spike K 2).map (fun q => fin q.2)) none] pd [cMe * cC ^ 2] = .ok [fin (2 * v)] ∧
      (Memo.run (fun q : FluxReq (List (ℝ × ℝ)) =>
          icSpectrum m [.array (q.hidden.map (·.1)) (q.hidden.map (fun q => fin q.2)) none] pd [cMe * cC ^ 2])
        (FluxReq.key sha) Memo.empty
        [(true, tableReq fmt before after unitE unitN r (spike K 1)), (true, tableReq fmt before after unitE unitN r (spike K 2))]).1 =
        [.ok [fin v], .ok [fin v]] := by
  have hm : 0 < cMe * cC ^ 2 := cMec2_pos
  have hev := cEV_pos
  have hlen := spike_length K 1
  have hmem1 := spike_mem K 1 zero_le_one
  have h0 : ∀ q ∈ spike K 1, 0 < q.1 := fun q hq => lt_of_lt_of_le (by norm_num) (hmem1 q hq).1
  obtain ⟨gam, hg, hgp, hf⟩ := C71_spectral m pd hu hlo hhi hlt.le (spike K 1) (by rw [hlen]; omega) h0 none [cMe * cC ^ 2]
    (by simpa using hm)
  have hmem := gam_mem m.nEed m.Eemin m.Eemax hlo hhi hlt.le gam hg
  have hlog : LogGrid gam (m.Eemin.phys / cMec2) (m.Eemax.phys / cMec2) := by
    obtain ⟨g', e, hs'⟩ := gamGrid_logGrid m.nEed m.Eemin m.Eemax hlo hhi hlt
    have : m.gam = .ok g' := e
    rw [hg] at this
    injection this with this
    rw [this]; exact hs'
  have hy : ∀ g, ∃ y : ℝ, g ∈ gam → (0 < y ∧ electrons pd g * trapzLL ((spike K 1).map (fun p => (fin p.1,
      fin (p.2 * monoRate g p.1 (cMe * cC ^ 2 / (cMe * cC ^ 2)))))) = fin y) := by
    intro g
    by_cases hgm : g ∈ gam
    · have hge := hmem g hgm
      have hg1 : 1000 ≤ g := by
        have : 1000 * cMec2 ≤ g * cMec2 := h1000.trans hge.1
        exact le_of_mul_le_mul_right this cMec2_pos
      obtain ⟨s, a, b⟩ := hp _ hge
      have hfield : ∃ x : ℝ, 0 < x ∧ trapzLL ((spike K 1).map (fun p => (fin p.1, fin (p.2 * monoRate g p.1 1)))) = fin x := by
        have hrate : ∀ q ∈ spike K 1, 0 < monoRate g q.1 1 := fun q hq => monoRate_pos g q.1 hg1 (hmem1 q hq).1 (hmem1 q hq).2.1
        have hsplit := spike_split K 1
        have hin1 : ((1e-3 : ℝ) + K * (1e-3 / (2 * K + 1)), (1 : ℝ)) ∈ spike K 1 := by rw [hsplit]; simp
        have hin2 : ((1e-3 : ℝ) + ((K + 1 : ℕ) : ℝ) * (1e-3 / (2 * K + 1)), (1 : ℝ)) ∈ spike K 1 := by rw [hsplit]; simp
        have key := trapzLL_pos_of_pair
          (((List.range K).map (fun i : ℕ => ((1e-3 : ℝ) + i * (1e-3 / (2 * K + 1)), (0 : ℝ)))).map
            (fun p => (p.1, p.2 * monoRate g p.1 1)))
          (((List.range K).map (fun i : ℕ => ((1e-3 : ℝ) + ((K + (2 + i) : ℕ) : ℝ) * (1e-3 / (2 * K + 1)), (0 : ℝ)))).map
            (fun p => (p.1, p.2 * monoRate g p.1 1)))
          ((1e-3 : ℝ) + (K : ℝ) * (1e-3 / (2 * K + 1)), 1 * monoRate g ((1e-3 : ℝ) + (K : ℝ) * (1e-3 / (2 * K + 1))) 1)
          ((1e-3 : ℝ) + ((K + 1 : ℕ) : ℝ) * (1e-3 / (2 * K + 1)), 1 * monoRate g ((1e-3 : ℝ) + ((K + 1 : ℕ) : ℝ) * (1e-3 / (2 * K + 1))) 1)
        have e : (spike K 1).map (fun p => (p.1, p.2 * monoRate g p.1 1)) =
            ((List.range K).map (fun i : ℕ => ((1e-3 : ℝ) + i * (1e-3 / (2 * K + 1)), (0 : ℝ)))).map
              (fun p => (p.1, p.2 * monoRate g p.1 1)) ++
            ((1e-3 : ℝ) + (K : ℝ) * (1e-3 / (2 * K + 1)), 1 * monoRate g ((1e-3 : ℝ) + (K : ℝ) * (1e-3 / (2 * K + 1))) 1) ::
            ((1e-3 : ℝ) + ((K + 1 : ℕ) : ℝ) * (1e-3 / (2 * K + 1)), 1 * monoRate g ((1e-3 : ℝ) + ((K + 1 : ℕ) : ℝ) * (1e-3 / (2 * K + 1))) 1) ::
            ((List.range K).map (fun i : ℕ => ((1e-3 : ℝ) + ((K + (2 + i) : ℕ) : ℝ) * (1e-3 / (2 * K + 1)), (0 : ℝ)))).map
              (fun p => (p.1, p.2 * monoRate g p.1 1)) := by
          rw [hsplit, List.map_append, List.map_cons, List.map_cons]
        rw [← e] at key
        obtain ⟨x, hx, ex⟩ := key
          (by intro z hz; obtain ⟨q, hq, rfl⟩ := List.mem_map.1 hz; exact h0 q hq)
          (by intro z hz; obtain ⟨q, hq, rfl⟩ := List.mem_map.1 hz
              exact mul_nonneg (hmem1 q hq).2.2 (hrate q hq).le)
          (by simpa [List.map_map, Function.comp_def] using spike_sorted K 1)
          (by rw [one_mul]; exact monoRate_pos g _ hg1 (hmem1 _ hin1).1 (hmem1 _ hin1).2.1)
          (by rw [one_mul]; exact monoRate_pos g _ hg1 (hmem1 _ hin2).1 (hmem1 _ hin2).2.1)
        rw [List.map_map] at ex
        exact ⟨x, hx, ex⟩
      obtain ⟨x, hx, ex⟩ := hfield
      refine ⟨s * (pd.unit.scale * cMec2) * x, fun _ => ⟨?_, ?_⟩⟩
      · have := cMec2_pos
        positivity
      · rw [div_self hm.ne', ex]
        show pd.f (g * cMec2) * fin (pd.unit.scale * cMec2) * _ = _
        rw [a, mul_fin, mul_fin]
    · exact ⟨1, fun h => absurd h hgm⟩
  choose y hy using hy
  obtain ⟨x, hx, ex⟩ := trapzLL_pos_strict (gam.map (fun g => (g, y g))) (by
      have := hlog.ten; simp only [List.length_map]; omega)
    (by intro x hx; obtain ⟨g, hgm, rfl⟩ := List.mem_map.1 hx; exact hgp g hgm)
    (by intro x hx; obtain ⟨g, hgm, rfl⟩ := List.mem_map.1 hx; exact (hy g hgm).1)
    (by simpa [List.map_map, Function.comp_def] using hlog.increasing)
  have e1 : icSpectrum m [.array ((spike K 1).map (·.1)) ((spike K 1).map (fun q => fin q.2)) none] pd [cMe * cC ^ 2] =
      .ok [fin (cEV / (cMe * cC ^ 2) * x)] := by
    rw [hf, List.map_cons, List.map_nil, ← mul_fin, ← ex, List.map_map]
    congr 4
    apply List.map_congr_left
    intro g hgm
    simp only [Function.comp_apply, Prod.mk.injEq, true_and]
    exact (hy g hgm).2
  have hE : (spike K 2).map (·.1) = (spike K 1).map (·.1) := by simp only [spike, List.map_map, Function.comp_def]
  have hD : (spike K 2).map (fun q => fin q.2) = ((spike K 1).map (fun q => fin q.2)).map (fun a => fin 2 * a) := by
    unfold spike
    rw [List.map_map, List.map_map, List.map_map]
    apply List.map_congr_left
    intro i _
    simp only [Function.comp_apply]
    rw [mul_fin]
    split <;> simp
  refine ⟨cEV / (cMe * cC ^ 2) * x, by positivity, e1, ?_, ?_⟩
  · have := icSpectrum_times 2 two_pos (l := [.array ((spike K 1).map (·.1)) ((spike K 1).map (fun q => fin q.2)) none])
      (l' := [.array ((spike K 2).map (·.1)) ((spike K 2).map (fun q => fin q.2)) none])
      (List.Forall₂.cons (by rw [hE, hD]; exact rfl) List.Forall₂.nil) m pd [cMe * cC ^ 2]
    rw [this, e1]
    simp [Except.map, mul_fin]
  · apply C127_false_long_table fmt sha before after unitE unitN r (spike K 1) (spike K 2) hE (by rw [hlen]; omega)
    · simp only [spike, List.map_map]
      rw [← List.map_take, ← List.map_take]
      apply List.map_congr_left
      intro i hi
      have : i < 3 := by
        obtain ⟨k, hk, e⟩ := List.mem_iff_getElem.1 hi
        simp only [List.getElem_take, List.getElem_range] at e
        rw [List.length_take] at hk
        omega
      simp only [Function.comp_apply]
      rw [if_neg (by omega), if_neg (by omega)]
    · rw [hlen]
      simp only [spike, List.map_map]
      rw [← List.map_drop, ← List.map_drop]
      apply List.map_congr_left
      intro i hi
      have : K + 1 < i := by
        obtain ⟨k, hk, e⟩ := List.mem_iff_getElem.1 hi
        simp only [List.getElem_drop, List.getElem_range] at e
        omega
      simp only [Function.comp_apply]
      rw [if_neg (by omega), if_neg (by omega)]
    · exact e1

/-! ### The hypotheses are met -/

example (fmt : List ℝ → List PyStr) (sha : PyStr → PyStr) (r : FluxReq Unit) :=
  C127_false_stale_spectrum fmt sha [] [] "eV".toList "1 / (cm3 eV)".toList r exEl exPd rfl exEl_lo exEl_hi one_pos 500 le_rfl exEl_lt
  (by simp only [exEl, Qty.phys, PhysUnit.GeV, cMe, cC]; norm_num) (fun E hE => by
    obtain ⟨r, a, b⟩ := exPd_f E (exEl_lo.phys_pos.trans_le hE.1); exact ⟨r, b, a⟩)

/-- A format that writes one star per unit of density tells these two tables apart. -/
example : ∃ fmt : List ℝ → List PyStr, List.intercalate ", ".toList (fmt ([((1 : ℝ), (1 : ℝ)), (2, 3)].map (·.2))) ≠
    List.intercalate ", ".toList (fmt ([((1 : ℝ), (1 : ℝ)), (2, 1)].map (·.2))) :=
  ⟨fun l => l.map (fun x => List.replicate ⌊x⌋₊ '*'), by simp [List.intercalate, List.intersperse]⟩

end Naima.Props
