import Verif.Model.Distribution
import Verif.Props.C78_ChainSummary
import Verif.Props.C89_Curves

/-! # C91: best model, blob figures and distributions -/

namespace Naima.Props

open Naima XR Classical

/-! ### Percentiles count samples -/

theorem countP_sorted_le (s : List ℝ) (k : ℕ) (P : ℝ → Bool) (h : ∀ i (hi : i < s.length), k ≤ i → P s[i] = false) :
    s.countP P ≤ k := by
  rw [← List.take_append_drop k s, List.countP_append]
  have h1 : (s.take k).countP P ≤ k := le_trans List.countP_le_length (by simp)
  have h2 : (s.drop k).countP P = 0 := by
    rw [List.countP_eq_zero]
    intro a ha
    obtain ⟨i, hi, rfl⟩ := List.mem_iff_getElem.1 ha
    rw [List.getElem_drop]
    simp only [List.length_drop] at hi
    rw [h (k + i) (by omega) (by omega)]
    simp
  omega

theorem countP_sorted_ge (s : List ℝ) (k : ℕ) (P : ℝ → Bool) (h : ∀ i (hi : i < s.length), i < k → P s[i] = false) :
    s.countP P ≤ s.length - k := by
  rw [← List.take_append_drop k s, List.countP_append]
  have h1 : (s.drop k).countP P ≤ s.length - k := le_trans List.countP_le_length (by simp)
  have h2 : (s.take k).countP P = 0 := by
    rw [List.countP_eq_zero]
    intro a ha
    obtain ⟨i, hi, rfl⟩ := List.mem_iff_getElem.1 ha
    rw [List.getElem_take]
    simp only [List.length_take] at hi
    rw [h i (by omega) (by omega)]
    simp
  simp only [List.length_append, List.length_take, List.length_drop] at *
  omega

/-- **C91 (percentiles count).** Of `n` samples at most `q/100·(n - 1) + 1` are below the `q`-th percentile
and at most `(1 - q/100)·(n - 1) + 1` above it. -/
theorem C91_percentile_counts (l : List ℝ) (hl : l ≠ []) (q : ℝ) (h0 : 0 ≤ q) (h1 : q ≤ 100) :
    ((l.countP (fun x => x < percentile l q) : ℕ) : ℝ) ≤ q / 100 * (l.length - 1) + 1 ∧
    ((l.countP (fun x => percentile l q < x) : ℕ) : ℝ) ≤ (1 - q / 100) * (l.length - 1) + 1 := by
  have hp := List.mergeSort_perm l (fun a b : ℝ => decide (a ≤ b))
  set s := l.mergeSort (fun a b : ℝ => decide (a ≤ b)) with hs
  have hsort : s.Pairwise (fun a b => a ≤ b) := realSort_sorted l
  have hll : s.length = l.length := hp.length_eq
  have hlen : 0 < s.length := by rw [hll]; exact List.length_pos_iff.2 hl
  have hpos : (1 : ℝ) ≤ l.length := by rw [← hll]; exact_mod_cast hlen
  set t : ℝ := ((l.length : ℝ) - 1) * (q / 100) with ht
  have ht0 : 0 ≤ t := mul_nonneg (by linarith) (by linarith)
  have ht1 : t ≤ (l.length : ℝ) - 1 := by rw [ht]; nlinarith
  have ft := Nat.floor_le ht0
  have ft1 := Nat.lt_floor_add_one t
  have hfl : ⌊t⌋₊ ≤ s.length - 1 := by
    have : (⌊t⌋₊ : ℝ) ≤ ((s.length - 1 : ℕ) : ℝ) := by
      rw [Nat.cast_sub hlen, hll]; push_cast; linarith
    exact_mod_cast this
  have hle : ∀ i j, i ≤ j → j < s.length → s.getD i 0 ≤ s.getD j 0 := by
    intro i j hij hj
    rw [getD_get _ _ (by omega), getD_get _ _ hj]
    exact sorted_get (fun a => le_refl a) s hsort i j hij hj
  have hpc : percentile l q = s.getD ⌊t⌋₊ 0 + (t - ⌊t⌋₊) * (s.getD (min (⌊t⌋₊ + 1) (l.length - 1)) 0 - s.getD ⌊t⌋₊ 0) := by
    unfold percentile
    simp only [← hs, ← ht]
  have hd : s.getD ⌊t⌋₊ 0 ≤ s.getD (min (⌊t⌋₊ + 1) (l.length - 1)) 0 := hle _ _ (by omega) (by omega)
  have lo : s.getD ⌊t⌋₊ 0 ≤ percentile l q := by
    rw [hpc]
    have : 0 ≤ (t - ⌊t⌋₊) * (s.getD (min (⌊t⌋₊ + 1) (l.length - 1)) 0 - s.getD ⌊t⌋₊ 0) :=
      mul_nonneg (by linarith) (by linarith)
    linarith
  have hi : percentile l q ≤ s.getD (min (⌊t⌋₊ + 1) (l.length - 1)) 0 := by
    rw [hpc]
    nlinarith
  constructor
  · rw [← hp.countP_eq]
    have := countP_sorted_le s (⌊t⌋₊ + 1) (fun x => x < percentile l q) (by
      intro i hi' hk
      simp only [decide_eq_false_iff_not, not_lt]
      refine hi.trans ?_
      have := hle (min (⌊t⌋₊ + 1) (l.length - 1)) i (by omega) hi'
      rwa [getD_get _ _ hi'] at this)
    have h' : ((s.countP (fun x => x < percentile l q) : ℕ) : ℝ) ≤ (⌊t⌋₊ : ℝ) + 1 := by exact_mod_cast this
    calc _ ≤ (⌊t⌋₊ : ℝ) + 1 := h'
      _ ≤ t + 1 := by linarith
      _ = _ := by rw [ht]; ring
  · rw [← hp.countP_eq]
    have := countP_sorted_ge s (⌊t⌋₊ + 1) (fun x => percentile l q < x) (by
      intro i hi' hk
      simp only [decide_eq_false_iff_not, not_lt]
      refine le_trans ?_ lo
      have := hle i ⌊t⌋₊ (by omega) (by omega)
      rwa [getD_get _ _ hi'] at this)
    have h' : ((s.countP (fun x => percentile l q < x) : ℕ) : ℝ) ≤ (s.length : ℝ) - (⌊t⌋₊ + 1) := by
      have h2 : ((s.countP (fun x => percentile l q < x) : ℕ) : ℝ) ≤ ((s.length - (⌊t⌋₊ + 1) : ℕ) : ℝ) := by
        exact_mod_cast this
      rw [Nat.cast_sub (by omega)] at h2
      push_cast at h2
      exact h2
    calc _ ≤ (s.length : ℝ) - (⌊t⌋₊ + 1) := h'
      _ ≤ (l.length : ℝ) - t := by rw [hll]; linarith
      _ = _ := by rw [ht]; ring

/-- the samples inside a span are those that are neither below nor above -/
theorem countP_inside (l : List ℝ) (a b : ℝ) :
    l.length ≤ l.countP (fun x => a ≤ x ∧ x ≤ b) + l.countP (fun x => x < a) + l.countP (fun x => b < x) := by
  induction l with
  | nil => simp
  | cons x l ih =>
    simp only [List.countP_cons, List.length_cons]
    by_cases h1 : x < a
    · simp only [h1, decide_true, if_true]; omega
    · by_cases h2 : b < x
      · simp only [h2, decide_true, if_true]; omega
      · have : (a ≤ x ∧ x ≤ b) := ⟨not_lt.1 h1, not_lt.1 h2⟩
        simp only [this, and_self, decide_true, if_true]; omega

/-! ### Distributions -/

/-- **C91 (distribution, partial).** For every set of samples with a median that is not zero and strictly
between the 16th and 84th percentiles, `plot_distribution` succeeds: the line is the median, it lies in the
shaded span; at most half of the samples (and one) are on either side of the line; the span contains at least
68 % of the samples but two; the printed line summarises the same numbers (C78); there are 25 to 100 bins.
Missing: a median of zero (`C91_false_zero_median`) or equal to a percentile (`C91_false_equal`). -/
theorem C91_distribution_partial (rnd : ℝ → ℤ) (hr : IsRounding rnd) (l : List ℝ) (hl : l ≠ [])
    (h0 : percentile l 50 ≠ 0) (h1 : percentile l 16 < percentile l 50) (h2 : percentile l 50 < percentile l 84) :
    ∃ f, plotDistribution rnd l = .ok f ∧
      ((l.countP (fun x => x < f.median) : ℕ) : ℝ) ≤ (l.length - 1) / 2 + 1 ∧
      ((l.countP (fun x => f.median < x) : ℕ) : ℝ) ≤ (l.length - 1) / 2 + 1 ∧
      f.span.1 < f.median ∧ f.median < f.span.2 ∧
      0.68 * (l.length : ℝ) - 2 ≤ ((l.countP (fun x => f.span.1 ≤ x ∧ x ≤ f.span.2) : ℕ) : ℝ) ∧
      Summarises f.shown f.median (f.median - f.span.1) (f.span.2 - f.median) ∧
      25 ≤ f.bins ∧ f.bins ≤ 100 ∧ f.std ^ 2 * l.length = (l.map (fun x => (x - l.sum / l.length) ^ 2)).sum := by
  obtain ⟨s, e, hp, -⟩ := C78_printed rnd hr _ _ _ h0 (sub_pos.2 h1) (sub_pos.2 h2)
  have hn : (0 : ℝ) < l.length := by exact_mod_cast List.length_pos_iff.2 hl
  refine ⟨_, by unfold plotDistribution summaryLine; rw [if_neg hl, e], ?_, ?_, h1, h2, ?_,
    hp.summarises (sub_pos.2 h1) (sub_pos.2 h2), ?_, ?_, ?_⟩
  · have := (C91_percentile_counts l hl 50 (by norm_num) (by norm_num)).1
    show ((l.countP (fun x => x < percentile l 50) : ℕ) : ℝ) ≤ _
    linarith
  · have := (C91_percentile_counts l hl 50 (by norm_num) (by norm_num)).2
    show ((l.countP (fun x => percentile l 50 < x) : ℕ) : ℝ) ≤ _
    linarith
  · have a := (C91_percentile_counts l hl 16 (by norm_num) (by norm_num)).1
    have b := (C91_percentile_counts l hl 84 (by norm_num) (by norm_num)).2
    have c : (l.length : ℝ) ≤ ((l.countP (fun x => percentile l 16 ≤ x ∧ x ≤ percentile l 84) : ℕ) : ℝ) +
        ((l.countP (fun x => x < percentile l 16) : ℕ) : ℝ) + ((l.countP (fun x => percentile l 84 < x) : ℕ) : ℝ) := by
      exact_mod_cast countP_inside l (percentile l 16) (percentile l 84)
    show _ ≤ ((l.countP (fun x => percentile l 16 ≤ x ∧ x ≤ percentile l 84) : ℕ) : ℝ)
    linarith
  · show 25 ≤ min (max 25 (l.length / 100)) 100
    omega
  · show min (max 25 (l.length / 100)) 100 ≤ 100
    omega
  · show npStd l ^ 2 * _ = _
    unfold npStd
    rw [Real.sq_sqrt (div_nonneg (List.sum_nonneg (by
      intro x hx
      obtain ⟨y, -, rfl⟩ := List.mem_map.1 hx
      positivity)) hn.le), div_mul_cancel₀ _ hn.ne']

/-- **C91 fails for a median of zero.** The distribution of a quantity that scatters around zero cannot be
plotted: OverflowError. -/
theorem C91_false_zero_median (rnd : ℝ → ℤ) (l : List ℝ) (hl : l ≠ []) (h : percentile l 50 = 0) :
    plotDistribution rnd l = .error .overflowError := by
  unfold plotDistribution summaryLine latexValueError
  rw [if_neg hl, if_pos h]

/-- **C91 fails for samples that are equal.** If the median equals the 16th percentile, as for samples that
are all equal, the distribution cannot be plotted: OverflowError. -/
theorem C91_false_equal (rnd : ℝ → ℤ) (l : List ℝ) (hl : l ≠ []) (h : percentile l 50 = percentile l 16) :
    plotDistribution rnd l = .error .overflowError := by
  by_cases h0 : percentile l 50 = 0
  · exact C91_false_zero_median rnd l hl h0
  · unfold plotDistribution summaryLine latexValueError
    rw [if_neg hl, if_neg h0]
    have : percentile l 50 - percentile l 16 = 0 := by rw [h]; ring
    rw [this]
    simp only [zero_div, ite_self]
    have hd : decimals 0 = .error .overflowError := by unfold decimals; rw [if_pos rfl]
    simp only [hd, bind, Except.bind]

/-- Non-vacuity: the samples 3, 1, 2. -/
example : percentile [3, 1, 2] 50 ≠ 0 ∧ percentile [3, 1, 2] 16 < percentile [3, 1, 2] 50 ∧
    percentile [3, 1, 2] 50 < percentile [3, 1, 2] 84 := by
  obtain ⟨a, b, c⟩ := percentile_123
  rw [a, b, c]
  norm_num

/-! ### The figure of a blob -/

/-- Gathering blobs of one kind. -/
theorem gather_uniform (blobs : List (List (List MBlob))) (idx : ℕ) (ls : Bool) (wrap : BQty → MBlob)
    (conv : MBlob → Except PyErr BQty) (Q : BQty → Prop) (hconv : ∀ q, Q q → conv (wrap q) = .ok q)
    (hall : ∀ w ∈ samplesOf ls blobs, ∃ q, w[idx]? = some (wrap q) ∧ Q q) :
    ∃ qs, List.Forall₂ (fun w q => w[idx]? = some (wrap q) ∧ Q q) (samplesOf ls blobs) qs ∧
      (gatherBlobs blobs idx ls).bind (fun l => (l.mapM conv).bind stackQty) = stackQty qs := by
  obtain ⟨qs, hqs⟩ := get_of_mem_forall _ hall
  refine ⟨qs, hqs, ?_⟩
  have hg : gatherBlobs blobs idx ls = .ok (qs.map wrap) ∧ (qs.map wrap).mapM conv = .ok qs := by
    unfold gatherBlobs
    change (samplesOf ls blobs).mapM (blobAt idx) = _ ∧ _
    clear hall
    generalize samplesOf ls blobs = samples at hqs
    induction hqs with
    | nil => exact ⟨rfl, rfl⟩
    | cons h _ ih =>
      constructor
      · rw [List.mapM_cons, ih.1]
        unfold blobAt
        rw [h.1]
        rfl
      · rw [List.map_cons, List.mapM_cons, hconv _ h.2, ih.2]
        rfl
  rw [hg.1]
  show ((qs.map wrap).mapM conv).bind stackQty = _
  rw [hg.2]
  rfl

/-- A scalar blob: a plain number or a scalar Quantity. -/
def scalarBlob (num : Bool) (x : XR) (u : PhysUnit) : MBlob :=
  if num then .num x else .qty ⟨true, [x], u⟩

/-- **C91 (distribution of a scalar blob, partial).** If blob `idx` of every sample is a number, or a scalar
Quantity of one dimension and the data have not exactly one point, `plot_blob` makes a distribution of exactly
the values of all samples (of the last step, if so requested), in one unit.
Missing: scalar Quantities with data of one point (`C91_false_one_point`). -/
theorem C91_scalar_blob_partial (blobs : List (List (List MBlob))) (energy : BQty) (idx : ℕ) (ls num : Bool) (D : Dim)
    (hE : num = true ∨ energy.vals.length ≠ 1) (hne : blobs ≠ []) (hne' : ∀ step ∈ blobs, step ≠ [])
    (hw : ∀ step ∈ blobs, ∀ w ∈ step, ∃ x u, w[idx]? = some (scalarBlob num x u) ∧ u.dim = D ∧ 0 < u.scale ∧
      (num = true → u = ⟨1, Dim.one⟩)) :
    ∃ values unit, plotBlob blobs energy idx ls = .ok (.distribution values unit) ∧
      List.Forall₂ (fun w v => ∃ x u, w[idx]? = some (scalarBlob num x u) ∧ unit.dim = u.dim ∧
        v * fin unit.scale = x * fin u.scale) (samplesOf ls blobs) values := by
  obtain ⟨ini, last, rfl⟩ : ∃ ini last, blobs = ini ++ [last] :=
    ⟨blobs.dropLast, blobs.getLast hne, (List.dropLast_append_getLast hne).symm⟩
  obtain ⟨w0, rest, rfl⟩ : ∃ w0 rest, last = w0 :: rest := by
    cases last with
    | nil => exact absurd rfl (hne' [] (by simp))
    | cons a l => exact ⟨a, l, rfl⟩
  set Q : BQty → Prop := fun q => ∃ x u, q = ⟨true, [x], u⟩ ∧ u.dim = D ∧ 0 < u.scale ∧
    (num = true → u = ⟨1, Dim.one⟩) with hQ
  set wrap : BQty → MBlob := fun q => scalarBlob num (q.vals.headD nan) q.unit with hwrap
  have hmem : ∀ w ∈ samplesOf ls (ini ++ [w0 :: rest]), ∃ step ∈ ini ++ [w0 :: rest], w ∈ step := by
    intro w hwm
    cases ls with
    | true =>
      simp only [samplesOf, if_true, List.getLastD_eq_getLast?, List.getLast?_append, List.getLast?_singleton,
        Option.some_or, Option.getD_some] at hwm
      exact ⟨w0 :: rest, by simp, hwm⟩
    | false => exact List.mem_flatten.1 hwm
  have hall : ∀ w ∈ samplesOf ls (ini ++ [w0 :: rest]), ∃ q, w[idx]? = some (wrap q) ∧ Q q := by
    intro w hwm
    obtain ⟨step, hst, hws⟩ := hmem w hwm
    obtain ⟨x, u, a, b, c, d⟩ := hw step hst w hws
    exact ⟨⟨true, [x], u⟩, a, x, u, rfl, b, c, d⟩
  have hsne : samplesOf ls (ini ++ [w0 :: rest]) ≠ [] := by
    cases ls <;> simp [samplesOf, List.getLastD_eq_getLast?]
  have conv : ∃ conv : MBlob → Except PyErr BQty, (∀ q, Q q → conv (wrap q) = .ok q) ∧
      ∀ m, (gatherBlobs (ini ++ [w0 :: rest]) idx ls).bind (fun l => (l.mapM conv).bind stackQty) = .ok m →
        processBlob (ini ++ [w0 :: rest]) energy idx ls = .ok (none, m) := by
    obtain ⟨x, u, h0, -, -, -⟩ := hw (w0 :: rest) (by simp) w0 (by simp)
    have hba : blobAt idx w0 = .ok (scalarBlob num x u) := by unfold blobAt; rw [h0]
    cases hnum : num with
    | true =>
      refine ⟨asNum, ?_, ?_⟩
      · rintro q ⟨x, u, rfl, -, -, hu⟩
        rw [hu hnum]
        simp [hwrap, scalarBlob, hnum, asNum]
      · intro m hm
        unfold processBlob
        rw [List.getLast?_append, List.getLast?_singleton, Option.some_or]
        simp only [hba, hnum, scalarBlob, if_true, hm]
    | false =>
      refine ⟨asQty, ?_, ?_⟩
      · rintro q ⟨x, u, rfl, -, -, -⟩
        simp [hwrap, scalarBlob, hnum, asQty]
      · intro m hm
        unfold processBlob
        rw [List.getLast?_append, List.getLast?_singleton, Option.some_or]
        simp only [hba, hnum, scalarBlob, Bool.false_eq_true, if_false, hm]
        have he : ¬ ([x].length = energy.vals.length) := by
          intro e
          rcases hE with hE | hE
          · rw [hnum] at hE; cases hE
          · exact hE (by rw [← e]; rfl)
        rw [if_neg he]
        simp
  obtain ⟨conv, hc1, hc2⟩ := conv
  obtain ⟨qs, hqs, hgat⟩ := gather_uniform _ idx ls wrap conv Q hc1 hall
  have hQs : ∀ q ∈ qs, Q q := by
    intro q hq
    obtain ⟨k, hk, rfl⟩ := List.mem_iff_getElem.1 hq
    exact (hqs.get (by rw [hqs.length_eq]; exact hk) hk).2
  obtain ⟨q0, qs', hq0⟩ : ∃ q0 qs', qs = q0 :: qs' := by
    cases hqs' : qs with
    | nil =>
      have hl := hqs.length_eq
      rw [hqs'] at hl
      exact absurd (List.length_eq_zero_iff.1 hl) hsne
    | cons a l => exact ⟨a, l, rfl⟩
  obtain ⟨x0, u0, hq0', hd0, hs0, -⟩ := hQs q0 (by rw [hq0]; simp)
  have hst : stackQty qs = .ok ⟨qs.map (fun q => q.vals.map (fun v => v * fin (q.unit.scale / q0.unit.scale))), q0.unit⟩ := by
    rw [hq0]
    simp only [stackQty]
    rw [if_pos, if_pos]
    · intro q hq
      obtain ⟨x, u, rfl, -, -, -⟩ := hQs q (by rw [hq0]; simp [hq])
      rw [hq0']
      exact ⟨rfl, rfl⟩
    · intro q hq
      obtain ⟨x, u, rfl, hd, -, -⟩ := hQs q (by rw [hq0]; simp [hq])
      rw [hq0']
      exact hd.trans hd0.symm
  refine ⟨_, _, by unfold plotBlob; rw [hc2 _ (hgat.trans hst)], ?_⟩
  have hfl : (qs.map (fun q => q.vals.map (fun v => v * fin (q.unit.scale / q0.unit.scale)))).flatten =
      qs.map (fun q => q.vals.headD nan * fin (q.unit.scale / q0.unit.scale)) := by
    clear hst hgat hqs hq0
    induction qs with
    | nil => rfl
    | cons q qs ih =>
      obtain ⟨x, u, rfl, -, -, -⟩ := hQs q (by simp)
      rw [List.map_cons, List.flatten_cons, ih (fun q hq => hQs q (by simp [hq]))]
      rfl
  show List.Forall₂ _ _ (qs.map (fun q => q.vals.map (fun v => v * fin (q.unit.scale / q0.unit.scale)))).flatten
  rw [hfl, List.forall₂_map_right_iff]
  refine hqs.imp ?_
  rintro w q ⟨h1, x, u, rfl, hd, hs, -⟩
  refine ⟨x, u, h1, ?_, ?_⟩
  · rw [hq0']; exact hd0.trans hd.symm
  · rw [hq0']
    exact mul_scale_assoc x u.scale u0.scale hs hs0

/-- **C91 (figure of a spectrum).** If blob `idx` of every sample is a spectrum, `plot_blob` is `plot_fit` with
that blob. -/
theorem C91_spectrum_blob (blobs : List (List (List MBlob))) (energy E : BQty) (idx : ℕ) (ls paired : Bool)
    (D : Dim) (hE : paired = false → E = energy) (hne : blobs ≠ []) (hne' : ∀ step ∈ blobs, step ≠ [])
    (hw : ∀ step ∈ blobs, ∀ w ∈ step, ∃ q, HoldsSpectrum paired E q D idx w) :
    plotBlob blobs energy idx ls = .ok (.fit idx ls) := by
  obtain ⟨m, h, -⟩ := processBlob_spectra blobs energy E idx ls paired D hE hne hne' hw
  unfold plotBlob
  rw [h]

/-- **C91 fails for data of one point.** A scalar Quantity (say the total energy) of a run on a table of a
single point is taken for a spectrum: no distribution, but `plot_fit` with the number as a model. -/
theorem C91_false_one_point (x e : XR) (u eU : PhysUnit) (b ls : Bool) :
    plotBlob [[[.qty ⟨true, [x], u⟩]]] ⟨b, [e], eU⟩ 0 ls = .ok (.fit 0 ls) := by
  cases ls <;> simp [plotBlob, processBlob, blobAt, gatherBlobs, asQty, stackQty, Except.bind, bind, pure, Except.pure]

/-! ### The best model -/

theorem hasShape_map {α β : Type} {L : List (List α)} {s w : ℕ} (h : HasShape L s w) (f : α → β) :
    HasShape (L.map (·.map f)) s w := by
  refine ⟨by simp [h.1], ?_⟩
  intro r hr
  obtain ⟨r', hr', rfl⟩ := List.mem_map.1 hr
  simp [h.2 r' hr']

/-- The half width of the 16–84 % range of each parameter. -/
def HalfWidths (chain : List (List (List ℝ))) (n : ℕ) (errs : List ℝ) : Prop :=
  errs.length = n ∧ ∀ p, p < n → ∃ e, errs[p]? = some e ∧ 0 ≤ e ∧
    2 * e = percentile (chain.flatten.map (fun v => v.getD p 0)) 84 -
      percentile (chain.flatten.map (fun v => v.getD p 0)) 16

theorem mlErr_spec (chain : List (List (List ℝ))) (n : ℕ) (hne : chain.flatten ≠ []) :
    HalfWidths chain n (mlErr chain.flatten n) := by
  refine ⟨by simp [mlErr], ?_⟩
  intro p hp
  refine ⟨_, by unfold mlErr; rw [List.getElem?_map, List.getElem?_range hp]; rfl, ?_, by ring⟩
  have := percentile_mono (chain.flatten.map (fun v => v.getD p 0)) (by simpa using hne) 16 84 (by norm_num)
    (by norm_num) (by norm_num)
  exact div_nonneg (by linarith) (by norm_num)

/-- **C91 (best model, stored).** For every run with spectra, `find_ML` returns the greatest log-probability, the
parameters of a sample that has it, the spectrum stored with that same sample and its energies, and for every
parameter half the width of its 16–84 % range. -/
theorem C91_best_stored (lnprob : List (List XR)) (chain : List (List (List ℝ)))
    (blobs : List (List (List MBlob))) (energy E : BQty) (idx n : ℕ) (paired : Bool) (D : Dim) (s w : ℕ)
    (h : StoredRun lnprob chain blobs energy E idx paired D s w)
    (modelfn : Option (List ℝ → Except PyErr FitOut)) :
    ∃ (i j : ℕ) (m : XR) (p errs : List ℝ) (smp : List MBlob) (q : BQty),
      findMLAll lnprob chain (some blobs) n energy modelfn (some idx) = .ok (m, p, errs, some E, some q) ∧
      (lnprob[i]?.bind (·[j]?)) = some m ∧ (∀ r ∈ lnprob, ∀ a ∈ r, a ≤ m) ∧
      (chain[i]?.bind (·[j]?)) = some p ∧ (blobs[i]?.bind (·[j]?)) = some smp ∧
      HoldsSpectrum paired E q D idx smp ∧ HalfWidths chain n errs := by
  obtain ⟨i, j, m, p, b, h1, h2, h3, h4, h5⟩ := C49_consistent lnprob chain (blobs.map (·.map some)) s w h.steps h.walkers
    h.shapeL h.shapeC (hasShape_map h.shapeB some) h.noNaN
  obtain ⟨step, hst, hbm⟩ := Option.bind_eq_some_iff.1 h4
  rw [List.getElem?_map] at hst
  obtain ⟨step', hst', rfl⟩ := Option.map_eq_some_iff.1 hst
  rw [List.getElem?_map] at hbm
  obtain ⟨smp, hsm, rfl⟩ := Option.map_eq_some_iff.1 hbm
  obtain ⟨q, hq⟩ := h.spectra step' (List.mem_of_getElem? hst') smp (List.mem_of_getElem? hsm)
  have hfl : chain.flatten ≠ [] := by
    obtain ⟨st, hs1, hs2⟩ := Option.bind_eq_some_iff.1 h3
    exact List.ne_nil_of_mem (List.mem_flatten.2 ⟨st, List.mem_of_getElem? hs1, List.mem_of_getElem? hs2⟩)
  refine ⟨i, j, m, p, mlErr chain.flatten n, smp, q, ?_, h2, h5, h3, ?_, hq, mlErr_spec chain n hfl⟩
  · unfold findMLAll
    simp only [h1, mlModel, blobAt_holds hq h.dataE]
  · rw [hst']; exact hsm

/-- **C91 (best model, recomputed, partial).** For a sampler without blobs the model is evaluated at the
parameters of greatest log-probability, and the spectrum returned is blob `idx` of its output.
Missing: a model function that returns a bare array (`C91_false_bare`). -/
theorem C91_best_recomputed_partial (lnprob : List (List XR)) (chain : List (List (List ℝ))) (energy E : BQty)
    (idx n : ℕ) (paired : Bool) (D : Dim) (s w : ℕ) (hs : 0 < s) (hw : 0 < w) (h1 : HasShape lnprob s w)
    (h2 : HasShape chain s w) (hn : ∀ r ∈ lnprob, ∀ a ∈ r, a ≠ nan) (hE : paired = false → E = energy)
    (modelfn : List ℝ → Except PyErr FitOut)
    (hm : ∀ p ∈ chain.flatten, ∃ l q, modelfn p = .ok (.blobs l) ∧ HoldsSpectrum paired E q D idx l) :
    ∃ (i j : ℕ) (m : XR) (p errs : List ℝ) (l : List MBlob) (q y : BQty),
      findMLAll lnprob chain none n energy (some modelfn) (some idx) = .ok (m, p, errs, some E, some y) ∧
      (lnprob[i]?.bind (·[j]?)) = some m ∧ (∀ r ∈ lnprob, ∀ a ∈ r, a ≤ m) ∧
      (chain[i]?.bind (·[j]?)) = some p ∧ modelfn p = .ok (.blobs l) ∧
      HoldsSpectrum paired E q D idx l ∧ SamePhysical y.vals y.unit q ∧ HalfWidths chain n errs := by
  obtain ⟨i, j, m, p, b, a1, a2, a3, a4, a5⟩ := C49_consistent lnprob chain
    (chain.map (·.map (fun _ => (none : Option (List MBlob))))) s w hs hw h1 h2
    (hasShape_map h2 (fun _ => (none : Option (List MBlob)))) hn
  obtain ⟨step, hst, hbm⟩ := Option.bind_eq_some_iff.1 a4
  rw [List.getElem?_map] at hst
  obtain ⟨step', hst', rfl⟩ := Option.map_eq_some_iff.1 hst
  rw [List.getElem?_map] at hbm
  obtain ⟨pp, hsm, rfl⟩ := Option.map_eq_some_iff.1 hbm
  obtain ⟨st, hs1, hs2⟩ := Option.bind_eq_some_iff.1 a3
  have hpm : p ∈ chain.flatten := List.mem_flatten.2 ⟨st, List.mem_of_getElem? hs1, List.mem_of_getElem? hs2⟩
  obtain ⟨l, q, hl, hq⟩ := hm p hpm
  obtain ⟨sm, b1, b2, b3, b4, b5⟩ := processBlob_spectra [[l]] energy E idx true paired D hE (by simp)
    (by simp) (by
      intro step hstep w hw
      simp only [List.mem_cons, List.not_mem_nil, or_false] at hstep
      subst hstep
      simp only [List.mem_cons, List.not_mem_nil, or_false] at hw
      subst hw
      exact ⟨q, hq⟩)
  simp only [if_true, List.getLastD_cons, List.getLastD_nil, List.length_singleton] at b4 b5
  obtain ⟨q', row, c1, c2, c3, c4⟩ := b5 0 l rfl
  obtain ⟨row', rows', hrows⟩ : ∃ row' rows', sm.rows = row' :: rows' := by
    cases hr : sm.rows with
    | nil => rw [hr] at b4; simp at b4
    | cons a l => exact ⟨a, l, rfl⟩
  have : row' = row := by rw [hrows] at c2; simpa using c2
  subst this
  refine ⟨i, j, m, p, mlErr chain.flatten n, l, q', ⟨false, row', sm.unit⟩, ?_, a2, a5, a3, hl, c1, c4,
    mlErr_spec chain n (List.ne_nil_of_mem hpm)⟩
  unfold findMLAll
  simp only [a1, mlModel, hl, FitOut.entries, b1, hrows]
  rfl

/-- **C91 fails for a bare array.** If the sampler has no blobs and the model function returns just its spectrum
(at two energies or more), `find_ML(sampler, k)` returns not the spectrum but its value number `k`, without
energies. -/
theorem C91_false_bare (energy q : BQty) (modelfn : List ℝ → Except PyErr FitOut) (p : List ℝ) (k : ℕ)
    (hk : k < q.vals.length) (hE : energy.vals.length ≠ 1) (hs : q.unit.scale ≠ 0) (hf : modelfn p = .ok (.bare q)) :
    mlModel energy (some modelfn) (some k) p none =
      .ok (none, some ⟨true, [q.vals[k] * fin 1], q.unit⟩) := by
  have hb : blobAt k (FitOut.bare q).entries = .ok (.qty ⟨true, [q.vals[k]], q.unit⟩) := by
    unfold blobAt FitOut.entries
    rw [List.getElem?_map, List.getElem?_eq_getElem hk]
    rfl
  have hp : processBlob [[(FitOut.bare q).entries]] energy k true =
      .ok (none, ⟨[[q.vals[k] * fin 1]], q.unit⟩) := by
    unfold processBlob
    simp only [List.getLast?_singleton, hb]
    have hg : gatherBlobs [[(FitOut.bare q).entries]] k true = .ok [.qty ⟨true, [q.vals[k]], q.unit⟩] := by
      unfold gatherBlobs
      simp only [if_true, List.getLastD_cons, List.getLastD_nil, List.mapM_cons, List.mapM_nil, hb]
      rfl
    simp only [hg, Except.bind, List.mapM_cons, List.mapM_nil, asQty, bind, pure, Except.pure]
    simp [stackQty, div_self hs, Ne.symm hE]
  unfold mlModel
  simp only [hf, hp]
  rfl

/-- Total energies in erg and in units of 1e48 erg. -/
example := C91_scalar_blob_partial
  [[[.num nan, scalarBlob false (fin 3) PhysUnit.erg]], [[.num nan, scalarBlob false (fin 2) ⟨1e48, Dim.energy⟩]]]
  ⟨false, [fin 1, fin 10], PhysUnit.TeV⟩ 1 false false Dim.energy (Or.inr (by simp)) (by simp) (by simp) (by
    simp only [List.mem_cons, List.not_mem_nil, or_false, forall_eq_or_imp, forall_eq]
    exact ⟨⟨_, _, rfl, rfl, by norm_num [PhysUnit.erg], by simp⟩, ⟨_, _, rfl, rfl, by norm_num, by simp⟩⟩)

example := C91_spectrum_blob _ _ _ 0 true false Dim.diffFlux exStoredRun.dataE (by simp) (by simp) exStoredRun.spectra

end Naima.Props
