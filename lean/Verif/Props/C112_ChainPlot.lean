import Verif.Model.ChainPlot
import Verif.Props.C49_C52_Results
import Verif.Props.C78_ChainSummary
import Mathlib.Data.Multiset.Bind

/-! # C112: `plot_chain` shows the chain of the parameter it is asked for

Modelled code: `Model/ChainPlot.lean` (plot.py:26-52, 111-270). -/

namespace Naima.Props

open Naima Classical

/-! ## Specification -/

/-- The samples walker `w` took of parameter `p`, in order. -/
def walkerTrace (c : ChainArr) (p w : ℕ) : List ℝ := (List.range c.nsteps).map (fun s : ℕ => c.val s w p)

/-- All samples of a parameter, in the order of `get_chain(flat=True)`: step by step. -/
def flatColumn (c : ChainArr) (p : ℕ) : List ℝ :=
  (List.range c.nsteps).flatMap (fun s : ℕ => (List.range c.nwalkers).map (fun w : ℕ => c.val s w p))

/-- The column meant by an index that may count from the end. -/
def MeansColumn (n : ℕ) (p : ℤ) (q : ℕ) : Prop := q < n ∧ ((q : ℤ) = p ∨ (q : ℤ) = p + n)

/-- The number of samples with a property. -/
noncomputable def howMany (P : ℝ → Prop) (l : List ℝ) : ℕ := (l.filter (fun x => decide (P x))).length

/-! ## Proof -/

theorem axisIndex_ok (n : ℕ) (p : ℤ) (q : ℕ) (h : axisIndex n p = .ok q) : MeansColumn n p q := by
  unfold axisIndex at h
  split_ifs at h with h1 h2
  · cases h; exact ⟨by omega, Or.inl (by omega)⟩
  · cases h; exact ⟨by omega, Or.inr (by omega)⟩

theorem axisIndex_means (n : ℕ) (p : ℤ) (q : ℕ) (h : MeansColumn n p q) : axisIndex n p = .ok q := by
  obtain ⟨h1, h2⟩ := h
  unfold axisIndex
  by_cases a : 0 ≤ p ∧ p < n
  · rw [if_pos a]; congr 1; omega
  · rw [if_neg a, if_pos (by omega)]; congr 1; omega

/-- What a figure that was made contains. -/
theorem plotChainFunc_ok (rnd : ℝ → ℤ) (s : ChainSampler) (p : ℤ) (last : Bool) (f : ChainFig)
    (h : plotChainFunc rnd s p last = .ok f) :
    ∃ label q dist lines, pyIndex s.labels p = .ok label ∧ axisIndex s.chain.npars p = .ok q ∧
      chainDist s.chain q last = .ok dist ∧ s.chain.nwalkers ≠ 0 ∧ ¬ kdeRefuses dist ∧
      chainSummary rnd label dist = .ok lines ∧
      f = { label := label
            grey := ((chainTraces s.chain q).zipIdx.filter (fun t => !redWalker s.chain.nwalkers t.2)).map (·.1)
            coloured := ((chainTraces s.chain q).zipIdx.filter (fun t => redWalker s.chain.nwalkers t.2)).map (·.1)
            dist := dist
            bins := min (max 25 (dist.length / 100)) 100
            median := percentile dist 50
            span := (percentile dist 16, percentile dist 84)
            walkers := s.chain.nwalkers
            steps := s.chain.nsteps
            autocorr := s.autocorr.map (fun g => g q)
            acceptance := npMean s.acceptance
            lastEnsemble := last
            std := npStd dist
            lines := lines } := by
  unfold plotChainFunc at h
  cases h1 : pyIndex s.labels p with
  | error e => simp [h1, bind, Except.bind] at h
  | ok label =>
    cases h2 : axisIndex s.chain.npars p with
    | error e => simp [h1, h2, bind, Except.bind] at h
    | ok q =>
      cases h3 : chainDist s.chain q last with
      | error e => simp [h1, h2, h3, bind, Except.bind] at h
      | ok dist =>
        simp only [h1, h2, h3, bind, Except.bind] at h
        split_ifs at h with h4 h5
        cases h6 : chainSummary rnd label dist with
        | error e => simp [h6] at h
        | ok lines =>
          simp only [h6, Except.ok.injEq] at h
          exact ⟨label, q, dist, lines, rfl, rfl, h3, h4, h5, h6, h.symm⟩

theorem plotChainFunc_made (rnd : ℝ → ℤ) (s : ChainSampler) (p : ℤ) (last : Bool) (label : Label) (q : ℕ)
    (dist : List ℝ) (lines : List (Label × Shown)) (h1 : pyIndex s.labels p = .ok label)
    (h2 : axisIndex s.chain.npars p = .ok q) (h3 : chainDist s.chain q last = .ok dist)
    (h4 : s.chain.nwalkers ≠ 0) (h5 : ¬ kdeRefuses dist) (h6 : chainSummary rnd label dist = .ok lines) :
    ∃ f, plotChainFunc rnd s p last = .ok f := by
  unfold plotChainFunc
  simp [h1, h2, h3, h4, h5, h6, bind, Except.bind]

theorem zipIdx_drop_take {α : Type} (l : List α) (m k : ℕ) :
    ((l.zipIdx k).filter (fun t => decide (m + k ≤ t.2))).map (·.1) = l.drop m ∧
    ((l.zipIdx k).filter (fun t => !decide (m + k ≤ t.2))).map (·.1) = l.take m := by
  induction l generalizing m k with
  | nil => simp
  | cons a l ih =>
    rw [List.zipIdx_cons]
    cases m with
    | zero =>
      obtain ⟨i1, i2⟩ := ih 0 (k + 1)
      have e : ∀ t ∈ l.zipIdx (k + 1), k ≤ t.2 ∧ k + 1 ≤ t.2 := by
        intro t ht
        have := List.le_snd_of_mem_zipIdx ht
        omega
      constructor
      · rw [List.filter_cons_of_pos (by simp)]
        rw [List.map_cons, List.drop_zero]
        congr 1
        rw [List.filter_eq_self.2 (by intro t ht; simpa using (e t ht).1)]
        simp
      · rw [List.filter_cons_of_neg (by simp)]
        rw [List.filter_eq_nil_iff.2 (by intro t ht; simpa using (e t ht).1)]
        simp
    | succ m =>
      obtain ⟨i1, i2⟩ := ih m (k + 1)
      constructor
      · rw [List.filter_cons_of_neg (by simp), List.drop_succ_cons, ← i1]
        simp only [show m + 1 + k = m + (k + 1) by omega]
      · rw [List.filter_cons_of_pos (by simp), List.map_cons, List.take_succ_cons, ← i2]
        simp only [show m + 1 + k = m + (k + 1) by omega]

/-- The number of traces drawn in colour. -/
def colouredCount (n : ℕ) : ℕ := if n < 60 then min 3 n else n / 20

theorem redWalker_iff (n w : ℕ) (hn : n ≠ 0) : redWalker n w = decide (n - colouredCount n ≤ w) := by
  have hn' : (0 : ℝ) < n := by exact_mod_cast Nat.pos_of_ne_zero hn
  unfold redWalker colouredCount
  rw [decide_eq_decide]
  by_cases h : n < 60
  · simp only [h, if_true]
    have e : (1 - 3 / (n : ℝ)) = ((n : ℝ) - 3) / n := by field_simp
    rw [e, div_le_div_iff_of_pos_right hn']
    constructor
    · intro a
      have : (n : ℝ) ≤ ((w + 3 : ℕ) : ℝ) := by push_cast; linarith
      have := Nat.cast_le.1 this
      omega
    · intro a
      have : n ≤ w + 3 := by omega
      have : (n : ℝ) ≤ ((w + 3 : ℕ) : ℝ) := Nat.cast_le.2 this
      push_cast at this
      linarith
  · simp only [h, if_false]
    rw [le_div_iff₀ hn']
    constructor
    · intro a
      have : ((19 * n : ℕ) : ℝ) ≤ ((20 * w : ℕ) : ℝ) := by push_cast; norm_num at a ⊢; linarith
      have := Nat.cast_le.1 this
      omega
    · intro a
      have : 19 * n ≤ 20 * w := by omega
      have : ((19 * n : ℕ) : ℝ) ≤ ((20 * w : ℕ) : ℝ) := Nat.cast_le.2 this
      push_cast at this
      norm_num
      linarith

theorem chainTraces_eq (c : ChainArr) (p : ℕ) : chainTraces c p = (List.range c.nwalkers).map (walkerTrace c p) := rfl

/-- Every walker's trace of the parameter is drawn exactly once; the coloured ones are those of the last
walkers, three of them or five per cent. -/
theorem C112_traces (rnd : ℝ → ℤ) (s : ChainSampler) (p : ℤ) (last : Bool) (f : ChainFig)
    (h : (plotChain rnd s (some p) last).2 = .ok (some f)) :
    ∃ q, MeansColumn s.chain.npars p q ∧
      f.grey ++ f.coloured = (List.range s.chain.nwalkers).map (walkerTrace s.chain q) ∧
      f.coloured.length = (if s.chain.nwalkers < 60 then min 3 s.chain.nwalkers else s.chain.nwalkers / 20) ∧
      f.walkers = s.chain.nwalkers ∧ f.steps = s.chain.nsteps ∧ f.lastEnsemble = last ∧
      f.autocorr = s.autocorr.map (fun g => g q) ∧
      f.acceptance = s.acceptance.sum / s.acceptance.length := by
  have h0 : plotChainFunc rnd s p last = .ok f := by
    unfold plotChain at h
    cases e : plotChainFunc rnd s p last with
    | error e' => simp [e] at h
    | ok f' => simp only [e, Except.ok.injEq, Option.some.injEq] at h; rw [h]
  obtain ⟨label, q, dist, lines, -, h2, -, h4, -, -, rfl⟩ := plotChainFunc_ok rnd s p last f h0
  have hm := axisIndex_ok _ _ _ h2
  have hr : ∀ t : List ℝ × ℕ, redWalker s.chain.nwalkers t.2 =
      decide (s.chain.nwalkers - colouredCount s.chain.nwalkers + 0 ≤ t.2) := fun t => by
    rw [redWalker_iff _ _ h4, Nat.add_zero]
  have e1 := zipIdx_drop_take (chainTraces s.chain q) (s.chain.nwalkers - colouredCount s.chain.nwalkers) 0
  refine ⟨q, hm, ?_, ?_, rfl, rfl, rfl, rfl, rfl⟩
  · simp only [hr]
    rw [e1.1, e1.2, List.take_append_drop, chainTraces_eq]
  · simp only [hr]
    rw [e1.1, List.length_drop, chainTraces_eq, List.length_map, List.length_range]
    unfold colouredCount
    split_ifs <;> omega

theorem flatColumn_perm (c : ChainArr) (p : ℕ) : (chainTraces c p).flatten.Perm (flatColumn c p) := by
  rw [← Multiset.coe_eq_coe]
  have := Multiset.bind_map_comm (Multiset.range c.nwalkers) (Multiset.range c.nsteps)
    (f := fun w s => c.val s w p)
  unfold flatColumn chainTraces
  rw [← List.flatMap_def]
  have e1 : (((List.range c.nwalkers).flatMap (fun w : ℕ => (List.range c.nsteps).map (fun s : ℕ => c.val s w p)) :
      List ℝ) : Multiset ℝ) = (Multiset.range c.nwalkers).bind
        (fun w => (Multiset.range c.nsteps).map (fun s => c.val s w p)) := by
    rw [Multiset.range, Multiset.range]
    simp only [Multiset.map_coe]
    rw [Multiset.coe_bind]
  have e2 : (((List.range c.nsteps).flatMap (fun s : ℕ => (List.range c.nwalkers).map (fun w : ℕ => c.val s w p)) :
      List ℝ) : Multiset ℝ) = (Multiset.range c.nsteps).bind
        (fun s => (Multiset.range c.nwalkers).map (fun w => c.val s w p)) := by
    rw [Multiset.range, Multiset.range]
    simp only [Multiset.map_coe]
    rw [Multiset.coe_bind]
  rw [e1, e2, this]

/-- The histogram holds every sample of the parameter once, or, with `last_step`, the last sample of every
walker. -/
theorem C112_distribution (rnd : ℝ → ℤ) (s : ChainSampler) (p : ℤ) (last : Bool) (f : ChainFig)
    (h : (plotChain rnd s (some p) last).2 = .ok (some f)) :
    ∃ q, MeansColumn s.chain.npars p q ∧
      (last = false → f.dist.Perm (flatColumn s.chain q)) ∧
      (last = true → f.dist.map some = (List.range s.chain.nwalkers).map
        (fun w : ℕ => (walkerTrace s.chain q w).getLast?)) ∧
      25 ≤ f.bins ∧ f.bins ≤ 100 ∧
      (2500 ≤ f.dist.length → f.dist.length ≤ 10000 → f.bins = f.dist.length / 100) := by
  have h0 : plotChainFunc rnd s p last = .ok f := by
    unfold plotChain at h
    cases e : plotChainFunc rnd s p last with
    | error e' => simp [e] at h
    | ok f' => simp only [e, Except.ok.injEq, Option.some.injEq] at h; rw [h]
  obtain ⟨label, q, dist, lines, -, h2, h3, -, -, -, rfl⟩ := plotChainFunc_ok rnd s p last f h0
  refine ⟨q, axisIndex_ok _ _ _ h2, ?_, ?_, ?_, ?_, ?_⟩
  · rintro rfl
    simp only [chainDist, Bool.false_eq_true, if_false, Except.ok.injEq] at h3
    simp only [← h3]
    exact flatColumn_perm _ _
  · rintro rfl
    unfold chainDist at h3
    rw [if_pos rfl] at h3
    split_ifs at h3 with hz
    cases h3
    simp only [List.map_map]
    apply List.map_congr_left
    intro w _
    obtain ⟨k, hk⟩ := Nat.exists_eq_succ_of_ne_zero hz
    simp [walkerTrace, hk, List.range_succ]
  · simp only; omega
  · simp only; omega
  · simp only; omega

theorem getD_of_lt (s : List ℝ) (n : ℕ) (h : n < s.length) : s.getD n 0 = s[n] := by
  simp [List.getD, h]

theorem howMany_perm (P : ℝ → Prop) (l m : List ℝ) (h : l.Perm m) : howMany P l = howMany P m :=
  (h.filter _).length_eq

theorem howMany_low (P : ℝ → Prop) (l : List ℝ) (k : ℕ) (h : ∀ x ∈ l.drop k, ¬ P x) : howMany P l ≤ k := by
  unfold howMany
  conv_lhs => rw [← List.take_append_drop k l]
  rw [List.filter_append, show (l.drop k).filter (fun x => decide (P x)) = [] from
    List.filter_eq_nil_iff.2 (by intro x hx; simpa using h x hx), List.append_nil]
  exact (List.length_filter_le _ _).trans (by simp)

theorem howMany_high (P : ℝ → Prop) (l : List ℝ) (k : ℕ) (h : ∀ x ∈ l.take k, ¬ P x) :
    howMany P l ≤ l.length - k := by
  unfold howMany
  conv_lhs => rw [← List.take_append_drop k l]
  rw [List.filter_append, show (l.take k).filter (fun x => decide (P x)) = [] from
    List.filter_eq_nil_iff.2 (by intro x hx; simpa using h x hx), List.nil_append]
  exact (List.length_filter_le _ _).trans (by simp)

/-- At most `1 + (n-1) q/100` samples lie below the `q`-th percentile, at most `n - (n-1) q/100` above. -/
theorem percentile_count (l : List ℝ) (hl : l ≠ []) (q : ℝ) (h0 : 0 ≤ q) (h1 : q ≤ 100) :
    (howMany (fun x => x < percentile l q) l : ℝ) ≤ 1 + ((l.length : ℝ) - 1) * (q / 100) ∧
    (howMany (fun x => percentile l q < x) l : ℝ) ≤ l.length - ((l.length : ℝ) - 1) * (q / 100) := by
  have hn : 0 < l.length := List.length_pos_of_ne_nil hl
  have hn1 : (1 : ℝ) ≤ l.length := by exact_mod_cast hn
  obtain ⟨s, hs⟩ : ∃ s, s = l.mergeSort (fun a b => decide (a ≤ b)) := ⟨_, rfl⟩
  have hsp : s.Perm l := by rw [hs]; exact List.mergeSort_perm _ _
  have hlen : s.length = l.length := hsp.length_eq
  have hsort : s.Pairwise (· ≤ ·) := by
    have := List.pairwise_mergeSort (le := fun a b : ℝ => decide (a ≤ b))
      (fun a b c h1 h2 => by simp at *; exact h1.trans h2) (fun a b => by simpa using le_total a b) l
    rw [hs]
    exact this.imp (by simp)
  obtain ⟨t, ht⟩ : ∃ t, t = ((l.length : ℝ) - 1) * (q / 100) := ⟨_, rfl⟩
  have t0 : 0 ≤ t := by rw [ht]; exact mul_nonneg (by linarith) (by linarith)
  have t1 : t ≤ (l.length : ℝ) - 1 := by
    rw [ht]; exact mul_le_of_le_one_right (by linarith) (by linarith)
  obtain ⟨i, hi⟩ : ∃ i, i = ⌊t⌋₊ := ⟨_, rfl⟩
  have i0 : (i : ℝ) ≤ t := by rw [hi]; exact Nat.floor_le t0
  have i1 : t < i + 1 := by rw [hi]; exact Nat.lt_floor_add_one t
  have i2 : i < l.length := by
    have : (i : ℝ) ≤ ((l.length - 1 : ℕ) : ℝ) := by rw [Nat.cast_sub hn]; push_cast; linarith
    have := Nat.cast_le.1 this
    omega
  obtain ⟨j, hj⟩ : ∃ j, j = min (i + 1) (l.length - 1) := ⟨_, rfl⟩
  have j1 : j < l.length := by omega
  have j2 : i ≤ j := by omega
  have mono : ∀ a b, a ≤ b → b < l.length → s.getD a 0 ≤ s.getD b 0 := by
    intro a b hab hb
    rw [getD_of_lt _ _ (by omega), getD_of_lt _ _ (by omega)]
    rcases Nat.lt_or_ge a b with c | c
    · exact List.pairwise_iff_getElem.1 hsort a b (by omega) (by omega) c
    · have : a = b := by omega
      subst this; rfl
  have hP : percentile l q = s.getD i 0 + (t - i) * (s.getD j 0 - s.getD i 0) := by
    unfold percentile
    rw [hj, hi, ht, hs]
  have d0 := mono i j j2 j1
  have lo : s.getD i 0 ≤ percentile l q := by
    rw [hP]
    have := mul_nonneg (sub_nonneg.2 i0) (sub_nonneg.2 d0)
    linarith
  have hi' : percentile l q ≤ s.getD j 0 := by
    rw [hP]
    have := mul_le_of_le_one_left (sub_nonneg.2 d0) (by linarith : t - i ≤ 1)
    linarith
  rw [← ht]
  constructor
  · rw [howMany_perm _ l s hsp.symm]
    have := howMany_low (fun x => x < percentile l q) s j (by
      intro x hx
      obtain ⟨k, hk, rfl⟩ := List.getElem_of_mem hx
      rw [List.getElem_drop]
      rw [List.length_drop] at hk
      have := mono j (j + k) (by omega) (by omega)
      rw [getD_of_lt s (j + k) (by omega)] at this
      linarith)
    have c : (howMany (fun x => x < percentile l q) s : ℝ) ≤ j := by exact_mod_cast this
    have : (j : ℝ) ≤ i + 1 := by exact_mod_cast (by omega : j ≤ i + 1)
    linarith
  · rw [howMany_perm _ l s hsp.symm]
    have := howMany_high (fun x => percentile l q < x) s (i + 1) (by
      intro x hx
      obtain ⟨k, hk, rfl⟩ := List.getElem_of_mem hx
      rw [List.getElem_take]
      rw [List.length_take] at hk
      have := mono k i (by omega) (by omega)
      rw [getD_of_lt s k (by omega)] at this
      linarith)
    have c : (howMany (fun x => percentile l q < x) s : ℝ) ≤ ((s.length - (i + 1) : ℕ) : ℝ) := by exact_mod_cast this
    rw [Nat.cast_sub (by omega)] at c
    push_cast at c
    rw [hlen] at c
    linarith

theorem howMany_three (a b : ℝ) (l : List ℝ) :
    l.length ≤ howMany (fun x => x < a) l + howMany (fun x => a ≤ x ∧ x ≤ b) l + howMany (fun x => b < x) l := by
  induction l with
  | nil => simp [howMany]
  | cons x l ih =>
    unfold howMany at *
    simp only [] at ih ⊢
    rw [List.length_cons, List.filter_cons, List.filter_cons, List.filter_cons]
    rcases lt_or_ge x a with c | c
    · simp only [c, decide_true, if_true, List.length_cons]
      split_ifs <;> (try simp only [List.length_cons]) <;> omega
    · rcases lt_or_ge b x with d | d
      · simp only [d, decide_true, if_true, List.length_cons]
        split_ifs <;> (try simp only [List.length_cons]) <;> omega
      · simp only [c, d, and_self, decide_true, if_true, List.length_cons]
        split_ifs <;> (try simp only [List.length_cons]) <;> omega

/-- The line is at the median of the samples drawn and lies in the band. At most half the samples and one
are on either side of the line; the band holds at least 68 per cent of the intervals between samples, less
one. -/
theorem C112_quantiles (rnd : ℝ → ℤ) (s : ChainSampler) (p : ℤ) (last : Bool) (f : ChainFig)
    (h : (plotChain rnd s (some p) last).2 = .ok (some f)) :
    f.span.1 ≤ f.median ∧ f.median ≤ f.span.2 ∧
      (howMany (fun x => x < f.median) f.dist : ℝ) ≤ (f.dist.length + 1) / 2 ∧
      (howMany (fun x => f.median < x) f.dist : ℝ) ≤ (f.dist.length + 1) / 2 ∧
      0.68 * ((f.dist.length : ℝ) - 1) - 1 ≤ howMany (fun x => f.span.1 ≤ x ∧ x ≤ f.span.2) f.dist := by
  have h0 : plotChainFunc rnd s p last = .ok f := by
    unfold plotChain at h
    cases e : plotChainFunc rnd s p last with
    | error e' => simp [e] at h
    | ok f' => simp only [e, Except.ok.injEq, Option.some.injEq] at h; rw [h]
  obtain ⟨label, q, dist, lines, -, h2, h3, -, h5, -, rfl⟩ := plotChainFunc_ok rnd s p last f h0
  have hd : dist ≠ [] := by
    rintro rfl
    exact h5 (Or.inl (by simp))
  obtain ⟨a1, -⟩ := percentile_count dist hd 16 (by norm_num) (by norm_num)
  obtain ⟨b1, b2⟩ := percentile_count dist hd 50 (by norm_num) (by norm_num)
  obtain ⟨-, c2⟩ := percentile_count dist hd 84 (by norm_num) (by norm_num)
  refine ⟨percentile_mono dist hd 16 50 (by norm_num) (by norm_num) (by norm_num),
    percentile_mono dist hd 50 84 (by norm_num) (by norm_num) (by norm_num), ?_, ?_, ?_⟩
  · simp only; linarith
  · simp only; linarith
  · have e := howMany_three (percentile dist 16) (percentile dist 84) dist
    have e' : (dist.length : ℝ) ≤ howMany (fun x => x < percentile dist 16) dist +
        howMany (fun x => percentile dist 16 ≤ x ∧ x ≤ percentile dist 84) dist +
        howMany (fun x => percentile dist 84 < x) dist := by exact_mod_cast e
    simp only
    norm_num
    linarith

/-- the result of `plot_chain` for one parameter -/
theorem plotChain_some_ok (rnd : ℝ → ℤ) (s : ChainSampler) (p : ℤ) (last : Bool) (f : ChainFig) :
    plotChain rnd s (some p) last = ([f], .ok (some f)) ↔ plotChainFunc rnd s p last = .ok f := by
  unfold plotChain
  cases e : plotChainFunc rnd s p last with
  | error e' => simp [e]
  | ok f' => simp [e]

theorem plotChainLoop_ok (rnd : ℝ → ℤ) (s : ChainSampler) (last : Bool) (k : ℕ) :
    ∀ p : ℕ, (∀ i < k, ∃ f, plotChainFunc rnd s ((p + i : ℕ) : ℤ) last = .ok f) →
      ∃ figs : List ChainFig, plotChainLoop rnd s last p k = (figs, none) ∧ figs.length = k ∧
        ∀ i (h : i < figs.length), plotChainFunc rnd s ((p + i : ℕ) : ℤ) last = .ok figs[i] := by
  induction k with
  | zero => intro p _; exact ⟨[], rfl, rfl, by simp⟩
  | succ k ih =>
    intro p h
    obtain ⟨f, hf⟩ := h 0 (by omega)
    obtain ⟨figs, e, hl, hg⟩ := ih (p + 1) (fun i hi => by
      obtain ⟨f, hf⟩ := h (i + 1) (by omega)
      exact ⟨f, by rw [show p + 1 + i = p + (i + 1) by omega]; exact hf⟩)
    refine ⟨f :: figs, ?_, by simp [hl], ?_⟩
    · unfold plotChainLoop
      rw [Nat.add_zero] at hf
      rw [hf, e]
    · intro i hi
      cases i with
      | zero => exact hf
      | succ i =>
        have := hg i (by simpa using hi)
        rw [show p + (i + 1) = p + 1 + i by omega]
        exact this

/-- Without a parameter index, the figure of every parameter is made, in order, the same figure as a call
for that parameter makes; nothing is returned. -/
theorem C112_all (rnd : ℝ → ℤ) (s : ChainSampler) (last : Bool)
    (h : ∀ p < s.chain.npars, ∃ f, plotChain rnd s (some (p : ℤ)) last = ([f], .ok (some f))) :
    ∃ figs : List ChainFig, plotChain rnd s none last = (figs, .ok none) ∧ figs.length = s.chain.npars ∧
      ∀ p (hp : p < figs.length), plotChain rnd s (some (p : ℤ)) last = ([figs[p]], .ok (some figs[p])) := by
  obtain ⟨figs, e, hl, hg⟩ := plotChainLoop_ok rnd s last s.chain.npars 0 (fun i hi => by
    obtain ⟨f, hf⟩ := h i hi
    exact ⟨f, by rw [Nat.zero_add]; exact (plotChain_some_ok rnd s i last f).1 hf⟩)
  refine ⟨figs, ?_, hl, ?_⟩
  · unfold plotChain
    rw [e]
  · intro p hp
    rw [plotChain_some_ok]
    have := hg p hp
    rwa [Nat.zero_add] at this

theorem pyIndex_nat {α : Type} (l : List α) (i : ℕ) (h : i < l.length) : pyIndex l (i : ℤ) = .ok l[i] := by
  unfold pyIndex
  rw [if_pos (by omega)]
  simp [h]

theorem pyIndex_neg {α : Type} (l : List α) (p : ℤ) (i : ℕ) (h : i < l.length) (hp : p < 0)
    (e : (i : ℤ) = p + l.length) : pyIndex l p = .ok l[i] := by
  unfold pyIndex
  rw [if_neg (by omega), if_pos (by omega)]
  have : ((l.length : ℤ) + p).toNat = i := by omega
  rw [this]
  simp [h]

/-- An index counted from the end means the same parameter and label. -/
theorem C112_negative (rnd : ℝ → ℤ) (s : ChainSampler) (last : Bool) (p : ℤ)
    (hl : s.labels.length = s.chain.npars) (h1 : -(s.chain.npars : ℤ) ≤ p) (h2 : p < 0) :
    plotChain rnd s (some p) last = plotChain rnd s (some (p + s.chain.npars)) last := by
  obtain ⟨i, hi⟩ : ∃ i : ℕ, (i : ℤ) = p + s.chain.npars := ⟨(p + s.chain.npars).toNat, by omega⟩
  have hi' : i < s.labels.length := by omega
  have e : plotChainFunc rnd s p last = plotChainFunc rnd s (p + s.chain.npars) last := by
    unfold plotChainFunc
    rw [← hi, pyIndex_nat _ _ hi', pyIndex_neg s.labels p i hi' h2 (by omega),
      axisIndex_means _ p i ⟨by omega, Or.inr (by omega)⟩, axisIndex_means _ (i : ℤ) i ⟨by omega, Or.inl rfl⟩]
  unfold plotChain
  simp only [e]

/-- An index that is no parameter is refused, and no figure is made. -/
theorem C112_refused (rnd : ℝ → ℤ) (s : ChainSampler) (last : Bool) (p : ℤ)
    (h : (s.chain.npars : ℤ) ≤ p ∨ p < -(s.chain.npars : ℤ)) :
    plotChain rnd s (some p) last = ([], .error .indexError) := by
  have e : plotChainFunc rnd s p last = .error .indexError := by
    unfold plotChainFunc
    have h2 : axisIndex s.chain.npars p = .error .indexError := by
      unfold axisIndex
      rw [if_neg (by omega), if_neg (by omega)]
    cases h1 : pyIndex s.labels p with
    | error e =>
      simp only [bind, Except.bind]
      unfold pyIndex at h1
      split_ifs at h1
      · split at h1 <;> simp_all
      · split at h1 <;> simp_all
      · simp_all
    | ok l => simp [h2, bind, Except.bind]
  unfold plotChain
  simp only [e]

/-- A chain without walkers is refused with ZeroDivisionError for every parameter it has a label for. -/
theorem C112_no_walkers (rnd : ℝ → ℤ) (s : ChainSampler) (last : Bool) (p : ℕ) (hp : p < s.chain.npars)
    (hl : p < s.labels.length) (hs : last = true → s.chain.nsteps ≠ 0) (hw : s.chain.nwalkers = 0) :
    plotChain rnd s (some (p : ℤ)) last = ([], .error .zeroDivisionError) := by
  have hd : ∃ d, chainDist s.chain p last = .ok d := by
    unfold chainDist
    cases last with
    | false => exact ⟨_, rfl⟩
    | true => exact ⟨_, by rw [if_pos rfl, if_neg (hs rfl)]⟩
  obtain ⟨d, hd⟩ := hd
  have e : plotChainFunc rnd s (p : ℤ) last = .error .zeroDivisionError := by
    unfold plotChainFunc
    rw [pyIndex_nat _ _ hl, axisIndex_means _ (p : ℤ) p ⟨hp, Or.inl rfl⟩]
    simp only [bind, Except.bind, hd]
    rw [if_pos hw]
  unfold plotChain
  simp only [e]

theorem percentile_two' (a b : ℝ) : percentile [a, b] 50 = (a + b) / 2 := by
  have main : ∀ a b : ℝ, a ≤ b → percentile [a, b] 50 = (a + b) / 2 := by
    intro a b h
    have hs : ([a, b] : List ℝ).mergeSort (fun a b => decide (a ≤ b)) = [a, b] :=
      List.mergeSort_of_pairwise (by simpa using h)
    have hf : ⌊(((([a, b] : List ℝ).length : ℕ) : ℝ) - 1) * (50 / 100)⌋₊ = 0 := by
      rw [Nat.floor_eq_zero]; norm_num
    unfold percentile
    simp only [hs, hf]
    norm_num
    ring
  rcases le_total a b with h | h
  · exact main a b h
  · rw [percentile_perm [a, b] [b, a] (List.Perm.swap _ _ _), main b a h, add_comm]

/-- The chain as the nested list that the results table is computed from. -/
def chainLists (c : ChainArr) : List (List (List ℝ)) :=
  (List.range c.nsteps).map (fun s : ℕ => (List.range c.nwalkers).map (fun w : ℕ =>
    (List.range c.npars).map (fun p : ℕ => c.val s w p)))

theorem mapM_ok_col {α β : Type} (l : List α) (g : α → Except PyErr β) (f : α → β) (h : ∀ a ∈ l, g a = .ok (f a)) :
    l.mapM g = .ok (l.map f) := by
  induction l with
  | nil => rfl
  | cons a l ih =>
    rw [List.mapM_cons, h a (by simp), ih (fun b hb => h b (by simp [hb]))]
    rfl

theorem distColumn_flat (c : ChainArr) (q : ℕ) (hq : q < c.npars) :
    distColumn (chainLists c).flatten q = .ok (flatColumn c q) := by
  have e : (chainLists c).flatten = (List.range c.nsteps).flatMap (fun s : ℕ => (List.range c.nwalkers).map
      (fun w : ℕ => (List.range c.npars).map (fun p : ℕ => c.val s w p))) := by
    rw [List.flatMap_def]; rfl
  unfold distColumn
  rw [mapM_ok_col (chainLists c).flatten _ (fun r => r.getD q 0)]
  · rw [e, flatColumn, List.map_flatMap]
    congr 2
    funext s
    rw [List.map_map]
    apply List.map_congr_left
    intro w _
    simp [List.getD, hq]
  · intro r hr
    rw [e] at hr
    simp only [List.mem_flatMap, List.mem_map] at hr
    obtain ⟨s, -, w, -, rfl⟩ := hr
    simp [List.getD, hq]

/-- The numbers of the plot of the whole chain are those of the row of the results table for the same
parameter and samples. -/
theorem C112_agrees_with_table (rnd : ℝ → ℤ) (s : ChainSampler) (p : ℕ) (hp : p < s.chain.npars) (f : ChainFig)
    (h : (plotChain rnd s (some (p : ℤ)) false).2 = .ok (some f)) (dists : List (List ℝ))
    (hd : resultSamples false (chainLists s.chain) = .ok dists) (col : List ℝ) (hc : distColumn dists p = .ok col)
    (row : ResRow) (hr : mkRow f.label col = .ok row) :
    row.median = f.median ∧ row.lo = f.median - f.span.1 ∧ row.hi = f.span.2 - f.median := by
  have h0 : plotChainFunc rnd s p false = .ok f := by
    unfold plotChain at h
    cases e : plotChainFunc rnd s p false with
    | error e' => simp [e] at h
    | ok f' => simp only [e, Except.ok.injEq, Option.some.injEq] at h; rw [h]
  obtain ⟨label, q, dist, lines, -, h2, h3, -, h5, -, rfl⟩ := plotChainFunc_ok rnd s p false f h0
  have hq : q = p := by
    have := axisIndex_ok _ _ _ h2
    obtain ⟨a, b⟩ := this
    omega
  subst hq
  simp only [resultSamples, Bool.false_eq_true, if_false, Except.ok.injEq] at hd
  rw [← hd, distColumn_flat _ _ hp, Except.ok.injEq] at hc
  simp only [chainDist, Bool.false_eq_true, if_false, Except.ok.injEq] at h3
  have hperm : dist.Perm col := by rw [← h3, ← hc]; exact flatColumn_perm _ _
  unfold mkRow at hr
  split_ifs at hr with hz
  cases hr
  simp only [percentile_perm dist col hperm, and_self]

/-- A negation: with `last_step` the plot shows the last step of every walker, but the results table is
made from every step of the last walker; two steps of two walkers tell them apart. -/
theorem C112_false_last_step : ∃ (c : ChainArr) (plotted tabled : List ℝ),
    chainDist c 0 true = .ok plotted ∧
      (resultSamples true (chainLists c)).bind (fun d => distColumn d 0) = .ok tabled ∧
      percentile plotted 50 ≠ percentile tabled 50 := by
  refine ⟨⟨2, 2, 1, fun s w _ => 10 * s + w⟩, [10, 11], [1, 11], ?_, ?_, ?_⟩
  · simp [chainDist, List.range_succ]
    norm_num
  · simp [resultSamples, chainLists, List.range_succ, distColumn, Except.bind, bind, pure, Except.pure]
    norm_num
  · rw [percentile_two', percentile_two']
    norm_num

/-- A negation: if one parameter never moved, `plot_chain(sampler)` raises, and the parameters from that
one on are not shown. -/
theorem C112_false_stuck (rnd : ℝ → ℤ) (s : ChainSampler) (last : Bool) (j : ℕ) (hj : j < s.chain.npars) (v : ℝ)
    (hv : ∀ st < s.chain.nsteps, ∀ w < s.chain.nwalkers, s.chain.val st w j = v) :
    (plotChain rnd s none last).1.length ≤ j ∧ ∃ e, (plotChain rnd s none last).2 = .error e := by
  have hbad : ∀ f, plotChainFunc rnd s (j : ℤ) last ≠ .ok f := by
    intro f hf
    obtain ⟨label, q, dist, lines, -, h2, h3, -, h5, -, -⟩ := plotChainFunc_ok rnd s j last f hf
    have hq : q = j := by obtain ⟨a, b⟩ := axisIndex_ok _ _ _ h2; omega
    subst hq
    apply h5
    refine Or.inr ?_
    have key : ∀ x ∈ dist, x = v := by
      intro x hx
      cases last with
      | false =>
        simp only [chainDist, Bool.false_eq_true, if_false, Except.ok.injEq] at h3
        rw [← h3] at hx
        simp only [chainTraces, List.mem_flatten, List.mem_map, List.mem_range] at hx
        obtain ⟨l, ⟨w, hw, rfl⟩, hx⟩ := hx
        simp only [List.mem_map, List.mem_range] at hx
        obtain ⟨st, hst, rfl⟩ := hx
        exact hv st hst w hw
      | true =>
        unfold chainDist at h3
        rw [if_pos rfl] at h3
        split_ifs at h3 with hz
        cases h3
        simp only [List.mem_map, List.mem_range] at hx
        obtain ⟨w, hw, rfl⟩ := hx
        exact hv _ (by omega) w hw
    intro x hx y hy
    rw [key x hx, key y hy]
  have loop : ∀ k p : ℕ, p ≤ j → j < p + k → ∃ figs e, plotChainLoop rnd s last p k = (figs, some e) ∧
      figs.length ≤ j - p := by
    intro k
    induction k with
    | zero => intro p h1 h2; omega
    | succ k ih =>
      intro p h1 h2
      unfold plotChainLoop
      cases e : plotChainFunc rnd s (p : ℤ) last with
      | error e' => exact ⟨[], e', rfl, by simp⟩
      | ok f =>
        have hne : p ≠ j := by rintro rfl; exact hbad f e
        obtain ⟨figs, e', h3, h4⟩ := ih (p + 1) (by omega) (by omega)
        refine ⟨f :: figs, e', by simp [h3], ?_⟩
        rw [List.length_cons]; omega
  obtain ⟨figs, e, h1, h2⟩ := loop s.chain.npars 0 (by omega) (by omega)
  unfold plotChain
  rw [h1]
  exact ⟨by simpa using h2, e, rfl⟩

/-- When a figure is made: samples whose median is not 0 and whose 16th, 50th and 84th percentiles differ. -/
theorem C112_made (rnd : ℝ → ℤ) (hr : IsRounding rnd) (s : ChainSampler) (p : ℕ) (hp : p < s.chain.npars)
    (hl : p < s.labels.length) (hw : s.chain.nwalkers ≠ 0)
    (hlog : ¬ log10Pre <:+: s.labels[p] ∧ ¬ logPre <:+: s.labels[p])
    (h0 : percentile (flatColumn s.chain p) 50 ≠ 0)
    (h1 : percentile (flatColumn s.chain p) 16 < percentile (flatColumn s.chain p) 50)
    (h2 : percentile (flatColumn s.chain p) 50 < percentile (flatColumn s.chain p) 84) :
    ∃ f, plotChain rnd s (some (p : ℤ)) false = ([f], .ok (some f)) ∧ f.label = s.labels[p] ∧
      f.median = percentile (flatColumn s.chain p) 50 := by
  have hperm := flatColumn_perm s.chain p
  have hpc := fun q => percentile_perm _ _ hperm q
  rw [← hpc, ← hpc] at h1 h2
  rw [← hpc] at h0
  have hd : (chainTraces s.chain p).flatten ≠ [] := by
    intro e
    rw [e] at h1
    simp [percentile] at h1
  have hk : ¬ kdeRefuses (chainTraces s.chain p).flatten := by
    intro hk
    have hall : ∀ x ∈ (chainTraces s.chain p).flatten, ∀ y ∈ (chainTraces s.chain p).flatten, x = y := by
      rcases hk with hk | hk
      · intro x hx y hy
        obtain ⟨a, ha⟩ := List.length_eq_one_iff.1 (by
          have := List.length_pos_of_ne_nil hd
          omega : (chainTraces s.chain p).flatten.length = 1)
        rw [ha] at hx hy
        simp at hx hy
        rw [hx, hy]
      · exact hk
    obtain ⟨-, b, -⟩ := C51_percentiles _ hd
    obtain ⟨a1, ha1, b1, hb1, c1, d1⟩ := b 16 (by norm_num) (by norm_num)
    obtain ⟨a2, ha2, b2, hb2, c2, d2⟩ := b 50 (by norm_num) (by norm_num)
    have e1 := hall a1 ha1 b2 hb2
    linarith
  obtain ⟨sh, hs, -⟩ := C78_summary rnd hr s.labels[p] (chainTraces s.chain p).flatten hd h0 h1 h2 hlog
  have i1 := pyIndex_nat s.labels p hl
  have i2 : axisIndex s.chain.npars (p : ℤ) = .ok p := axisIndex_means _ _ _ ⟨hp, Or.inl rfl⟩
  have i3 : chainDist s.chain p false = .ok (chainTraces s.chain p).flatten := by simp [chainDist]
  obtain ⟨f, hf⟩ := plotChainFunc_made rnd s p false _ p _ _ i1 i2 i3 hw hk hs
  refine ⟨f, (plotChain_some_ok rnd s p false f).2 hf, ?_⟩
  obtain ⟨label, q, dist, lines, g1, g2, g3, -, -, -, rfl⟩ := plotChainFunc_ok rnd s p false f hf
  rw [i1] at g1; rw [i2] at g2
  cases g1; cases g2
  rw [i3] at g3
  cases g3
  exact ⟨rfl, hpc 50⟩

/-- Non-vacuity: one step of three walkers at 3, 1 and 2. -/
def chainExample : ChainSampler where
  chain := ⟨1, 3, 1, fun _ w _ => if w = 0 then 3 else if w = 1 then 1 else 2⟩
  labels := ["index".toList]
  acceptance := [0.4, 0.5, 0.6]
  autocorr := none

example (rnd : ℝ → ℤ) (hr : IsRounding rnd) :
    ∃ f, plotChain rnd chainExample (some 0) false = ([f], .ok (some f)) ∧ f.median = 2 ∧
      plotChain rnd chainExample none false = ([f], .ok none) := by
  have e : flatColumn chainExample.chain 0 = [3, 1, 2] := by
    simp [flatColumn, chainExample, List.range_succ]
  obtain ⟨a, b, c⟩ := percentile_123
  obtain ⟨f, h1, h2, h3⟩ := C112_made rnd hr chainExample 0 (by decide) (by decide) (by decide) (by decide)
    (by rw [e, a]; norm_num) (by rw [e, a, b]; norm_num) (by rw [e, a, c]; norm_num)
  refine ⟨f, by exact_mod_cast h1, by rw [h3, e, a], ?_⟩
  obtain ⟨figs, g1, g2, g3⟩ := C112_all rnd chainExample false (fun p hp => by
    have : p = 0 := by simp only [chainExample] at hp; omega
    subst this
    exact ⟨f, by exact_mod_cast h1⟩)
  have g2' : figs.length = 1 := g2
  have := g3 0 (by omega)
  rw [h1] at this
  obtain ⟨x, rfl⟩ := List.length_eq_one_iff.1 g2'
  rw [g1]
  simp at this
  rw [this]

/-- The figure of the example and the row of the table agree. -/
example (rnd : ℝ → ℤ) (f : ChainFig) (h : (plotChain rnd chainExample (some 0) false).2 = .ok (some f)) :
    ∃ row, mkRow f.label [3, 1, 2] = .ok row ∧ row.median = f.median := by
  obtain ⟨row, hr⟩ : ∃ row, mkRow f.label [3, 1, 2] = .ok row := ⟨_, rfl⟩
  have hd : resultSamples false (chainLists chainExample.chain) = .ok [[3], [1], [2]] := by
    simp [resultSamples, chainLists, chainExample, List.range_succ]
  exact ⟨row, hr, (C112_agrees_with_table rnd chainExample 0 (by decide) f h _ hd [3, 1, 2] (by
    simp [distColumn, List.mapM_cons, bind, Except.bind, pure, Except.pure]) row hr).1⟩

example (rnd : ℝ → ℤ) := C112_negative rnd chainExample false (-1) rfl (by decide) (by decide)

example (rnd : ℝ → ℤ) := C112_false_stuck rnd
  { chainExample with chain := ⟨2, 3, 2, fun st w p => if p = 0 then st + w + 1 else 7⟩ } false 1 (by decide) 7
  (by simp)

end Naima.Props
