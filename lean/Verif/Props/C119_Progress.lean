import Verif.Model.Progress
import Mathlib.Logic.Function.Iterate
import Verif.Model.PlotData
import Mathlib.Data.Nat.GCD.Basic
import Mathlib.Algebra.Order.Floor.Ring
import Mathlib.Data.Nat.Prime.Basic

/-! # C119: the progress printed while a chain runs -/

namespace Naima.Props

open Naima Classical

theorem progress_mod (i n : ℕ) (hn : 0 < n) :
    pyMod (progressOf i n) 5 = 5 * ((20 * i % n : ℕ) : ℝ) / n := by
  have hn' : (0:ℝ) < n := by exact_mod_cast hn
  have e : progressOf i n / 5 = ((20 * i : ℕ) : ℝ) / (n : ℝ) := by
    unfold progressOf; push_cast; field_simp; ring
  have hf : ⌊progressOf i n / 5⌋ = ((20 * i / n : ℕ) : ℤ) := by
    rw [e, Int.floor_eq_iff]
    have hd := Nat.div_add_mod (20 * i) n
    have hm := Nat.mod_lt (20 * i) hn
    have hd' : ((n * (20 * i / n) + 20 * i % n : ℕ) : ℝ) = ((20 * i : ℕ) : ℝ) := by rw [hd]
    rw [Nat.cast_add, Nat.cast_mul] at hd'
    have hm' : ((20 * i % n : ℕ) : ℝ) < n := by exact_mod_cast hm
    have h0 : (0:ℝ) ≤ ((20 * i % n : ℕ) : ℝ) := by positivity
    constructor
    · rw [le_div_iff₀ hn', Int.cast_natCast, ← hd']; nlinarith
    · rw [div_lt_iff₀ hn', Int.cast_natCast, ← hd']; nlinarith
  unfold pyMod
  rw [hf]
  have hd := Nat.div_add_mod (20 * i) n
  have hd' : ((n * (20 * i / n) + 20 * i % n : ℕ) : ℝ) = ((20 * i : ℕ) : ℝ) := by rw [hd]
  rw [Nat.cast_add, Nat.cast_mul, Nat.cast_mul] at hd'
  have hp : progressOf i n = 5 * (20 * i) / n := by unfold progressOf; ring
  rw [hp, Int.cast_natCast]
  rw [eq_div_iff hn'.ne', sub_mul, div_mul_cancel₀ _ hn'.ne']
  push_cast at *
  linarith

/-- A report is printed at the steps `i` for which 20 `i` is a multiple of the number of steps. -/
theorem printsAt_iff (i n : ℕ) (hn : 0 < n) : printsAt i n ↔ n ∣ 20 * i := by
  have hn' : (0:ℝ) < n := by exact_mod_cast hn
  unfold printsAt
  rw [progress_mod i n hn, div_lt_div_iff_of_pos_right hn', Nat.dvd_iff_mod_eq_zero]
  constructor
  · intro h
    have : ((20 * i % n : ℕ) : ℝ) < 1 := by linarith
    have : 20 * i % n < 1 := by exact_mod_cast this
    omega
  · intro h; rw [h]; norm_num

/-- Medians over the walkers and so on, as they should be reported for an ensemble. -/
structure Describes (r : ProgressReport) (labels : List Label) (npars : ℕ) (e : Ensemble) : Prop where
  labels : r.labels = labels.take npars
  medians : r.medians = (List.range npars).map (fun p => percentile (walkerColumn e p) 50)
  stds : r.stds = (List.range npars).map (fun p => npStd (walkerColumn e p))
  avg : r.lnAvg = e.logProb.sum / e.logProb.length
  max : r.lnMax ∈ e.logProb ∧ ∀ v ∈ e.logProb, v ≤ r.lnMax

theorem foldl_max (l : List ℝ) (a : ℝ) : l.foldl max a ∈ a :: l ∧ ∀ v ∈ a :: l, v ≤ l.foldl max a := by
  induction l generalizing a with
  | nil => simp
  | cons b l ih =>
    obtain ⟨h1, h2⟩ := ih (Max.max a b)
    rw [List.foldl_cons]
    constructor
    · rcases List.mem_cons.1 h1 with h | h
      · rcases max_choice a b with c | c <;> rw [c] at h <;> rw [c, h] <;> simp
      · exact List.mem_cons_of_mem _ (List.mem_cons_of_mem _ h)
    · intro v hv
      have ha := h2 (Max.max a b) List.mem_cons_self
      rcases List.mem_cons.1 hv with rfl | hv
      · exact (le_max_left _ _).trans ha
      · rcases List.mem_cons.1 hv with rfl | hv
        · exact (le_max_right _ _).trans ha
        · exact h2 v (List.mem_cons_of_mem _ hv)

theorem reportOf_ok (labels : List Label) (npars i n : ℕ) (e : Ensemble) (hl : npars ≤ labels.length)
    (he : e.logProb ≠ []) :
    ∃ r, reportOf labels npars i n e = .ok r ∧ r.percent = ⌊progressOf i n⌋ ∧ r.step = i ∧ r.total = n ∧
      Describes r labels npars e := by
  unfold reportOf
  rw [if_neg (by omega)]
  cases h : e.logProb with
  | nil => exact absurd h he
  | cons a l =>
    simp only [npMaxArr]
    refine ⟨_, rfl, rfl, rfl, rfl, rfl, rfl, rfl, ?_, ?_⟩
    · rw [h]; rfl
    · rw [h]; exact foldl_max l a

theorem loop_eq (labels : List Label) (npars n : ℕ) (hl : npars ≤ labels.length) (es : List Ensemble)
    (he : ∀ e ∈ es, e.logProb ≠ []) : ∀ i,
    (progressLoop labels npars n i es).2 = none ∧
    (progressLoop labels npars n i es).1.map (fun r => (r.step, r.percent, r.total)) =
      ((List.range' i es.length).filter (fun j => decide (printsAt j n))).map (fun j => (j, ⌊progressOf j n⌋, n)) ∧
    ∀ r ∈ (progressLoop labels npars n i es).1, ∃ e, es[r.step - i]? = some e ∧ i ≤ r.step ∧ Describes r labels npars e := by
  induction es with
  | nil => intro i; simp [progressLoop]
  | cons e es ih =>
    intro i
    obtain ⟨h1, h2, h3⟩ := ih (fun x hx => he x (List.mem_cons_of_mem _ hx)) (i + 1)
    have h3' : ∀ r ∈ (progressLoop labels npars n (i + 1) es).1,
        ∃ e', (e :: es)[r.step - i]? = some e' ∧ i ≤ r.step ∧ Describes r labels npars e' := by
      intro r hr
      obtain ⟨e', g1, g2, g3⟩ := h3 r hr
      refine ⟨e', ?_, by omega, g3⟩
      have : r.step - i = (r.step - (i + 1)) + 1 := by omega
      rw [this, List.getElem?_cons_succ]; exact g1
    rw [List.length_cons, List.range'_succ]
    unfold progressLoop
    by_cases c : printsAt i n
    · obtain ⟨r, r1, r2, r3, r4, r5⟩ := reportOf_ok labels npars i n e hl (he e List.mem_cons_self)
      rw [if_pos c, r1, List.filter_cons_of_pos (by simpa using c)]
      refine ⟨h1, ?_, ?_⟩
      · simp only [List.map_cons, h2, r2, r3, r4]
      · intro r' hr'
        rcases List.mem_cons.1 hr' with rfl | hr'
        · exact ⟨e, by rw [r3]; simp, r3.ge, r5⟩
        · exact h3' r' hr'
    · rw [if_neg c, List.filter_cons_of_neg (by simpa using c)]
      exact ⟨h1, h2, h3'⟩

/-- **C119 (when and what).** For every number of steps, parameters, labels (at least one per parameter) and all ensembles
with walkers: no report raises, a report is printed exactly at the steps `i` for which `20 i` is a multiple of the number of steps
`n`, and it gives the first labels, the medians and standard deviations over the walkers of each parameter in order,
and the average and the largest log-probability, of the ensemble number `i`, counted from zero. -/
theorem C119_reports (labels : List Label) (npars : ℕ) (hl : npars ≤ labels.length) (es : List Ensemble)
    (he : ∀ e ∈ es, e.logProb ≠ []) (hn : 0 < es.length) :
    (progressReports labels npars es.length es).2 = none ∧
    (progressReports labels npars es.length es).1.map (·.step) =
      (List.range es.length).filter (fun i => decide (es.length ∣ 20 * i)) ∧
    ∀ r ∈ (progressReports labels npars es.length es).1, r.total = es.length ∧
      (r.percent : ℝ) = 100 * r.step / es.length ∧
      ∃ e, es[r.step]? = some e ∧ Describes r labels npars e := by
  obtain ⟨h1, h2, h3⟩ := loop_eq labels npars es.length hl es he 0
  have hfil : ((List.range' 0 es.length).filter (fun j => decide (printsAt j es.length))) =
      (List.range es.length).filter (fun i => decide (es.length ∣ 20 * i)) := by
    rw [← List.range_eq_range']
    refine List.filter_congr fun j _ => ?_
    rw [decide_eq_decide]; exact printsAt_iff j _ hn
  rw [hfil] at h2
  refine ⟨h1, ?_, fun r hr => ?_⟩
  · have := congrArg (List.map Prod.fst) h2
    rw [List.map_map, List.map_map] at this
    simpa [Function.comp_def, progressReports] using this
  · have hm : (r.step, r.percent, r.total) ∈ ((List.range es.length).filter (fun i => decide (es.length ∣ 20 * i))).map
        (fun j => (j, ⌊progressOf j es.length⌋, es.length)) := by
      rw [← h2]; exact List.mem_map_of_mem hr
    obtain ⟨j, hj, e⟩ := List.mem_map.1 hm
    simp only [Prod.mk.injEq] at e
    obtain ⟨e1, e2, e3⟩ := e
    obtain ⟨e', g1, -, g3⟩ := h3 r hr
    refine ⟨e3.symm, ?_, e', by simpa using g1, g3⟩
    have hdv : es.length ∣ 20 * j := by simpa using (List.mem_filter.1 hj).2
    obtain ⟨k, hk⟩ := hdv
    have hn' : (0:ℝ) < es.length := by exact_mod_cast hn
    have hp : progressOf j es.length = ((5 * k : ℤ) : ℝ) := by
      unfold progressOf
      have : (20 * j : ℝ) = es.length * k := by exact_mod_cast hk
      push_cast
      rw [div_eq_iff hn'.ne']
      linarith
    rw [← e2, ← e1]
    have : progressOf j es.length = 100 * (j : ℝ) / es.length := rfl
    rw [← this, hp, Int.floor_intCast]

/-- The steps at which reports are printed. -/
theorem steps_eq (n : ℕ) (hn : 0 < n) : (List.range n).filter (fun i => decide (n ∣ 20 * i)) =
    (List.range (n.gcd 20)).map (fun k => k * (n / n.gcd 20)) := by
  set g := n.gcd 20 with hg
  have hg0 : 0 < g := Nat.gcd_pos_of_pos_left _ hn
  obtain ⟨q, hq⟩ : g ∣ n := Nat.gcd_dvd_left _ _
  have hq0 : 0 < q := Nat.pos_of_ne_zero (by rintro rfl; omega)
  have hnq : n / g = q := by rw [hq, Nat.mul_div_cancel_left _ hg0]
  have hdiv : ∀ i, n ∣ 20 * i ↔ q ∣ i := by
    intro i
    have h := Nat.gcd_dvd_right n 20
    rw [← hg] at h
    obtain ⟨t, ht⟩ := h
    have hco : Nat.Coprime q t := by
      have := Nat.coprime_div_gcd_div_gcd (m := n) (n := 20) hg0
      rw [← hg, hnq, ht, Nat.mul_div_cancel_left _ hg0] at this
      exact this
    constructor
    · intro h
      rw [hq, ht, mul_assoc] at h
      exact hco.dvd_of_dvd_mul_left (Nat.dvd_of_mul_dvd_mul_left hg0 h)
    · rintro ⟨k, rfl⟩
      rw [hq, ht]
      exact ⟨t * k, by ring⟩
  rw [hnq]
  have hs1 : ((List.range n).filter (fun i => decide (n ∣ 20 * i))).Pairwise (· < ·) :=
    List.Pairwise.filter _ List.pairwise_lt_range
  have hs2 : ((List.range g).map (fun k => k * q)).Pairwise (· < ·) :=
    List.Pairwise.map _ (fun a b h => Nat.mul_lt_mul_of_pos_right h hq0) List.pairwise_lt_range
  refine List.Perm.eq_of_pairwise (fun a b _ _ h1 h2 => absurd h1 (not_lt_of_gt h2)) hs1 hs2
    ((List.perm_ext_iff_of_nodup (hs1.imp fun h => h.ne) (hs2.imp fun h => h.ne)).2 fun i => ?_)
  simp only [List.mem_filter, List.mem_range, decide_eq_true_eq, List.mem_map, hdiv]
  constructor
  · rintro ⟨h, k, rfl⟩
    refine ⟨k, ?_, by ring⟩
    rw [hq] at h
    exact Nat.lt_of_mul_lt_mul_left (a := q) (by rw [mul_comm q g]; exact h)
  · rintro ⟨k, hk, rfl⟩
    refine ⟨?_, k, by ring⟩
    rw [hq]
    exact Nat.mul_lt_mul_of_pos_right hk hq0

/-- **C119 (how often).** A run of `n > 0` steps prints `gcd(n, 20)` reports, evenly spaced: report number `k` is that of step
`k n / gcd(n, 20)`. -/
theorem C119_spacing (labels : List Label) (npars : ℕ) (hl : npars ≤ labels.length) (es : List Ensemble)
    (he : ∀ e ∈ es, e.logProb ≠ []) (hn : 0 < es.length) :
    (progressReports labels npars es.length es).1.map (·.step) =
      (List.range (es.length.gcd 20)).map (fun k => k * (es.length / es.length.gcd 20)) ∧
    (progressReports labels npars es.length es).1.length = es.length.gcd 20 := by
  have h := (C119_reports labels npars hl es he hn).2.1
  rw [steps_eq _ hn] at h
  refine ⟨h, ?_⟩
  have := congrArg List.length h
  simpa using this

/-- **C119 (every five percent).** If the number of steps is a multiple of 20, there are twenty reports, one for each five
percent of the steps: that of `5 k` percent is printed at step `k n / 20`. Missing: any other number of steps
(`C119_false_coprime`). -/
theorem C119_every_five_percent_partial (labels : List Label) (npars : ℕ) (hl : npars ≤ labels.length) (es : List Ensemble)
    (he : ∀ e ∈ es, e.logProb ≠ []) (m : ℕ) (hm : 0 < m) (hn : es.length = 20 * m) :
    (progressReports labels npars es.length es).1.map (fun r => (r.step, r.percent)) =
      (List.range 20).map (fun k => (k * m, (5 * k : ℤ))) := by
  have hn0 : 0 < es.length := by omega
  obtain ⟨-, h, hr⟩ := C119_reports labels npars hl es he hn0
  have hs := (C119_spacing labels npars hl es he hn0).1
  have hg : es.length.gcd 20 = 20 := by rw [hn]; simp
  rw [hg, hn, Nat.mul_div_cancel_left _ (by norm_num)] at hs
  have e : (progressReports labels npars es.length es).1.map (fun r => (r.step, r.percent)) =
      ((progressReports labels npars es.length es).1.map (·.step)).map (fun s => (s, ((5 * (s / m) : ℕ) : ℤ))) := by
    rw [List.map_map]
    refine List.map_congr_left fun r hrm => ?_
    have hstep : r.step ∈ (List.range 20).map (fun k => k * m) := by
      rw [← hs, ← hn]; exact List.mem_map_of_mem hrm
    obtain ⟨k, -, hk⟩ := List.mem_map.1 hstep
    obtain ⟨-, hp, -⟩ := hr r hrm
    have hm' : (0:ℝ) < m := by exact_mod_cast hm
    have : (r.percent : ℝ) = ((5 * k : ℕ) : ℝ) := by
      rw [hp, ← hk, hn]; push_cast; field_simp; ring
    have : r.percent = ((5 * k : ℕ) : ℤ) := by exact_mod_cast this
    simp only [Function.comp, Prod.mk.injEq, true_and]
    rw [this, ← hk, Nat.mul_div_cancel _ hm]
  rw [e, hn, hs, List.map_map]
  refine List.map_congr_left fun k _ => ?_
  simp only [Function.comp, Prod.mk.injEq, true_and]
  rw [Nat.mul_div_cancel _ hm]; push_cast; rfl

/-- **C119 (code-level falsity).** If the number of steps has no factor in common with 20 — a prime above 5, say — only one report is
printed, at step 0, however long the run. -/
theorem C119_false_coprime (labels : List Label) (npars : ℕ) (hl : npars ≤ labels.length) (es : List Ensemble)
    (he : ∀ e ∈ es, e.logProb ≠ []) (hn : 0 < es.length) (hc : Nat.Coprime es.length 20) :
    (progressReports labels npars es.length es).1.map (·.step) = [0] := by
  rw [(C119_spacing labels npars hl es he hn).1, hc]
  simp

/-- **C119 (never done).** No report says that the run is complete: the largest percentage printed is 95. -/
theorem C119_at_most_95 (labels : List Label) (npars : ℕ) (hl : npars ≤ labels.length) (es : List Ensemble)
    (he : ∀ e ∈ es, e.logProb ≠ []) (hn : 0 < es.length) :
    ∀ r ∈ (progressReports labels npars es.length es).1, r.step < es.length ∧ 0 ≤ r.percent ∧ r.percent ≤ 95 := by
  intro r hr
  obtain ⟨-, h, h3⟩ := C119_reports labels npars hl es he hn
  have hm : r.step ∈ (List.range es.length).filter (fun i => decide (es.length ∣ 20 * i)) := by
    rw [← h]; exact List.mem_map_of_mem hr
  obtain ⟨h1, h2⟩ := List.mem_filter.1 hm
  have h1 := List.mem_range.1 h1
  obtain ⟨k, hk⟩ : es.length ∣ 20 * r.step := by simpa using h2
  obtain ⟨-, hp, -⟩ := h3 r hr
  have hn' : (0:ℝ) < es.length := by exact_mod_cast hn
  have hkr : (20 * r.step : ℝ) = es.length * k := by exact_mod_cast hk
  have hp' : (r.percent : ℝ) = ((5 * k : ℤ) : ℝ) := by
    rw [hp, div_eq_iff hn'.ne']; push_cast; linarith
  have hp'' : r.percent = 5 * k := by exact_mod_cast hp'
  have hk20 : k < 20 := by
    refine Nat.lt_of_mul_lt_mul_left (a := es.length) ?_
    rw [← hk]; omega
  exact ⟨h1, by omega, by omega⟩

/-- The states visited by `n` successful steps. -/
theorem iterate_total {S : Type} (f : S → S) : ∀ (n : ℕ) (s : S),
    iterate (fun x => .ok (f x)) n s = (.ok (f^[n] s), (List.range n).map (fun i => f^[i + 1] s))
  | 0, s => by simp [iterate]
  | n + 1, s => by
    rw [iterate]
    simp only [iterate_total f n (f s)]
    rw [List.range_succ_eq_map, List.map_cons, List.map_map]
    rfl

/-- **C119 (one step ahead).** For every transition `f` of the sampler, every start and every number of steps: the report that says
"`i` of `n` steps" describes the ensemble after `i + 1` steps, not after `i`. -/
theorem C119_lag {S : Type} (labels : List Label) (npars : ℕ) (hl : npars ≤ labels.length) (f : S → S) (pos : S) (n : ℕ)
    (hn : 0 < n) (view : S → Ensemble) (hv : ∀ s, (view s).logProb ≠ []) :
    ∀ r ∈ (progressReports labels npars n ((iterate (fun x => .ok (f x)) n pos).2.map view)).1,
      r.total = n ∧ Describes r labels npars (view (f^[r.step + 1] pos)) := by
  have hlen : ((iterate (fun x => .ok (f x)) n pos).2.map view).length = n := by simp [iterate_total]
  intro r hr
  have h := (C119_reports labels npars hl ((iterate (fun x => .ok (f x)) n pos).2.map view)
    (by intro e he; obtain ⟨s, -, rfl⟩ := List.mem_map.1 he; exact hv s) (by rw [hlen]; exact hn)).2.2
  rw [hlen] at h
  obtain ⟨h1, -, e, h2, h3⟩ := h r hr
  refine ⟨h1, ?_⟩
  rw [iterate_total, List.map_map, List.getElem?_map] at h2
  cases hg : (List.range n)[r.step]? with
  | none => rw [hg] at h2; simp at h2
  | some j =>
    rw [hg] at h2
    obtain ⟨hlt, hj⟩ := List.getElem?_eq_some_iff.1 hg
    simp only [List.getElem_range] at hj
    simp only [Option.map_some, Function.comp, Option.some.injEq] at h2
    rw [← hj] at h2
    rw [h2]; exact h3

/-- **C119 (too few labels).** If the sampler has fewer labels than parameters, the first report raises IndexError and the run
ends there: the sampler's labels are those checked by `get_sampler`, one per parameter. -/
theorem C119_few_labels (labels : List Label) (npars : ℕ) (hl : labels.length < npars) (e : Ensemble) (es : List Ensemble) :
    progressReports labels npars (e :: es).length (e :: es) = ([], some .indexError) := by
  unfold progressReports progressLoop
  rw [if_pos ((printsAt_iff 0 _ (by simp)).2 (by simp))]
  simp [reportOf, hl]

/-- Non-vacuity: walkers at 0 and 2, moving by one each step, for 40 steps: the report of 50 percent is that of step 20 and its median is 22,
and the one printed as "0 of 40 steps" has median 2, not 1. -/
noncomputable def toyView (x : ℕ) : Ensemble := ⟨[[(x : ℝ)], [x + 2]], [-(x : ℝ), -(x + 1)]⟩

example : ((progressReports [['a']] 1 40 ((iterate (fun x => .ok (x + 1)) 40 0).2.map toyView)).1.map
    (fun r => (r.step, r.percent)))[10]? = some (20, 50) := by
  have hlen : ((iterate (fun x => .ok (x + 1)) 40 0).2.map toyView).length = 20 * 2 := by
    rw [iterate_total (fun x => x + 1)]; simp
  have h := C119_every_five_percent_partial [['a']] 1 (by simp)
    ((iterate (fun x => .ok (x + 1)) 40 0).2.map toyView)
    (by intro e he; obtain ⟨s, -, rfl⟩ := List.mem_map.1 he; simp [toyView]) 2 (by norm_num) hlen
  rw [hlen] at h
  rw [h]
  rfl

example : (progressReports [['a']] 1 101 ((iterate (fun x => .ok (x + 1)) 101 0).2.map toyView)).1.map
    (·.step) = [0] := by
  have hlen : ((iterate (fun x => .ok (x + 1)) 101 0).2.map toyView).length = 101 := by
    rw [iterate_total (fun x => x + 1)]; simp
  have h := C119_false_coprime [['a']] 1 (by simp) ((iterate (fun x => .ok (x + 1)) 101 0).2.map toyView)
    (by intro e he; obtain ⟨s, -, rfl⟩ := List.mem_map.1 he; simp [toyView]) (by rw [hlen]; norm_num)
    (by rw [hlen]; decide)
  rw [hlen] at h
  exact h

/-- **C119 (code-level falsity).** The first report, "0 percent (0 of n steps)", does not describe the starting ensemble. -/
theorem C119_false_lag : ∃ (f : ℕ → ℕ) (pos n : ℕ) (view : ℕ → Ensemble) (r : ProgressReport),
    r ∈ (progressReports [['a']] 1 n ((iterate (fun x => .ok (f x)) n pos).2.map view)).1 ∧ r.step = 0 ∧
    ¬ Describes r [['a']] 1 (view pos) := by
  have hlen : ((iterate (fun x => .ok (x + 1)) 101 0).2.map toyView).length = 101 := by
    rw [iterate_total (fun x => x + 1)]; simp
  have h := C119_false_coprime [['a']] 1 (by simp) ((iterate (fun x => .ok (x + 1)) 101 0).2.map toyView)
    (by intro e he; obtain ⟨s, -, rfl⟩ := List.mem_map.1 he; simp [toyView]) (by rw [hlen]; norm_num)
    (by rw [hlen]; decide)
  rw [hlen] at h
  obtain ⟨r, hr, hs⟩ : ∃ r ∈ (progressReports [['a']] 1 101
      ((iterate (fun x => .ok (x + 1)) 101 0).2.map toyView)).1, r.step = 0 := by
    have : (0:ℕ) ∈ [0] := by simp
    rw [← h] at this
    obtain ⟨r, hr, h0⟩ := List.mem_map.1 this
    exact ⟨r, hr, h0⟩
  refine ⟨fun x => x + 1, 0, 101, toyView, r, hr, hs, fun hd => ?_⟩
  have h2 := (C119_lag [['a']] 1 (by simp) (fun x => x + 1) 0 101 (by norm_num) toyView
    (by intro s; simp [toyView]) r hr).2
  rw [hs] at h2
  have e1 := hd.avg
  have e2 := h2.avg
  rw [e1] at e2
  simp [toyView] at e2

end Naima.Props
