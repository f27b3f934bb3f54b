import Verif.Model.Sampler
import Mathlib.Data.List.Basic
import Mathlib.Tactic.Basic

/-! # C48: chain recording and release of the worker pool -/

namespace Naima.Props

open Naima

variable {S : Type}

/-- states at the first `l.length` steps from `s` -/
def IsRun (step : S → Except PyErr S) : S → List S → Prop
  | _, [] => True
  | s, t :: l => step s = .ok t ∧ IsRun step t l

theorem iterate_ok (step : S → Except PyErr S) (n : Nat) (s st : S) (h : (iterate step n s).1 = .ok st) :
    (iterate step n s).2.length = n ∧ IsRun step s (iterate step n s).2 ∧
    (iterate step n s).2.getLastD s = st := by
  induction n generalizing s with
  | zero =>
    simp [iterate, IsRun] at h ⊢
    exact h
  | succ n ih =>
    unfold iterate at h ⊢
    cases hs : step s with
    | error e => simp [hs] at h
    | ok t =>
      simp only [hs] at h ⊢
      obtain ⟨h1, h2, h3⟩ := ih t h
      refine ⟨by simp [h1], ⟨hs, h2⟩, ?_⟩
      rw [List.getLastD_cons]
      exact h3

theorem runMcmc_ok (w : World) (init : S → Except PyErr Unit) (step : S → Except PyErr S)
    (s s' : Sampler S) (pos st : S) (n : Nat) (h : runMcmc w init step s pos n = (s', .ok st)) :
    0 < n ∧ s'.pool = s.pool ∧ s'.naimaPool = s.naimaPool ∧ s'.nRun = s.nRun ∧
    ∃ l, s'.chain = s.chain ++ l ∧ l.length = n ∧ IsRun step pos l ∧ l.getLastD pos = st := by
  unfold runMcmc at h
  by_cases hp : ¬ poolOk w s
  · rw [if_pos hp] at h; simp at h
  · rw [if_neg hp] at h
    cases hi : init pos with
    | error e => simp [hi] at h
    | ok u =>
      simp only [hi] at h
      cases hr : (iterate step n pos).1 with
      | error e => simp [hr] at h
      | ok st' =>
        simp only [hr] at h
        by_cases hn : n = 0
        · simp [hn] at h
        · simp only [hn, if_false, Prod.mk.injEq, Except.ok.injEq] at h
          obtain ⟨rfl, rfl⟩ := h
          obtain ⟨h1, h2, h3⟩ := iterate_ok step n pos st' hr
          exact ⟨Nat.pos_of_ne_zero hn, rfl, rfl, rfl, _, rfl, h1, h2, h3⟩

theorem makeSampler_ok (w w' : World) (init : S → Except PyErr Unit) (step : S → Except PyErr S)
    (threads nburn : Nat) (pos0 pos : S) (s : Sampler S)
    (h : makeSampler w init step threads nburn pos0 = (w', .ok (s, pos))) :
    s.pool = s.naimaPool ∧ (s.naimaPool ≠ none ↔ threads > 1) ∧
    (∀ i, s.naimaPool = some i → i = w.next) ∧
    w'.openPools = s.naimaPool.toList ++ w.openPools ∧
    (∃ l, l.length = nburn ∧ IsRun step pos0 l ∧ l.getLastD pos0 = pos) := by
  unfold makeSampler at h
  simp only at h
  by_cases hb : nburn > 0
  · simp only [hb, if_true] at h
    cases hr : runMcmc (if threads > 1 then (⟨w.next :: w.openPools, w.next + 1⟩ : World) else w) init step
        { pool := if threads > 1 then some w.next else none,
          naimaPool := if threads > 1 then some w.next else none, chain := [], nRun := none } pos0 nburn with
    | mk s1 r =>
      simp only [hr] at h
      cases r with
      | error e => simp at h
      | ok st =>
        simp only [Prod.mk.injEq, Except.ok.injEq] at h
        obtain ⟨rfl, rfl, rfl⟩ := h
        obtain ⟨-, a, b, -, l, -, c1, c2, c3⟩ := runMcmc_ok _ _ _ _ _ _ _ _ hr
        refine ⟨a.trans b.symm, ?_, ?_, ?_, l, c1, c2, c3⟩
        · rw [b]; split_ifs <;> simp_all
        · rw [b]; intro i; split_ifs <;> simp_all
        · rw [b]; split_ifs <;> simp
  · simp only [hb, if_false, Prod.mk.injEq, Except.ok.injEq] at h
    obtain ⟨rfl, rfl, rfl⟩ := h
    refine ⟨rfl, ?_, ?_, ?_, [], by simp; omega, trivial, rfl⟩
    · simp only; split_ifs <;> simp_all
    · simp only; intro i; split_ifs <;> simp_all
    · simp only; split_ifs <;> simp

theorem runOn_ok (w w' : World) (init : S → Except PyErr Unit) (step : S → Except PyErr S)
    (nrun : Nat) (s s' : Sampler S) (pos st : S)
    (h : runOn w init step nrun s pos = (w', .ok (s', st))) :
    s'.naimaPool = none ∧ s'.nRun = some nrun ∧ s'.chain.length = nrun ∧
    IsRun step pos s'.chain ∧ s'.chain.getLastD pos = st ∧
    w'.openPools = w.openPools.filter (fun i => s.naimaPool ≠ some i) := by
  unfold runOn at h
  simp only at h
  cases hr : runMcmc w init step { s with nRun := some nrun, chain := [] } pos nrun with
  | mk s2 r =>
    simp only [hr] at h
    cases r with
    | error e => simp at h
    | ok st' =>
      simp only [Prod.mk.injEq, Except.ok.injEq] at h
      obtain ⟨rfl, rfl, rfl⟩ := h
      obtain ⟨-, a, b, c, l, d1, d2, d3, d4⟩ := runMcmc_ok _ _ _ _ _ _ _ _ hr
      simp only [List.nil_append] at d1
      simp only at b c
      unfold cleanup
      cases hp : s2.naimaPool with
      | none =>
        rw [hp] at b
        simp only [c, d1, d2, d3, ← b, hp, d4, true_and]
        simp
      | some i =>
        rw [hp] at b
        simp only [c, d1, d2, d3, ← b, d4, true_and, ne_eq]
        congr 1
        funext j
        simp [eq_comm]

/-- **C48 (normal return).** When `run_sampler` returns, no pool is attached to the sampler, the chain
holds exactly the `nrun` states following the position from which it started (burn-in and earlier
samples are gone), the returned state is the last of them, and the open pools are those that were open
before, without the one of the sampler; in particular a pool made for this run is closed. -/
theorem C48_normal_return (w w' : World) (init : S → Except PyErr Unit) (step : S → Except PyErr S)
    (nrun threads nburn : Nat) (given : Option (Sampler S × S)) (pos0 : S) (s : Sampler S) (st : S)
    (h : runSampler w init step nrun given threads nburn pos0 = (w', .ok (s, st))) :
    s.naimaPool = none ∧ s.nRun = some nrun ∧ s.chain.length = nrun ∧
    (∃ start, IsRun step start s.chain ∧ s.chain.getLastD start = st ∧
      (match given with
       | some (_, pos) => start = pos
       | none => ∃ burn, burn.length = nburn ∧ IsRun step pos0 burn ∧ start = burn.getLastD pos0)) ∧
    (∀ i, i ∈ w'.openPools → i ∈ w.openPools) ∧
    (∀ s0 pos, given = some (s0, pos) → ∀ i, s0.naimaPool = some i → i ∉ w'.openPools) ∧
    (given = none → (∀ i ∈ w.openPools, i < w.next) → w'.openPools = w.openPools) := by
  unfold runSampler at h
  cases given with
  | some p =>
    obtain ⟨s0, pos⟩ := p
    simp only at h
    obtain ⟨a, b, c, d, e, f⟩ := runOn_ok _ _ _ _ _ _ _ _ _ h
    refine ⟨a, b, c, ⟨pos, d, e, rfl⟩, ?_, ?_, by simp⟩
    · intro i hi; rw [f] at hi; exact (List.mem_filter.1 hi).1
    · rintro s1 p1 heq i hi
      cases heq
      rw [f]; simp [hi]
  | none =>
    simp only at h
    cases hm : makeSampler w init step threads nburn pos0 with
    | mk w1 r =>
      simp only [hm] at h
      cases r with
      | error e => simp at h
      | ok p =>
        obtain ⟨s1, pos⟩ := p
        simp only at h
        obtain ⟨m1, m2, m3, m4, l, m5, m6, m7⟩ := makeSampler_ok _ _ _ _ _ _ _ _ _ hm
        obtain ⟨a, b, c, d, e, f⟩ := runOn_ok _ _ _ _ _ _ _ _ _ h
        refine ⟨a, b, c, ⟨pos, d, e, l, m5, m6, m7.symm⟩, ?_, by simp, ?_⟩
        · intro i hi
          rw [f, m4, List.mem_filter, List.mem_append] at hi
          rcases hi.1 with h1 | h1
          · exfalso
            simp only [Option.mem_toList, Option.mem_def] at h1
            simp [h1] at hi
          · exact h1
        · intro _ hw
          rw [f, m4, List.filter_append]
          have e1 : s1.naimaPool.toList.filter (fun i => decide (s1.naimaPool ≠ some i)) = [] := by
            cases s1.naimaPool <;> simp
          rw [e1, List.nil_append, List.filter_eq_self]
          intro i hi
          have := hw i hi
          simp only [ne_eq, decide_eq_true_eq]
          intro hs
          have := m3 i hs
          omega

/-- **C48 (pool only for several threads).** `get_sampler` attaches a pool exactly when more than one
thread is requested, and opens no other. -/
theorem C48_pool_iff_threads (w w' : World) (init : S → Except PyErr Unit) (step : S → Except PyErr S)
    (threads nburn : Nat) (pos0 pos : S) (s : Sampler S)
    (h : makeSampler w init step threads nburn pos0 = (w', .ok (s, pos))) :
    (s.naimaPool ≠ none ↔ 1 < threads) ∧ w'.openPools = s.naimaPool.toList ++ w.openPools :=
  let r := makeSampler_ok w w' init step threads nburn pos0 pos s h
  ⟨r.2.1, r.2.2.2.1⟩

/-- **C48 is false of the code when the run fails**: if the user's model raises during the run (or
during burn-in) the pool stays open for ever. -/
theorem C48_false_exception_leaks (w : World) (e : PyErr) (pos : S) (threads : Nat) (ht : 1 < threads)
    (hw : w.next ∉ w.openPools) :
    ∃ w', runSampler w (fun _ => .error e) (fun s => .ok s) 1 none threads 1 pos = (w', .error e) ∧
      w.next ∈ w'.openPools ∧ w.next ∉ w.openPools := by
  have hok : poolOk (⟨w.next :: w.openPools, w.next + 1⟩ : World)
      ({ pool := some w.next, naimaPool := some w.next, chain := [], nRun := none } : Sampler S) := by
    intro i hi; cases hi; simp
  refine ⟨⟨w.next :: w.openPools, w.next + 1⟩, ?_, by simp, hw⟩
  simp [runSampler, makeSampler, ht, runMcmc, hok]

/-- **C48 is false of the code for continued runs**: a sampler returned by `run_sampler` that used a
pool cannot be run again: emcee still refers to the closed pool, and ValueError is raised. -/
theorem C48_false_cannot_continue (w w' : World) (init : S → Except PyErr Unit)
    (step : S → Except PyErr S) (nrun nrun' threads nburn : Nat) (ht : 1 < threads)
    (hw : ∀ i ∈ w.openPools, i < w.next) (pos0 : S) (s : Sampler S) (st : S)
    (h : runSampler w init step nrun none threads nburn pos0 = (w', .ok (s, st))) :
    runSampler w' init step nrun' (some (s, st)) threads nburn pos0 = (w', .error .valueError) := by
  have hmain := C48_normal_return w w' init step nrun threads nburn none pos0 s st h
  have hopen := hmain.2.2.2.2.2.2 rfl hw
  have hpool : s.pool = some w.next := by
    unfold runSampler at h
    simp only at h
    cases hm : makeSampler w init step threads nburn pos0 with
    | mk w1 r =>
      simp only [hm] at h
      cases r with
      | error e => simp at h
      | ok p =>
        obtain ⟨s1, pos⟩ := p
        simp only at h
        obtain ⟨m1, m2, m3, m4, -⟩ := makeSampler_ok _ _ _ _ _ _ _ _ _ hm
        have hs1 : s1.pool = some w.next := by
          cases hp : s1.naimaPool with
          | none => exact absurd hp (m2.2 ht)
          | some i => rw [m1, hp, m3 i hp]
        unfold runOn at h
        simp only at h
        cases hr : runMcmc w1 init step { s1 with nRun := some nrun, chain := [] } pos nrun with
        | mk s2 r =>
          simp only [hr] at h
          cases r with
          | error e => simp at h
          | ok st' =>
            simp only [Prod.mk.injEq, Except.ok.injEq] at h
            obtain ⟨-, h2, -⟩ := h
            have := (runMcmc_ok _ _ _ _ _ _ _ _ hr).2.1
            rw [← h2]
            unfold cleanup
            split <;> simp [this, hs1]
  have hbad : ¬ poolOk w' ({ s with nRun := some nrun', chain := [] } : Sampler S) := by
    intro hp
    have := hp w.next (by simpa using hpool)
    rw [hopen] at this
    exact absurd (hw _ this) (by omega)
  simp only [runSampler, runOn, runMcmc, hbad, not_false_eq_true, if_true]

/-- **C48: zero steps.** Asking for zero steps raises UnboundLocalError, leaving a pool open. -/
theorem C48_false_zero_steps (w : World) (init : S → Except PyErr Unit) (step : S → Except PyErr S)
    (s : Sampler S) (pos : S) (hp : poolOk w s) (hi : init pos = .ok ()) :
    runSampler w init step 0 (some (s, pos)) 1 0 pos = (w, .error .unboundLocalError) := by
  have hok : poolOk w ({ s with nRun := some 0, chain := [] } : Sampler S) := hp
  simp [runSampler, runOn, runMcmc, hok, hi, iterate]

/-- Non-vacuity: a run with two threads, one burn-in step and three steps. -/
example : runSampler ⟨[], 0⟩ (fun _ => .ok ()) (fun n : Nat => .ok (n + 1)) 3 none 2 1 10 =
    (⟨[], 1⟩, .ok ({ pool := some 0, naimaPool := none, chain := [12, 13, 14], nRun := some 3 }, 14)) := by
  rfl

/-- Two threads, a burn-in of one step, then three steps: the run returns, and continuing it is refused. -/
example : runSampler ⟨[], 1⟩ (fun _ => .ok ()) (fun n : Nat => .ok (n + 1)) 2
      (some ({ pool := some 0, naimaPool := none, chain := [12, 13, 14], nRun := some 3 }, 14)) 2 1 10 =
    (⟨[], 1⟩, .error .valueError) :=
  C48_false_cannot_continue ⟨[], 0⟩ ⟨[], 1⟩ (fun _ => .ok ()) (fun n : Nat => .ok (n + 1)) 3 2 2 1 (by decide)
    (by simp) 10 _ _ rfl

example := C48_false_exception_leaks ⟨[3], 7⟩ .valueError (10 : ℕ) 4 (by decide) (by simp)

example := C48_false_zero_steps ⟨[], 0⟩ (fun _ => .ok ()) (fun n : Nat => .ok (n + 1))
  { pool := none, naimaPool := none, chain := [], nRun := none } 10 (by simp [poolOk]) rfl

end Naima.Props
