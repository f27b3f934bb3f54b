import Verif.Base.Py

/-! # `get_sampler` / `run_sampler`: chain recording and the worker pool
(`naima/core.py:127-160, 446-538`)

`emcee` is trusted to do the following: `sampler.sample(pos, iterations=n, store=True)` first evaluates
the log-probability at `pos`, then yields `n` successive ensemble states, appending each to the chain;
`sampler.reset()` empties the chain; evaluation goes through `sampler.pool.map` if a pool was given at
construction, which raises ValueError if that pool has been closed. -/

namespace Naima

/-- Pools that have been created and not closed. -/
structure World where
  openPools : List Nat
  next : Nat

/-- The part of an `EnsembleSampler` of interest; `S` is the type of ensemble states. -/
structure Sampler (S : Type) where
  /-- emcee's own reference to the pool -/
  pool : Option Nat
  /-- `sampler._naima_pool` (`none` also when the attribute does not exist) -/
  naimaPool : Option Nat
  chain : List S
  nRun : Option Nat

variable {S : Type}

/-- One evaluation of the log-probability through the sampler: the pool must be usable. -/
def poolOk (w : World) (s : Sampler S) : Prop :=
  ∀ i, s.pool = some i → i ∈ w.openPools

instance (w : World) (s : Sampler S) : Decidable (poolOk w s) :=
  match h : s.pool with
  | none => .isTrue (by intro i hi; rw [h] at hi; cases hi)
  | some i =>
    if h' : i ∈ w.openPools then .isTrue (by intro j hj; rw [h] at hj; cases hj; exact h')
    else .isFalse (by intro hp; exact h' (hp i h))

/-- The iterations of `sampler.sample`: the final state and the recorded states, or the exception
raised (by the user's model or prior) together with the states recorded before it. `step k` is the
k-th ensemble update. -/
def iterate (step : S → Except PyErr S) : Nat → S → (Except PyErr S) × List S
  | 0, s => (.ok s, [])
  | n + 1, s =>
    match step s with
    | .error e => (.error e, [])
    | .ok s' => let r := iterate step n s'; (r.1, s' :: r.2)

/-- core.py:127-160 `_run_mcmc(sampler, pos, nrun)`: the sampler afterwards and the returned state or
exception.  With `nrun = 0` the loop body never runs and `return sampler, state` raises
UnboundLocalError. (`init` is the evaluation at the starting position, which can raise; the printing
is in `Model/Progress.lean`.) -/
def runMcmc (w : World) (init : S → Except PyErr Unit) (step : S → Except PyErr S)
    (s : Sampler S) (pos : S) (n : Nat) : Sampler S × Except PyErr S :=
  if ¬ poolOk w s then (s, .error .valueError)
  else match init pos with
    | .error e => (s, .error e)
    | .ok () =>
      let r := iterate step n pos
      let s' := { s with chain := s.chain ++ r.2 }
      match r.1 with
      | .error e => (s', .error e)
      | .ok st => (s', if n = 0 then .error .unboundLocalError else .ok st)

/-- core.py:446-493, from the creation of the pool to the return, for a starting position `pos`
(the walkers around `p0`): world afterwards, and sampler and state or exception.  `threads` is the
resolved number (None means the number of cores). -/
def makeSampler (w : World) (init : S → Except PyErr Unit) (step : S → Except PyErr S)
    (threads nburn : Nat) (pos : S) : World × Except PyErr (Sampler S × S) :=
  let w' : World := if threads > 1 then ⟨w.next :: w.openPools, w.next + 1⟩ else w
  let pool : Option Nat := if threads > 1 then some w.next else none
  let s : Sampler S := { pool := pool, naimaPool := pool, chain := [], nRun := none }
  if nburn > 0 then
    match runMcmc w' init step s pos nburn with
    | (_, .error e) => (w', .error e)
    | (s', .ok st) => (w', .ok (s', st))
  else (w', .ok (s, pos))

/-- core.py:532-536: close and join the pool, and forget it. -/
def cleanup (w : World) (s : Sampler S) : World × Sampler S :=
  match s.naimaPool with
  | none => (w, s)
  | some i => ({ w with openPools := w.openPools.filter (· ≠ i) }, { s with naimaPool := none })

/-- core.py:526-538, once a sampler and a position are there. -/
def runOn (w : World) (init : S → Except PyErr Unit) (step : S → Except PyErr S)
    (nrun : Nat) (s : Sampler S) (pos : S) : World × Except PyErr (Sampler S × S) :=
  let s1 := { s with nRun := some nrun, chain := [] }
  match runMcmc w init step s1 pos nrun with
  | (_, .error e) => (w, .error e)
  | (s2, .ok st) => ((cleanup w s2).1, .ok ((cleanup w s2).2, st))

/-- core.py:496-538 `run_sampler(nrun, sampler, pos, **kwargs)`. `given` is the pair `sampler, pos` if
both were passed; otherwise a new sampler is made. -/
def runSampler (w : World) (init : S → Except PyErr Unit) (step : S → Except PyErr S)
    (nrun : Nat) (given : Option (Sampler S × S)) (threads nburn : Nat) (pos0 : S) :
    World × Except PyErr (Sampler S × S) :=
  match given with
  | some (s, pos) => runOn w init step nrun s pos
  | none =>
    match makeSampler w init step threads nburn pos0 with
    | (w', .error e) => (w', .error e)
    | (w', .ok (s, pos)) => runOn w' init step nrun s pos

end Naima
