import Verif.Model.Memo
import Verif.Spec.Memo
import Verif.Proof.Memo

/-! # C01–C04: memoisation of `flux` -/

namespace Naima.Props

open Naima

variable {κ ρ α : Type} [DecidableEq κ]

/-- **C01.** After any history of calls (caching on or off, succeeding or raising) on a new object:
at most 17 results are cached, no key is cached twice, the eviction queue lists exactly the cached
keys, and the queue is the last (at most 17) newly stored keys, oldest first. -/
theorem C01_cache_bounded_consistent (compute : α → Except PyErr ρ) (key : α → κ)
    (history : List (Bool × α)) :
    let m := (Memo.run compute key Memo.empty history).2
    m.cache.length ≤ 17 ∧ m.cache.keys.Nodup ∧ m.queue = m.cache.keys ∧
      m.queue = lastN 17 (storedKeys compute key Memo.empty history) := by
  intro m
  have hi : m.Inv := Memo.run_inv compute key history Memo.empty
    ⟨rfl, by simp [Memo.empty], by simp [Memo.empty]⟩
  obtain ⟨h1, h2, h3⟩ := hi
  refine ⟨?_, h1 ▸ h2, h1.symm, ?_⟩
  · have := congrArg List.length h1
    simp [Dict.keys] at this
    omega
  · simpa using Memo.run_queue compute key history Memo.empty [] (by simp [Memo.empty, lastN])

/-- Test: eighteen distinct requests fill the cache to exactly 17, dropping the first. -/
example : (Memo.run (κ := Nat) (fun n : Nat => .ok n) id Memo.empty
    ((List.range 18).map (fun n => (true, n)))).2.queue = (List.range 18).drop 1 := by decide

/-- **C02.** If requests with equal keys have equal results, then in every history every call
returns exactly what the uncached function returns. -/
theorem C02_transparent (compute : α → Except PyErr ρ) (key : α → κ)
    (hsep : ∀ r r', key r = key r' → compute r = compute r') (history : List (Bool × α)) :
    (Memo.run compute key Memo.empty history).1 = history.map (fun op => compute op.2) :=
  Memo.run_out compute key hsep history Memo.empty (by intro k v h; simp [Memo.empty] at h)

/-- **C02 (exceptions).** In any state a call that raises leaves cache and queue unchanged, and the
exception it raises is the one the uncached function raises: exceptions are never cached. -/
theorem C02_exceptions_not_cached (compute : α → Except PyErr ρ) (key : α → κ)
    (m : Memo κ ρ) (enabled : Bool) (r : α) (e : PyErr)
    (h : (Memo.call compute key m enabled r).1 = .error e) :
    compute r = .error e ∧ (Memo.call compute key m enabled r).2 = m := by
  unfold Memo.call at h ⊢
  cases enabled with
  | false => simpa using h
  | true =>
    simp only [if_true] at h ⊢
    cases hg : m.cache.get? (key r) with
    | some v => simp [hg] at h
    | none =>
      simp only [hg] at h ⊢
      cases hc : compute r with
      | error e' => simp [hc] at h ⊢; exact h
      | ok v => simp [hc] at h

/-- Non-vacuity of C02: a separating key exists and the function both succeeds and raises. -/
example : ∃ (compute : Nat → Except PyErr Nat) (key : Nat → Nat),
    (∀ r r', key r = key r' → compute r = compute r') ∧
    (Memo.run compute key Memo.empty [(true, 0), (true, 5), (true, 5), (true, 0)]).1
      = [.error .typeError, .ok 5, .ok 5, .error .typeError] :=
  ⟨fun n => if n = 0 then .error .typeError else .ok n, id, by simp, by rfl⟩

/-! ## C03: what the key separates -/

/-- **C03 (energies).** Two requests with the same key are for the same photon-energy bytes,
provided sha256 (64 hex digits) has no collision on the strings involved. -/
theorem C03_energies_separated_partial {η : Type} (sha : PyStr → PyStr) (r r' : FluxReq η)
    (hlen : ∀ x, (sha x).length = 64)
    (hcol : NoCollision sha (r.token sha) (r'.token sha))
    (hcol' : NoCollision sha r.energyBytes r'.energyBytes)
    (hkey : r.key sha = r'.key sha) : r.energyBytes = r'.energyBytes := by
  have ht := hcol hkey
  unfold FluxReq.token at ht
  simp only [List.append_assoc] at ht
  exact hcol' (List.append_inj ht (by simp [hlen])).1

/-- **C03 (one parameter changed).** If two requests differ in exactly one parameter of the model
object, and that parameter prints differently, they have different keys. -/
theorem C03_one_model_parameter_partial {η : Type} (sha : PyStr → PyStr) (r : FluxReq η)
    (pre post : List PyScalar) (a b : PyScalar) (hab : a.str ≠ b.str)
    (hcol : NoCollision sha
      (FluxReq.token sha { r with modelParams := pre ++ a :: post })
      (FluxReq.token sha { r with modelParams := pre ++ b :: post })) :
    FluxReq.key sha { r with modelParams := pre ++ a :: post } ≠
      FluxReq.key sha { r with modelParams := pre ++ b :: post } := by
  intro h
  have ht := hcol h
  simp [FluxReq.token] at ht
  exact hab ht

/-- **C03 (one parameter changed).** The same for a parameter of the particle distribution. -/
theorem C03_one_distribution_parameter_partial {η : Type} (sha : PyStr → PyStr) (r : FluxReq η)
    (pre post : List PyScalar) (a b : PyScalar) (hab : a.str ≠ b.str)
    (hcol : NoCollision sha
      (FluxReq.token sha { r with distParams := pre ++ a :: post })
      (FluxReq.token sha { r with distParams := pre ++ b :: post })) :
    FluxReq.key sha { r with distParams := pre ++ a :: post } ≠
      FluxReq.key sha { r with distParams := pre ++ b :: post } := by
  intro h
  have ht := hcol h
  simp [FluxReq.token] at ht
  exact hab ht

/-- **C03 (distance changed).** Two requests that give `distance=` explicitly and differ only in
it, with different text, have different keys. -/
theorem C03_distance_partial {η : Type} (sha : PyStr → PyStr) (r : FluxReq η) (a b : PyScalar)
    (hab : a.str ≠ b.str)
    (hcol : NoCollision sha (FluxReq.token sha { r with distance := some a })
      (FluxReq.token sha { r with distance := some b })) :
    FluxReq.key sha { r with distance := some a } ≠ FluxReq.key sha { r with distance := some b } := by
  intro h
  have ht := hcol h
  simp [FluxReq.token] at ht
  exact hab ht

/-- **C03 (energy unit changed).** Likewise for the energy unit. -/
theorem C03_energy_unit_partial {η : Type} (sha : PyStr → PyStr) (r : FluxReq η) (a b : PyStr)
    (hab : a ≠ b)
    (hcol : NoCollision sha (FluxReq.token sha { r with energyUnit := a })
      (FluxReq.token sha { r with energyUnit := b })) :
    FluxReq.key sha { r with energyUnit := a } ≠ FluxReq.key sha { r with energyUnit := b } := by
  intro h
  have ht := hcol h
  simp [FluxReq.token] at ht
  exact hab ht

/-- A stand-in for sha256 with 64-character output, for the non-vacuity examples. -/
def pad64 (s : PyStr) : PyStr := (s ++ List.replicate 64 '-').take 64

/-- Non-vacuity: two different requests, a 64-character hash, no collision, one parameter changed
(B = 1.0 G against B = 2.0 G). -/
example : ∃ (sha : PyStr → PyStr) (r : FluxReq Unit) (a b : PyScalar), (∀ x, (sha x).length = 64) ∧
    a.str ≠ b.str ∧
    NoCollision sha (FluxReq.token sha { r with modelParams := [] ++ a :: [] })
      (FluxReq.token sha { r with modelParams := [] ++ b :: [] }) := by
  refine ⟨fun s => if '2' ∈ s then List.replicate 64 'x' else List.replicate 64 'y',
    ⟨['e'], ['T'], none, none, [], [], ()⟩, .quantity ['1'] ['G'], .quantity ['2'] ['G'],
    ?_, by decide, ?_⟩
  · intro x; by_cases h : '2' ∈ x <;> simp [h]
  · unfold NoCollision; decide

/-- **C03 is false of the code (1): default distance.**  A request without `distance` (which means
1 kpc) and the same request with `distance=0` (which means intrinsic luminosity) share one cache
entry, so whichever is asked second returns the result of the first — for every model, every
hash function and every successful computation. -/
theorem C03_false_default_distance {η ρ : Type} (sha : PyStr → PyStr)
    (compute : FluxReq η → Except PyErr ρ) (r : FluxReq η) (hd : r.distance = none) (v : ρ)
    (hv : compute r = .ok v) :
    (Memo.run compute (FluxReq.key sha) Memo.empty
      [(true, r), (true, { r with distance := some (.int ['0']) })]).1 = [.ok v, .ok v] := by
  have hk : FluxReq.key sha { r with distance := some (.int ['0']) } = FluxReq.key sha r := by
    simp [FluxReq.key, FluxReq.token, hd, PyScalar.str]
  simp [Memo.run, Memo.call, Memo.empty, Dict.get?, hv, Memo.store, Dict.set, Dict.keys, hk]

/-- the parameter texts of an ExponentialCutoffPowerLaw (models.py:140): amplitude, e_0, alpha,
e_cutoff, beta -/
def ecplParams (alpha cutoff : String) : List PyScalar :=
  [.quantity "1e+36".toList "1 / eV".toList, .quantity "1.0".toList "TeV".toList,
   .float alpha.toList, .quantity cutoff.toList "TeV".toList, .float "1.0".toList]

/-- **C03 is false of the code (2): missing separators.**  alpha = 2.1 with e_cutoff = 13.0 TeV and
alpha = 2.11 with e_cutoff = 3.0 TeV have the same key, whatever else the requests contain. -/
theorem C03_false_no_separator {η : Type} (sha : PyStr → PyStr) (r : FluxReq η) :
    FluxReq.key sha { r with distParams := ecplParams "2.1" "13.0" } =
      FluxReq.key sha { r with distParams := ecplParams "2.11" "3.0" } ∧
    ecplParams "2.1" "13.0" ≠ ecplParams "2.11" "3.0" := by
  constructor
  · have : ((ecplParams "2.1" "13.0").map PyScalar.str).flatten
        = ((ecplParams "2.11" "3.0").map PyScalar.str).flatten := by decide
    simp [FluxReq.key, FluxReq.token, this]
  · decide

/-- **C03 is false of the code (3): particle distributions without `param_names`.**  A request
after exchanging (or renormalising) a particle distribution that is a plain function or a
`TableModel` has the key of the request before, so the stale result is returned. -/
theorem C03_false_hidden_distribution {η ρ : Type} (sha : PyStr → PyStr)
    (compute : FluxReq η → Except PyErr ρ) (r : FluxReq η) (h' : η) (v : ρ)
    (hv : compute r = .ok v) :
    (Memo.run compute (FluxReq.key sha) Memo.empty [(true, r), (true, { r with hidden := h' })]).1
      = [.ok v, .ok v] := by
  have hk : FluxReq.key sha { r with hidden := h' } = FluxReq.key sha r := rfl
  simp [Memo.run, Memo.call, Memo.empty, Dict.get?, hv, Memo.store, Dict.set, Dict.keys, hk]

/-! ## C04: aliasing -/

/-- The outputs of the calls of a history: every call returns an array (by reference) whose content
is what the uncached function computes, unless the caller has already written into that very
array. -/
def ContentRight (compute : α → ρ) :
    List (HeapOp α ρ) → List (Option (Nat × Option ρ)) → List Nat → Prop
  | .call r :: ops, some (ref, c) :: outs, written =>
      (ref ∉ written → c = some (compute r)) ∧ ContentRight compute ops outs written
  | .write ref _ :: ops, none :: outs, written => ContentRight compute ops outs (ref :: written)
  | [], [], _ => True
  | _, _, _ => False

/-- **C04, the part that holds.** In every history of calls and in-place modifications, under a
separating key, a call returns the correct array unless the caller has modified the very array
object this call returns; modifying one result never affects the result of a request with another
key. -/
theorem C04_only_own_writes_partial (compute : α → ρ) (key : α → κ)
    (hsep : ∀ r r', key r = key r' → compute r = compute r') (history : List (HeapOp α ρ)) :
    ContentRight compute history (HeapMemo.run compute key HeapMemo.empty history).1 [] := by
  have gen : ∀ (ops : List (HeapOp α ρ)) (s : HeapMemo κ ρ) (w : List Nat),
      HeapMemo.Good compute key s w →
      ContentRight compute ops (HeapMemo.run compute key s ops).1 w := by
    intro ops
    induction ops with
    | nil => intro s w _; simp [HeapMemo.run, ContentRight]
    | cons op ops ih =>
      intro s w hg
      cases op with
      | call r =>
        simp only [HeapMemo.run, HeapMemo.step, ContentRight]
        exact ⟨fun hw => HeapMemo.call_out compute key hsep s w r hg hw,
          ih _ _ (HeapMemo.call_good compute key s w r hg)⟩
      | write ref v =>
        simp only [HeapMemo.run, HeapMemo.step, ContentRight]
        exact ih _ _ (HeapMemo.write_good compute key s w ref v hg)
  exact gen history HeapMemo.empty [] (by intro k ref h; simp [HeapMemo.empty, Memo.empty] at h)

/-- **C04 is false of the code.**  Ask, overwrite the returned array with any other content, ask
again: the second answer is the overwritten array — for every function, key and request. -/
theorem C04_false_aliasing (compute : α → ρ) (key : α → κ) (r : α) (v : ρ) :
    (HeapMemo.run compute key HeapMemo.empty [.call r, .write 0 v, .call r]).1
      = [some (0, some (compute r)), none, some (0, some v)] := by
  simp [HeapMemo.run, HeapMemo.step, HeapMemo.call, HeapMemo.empty, Memo.empty, Dict.get?,
    Memo.store, Dict.set, Dict.keys]

/-- Non-vacuity of the C04 partial theorem: a history with a write, and another request unaffected
by it. -/
example : (HeapMemo.run (κ := Nat) (fun n : Nat => n * 10) id HeapMemo.empty
    [.call 1, .write 0 99, .call 2, .call 1]).1
    = [some (0, some 10), none, some (1, some 20), some (0, some 99)] := by decide

end Naima.Props
