import Verif.Proof.NelderMead
import Mathlib.Tactic.NormNum

/-! # C46, C47: the pre-fit and its minimiser -/

namespace Naima.Props

open Naima XR Classical

variable (sort : List (Vec × XR) → List (Vec × XR)) (hsort : IsNMSort sort)
include hsort

/-- what holds of the loop state whatever the dtype and the objective -/
structure NMInv (f : Vec → XR) (x0 : Vec) (maxfun maxiter : Nat) (s : NMState) : Prop where
  len : s.sim.length = x0.length + 1
  sorted : s.sim.Pairwise (fun a b => npLe a.2 b.2)
  best : npLe (bestVal s.sim) (f x0)
  calls : s.evals.length ≤ max (x0.length + 1) (maxfun + x0.length + 1)
  nit : 1 ≤ s.iterations ∧ s.iterations ≤ max 1 maxiter

theorem nm_inv (f : Vec → XR) (cast : ℝ → ℝ) (x0 : Vec) (hx : x0 ≠ []) (xtol ftol : ℝ)
    (maxfun maxiter : Nat) :
    NMInv f x0 maxfun maxiter
      (nmLoop sort f cast xtol ftol maxfun maxiter (nmInit sort f cast x0)) := by
  have hN : 1 ≤ x0.length := by
    cases x0 with
    | nil => exact absurd rfl hx
    | cons a l => simp
  apply loop_inv
  · intro s hs h1 h2
    obtain ⟨m1, m2, m3⟩ := move_facts f cast s.sim x0.length hN hs.len
    obtain ⟨p1, p2⟩ := hsort (nmMove f cast s.sim).1
    refine ⟨?_, p2, ?_, ?_, ?_⟩
    · simp only [p1.length_eq, m1]
    · exact npLe_trans (bestVal_le _ p2 _ (p1.mem_iff.2 m2)) hs.best
    · simp only [List.length_append]; omega
    · have := hs.nit; simp only; omega
  · obtain ⟨p1, p2⟩ := hsort (startSimplex f cast x0)
    refine ⟨?_, p2, ?_, ?_, ?_⟩
    · show (sort (startSimplex f cast x0)).length = _
      rw [p1.length_eq]; simp [startSimplex]
    · exact bestVal_le _ p2 (x0, f x0) (p1.mem_iff.2 (by simp [startSimplex]))
    · simp [nmInit, startSimplex]
    · simp [nmInit]

/-- **C47 (never worse, bounded effort).** For every objective (including ones returning NaN or
infinities), every starting vector, every dtype and all tolerances and limits, the minimiser
terminates; its best vertex is at most the starting value in numpy's order (NaN counts as largest);
it makes at most `maxfev + N + 1` evaluations, at least one iteration and at most `maxiter`. -/
theorem C47_never_worse_bounded (f : Vec → XR) (cast : ℝ → ℝ) (x0 : Vec) (hx : x0 ≠ [])
    (xtol ftol : ℝ) (maxfev maxiter : Option Nat) :
    let r := minimize sort f cast x0 xtol ftol maxfev maxiter
    npLe (bestVal r.sim) (f x0) ∧ (∀ p ∈ r.sim, npLe (bestVal r.sim) p.2) ∧
    r.sim.length = x0.length + 1 ∧
    r.nfev = r.evals.length ∧ r.nfev ≤ maxfev.getD (x0.length * 200) + x0.length + 1 ∧
    1 ≤ r.nit ∧ r.nit ≤ max 1 (maxiter.getD (x0.length * 200)) := by
  have h := nm_inv sort hsort f cast x0 hx xtol ftol (maxfev.getD (x0.length * 200))
    (maxiter.getD (x0.length * 200))
  refine ⟨h.best, bestVal_le _ h.sorted, h.len, rfl, ?_, h.nit.1, h.nit.2⟩
  have := h.calls
  show _ ≤ _
  simp only [minimize]
  omega

/-- **C47 (honest status).** `success` is reported exactly when neither limit was reached, and then
the stopping test holds for the final simplex: every vertex is within the relative tolerances of
the best one.  Status 1 means the evaluation limit was reached, 2 the iteration limit. -/
theorem C47_honest_status (f : Vec → XR) (cast : ℝ → ℝ) (x0 : Vec) (xtol ftol : ℝ)
    (maxfev maxiter : Option Nat) :
    let r := minimize sort f cast x0 xtol ftol maxfev maxiter
    (r.success = true ↔ r.nfev < maxfev.getD (x0.length * 200) ∧
      r.nit < maxiter.getD (x0.length * 200)) ∧
    (r.success = true → nmConverged xtol ftol r.sim) ∧
    (r.status = 0 ↔ r.success = true) ∧
    (r.status = 1 ↔ maxfev.getD (x0.length * 200) ≤ r.nfev) ∧
    (r.status = 2 ↔ r.nfev < maxfev.getD (x0.length * 200) ∧
      maxiter.getD (x0.length * 200) ≤ r.nit) := by
  simp only [minimize]
  set s := nmLoop sort f cast xtol ftol (maxfev.getD (x0.length * 200))
    (maxiter.getD (x0.length * 200)) (nmInit sort f cast x0) with hs
  have hex := loop_exit sort f cast xtol ftol (maxfev.getD (x0.length * 200))
    (maxiter.getD (x0.length * 200)) (nmInit sort f cast x0)
  simp only [← hs] at hex
  by_cases h1 : maxfev.getD (x0.length * 200) ≤ s.evals.length
  · simp [h1, not_lt.2 h1]
  · by_cases h2 : maxiter.getD (x0.length * 200) ≤ s.iterations
    · simp [h1, h2, not_lt.2 h2, not_le.1 h1]
    · have hc : nmConverged xtol ftol s.sim := by
        rcases hex with h | h | h
        · exact absurd h h1
        · exact absurd h h2
        · exact h
      simp [h1, h2, not_le.1 h1, not_le.1 h2, hc]

/-- **C47 (the result is the best point ever evaluated).** For a float starting vector and an
objective that never returns NaN, `result.fun = f(result.x)`, `result.x` is one of the points at
which the objective was evaluated, and no evaluation ever gave a smaller value; in particular
`result.fun ≤ f(x0)`. -/
theorem C47_best_of_all_evaluations (f : Vec → XR) (hf : ∀ x, f x ≠ nan) (x0 : Vec) (hx : x0 ≠ [])
    (xtol ftol : ℝ) (maxfev maxiter : Option Nat) :
    let r := minimize sort f id x0 xtol ftol maxfev maxiter
    r.fun' = f r.x ∧ r.x ∈ r.evals ∧ (∀ y ∈ r.evals, r.fun' ≤ f y) ∧ r.fun' ≤ f x0 := by
  have hN : 1 ≤ x0.length := by
    cases x0 with
    | nil => exact absurd rfl hx
    | cons a l => simp
  have key : ∀ mf mi : Nat,
      let s := nmLoop sort f id xtol ftol mf mi (nmInit sort f id x0)
      s.sim.length = x0.length + 1 ∧ s.sim.Pairwise (fun a b => npLe a.2 b.2) ∧
      (∀ p ∈ s.sim, p.2 = f p.1 ∧ p.1 ∈ s.evals) ∧ (∀ y ∈ s.evals, npLe (bestVal s.sim) (f y)) ∧
      x0 ∈ s.evals := by
    intro mf mi
    apply loop_inv (P := fun s => s.sim.length = x0.length + 1 ∧
      s.sim.Pairwise (fun a b => npLe a.2 b.2) ∧
      (∀ p ∈ s.sim, p.2 = f p.1 ∧ p.1 ∈ s.evals) ∧ (∀ y ∈ s.evals, npLe (bestVal s.sim) (f y)) ∧
      x0 ∈ s.evals)
    · rintro s ⟨h1, h2, h3, h4, h5⟩ - -
      have hne : s.sim ≠ [] := by intro h; rw [h] at h1; simp at h1
      obtain ⟨m1, m2, m3⟩ := move_facts f id s.sim x0.length hN h1
      obtain ⟨p1, p2⟩ := hsort (nmMove f id s.sim).1
      have hb : bestVal s.sim ≠ nan := by
        have := (h3 _ (head_mem s.sim hne)).1
        unfold bestVal; rw [this]; exact hf _
      have hw : (s.sim.getLastD ([], nan)).2 ≠ nan := by
        have hmem : s.sim.getLastD ([], nan) ∈ s.sim := by
          rw [List.getLastD_eq_getLast?, List.getLast?_eq_getLast_of_ne_nil hne]
          exact List.getLast_mem hne
        rw [(h3 _ hmem).1]; exact hf _
      obtain ⟨b1, b2⟩ := move_best f s.sim (by omega) h2 hb hw _ p1 p2
      refine ⟨by simp [p1.length_eq, m1], p2, ?_, ?_, by simp [h5]⟩
      · intro p hp
        exact move_values f s.sim s.evals hne h3 p (p1.mem_iff.1 hp)
      · intro y hy
        rcases List.mem_append.1 hy with hy | hy
        · exact npLe_trans b2 (h4 y hy)
        · exact b1 y hy
    · obtain ⟨p1, p2⟩ := hsort (startSimplex f id x0)
      refine ⟨by show (sort (startSimplex f id x0)).length = _; rw [p1.length_eq]; simp [startSimplex], p2, ?_, ?_, by simp [nmInit, startSimplex]⟩
      · intro p hp
        have hp' := p1.mem_iff.1 hp
        refine ⟨?_, List.mem_map.2 ⟨p, hp', rfl⟩⟩
        simp only [startSimplex, List.mem_cons, List.mem_map] at hp'
        rcases hp' with rfl | ⟨k, -, rfl⟩ <;> rfl
      · intro y hy
        simp only [nmInit, List.mem_map] at hy
        obtain ⟨p, hp, rfl⟩ := hy
        have := bestVal_le _ p2 p (p1.mem_iff.2 hp)
        have hv : p.2 = f p.1 := by
          simp only [startSimplex, List.mem_cons, List.mem_map] at hp
          rcases hp with rfl | ⟨k, -, rfl⟩ <;> rfl
        rw [← hv]; exact this
  obtain ⟨k1, k2, k3, k4, k5⟩ := key (maxfev.getD (x0.length * 200)) (maxiter.getD (x0.length * 200))
  simp only [minimize]
  set s := nmLoop sort f id xtol ftol (maxfev.getD (x0.length * 200))
    (maxiter.getD (x0.length * 200)) (nmInit sort f id x0)
  have hne : s.sim ≠ [] := by intro h; rw [h] at k1; simp at k1
  have hfun : npMin (s.sim.map (·.2)) = bestVal s.sim :=
    npMin_of_sorted s.sim hne k2 (fun p hp => by rw [(k3 p hp).1]; exact hf _)
  have hle : ∀ y ∈ s.evals, bestVal s.sim ≤ f y := by
    intro y hy
    rcases k4 y hy with h | h
    · exact absurd h (hf y)
    · exact h
  refine ⟨?_, (k3 _ (head_mem _ hne)).2, ?_, ?_⟩
  · rw [hfun]; exact (k3 _ (head_mem _ hne)).1
  · intro y hy; rw [hfun]; exact hle y hy
  · rw [hfun]; exact hle x0 k5

theorem sort_two (a b : Vec × XR) (h : npLe a.2 b.2) (h' : ¬ npLe b.2 a.2) :
    sort [a, b] = [a, b] ∧ sort [b, a] = [a, b] := by
  have key : ∀ l, l.Perm [a, b] → l.Pairwise (fun a b => npLe a.2 b.2) → l = [a, b] := by
    intro l hp hs
    have hl := hp.length_eq
    obtain ⟨x, y, rfl⟩ : ∃ x y, l = [x, y] := by
      match l, hl with
      | [x, y], _ => exact ⟨x, y, rfl⟩
    have hx : x = a ∨ x = b := by simpa using hp.mem_iff.1 (List.mem_cons_self)
    simp only [List.pairwise_cons, List.mem_singleton, forall_eq, List.not_mem_nil,
      false_imp_iff, implies_true, List.Pairwise.nil, and_true] at hs
    rcases hx with rfl | rfl
    · have := List.Perm.cons_inv hp
      rw [List.singleton_perm_singleton] at this
      rw [this]
    · have h2 := List.Perm.cons_inv (hp.trans (List.Perm.swap _ _ _))
      rw [List.singleton_perm_singleton] at h2
      subst h2
      exact absurd hs h'
  obtain ⟨p1, p2⟩ := hsort [a, b]
  obtain ⟨q1, q2⟩ := hsort [b, a]
  exact ⟨key _ p1 p2, key _ (q1.trans (List.Perm.swap _ _ _)) q2⟩

/-- **C47 is false of the code when the objective returns NaN somewhere**: the reported `fun` is NaN
although the reported `x` has a finite value. -/
theorem C47_false_nan_fun :
    ∃ (f : Vec → XR) (x0 : Vec),
      let r := minimize sort f id x0 1e-4 1e-4 (some 1) none
      r.fun' = nan ∧ r.x = x0 ∧ f r.x = fin 0 := by
  obtain ⟨f, hf0, hf1⟩ : ∃ f : Vec → XR, f [1] = fin 0 ∧ f [1.05] = nan := by
    refine ⟨fun x => if x = [1] then fin 0 else nan, by simp, ?_⟩
    norm_num
  refine ⟨f, [1], ?_⟩
  have e1 : startPoint id [1] 0 = [1.05] := by
    simp [startPoint]; norm_num
  have hss : startSimplex f id [1] = [([1], fin 0), ([1.05], nan)] := by
    simp [startSimplex, e1, hf0, hf1]
  have hs := (sort_two sort hsort ([1], fin 0) ([1.05], nan) (Or.inl rfl) (by
    rintro (h | h)
    · simp at h
    · rcases h with h | h <;> exact h)).1
  have hl : nmLoop sort f id 1e-4 1e-4 1 ([(1:ℝ)].length * 200) (nmInit sort f id [1]) =
      nmInit sort f id [1] := by
    unfold nmLoop
    rw [if_neg]
    simp [nmInit, hss]
  simp only [minimize, Option.getD_some, Option.getD_none, hl]
  simp only [nmInit, hss, hs]
  simp [npMin, hf0]

/-- **C47 is false of the code for integer starting vectors**: trial points are truncated when stored
but their objective value is not recomputed, so `fun` is not the objective at `x`. -/
theorem C47_false_integer_x0 :
    ∃ (f : Vec → XR) (x0 : Vec), (∀ x, f x ≠ nan) ∧
      let r := minimize sort f truncCast x0 1e-4 1e-4 none (some 2)
      r.x = [102] ∧ r.fun' = fin 0.1 ∧ f r.x = fin 0.4 := by
  let f : Vec → XR := fun x => fin (|x.headD 0 - 102.4|)
  have e1 : startPoint truncCast [100] 0 = [105] := by
    have : ⌊(105 : ℝ)⌋ = 105 := by
      rw [Int.floor_eq_iff]; norm_num
    simp only [startPoint, List.getD_cons_zero, List.set_cons_zero, truncCast]
    norm_num
  have v1 : f [100] = fin 2.4 := by
    simp only [f, List.headD_cons, XR.fin_inj]
    rw [abs_of_nonpos (by norm_num)]; norm_num
  have v2 : f [105] = fin 2.6 := by
    simp only [f, List.headD_cons, XR.fin_inj]
    rw [abs_of_nonneg (by norm_num)]; norm_num
  have v3 : f [95] = fin 7.4 := by
    simp only [f, List.headD_cons, XR.fin_inj]
    rw [abs_of_nonpos (by norm_num)]; norm_num
  have v4 : f [102.5] = fin 0.1 := by
    simp only [f, List.headD_cons, XR.fin_inj]
    rw [abs_of_nonneg (by norm_num)]; norm_num
  have v5 : f [102] = fin 0.4 := by
    simp only [f, List.headD_cons, XR.fin_inj]
    rw [abs_of_nonpos (by norm_num)]; norm_num
  refine ⟨f, [100], by intro x; simp [f], ?_⟩
  have hss : startSimplex f truncCast [100] = [([100], fin 2.4), ([105], fin 2.6)] := by
    simp [startSimplex, e1, v1, v2]
  have hs := (sort_two sort hsort ([100], fin 2.4) ([105], fin 2.6) (Or.inr (by rw [XR.le_fin]; norm_num)) (by
    rintro (h | h)
    · simp at h
    · rw [XR.le_fin] at h; norm_num at h)).1
  have hs2 := (sort_two sort hsort ([102], fin 0.1) ([100], fin 2.4) (Or.inr (by rw [XR.le_fin]; norm_num)) (by
    rintro (h | h)
    · simp at h
    · rw [XR.le_fin] at h; norm_num at h)).2
  have hmove : nmMove f truncCast [([100], fin 2.4), ([105], fin 2.6)] =
      ([([100], fin 2.4), ([102], fin 0.1)], [[95], [102.5]]) := by
    have hc : centroid [(([100] : Vec), fin 2.4)] = [100] := by simp [centroid]
    have hxr : vlin 2 [100] (-1) [105] = [95] := by simp [vlin]; norm_num
    have hxcc : vlin 0.5 [100] 0.5 [105] = [102.5] := by simp [vlin]; norm_num
    have ht : truncCast 102.5 = 102 := by
      have : ⌊(102.5 : ℝ)⌋ = 102 := by
        rw [Int.floor_eq_iff]; norm_num
      simp only [truncCast]
      rw [if_pos (by norm_num), this]; norm_num
    have n1 : ¬ (7.4 : ℝ) < 2.4 := by norm_num
    have n2 : ¬ (7.4 : ℝ) < 2.6 := by norm_num
    have n3 : (0.1 : ℝ) < 2.6 := by norm_num
    have hgl : [(([100] : Vec), fin 2.4), ([105], fin 2.6)].getLastD ([], nan) = ([105], fin 2.6) := rfl
    have hgl2 : [(([100] : Vec), fin 2.4)].getLastD ([], nan) = ([100], fin 2.4) := rfl
    have hdl : [(([100] : Vec), fin 2.4), ([105], fin 2.6)].dropLast = [([100], fin 2.4)] := rfl
    unfold nmMove
    simp only [List.headD_cons, hdl, hc, hgl, hgl2, hxr, v3, hxcc, v4, XR.lt_fin]
    rw [if_neg n1, if_neg n1, if_neg n2, if_pos n3]
    simp [ht]
  have hconv : ¬ nmConverged 1e-4 1e-4 [(([100] : Vec), fin 2.4), ([105], fin 2.6)] := by
    simp only [nmConverged]
    rintro ⟨h, -⟩
    have := h ([105], fin 2.6) (by simp) (105, 100) (by simp)
    rw [XR.sub_fin, XR.div_fin _ _ (by norm_num), XR.abs_fin, XR.le_fin] at this
    rw [abs_of_nonneg (by norm_num)] at this
    norm_num at this
  have hl : nmLoop sort f truncCast 1e-4 1e-4 ([(100:ℝ)].length * 200) 2 (nmInit sort f truncCast [100]) =
      { sim := [([102], fin 0.1), ([100], fin 2.4)], evals := [[100], [105], [95], [102.5]],
        iterations := 2 } := by
    unfold nmLoop
    simp only [nmInit, hss, hs]
    rw [if_pos (by simp), if_neg hconv, hmove]
    simp only [hs2]
    unfold nmLoop
    rw [if_neg (by simp)]
    simp
  simp only [minimize, Option.getD_some, Option.getD_none, hl]
  refine ⟨by simp, ?_, by simp [v5]⟩
  have n1 : fin (2.4 : ℝ) ≤ pinf := Or.inl trivial
  have n2 : fin (0.1 : ℝ) ≤ fin 2.4 := by rw [XR.le_fin]; norm_num
  have n3 : nan ∉ [fin (0.1 : ℝ), fin 2.4] := by simp
  simp only [npMin, List.map_cons, List.map_nil]
  rw [if_neg n3]
  simp only [List.foldr_cons, List.foldr_nil]
  simp only [n1, n2, if_true]

/-! ## Pre-fit -/

/-- **C46 (never installs forbidden or unconverged parameters).** Either the original vector is
returned, with the flag off; or the optimiser's vector is returned, the optimiser converged or ran
out of evaluations, and the log-probability including the prior is not infinite there, so a point
with prior `-inf` is never returned.  The maximum-likelihood flag is set exactly when the
optimiser's vector is installed after convergence. -/
theorem C46_allowed_or_unchanged (cast : ℝ → ℝ) (ll llPrior : Vec → XR) (p0 : Vec) :
    let r := minimize sort (fun p => -(ll p)) cast p0 1e-1 1e-3 (some 500) none
    let out := prefit sort cast ll llPrior p0
    (out = (p0, false) ∧
      (llPrior r.x = ninf ∨ llPrior r.x = pinf ∨ (r.success = false ∧ r.status ≠ 1))) ∨
    (out.1 = r.x ∧ (r.success = true ∨ r.status = 1) ∧ llPrior out.1 ≠ ninf ∧ llPrior out.1 ≠ pinf ∧
      (out.2 = true ↔ r.success = true)) := by
  have hst := (C47_honest_status sort hsort (fun p => -(ll p)) cast p0 1e-1 1e-3 (some 500) none).2.2.1
  simp only [prefit]
  set r := minimize sort (fun p => -(ll p)) cast p0 1e-1 1e-3 (some 500) none
  by_cases h : r.success = true ∨ r.status = 1
  · cases hl : llPrior r.x with
    | ninf => left; simp
    | pinf => left; simp
    | nan =>
      right
      simp only [h, and_self, if_true, decide_eq_true_eq, hl]
      refine ⟨trivial, trivial, by simp, by simp, ?_⟩
      rcases h with h | h
      · simp [h, hst.2 h]
      · simp [h]
        cases hs : r.success with
        | false => rfl
        | true => rw [hst.2 hs] at h; simp at h
    | fin x =>
      right
      simp only [h, and_self, if_true, decide_eq_true_eq, hl]
      refine ⟨trivial, trivial, by simp, by simp, ?_⟩
      rcases h with h | h
      · simp [h, hst.2 h]
      · simp [h]
        cases hs : r.success with
        | false => rfl
        | true => rw [hst.2 hs] at h; simp at h
  · left
    simp only [h, false_and, if_false, true_and]
    push Not at h
    exact Or.inr (Or.inr ⟨by simpa using h.1, h.2⟩)

omit hsort in
theorem neg_le_neg_XR {a b : XR} (h : -a ≤ -b) : b ≤ a := by
  cases a with
  | fin x =>
    cases b with
    | fin y =>
      rw [XR.neg_fin, XR.neg_fin, XR.le_fin] at h
      rw [XR.le_fin]; linarith
    | _ => simp_all [XR.le_def, XR.lt, XR.eqv, Neg.neg, XR.neg]
  | _ => cases b <;> simp_all [XR.le_def, XR.lt, XR.eqv, Neg.neg, XR.neg]

/-- **C46 (never worse).** For a float starting vector and a likelihood that is never NaN, the
flat-prior log-likelihood at the returned vector is at least that at `p0`. -/
theorem C46_never_worse (ll llPrior : Vec → XR) (hll : ∀ x, ll x ≠ nan) (p0 : Vec) (hp : p0 ≠ []) :
    ll p0 ≤ ll (prefit sort id ll llPrior p0).1 := by
  have hneg : ∀ x, (fun p => -(ll p)) x ≠ nan := by
    intro x
    have := hll x
    simp only
    cases h : ll x <;> simp_all [Neg.neg, XR.neg]
  obtain ⟨h1, -, -, h4⟩ := C47_best_of_all_evaluations sort hsort (fun p => -(ll p)) hneg p0 hp 1e-1
    1e-3 (some 500) none
  rw [h1] at h4
  rcases C46_allowed_or_unchanged sort hsort id ll llPrior p0 with ⟨h, -⟩ | ⟨h, -⟩
  · rw [h]; exact XR.le_refl' (hll p0)
  · rw [h]; exact neg_le_neg_XR h4

omit hsort in
/-- A sort as required exists. -/
theorem nmSort_exists : ∃ sort, IsNMSort sort := by
  refine ⟨fun l => l.mergeSort (fun a b => decide (npLe a.2 b.2)), fun l =>
    ⟨List.mergeSort_perm _ _, ?_⟩⟩
  have := List.pairwise_mergeSort (le := fun a b : Vec × XR => decide (npLe a.2 b.2))
    (by intro a b c h1 h2; simp at *; exact npLe_trans h1 h2)
    (by intro a b; simp; exact npLe_total _ _) l
  simpa using this

/-- A vertex is within the relative tolerances of the best one: every coordinate differs from that of the
best vertex by at most `xtol` times the latter, and the value from the best value by at most `ftol` times
the latter. (With a coordinate or a best value 0, or an infinite value, no tolerance is met.) -/
def WithinTolerance (xtol ftol : ℝ) (best p : Vec × XR) : Prop :=
  (∀ (k : ℕ) (x y : ℝ), best.1[k]? = some x → p.1[k]? = some y → x ≠ 0 ∧ |y - x| ≤ xtol * |x|) ∧
  ∃ a b : ℝ, best.2 = fin a ∧ p.2 = fin b ∧ a ≠ 0 ∧ |b - a| ≤ ftol * |a|

omit hsort in
theorem rel_le_iff (x y tol : ℝ) :
    XR.abs ((fin y - fin x) / fin x) ≤ fin tol ↔ x ≠ 0 ∧ |y - x| ≤ tol * |x| := by
  by_cases hx : x = 0
  · subst hx
    have e : (fin y - fin 0 : XR) = fin y := by rw [XR.sub_fin]; simp
    rw [e]
    have e2 : (fin y / fin 0 : XR) = XR.infMul y := by
      show XR.div (fin y) (fin 0) = _
      simp [XR.div]
    rw [e2]
    unfold XR.infMul
    split_ifs <;> simp [XR.abs, XR.le_def, XR.lt, XR.eqv]
  · rw [XR.sub_fin, XR.div_fin _ _ hx, XR.abs_fin, XR.le_fin, abs_div, div_le_iff₀ (abs_pos.2 hx)]
    simp [hx]

omit hsort in
theorem rel_val_iff (a b : XR) (tol : ℝ) :
    XR.abs ((a - b) / a) ≤ fin tol ↔ ∃ x y : ℝ, a = fin x ∧ b = fin y ∧ x ≠ 0 ∧ |y - x| ≤ tol * |x| := by
  cases a with
  | fin x =>
    cases b with
    | fin y =>
      have e : XR.abs ((fin x - fin y) / fin x) ≤ fin tol ↔ x ≠ 0 ∧ |y - x| ≤ tol * |x| := by
        by_cases hx : x = 0
        · subst hx
          have e2 : ((fin 0 - fin y) / fin 0 : XR) = XR.infMul (0 - y) := by
            rw [XR.sub_fin]
            show XR.div (fin (0 - y)) (fin 0) = _
            simp [XR.div]
          rw [e2]
          unfold XR.infMul
          split_ifs <;> simp [XR.abs, XR.le_def, XR.lt, XR.eqv]
        · rw [XR.sub_fin, XR.div_fin _ _ hx, XR.abs_fin, XR.le_fin, abs_div, div_le_iff₀ (abs_pos.2 hx),
            abs_sub_comm]
          simp [hx]
      rw [e]
      constructor
      · intro h; exact ⟨x, y, rfl, rfl, h⟩
      · rintro ⟨x', y', h1, h2, h3⟩
        cases h1; cases h2; exact h3
    | pinf =>
      have : ((fin x - pinf) / fin x : XR) = ninf ∨ ((fin x - pinf) / fin x : XR) = pinf := by
        by_cases hx : x < 0
        · right
          show XR.div (XR.add (fin x) (XR.neg pinf)) (fin x) = _
          simp [XR.neg, XR.add, XR.div, hx]
        · left
          show XR.div (XR.add (fin x) (XR.neg pinf)) (fin x) = _
          simp [XR.neg, XR.add, XR.div, hx]
      rcases this with h | h <;> rw [h] <;> simp [XR.abs, XR.le_def, XR.lt, XR.eqv]
    | ninf =>
      have : ((fin x - ninf) / fin x : XR) = ninf ∨ ((fin x - ninf) / fin x : XR) = pinf := by
        by_cases hx : x < 0
        · left
          show XR.div (XR.add (fin x) (XR.neg ninf)) (fin x) = _
          simp [XR.neg, XR.add, XR.div, hx]
        · right
          show XR.div (XR.add (fin x) (XR.neg ninf)) (fin x) = _
          simp [XR.neg, XR.add, XR.div, hx]
      rcases this with h | h <;> rw [h] <;> simp [XR.abs, XR.le_def, XR.lt, XR.eqv]
    | nan =>
      have : ((fin x - nan) / fin x : XR) = nan := by
        show XR.div (XR.add (fin x) (XR.neg nan)) (fin x) = _
        simp [XR.neg, XR.add, XR.div]
      rw [this]; simp [XR.abs, XR.le_def, XR.lt, XR.eqv]
  | _ =>
    have : ∀ c : XR, XR.abs c ≤ fin tol → ∃ x, c = fin x := by
      intro c hc
      cases c <;> simp_all [XR.abs, XR.le_def, XR.lt, XR.eqv]
    constructor
    · intro h
      obtain ⟨z, hz⟩ := this _ h
      exfalso
      revert hz
      cases b <;> simp [HSub.hSub, Sub.sub, HDiv.hDiv, Div.div, XR.neg, XR.add, XR.div]
    · rintro ⟨x, y, h, -⟩
      cases h

omit hsort in
theorem nmConverged_iff (xtol ftol : ℝ) (sim : List (Vec × XR)) :
    nmConverged xtol ftol sim ↔ ∃ best rest, sim = best :: rest ∧ ∀ p ∈ rest, WithinTolerance xtol ftol best p := by
  cases sim with
  | nil => simp [nmConverged]
  | cons best rest =>
    simp only [nmConverged, rel_val_iff]
    constructor
    · rintro ⟨h1, h2⟩
      refine ⟨best, rest, rfl, fun p hp => ⟨?_, h2 p hp⟩⟩
      intro k x y hx hy
      have hm : (y, x) ∈ p.1.zip best.1 := by
        rw [List.mem_iff_getElem?]
        exact ⟨k, by rw [List.getElem?_zip_eq_some]; exact ⟨hy, hx⟩⟩
      exact (rel_le_iff x y xtol).1 (h1 p hp _ hm)
    · rintro ⟨b, r, he, h⟩
      cases he
      refine ⟨fun p hp q hq => ?_, fun p hp => (h p hp).2⟩
      rw [List.mem_iff_getElem?] at hq
      obtain ⟨k, hk⟩ := hq
      obtain ⟨k1, k2⟩ := List.getElem?_zip_eq_some.1 hk
      exact (rel_le_iff q.2 q.1 xtol).2 ((h p hp).1 k _ _ k2 k1)

/-- **C47 (accuracy of a success).** When success is reported, every vertex of the final simplex is within
the relative tolerances of the point returned. -/
theorem C47_success_accuracy (f : Vec → XR) (cast : ℝ → ℝ) (x0 : Vec) (xtol ftol : ℝ) (maxfev maxiter : Option Nat)
    (h : (minimize sort f cast x0 xtol ftol maxfev maxiter).success = true) :
    ∃ best rest, (minimize sort f cast x0 xtol ftol maxfev maxiter).sim = best :: rest ∧
      best.1 = (minimize sort f cast x0 xtol ftol maxfev maxiter).x ∧
      ∀ p ∈ rest, WithinTolerance xtol ftol best p := by
  obtain ⟨-, h2, -⟩ := C47_honest_status sort hsort f cast x0 xtol ftol maxfev maxiter
  obtain ⟨best, rest, e, hp⟩ := (nmConverged_iff _ _ _).1 (h2 h)
  refine ⟨best, rest, e, ?_, hp⟩
  have e' : (nmLoop sort f cast xtol ftol (maxfev.getD (x0.length * 200)) (maxiter.getD (x0.length * 200))
      (nmInit sort f cast x0)).sim = best :: rest := e
  show best.1 = ((nmLoop sort f cast xtol ftol (maxfev.getD (x0.length * 200)) (maxiter.getD (x0.length * 200))
      (nmInit sort f cast x0)).sim.headD ([], nan)).1
  rw [e']
  rfl

omit hsort in
/-- **C47 (no needless work).** If the start simplex is already within the tolerances (and the limits allow
its evaluation), no further point is evaluated and success is reported. -/
theorem C47_stops_at_once (f : Vec → XR) (cast : ℝ → ℝ) (x0 : Vec) (xtol ftol : ℝ) (maxfev maxiter : Option Nat)
    (best : Vec × XR) (rest : List (Vec × XR)) (hs : sort (startSimplex f cast x0) = best :: rest)
    (ht : ∀ p ∈ rest, WithinTolerance xtol ftol best p)
    (h1 : x0.length + 1 < maxfev.getD (x0.length * 200)) (h2 : 1 < maxiter.getD (x0.length * 200)) :
    let r := minimize sort f cast x0 xtol ftol maxfev maxiter
    r.success = true ∧ r.nfev = x0.length + 1 ∧ r.nit = 1 ∧ r.x = best.1 := by
  have hl : (nmInit sort f cast x0).evals.length = x0.length + 1 := by
    simp [nmInit, startSimplex]
  have hc : nmConverged xtol ftol (nmInit sort f cast x0).sim := by
    rw [nmConverged_iff]
    exact ⟨best, rest, hs, ht⟩
  have e : nmLoop sort f cast xtol ftol (maxfev.getD (x0.length * 200)) (maxiter.getD (x0.length * 200))
      (nmInit sort f cast x0) = nmInit sort f cast x0 := by
    unfold nmLoop
    rw [if_pos ⟨by omega, h2⟩, if_pos hc]
  simp only [minimize, e]
  refine ⟨?_, hl, rfl, ?_⟩
  · rw [if_neg (by omega), if_neg (by simp [nmInit]; omega)]
    simp
  · show ((sort (startSimplex f cast x0)).headD ([], nan)).1 = _
    rw [hs]; rfl

/-- Non-vacuity of the last two theorems: a constant objective from the point 1 with tolerances of 10 %. -/
example : (minimize sort (fun _ => fin 1) id [1] 0.1 0.1 none none).success = true := by
  have e : startSimplex (fun _ => fin 1) id [1] = [([1], fin 1), ([1.05], fin 1)] := by
    simp [startSimplex, startPoint, List.range_succ]
    norm_num
  have hp := (hsort (startSimplex (fun _ => fin 1) id [1])).1
  rw [e] at hp
  have w : ∀ p ∈ [(([1] : Vec), fin 1), ([1.05], fin 1)], ∀ b ∈ [(([1] : Vec), fin 1), ([1.05], fin 1)],
      WithinTolerance 0.1 0.1 b p := by
    intro p hp b hb
    have hv : ∀ q ∈ [(([1] : Vec), fin 1), ([1.05], fin 1)], ∃ z : ℝ, q = ([z], fin 1) ∧ 1 ≤ z ∧ z ≤ 1.05 := by
      intro q hq
      simp only [List.mem_cons, List.not_mem_nil, or_false] at hq
      rcases hq with rfl | rfl
      · exact ⟨1, rfl, by norm_num, by norm_num⟩
      · exact ⟨1.05, rfl, by norm_num, by norm_num⟩
    obtain ⟨z, rfl, z1, z2⟩ := hv p hp
    obtain ⟨v, rfl, v1, v2⟩ := hv b hb
    refine ⟨?_, 1, 1, rfl, rfl, by norm_num, by norm_num⟩
    intro k x y hx hy
    cases k with
    | zero =>
      simp at hx hy
      subst hx hy
      refine ⟨by linarith, ?_⟩
      rw [abs_of_pos (by linarith : (0:ℝ) < v), abs_le]
      norm_num at *
      constructor <;> linarith
    | succ k => simp at hx
  obtain ⟨best, rest, hs⟩ : ∃ best rest, sort (startSimplex (fun _ => fin 1) id [1]) = best :: rest := by
    cases h : sort (startSimplex (fun _ => fin 1) id [1]) with
    | nil => rw [e] at h; rw [h] at hp; exact absurd hp.length_eq (by simp)
    | cons a l => exact ⟨a, l, rfl⟩
  have hm : ∀ q ∈ best :: rest, q ∈ [(([1] : Vec), fin 1), ([1.05], fin 1)] := by
    intro q hq
    rw [e] at hs
    rw [hs] at hp
    exact hp.subset hq
  exact (C47_stops_at_once sort (fun _ => fin 1) id [1] 0.1 0.1 none none best rest hs
    (fun p hp' => w p (hm p (by simp [hp'])) best (hm best (by simp))) (by simp) (by simp)).1

/-- A quadratic with a ridge of forbidden values. -/
example : ∃ sort, IsNMSort sort ∧
    (∀ m, prefit sort id (fun v => if v.headD 0 < 0 then ninf else fin (-(v.headD 0 - 3) ^ 2)) (fun _ => fin 0) [1, 2] = m →
      (fun v : Vec => if v.headD 0 < 0 then ninf else fin (-(v.headD 0 - 3) ^ 2)) [1, 2] ≤
        (fun v : Vec => if v.headD 0 < 0 then ninf else fin (-(v.headD 0 - 3) ^ 2)) m.1) := by
  obtain ⟨sort, hs⟩ := nmSort_exists
  refine ⟨sort, hs, ?_⟩
  rintro m rfl
  exact C46_never_worse sort hs (fun v : Vec => if v.headD 0 < 0 then ninf else fin (-(v.headD 0 - 3) ^ 2)) _ (by intro v; split_ifs <;> simp) [1, 2] (by simp)

example (sort) (hs : IsNMSort sort) := C47_never_worse_bounded sort hs
  (fun v => fin ((v.headD 0 - 3) ^ 2)) id [1, 2] (by simp) 1e-4 1e-4 (some 10) none

example (sort) (hs : IsNMSort sort) := C47_best_of_all_evaluations sort hs
  (fun v => fin ((v.headD 0 - 3) ^ 2)) (by simp) [1, 2] (by simp) 1e-4 1e-4 (some 10) none

end Naima.Props
