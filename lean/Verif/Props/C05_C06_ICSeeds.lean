import Verif.Model.ICFlux
import Verif.Proof.ICFlux

/-! # C05, C06: per-seed fluxes of InverseCompton -/

namespace Naima.Props

open Naima

variable {P E κ : Type} [DecidableEq κ]

/-- **C05, the part that holds (1).** In any state — after any history — a request that is not
answered from the cache returns, for seed number `i` with name `n`, exactly that seed's
contribution at this call's energies and parameters, at this call's distance. -/
theorem C05_seed_flux_on_miss_partial (o : ICObj P E) (key : P × E × Dist → κ) (s : ICState κ)
    (p : P) (e : E) (d : Dist) (g : String → List ℝ) (hd : d ≠ .bad)
    (hmiss : s.memo.cache.get? (key (p, e, d)) = none)
    (hcalc : ∀ n ∈ o.seeds p, o.specOf p e n = .ok (g n))
    (i : Nat) (n : String) (hi : (o.seeds p)[i]? = some n) :
    (o.flux key s p e d (.int i)).1 = atDistance (g n) d := by
  have hne : o.seeds p ≠ [] := by intro h; simp [h] at hi
  obtain ⟨tot, v, _, _, hs⟩ := superFlux_miss o key s p e d g hd hmiss hne hcalc
  exact flux_of_specic o key s _ p e d v g hd hs rfl i n hi

/-- **C05, the part that holds (2).** If the last computation made on the object was for the same
energies and parameters (for instance the total flux has just been requested, possibly at another
distance), the per-seed flux is right even when the total comes from the cache. -/
theorem C05_seed_flux_after_same_request_partial (o : ICObj P E) (key : P × E × Dist → κ)
    (s : ICState κ) (p : P) (e : E) (d d' : Dist) (g : String → List ℝ) (hd : d ≠ .bad)
    (hd' : d' ≠ .bad) (hmiss : s.memo.cache.get? (key (p, e, d')) = none)
    (hcalc : ∀ n ∈ o.seeds p, o.specOf p e n = .ok (g n))
    (i : Nat) (n : String) (hi : (o.seeds p)[i]? = some n) :
    let s' := (o.flux key s p e d' .none).2
    (o.flux key s' p e d (.int i)).1 = atDistance (g n) d := by
  intro s'
  have hne : o.seeds p ≠ [] := by intro h; simp [h] at hi
  obtain ⟨tot, v, _, _, hs⟩ := superFlux_miss o key s p e d' g hd' hmiss hne hcalc
  have hs' : s'.specic = (o.seeds p).map g := by
    simp only [s', ICObj.flux, hs, resolveSeed]
  cases hg : s'.memo.cache.get? (key (p, e, d)) with
  | none => exact C05_seed_flux_on_miss_partial o key s' p e d g hd hg hcalc i n hi
  | some w =>
    have : o.superFlux key s' p e d = (.ok w, s') := by unfold ICObj.superFlux; simp [hg]
    exact flux_of_specic o key s' s' p e d w g hd this hs' i n hi

/-- The object used in the counterexample: one seed, whose contribution is the energy itself. -/
noncomputable def toyIC : ICObj Unit ℕ := ⟨fun _ => ["CMB"], fun _ e _ => .ok [(e : ℝ)]⟩

/-- a perfect key for the requests below, which differ only in energy -/
def toyKey : Unit × ℕ × Dist → ℕ := fun r => r.2.1

/-- **C05 is false of the code.**  Request the total at energy 1, then at energy 2, then the
contribution of seed 0 at energy 1: the contribution at energy 2 is returned, although the cache
key separates these requests. -/
theorem C05_false_stale_seed :
    (toyIC.run toyKey ICState.init
      [((), 1, .zero, .none), ((), 2, .zero, .none), ((), 1, .zero, .int 0)]).1
      = [.ok [1], .ok [2], .ok [2]] ∧
    (toyIC.run toyKey ICState.init [((), 1, .zero, .int 0)]).1 = [.ok [1]] := by
  constructor <;>
  simp [ICObj.run, ICObj.flux, ICObj.superFlux, ICObj.compute, toyIC, toyKey, ICState.init,
    Memo.empty, Dict.get?, fillSpecic, sumSeeds, atDistance, resolveSeed, Memo.store, Dict.set,
    Dict.keys, pyIndex]

/-- Non-vacuity of the C05 partial theorems: the second request of a history is a miss on an object
with two seeds. -/
example : ∃ (o : ICObj Unit ℕ) (s : ICState ℕ) (g : String → List ℝ),
    s.memo.cache ≠ [] ∧ s.memo.cache.get? (toyKey ((), 2, .cm 3)) = none ∧
    (∀ n ∈ o.seeds (), o.specOf () 2 n = .ok (g n)) ∧ (o.seeds ())[1]? = some "FIR" := by
  refine ⟨⟨fun _ => ["CMB", "FIR"], fun _ e n => .ok [if n = "CMB" then (e : ℝ) else 7]⟩,
    ⟨⟨[(1, [1])], [1]⟩, [[1], [7]]⟩, fun n => [if n = "CMB" then 2 else 7], ?_, ?_, ?_, rfl⟩
  · simp
  · rfl
  · simp

/-- **C06 (sum).** On a request that is computed (not answered from the cache) the total flux at
each energy is the sum over all seeds of the per-seed fluxes at that energy, at any distance. -/
theorem C06_seeds_sum (o : ICObj P E) (key : P × E × Dist → κ) (s : ICState κ)
    (p : P) (e : E) (d : Dist) (g : String → List ℝ) (hd : d ≠ .bad) (nE : Nat)
    (hmiss : s.memo.cache.get? (key (p, e, d)) = none) (hne : o.seeds p ≠ [])
    (hcalc : ∀ n ∈ o.seeds p, o.specOf p e n = .ok (g n))
    (hlen : ∀ n ∈ o.seeds p, (g n).length = nE) :
    ∃ (total : List ℝ) (part : ℕ → List ℝ),
      (o.flux key s p e d .none).1 = .ok total ∧ total.length = nE ∧
      (∀ k < (o.seeds p).length, (o.flux key s p e d (.int k)).1 = .ok (part k)) ∧
      ∀ j < nE, total[j]? = some (∑ k ∈ Finset.range (o.seeds p).length, (part k).getD j 0) := by
  obtain ⟨tot, v, hsum, hv, hs⟩ := superFlux_miss o key s p e d g hd hmiss hne hcalc
  obtain ⟨a, l, hl⟩ := List.exists_cons_of_ne_nil hne
  -- the factor applied to every spectrum
  obtain ⟨c, hc⟩ : ∃ c : ℝ, ∀ x : List ℝ, atDistance x d = .ok (x.map (fun y => y / c)) := by
    cases d with
    | zero => exact ⟨1, fun x => by simp [atDistance]⟩
    | cm x => exact ⟨4 * Real.pi * x ^ 2, fun x => rfl⟩
    | bad => exact absurd rfl hd
  have htot : tot = (l.map g).foldl (List.zipWith (· + ·)) (g a) := by
    rw [hl] at hsum; simp [sumSeeds] at hsum; exact hsum.symm
  have hla : (g a).length = nE := hlen a (by simp [hl])
  have hll : ∀ x ∈ l.map g, x.length = nE := by
    intro x hx; obtain ⟨n, hn, rfl⟩ := List.mem_map.1 hx; exact hlen n (by simp [hl, hn])
  refine ⟨v, fun k => ((o.seeds p)[k]?.map g).getD [] |>.map (fun y => y / c), ?_, ?_, ?_, ?_⟩
  · unfold ICObj.flux; simp [hs, resolveSeed]
  · rw [hc] at hv; cases hv; rw [List.length_map, htot]; exact foldl_zipWith_length _ _ _ hla hll
  · intro k hk
    obtain ⟨n, hn⟩ : ∃ n, (o.seeds p)[k]? = some n := ⟨_, List.getElem?_eq_getElem hk⟩
    rw [C05_seed_flux_on_miss_partial o key s p e d g hd hmiss hcalc k n hn, hc]
    simp [hn]
  · intro j hj
    rw [hc] at hv
    cases hv
    rw [List.getElem?_map, htot, foldl_zipWith_getElem _ _ nE j hla hll hj]
    simp only [Option.map_some]
    congr 1
    have key2 : ∀ (names : List String), (∀ n ∈ names, (g n).length = nE) →
        ((names.map g).map (fun x => x.getD j 0)).sum / c
        = ∑ k ∈ Finset.range names.length,
            (List.map (fun y => y / c) (((names[k]?).map g).getD [])).getD j 0 := by
      intro names
      induction names with
      | nil => intro _; simp
      | cons n names ih =>
        intro hn
        rw [List.length_cons, Finset.sum_range_succ']
        have hj' : j < (g n).length := by rw [hn n (by simp)]; exact hj
        have h2 := ih (fun m hm => hn m (by simp [hm]))
        simp only [List.map_cons, List.sum_cons, add_div, h2]
        simp [hj']
        rw [add_comm]
    have := key2 (o.seeds p) hlen
    rw [← this, hl]
    simp

/-- **C06 (names).** Selecting a seed by its name is the same as selecting it by its position. -/
theorem C06_name_is_position (o : ICObj P E) (key : P × E × Dist → κ) (s : ICState κ)
    (p : P) (e : E) (d : Dist) (i : Nat) (n : String) (hn : (o.seeds p).Nodup)
    (hi : (o.seeds p)[i]? = some n) :
    o.flux key s p e d (.name n) = o.flux key s p e d (.int i) :=
  flux_name_eq_int o key s p e d i n hn hi

/-- **C06 (unknown name).** A name that is not a seed of the model raises ValueError (if the total
flux itself could be computed). -/
theorem C06_unknown_name (o : ICObj P E) (key : P × E × Dist → κ) (s : ICState κ)
    (p : P) (e : E) (d : Dist) (n : String) (v : List ℝ)
    (hok : (o.flux key s p e d .none).1 = .ok v) (hn : n ∉ o.seeds p) :
    (o.flux key s p e d (.name n)).1 = .error .valueError := by
  have hidx : indexOf? (o.seeds p) n = Option.none := by
    unfold indexOf?
    simp only [List.findIdx?_eq_none_iff, beq_eq_false_iff_ne]
    intro x hx e; exact hn (e ▸ hx)
  unfold ICObj.flux at hok ⊢
  cases hsf : o.superFlux key s p e d with
  | mk r s' =>
    cases r with
    | error err => simp [hsf] at hok
    | ok m => simp [resolveSeed, hidx]

/-- **C06 (numbers), the part that holds.** A number larger than the number of seeds raises
ValueError. -/
theorem C06_too_large_number_partial (o : ICObj P E) (key : P × E × Dist → κ) (s : ICState κ)
    (p : P) (e : E) (d : Dist) (i : Int) (v : List ℝ)
    (hok : (o.flux key s p e d .none).1 = .ok v) (hi : (o.seeds p).length < i) :
    (o.flux key s p e d (.int i)).1 = .error .valueError := by
  unfold ICObj.flux at hok ⊢
  cases hsf : o.superFlux key s p e d with
  | mk r s' =>
    cases r with
    | error err => simp [hsf] at hok
    | ok m => simp only [resolveSeed]; rw [if_pos hi]

/-- **C06 is false of the code at the boundary.**  A seed number equal to the number of seeds —
out of range, since numbering starts at 0 — passes the check and ends in IndexError instead of
ValueError, for every model with at least one seed. -/
theorem C06_false_boundary (o : ICObj P E) (key : P × E × Dist → κ) (s : ICState κ)
    (p : P) (e : E) (d : Dist) (g : String → List ℝ) (hd : d ≠ .bad)
    (hmiss : s.memo.cache.get? (key (p, e, d)) = none) (hne : o.seeds p ≠ [])
    (hcalc : ∀ n ∈ o.seeds p, o.specOf p e n = .ok (g n)) :
    (o.flux key s p e d (.int (o.seeds p).length)).1 = .error .indexError := by
  obtain ⟨tot, v, _, _, hs⟩ := superFlux_miss o key s p e d g hd hmiss hne hcalc
  unfold ICObj.flux
  simp only [hs, resolveSeed]
  rw [if_neg (by omega)]
  have : pyIndex ((o.seeds p).map g) ((o.seeds p).length : Int) = .error .indexError := by
    unfold pyIndex; simp
  cases d with
  | zero => simp only [this]
  | cm x => simp only [this]
  | bad => exact absurd rfl hd

/-- **C06 is false of the code for negative numbers.**  They silently count from the end: seed -1
is the last seed. -/
theorem C06_false_negative (o : ICObj P E) (key : P × E × Dist → κ) (s : ICState κ)
    (p : P) (e : E) (d : Dist) (g : String → List ℝ) (hd : d ≠ .bad)
    (hmiss : s.memo.cache.get? (key (p, e, d)) = none)
    (hcalc : ∀ n ∈ o.seeds p, o.specOf p e n = .ok (g n))
    (init : List String) (n : String) (hl : o.seeds p = init ++ [n]) :
    (o.flux key s p e d (.int (-1))).1 = atDistance (g n) d := by
  have hne : o.seeds p ≠ [] := by simp [hl]
  obtain ⟨tot, v, _, _, hs⟩ := superFlux_miss o key s p e d g hd hmiss hne hcalc
  unfold ICObj.flux
  simp only [hs, resolveSeed]
  rw [if_neg (by omega)]
  have : pyIndex ((o.seeds p).map g) (-1) = .ok (g n) := by
    unfold pyIndex
    have h1 : ¬ (0 : Int) ≤ -1 := by omega
    have h2 : -(((o.seeds p).map g).length : Int) ≤ -1 := by simp [hl]
    have h3 : ((((o.seeds p).map g).length : Int) + -1).toNat = init.length := by simp [hl]
    rw [if_neg h1, if_pos h2, h3]
    simp [hl]
  cases d with
  | zero => simp only [this]
  | cm x => simp only [this]
  | bad => exact absurd rfl hd

/-- Non-vacuity of C06: two seeds with two energies each on a fresh object; the sum is not
trivial. -/
example : ∃ (o : ICObj Unit ℕ) (g : String → List ℝ),
    o.seeds () = ["CMB", "FIR"] ∧ (∀ n ∈ o.seeds (), o.specOf () 0 n = .ok (g n)) ∧
    (∀ n ∈ o.seeds (), (g n).length = 2) ∧
    (o.flux toyKey ICState.init () 0 .zero .none).1 = .ok [4, 6] := by
  refine ⟨⟨fun _ => ["CMB", "FIR"], fun _ _ n => .ok (if n = "CMB" then [1, 2] else [3, 4])⟩,
    fun n => if n = "CMB" then [1, 2] else [3, 4], rfl, by simp, by simp, ?_⟩
  simp [ICObj.flux, ICObj.superFlux, ICObj.compute, toyKey, ICState.init,
    Memo.empty, Dict.get?, fillSpecic, sumSeeds, atDistance, resolveSeed]
  norm_num

end Naima.Props
