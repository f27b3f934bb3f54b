import Verif.Model.NelderMead
import Verif.Proof.XR

/-! Lemmas for Nelder–Mead. -/

namespace Naima

open XR Classical

theorem XR.le_def (a b : XR) : a ≤ b ↔ (XR.lt a b ∨ XR.eqv a b) := Iff.rfl
theorem XR.lt_def (a b : XR) : a < b ↔ XR.lt a b := Iff.rfl

theorem XR.le_trans' {a b c : XR} (h1 : a ≤ b) (h2 : b ≤ c) : a ≤ c := by
  cases a <;> cases b <;> cases c <;>
    simp_all [XR.le_def, XR.lt, XR.eqv] <;>
    (first
     | (rcases h1 with h1 | h1 <;> rcases h2 with h2 | h2 <;> first | (left; linarith) | (right; linarith)))

theorem XR.le_refl' {a : XR} (h : a ≠ nan) : a ≤ a := by
  cases a <;> simp_all [XR.le_def, XR.lt, XR.eqv]

theorem XR.le_of_lt' {a b : XR} (h : a < b) : a ≤ b := Or.inl h

theorem XR.le_of_not_lt {a b : XR} (h : ¬ a < b) (ha : a ≠ nan) (hb : b ≠ nan) : b ≤ a := by
  cases a <;> cases b <;> simp_all [XR.le_def, XR.lt_def, XR.lt, XR.eqv]
  rcases lt_or_eq_of_le h with h | h
  · exact Or.inl h
  · exact Or.inr h

theorem XR.le_antisymm' {a b : XR} (h1 : a ≤ b) (h2 : b ≤ a) : a = b := by
  cases a <;> cases b <;> simp_all [XR.le_def, XR.lt, XR.eqv]
  rcases h1 with h1 | h1
  · rcases h2 with h2 | h2 <;> linarith
  · exact h1

theorem XR.ne_nan_of_le {a b : XR} (h : a ≤ b) : a ≠ nan ∧ b ≠ nan := by
  cases a <;> cases b <;> simp_all [XR.le_def, XR.lt, XR.eqv]

theorem npLe_trans {a b c : XR} (h1 : npLe a b) (h2 : npLe b c) : npLe a c := by
  rcases h2 with rfl | h2
  · exact Or.inl rfl
  · rcases h1 with rfl | h1
    · exact absurd rfl (XR.ne_nan_of_le h2).1
    · exact Or.inr (XR.le_trans' h1 h2)

theorem npLe_refl (a : XR) : npLe a a := by
  by_cases h : a = nan
  · exact Or.inl h
  · exact Or.inr (XR.le_refl' h)

theorem npLe_of_not_lt {a b : XR} (h : ¬ a < b) (hb : b ≠ nan) : npLe b a := by
  by_cases ha : a = nan
  · exact Or.inl ha
  · exact Or.inr (XR.le_of_not_lt h ha hb)

theorem npLe_of_lt {a b : XR} (h : a < b) : npLe a b := Or.inr (Or.inl h)

theorem npLe_nan {b : XR} (h : npLe nan b) : b = nan := by
  rcases h with h | h
  · exact h
  · exact absurd rfl (XR.ne_nan_of_le h).1

theorem npLe_total (a b : XR) : npLe a b ∨ npLe b a := by
  by_cases ha : a = nan
  · exact Or.inr (Or.inl ha)
  · by_cases h : a < b
    · exact Or.inl (npLe_of_lt h)
    · by_cases hb : b = nan
      · exact Or.inl (Or.inl hb)
      · exact Or.inr (npLe_of_not_lt h hb)

/-- best value of a simplex -/
noncomputable def bestVal (sim : List (Vec × XR)) : XR := (sim.headD ([], nan)).2

theorem bestVal_le (sim : List (Vec × XR)) (h : sim.Pairwise (fun a b => npLe a.2 b.2))
    (p : Vec × XR) (hp : p ∈ sim) : npLe (bestVal sim) p.2 := by
  cases sim with
  | nil => simp at hp
  | cons a l =>
    rcases List.mem_cons.1 hp with rfl | hp
    · exact npLe_refl _
    · exact (List.pairwise_cons.1 h).1 p hp

theorem head_mem (sim : List (Vec × XR)) (h : sim ≠ []) : sim.headD ([], nan) ∈ sim := by
  cases sim with
  | nil => exact absurd rfl h
  | cons a l => simp

/-- facts about one move on a sorted simplex with at least two vertices -/
theorem move_facts (f : Vec → XR) (cast : ℝ → ℝ) (sim : List (Vec × XR)) (N : Nat) (hN : 1 ≤ N)
    (hlen : sim.length = N + 1) :
    (nmMove f cast sim).1.length = N + 1 ∧ sim.headD ([], nan) ∈ (nmMove f cast sim).1 ∧
    (nmMove f cast sim).2.length ≤ N + 2 := by
  have hd : sim.headD ([], nan) ∈ sim.dropLast := by
    cases sim with
    | nil => simp at hlen
    | cons a l =>
      cases l with
      | nil => simp at hlen; omega
      | cons b l => simp
  have hput : ∀ x v, (sim.dropLast ++ [(List.map cast x, v)]).length = N + 1 ∧
      sim.headD ([], nan) ∈ sim.dropLast ++ [(List.map cast x, v)] := by
    intro x v
    refine ⟨by simp [hlen], List.mem_append_left _ hd⟩
  have hsh : ∀ h : Vec × XR, ∀ g : Vec → Vec × XR, ∀ k : Vec × XR → Vec,
      (h :: (sim.tail.map k).map g).length = N + 1 := by
    intro h g k; simp [hlen]
  unfold nmMove
  simp only
  split_ifs
  all_goals first
    | exact ⟨(hput _ _).1, (hput _ _).2, by simp⟩
    | exact ⟨hsh _ _ _, List.mem_cons_self, by simp [hlen]⟩

/-- values belong to points and every point was evaluated (float dtype) -/
theorem move_values (f : Vec → XR) (sim : List (Vec × XR)) (ev : List Vec)
    (hne : sim ≠ []) (hv : ∀ p ∈ sim, p.2 = f p.1 ∧ p.1 ∈ ev) :
    ∀ p ∈ (nmMove f id sim).1, p.2 = f p.1 ∧ p.1 ∈ ev ++ (nmMove f id sim).2 := by
  have hdrop : ∀ p ∈ sim.dropLast, p.2 = f p.1 ∧ p.1 ∈ ev := fun p hp =>
    hv p (List.mem_of_mem_dropLast hp)
  have hput : ∀ (x : Vec) (new : List Vec), x ∈ new →
      ∀ p ∈ sim.dropLast ++ [(List.map id x, f x)], p.2 = f p.1 ∧ p.1 ∈ ev ++ new := by
    intro x new hx p hp
    rw [List.map_id] at hp
    rcases List.mem_append.1 hp with hp | hp
    · exact ⟨(hdrop p hp).1, List.mem_append_left _ (hdrop p hp).2⟩
    · simp at hp; subst hp; exact ⟨rfl, List.mem_append_right _ hx⟩
  have hsh : ∀ (pts pre : List Vec), ∀ p ∈ sim.headD ([], nan) :: pts.map (fun y => (y, f y)),
      p.2 = f p.1 ∧ p.1 ∈ ev ++ (pre ++ pts) := by
    intro pts pre p hp
    rcases List.mem_cons.1 hp with rfl | hp
    · have := hv _ (head_mem sim hne)
      exact ⟨this.1, List.mem_append_left _ this.2⟩
    · simp at hp
      obtain ⟨y, hy, rfl⟩ := hp
      exact ⟨rfl, by simp [hy]⟩
  unfold nmMove
  simp only
  split_ifs
  all_goals first
    | exact hput _ _ (by simp)
    | exact hsh _ _

/-- the new best value is at most every value obtained in the move -/
theorem move_best (f : Vec → XR) (sim : List (Vec × XR)) (hne : 2 ≤ sim.length)
    (hs : sim.Pairwise (fun a b => npLe a.2 b.2)) (hb : bestVal sim ≠ nan)
    (hw : (sim.getLastD ([], nan)).2 ≠ nan) (sim' : List (Vec × XR)) (hp : sim'.Perm (nmMove f id sim).1)
    (hs' : sim'.Pairwise (fun a b => npLe a.2 b.2)) :
    (∀ y ∈ (nmMove f id sim).2, npLe (bestVal sim') (f y)) ∧ npLe (bestVal sim') (bestVal sim) := by
  have hle : ∀ p ∈ (nmMove f id sim).1, npLe (bestVal sim') p.2 := fun p hp' =>
    bestVal_le sim' hs' p (hp.mem_iff.2 hp')
  have hbest : npLe (bestVal sim') (bestVal sim) :=
    hle _ (move_facts f id sim (sim.length - 1) (by omega) (by omega)).2.1
  refine ⟨?_, hbest⟩
  have hlast : bestVal sim ≠ nan → npLe (bestVal sim) (sim.getLastD ([], nan)).2 := by
    intro _
    refine bestVal_le sim hs _ ?_
    have : sim ≠ [] := by intro h; rw [h] at hne; simp at hne
    rw [List.getLastD_eq_getLast?, List.getLast?_eq_getLast_of_ne_nil this]
    exact List.getLast_mem this
  revert hle
  unfold nmMove
  simp only
  have hbv : (sim.headD ([], nan)).2 = bestVal sim := rfl
  have nl : ∀ y, ¬ f y < (sim.headD ([], nan)).2 → npLe (bestVal sim') (f y) := by
    intro y h
    rw [hbv] at h
    exact npLe_trans hbest (npLe_of_not_lt h hb)
  split_ifs with h1 h2 h3 h4 h5 h6
  · -- expansion accepted
    intro hle y hy
    have e := hle _ (List.mem_append_right _ (List.mem_singleton.2 rfl))
    simp only [List.mem_cons, List.not_mem_nil, or_false] at hy
    rcases hy with rfl | rfl
    · exact npLe_trans e (npLe_of_lt h2)
    · exact e
  · intro hle y hy
    have e := hle _ (List.mem_append_right _ (List.mem_singleton.2 rfl))
    simp only [List.mem_cons, List.not_mem_nil, or_false] at hy
    rcases hy with rfl | rfl
    · exact e
    · refine npLe_trans e (npLe_of_not_lt h2 ?_)
      intro hn
      simp only at hn
      rw [hn] at h1
      exact h1
  · intro hle y hy
    simp only [List.mem_cons, List.not_mem_nil, or_false] at hy
    subst hy
    exact nl _ h1
  · intro hle y hy
    have e := hle _ (List.mem_append_right _ (List.mem_singleton.2 rfl))
    simp only [List.mem_cons, List.not_mem_nil, or_false] at hy
    rcases hy with rfl | rfl
    · exact nl _ h1
    · exact e
  · intro hle y hy
    simp only [List.mem_append, List.mem_cons, List.not_mem_nil, or_false] at hy
    rcases hy with (rfl | rfl) | hy
    · exact nl _ h1
    · -- fxc > fxr or NaN
      by_cases hx : f (vlin 1.5 (centroid sim.dropLast) (-0.5) (sim.getLastD ([], nan)).1) = nan
      · exact Or.inl hx
      · refine npLe_trans (nl _ h1) ?_
        rcases npLe_total (f (vlin 2 (centroid sim.dropLast) (-1) (sim.getLastD ([], nan)).1))
          (f (vlin 1.5 (centroid sim.dropLast) (-0.5) (sim.getLastD ([], nan)).1)) with h | h
        · exact h
        · rcases h with h | h
          · rw [h] at h4; exact absurd h4 (by intro h; exact h)
          · exact absurd h h5
    · exact hle (y, f y) (by
        refine List.mem_cons_of_mem _ ?_
        exact List.mem_map.2 ⟨y, hy, rfl⟩)
  · intro hle y hy
    have e := hle _ (List.mem_append_right _ (List.mem_singleton.2 rfl))
    simp only [List.mem_cons, List.not_mem_nil, or_false] at hy
    rcases hy with rfl | rfl
    · exact nl _ h1
    · exact e
  · intro hle y hy
    simp only [List.mem_append, List.mem_cons, List.not_mem_nil, or_false] at hy
    rcases hy with (rfl | rfl) | hy
    · exact nl _ h1
    · -- not below the worst value
      exact npLe_trans hbest (npLe_trans (hlast hb) (npLe_of_not_lt h6 hw))
    · exact hle (y, f y) (by
        refine List.mem_cons_of_mem _ ?_
        exact List.mem_map.2 ⟨y, hy, rfl⟩)


/-- Invariant rule for the loop. -/
theorem loop_inv (sort : List (Vec × XR) → List (Vec × XR)) (f : Vec → XR) (cast : ℝ → ℝ)
    (xtol ftol : ℝ) (maxfun maxiter : Nat) (P : NMState → Prop)
    (hstep : ∀ s, P s → s.evals.length < maxfun → s.iterations < maxiter →
      P { sim := sort (nmMove f cast s.sim).1, evals := s.evals ++ (nmMove f cast s.sim).2,
          iterations := s.iterations + 1 })
    (s : NMState) (h0 : P s) : P (nmLoop sort f cast xtol ftol maxfun maxiter s) := by
  induction hn : maxiter - s.iterations using Nat.strong_induction_on generalizing s with
  | _ n ih =>
    unfold nmLoop
    split_ifs with h1 h2
    · exact h0
    · exact ih _ (by simp only; omega) _ (hstep s h0 h1.1 h1.2) rfl
    · exact h0

/-- On exit: a limit is reached or the stopping test holds. -/
theorem loop_exit (sort : List (Vec × XR) → List (Vec × XR)) (f : Vec → XR) (cast : ℝ → ℝ)
    (xtol ftol : ℝ) (maxfun maxiter : Nat) (s : NMState) :
    let r := nmLoop sort f cast xtol ftol maxfun maxiter s
    r.evals.length ≥ maxfun ∨ r.iterations ≥ maxiter ∨ nmConverged xtol ftol r.sim := by
  induction hn : maxiter - s.iterations using Nat.strong_induction_on generalizing s with
  | _ n ih =>
    unfold nmLoop
    split_ifs with h1 h2
    · exact Or.inr (Or.inr h2)
    · exact ih _ (by simp only; omega) _ rfl
    · by_cases h : s.evals.length < maxfun
      · exact Or.inr (Or.inl (not_lt.1 fun h' => h1 ⟨h, h'⟩))
      · exact Or.inl (not_lt.1 h)

theorem npMin_of_sorted (sim : List (Vec × XR)) (hne : sim ≠ [])
    (hs : sim.Pairwise (fun a b => npLe a.2 b.2)) (hn : ∀ p ∈ sim, p.2 ≠ nan) :
    npMin (sim.map (·.2)) = bestVal sim := by
  unfold npMin
  have : nan ∉ sim.map (·.2) := by
    simp only [List.mem_map, not_exists, not_and]
    intro p hp h
    exact hn p hp h
  rw [if_neg this]
  clear this
  induction sim with
  | nil => exact absurd rfl hne
  | cons p l ih =>
    simp only [List.map_cons, List.foldr_cons]
    cases l with
    | nil =>
      have : p.2 ≤ pinf := by
        have := hn p (by simp)
        cases hp : p.2 <;> simp_all [XR.le_def, XR.lt, XR.eqv]
      simp [this, bestVal]
    | cons q l =>
      rw [ih (by simp) (List.pairwise_cons.1 hs).2 (fun r hr => hn r (by simp [hr]))]
      have hle := (List.pairwise_cons.1 hs).1 q (by simp)
      have : p.2 ≤ bestVal (q :: l) := by
        rcases hle with h | h
        · exact absurd h (hn q (by simp))
        · exact h
      rw [if_pos this]; rfl

end Naima
