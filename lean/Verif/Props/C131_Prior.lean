import Verif.Spec.Acceptance
import Verif.Props.C40_C43_LnProb
import Verif.Props.C49_C52_Results

/-! # C131: samples respect the prior -/

namespace Naima.Props

open Naima XR Classical Naima.Spec

/-! ## One step -/

/-- A walker after a step: unchanged, or at a position of non-zero probability. -/
def Moved (post : List ℝ → Except PyErr XR) (w w' : Walker) : Prop :=
  w' = w ∨ (evalLogp post w'.coords = .ok w'.logp ∧ w'.logp ≠ ninf)

theorem Moved.trans {post : List ℝ → Except PyErr XR} {a b c : Walker} (h1 : Moved post a b)
    (h2 : Moved post b c) : Moved post a c := by
  rcases h2 with rfl | h2
  · exact h1
  · exact Or.inr h2

theorem accepts_ne_ninf (f : ℝ) (new old lnu : XR) (h : accepts f new old lnu = true) : new ≠ ninf := by
  rintro rfl
  simp only [accepts, decide_eq_true_eq] at h
  have : (fin f + ninf : XR) = ninf := rfl
  rw [this] at h
  cases old <;> cases lnu <;> exact h

theorem moveWalker_moved (post : List ℝ → Except PyErr XR) (d : HalfDraw) (i : Nat) (w w' : Walker)
    (h : moveWalker post d i w = .ok w') : Moved post w w' := by
  unfold moveWalker at h
  split_ifs at h with ht
  · cases he : evalLogp post (d.proposal i) with
    | error e => rw [he] at h; cases h
    | ok new =>
      rw [he] at h
      simp only [Except.ok.injEq] at h
      split_ifs at h with ha
      · subst h
        exact Or.inr ⟨he, accepts_ne_ninf _ _ _ _ ha⟩
      · exact Or.inl h.symm
  · cases h; exact Or.inl rfl

theorem halfMove_moved (post : List ℝ → Except PyErr XR) (d : HalfDraw) : ∀ (ws : List Walker) (i : Nat)
    (ws' : List Walker), halfMove post d i ws = .ok ws' → List.Forall₂ (Moved post) ws ws'
  | [], i, ws', h => by simp [halfMove] at h; subst h; exact .nil
  | w :: ws, i, ws', h => by
    unfold halfMove at h
    cases hm : moveWalker post d i w with
    | error e => rw [hm] at h; cases h
    | ok w' =>
      rw [hm] at h
      cases hr : halfMove post d (i + 1) ws with
      | error e => simp [hr, Except.map] at h
      | ok rs =>
        simp only [hr, Except.map, Except.ok.injEq] at h
        subst h
        exact .cons (moveWalker_moved _ _ _ _ _ hm) (halfMove_moved post d ws (i + 1) rs hr)

theorem forall₂_trans {α : Type} {R : α → α → Prop} (ht : ∀ a b c, R a b → R b c → R a c) :
    ∀ {l m n : List α}, List.Forall₂ R l m → List.Forall₂ R m n → List.Forall₂ R l n
  | _, _, _, .nil, .nil => .nil
  | _, _, _, .cons h1 t1, .cons h2 t2 => .cons (ht _ _ _ h1 h2) (forall₂_trans ht t1 t2)

theorem step_moved (post : List ℝ → Except PyErr XR) (draws : StepDraws) (s s' : WalkerState)
    (h : ensembleStep post draws s = .ok s') : List.Forall₂ (Moved post) s.1 s'.1 := by
  unfold ensembleStep at h
  cases h1 : halfMove post (draws s.2 s.1).1 0 s.1 with
  | error e => rw [h1] at h; cases h
  | ok mid =>
    simp only [h1] at h
    cases h2 : halfMove post ((draws s.2 s.1).2 mid) 0 mid with
    | error e => rw [h2] at h; cases h
    | ok ws =>
      simp only [h2, Except.ok.injEq] at h
      subst h
      exact forall₂_trans (R := Moved post) (fun _ _ _ a b => Moved.trans a b) (halfMove_moved _ _ _ _ _ h1) (halfMove_moved _ _ _ _ _ h2)

/-! ## The whole run -/

theorem iterate_pairwise (post : List ℝ → Except PyErr XR) (draws : StepDraws) : ∀ (n : Nat) (s : WalkerState),
    (s :: (iterate (ensembleStep post draws) n s).2).Pairwise
      (fun a b => List.Forall₂ (Moved post) a.1 b.1) ∧
    (∀ st, (iterate (ensembleStep post draws) n s).1 = .ok st →
      st ∈ s :: (iterate (ensembleStep post draws) n s).2)
  | 0, s => by simp [iterate]
  | n + 1, s => by
    unfold iterate
    cases h : ensembleStep post draws s with
    | error e => simp
    | ok s' =>
      simp only
      obtain ⟨ih1, ih2⟩ := iterate_pairwise post draws n s'
      have hs := step_moved post draws s s' h
      refine ⟨?_, ?_⟩
      · refine List.pairwise_cons.2 ⟨?_, ih1⟩
        intro b hb
        rcases List.mem_cons.1 hb with rfl | hb
        · exact hs
        · exact forall₂_trans (R := Moved post) (fun _ _ _ a b => Moved.trans a b) hs ((List.pairwise_cons.1 ih1).1 b hb)
      · intro st hst
        exact List.mem_cons_of_mem _ (ih2 st hst)

theorem runMcmc_ok131 (post : List ℝ → Except PyErr XR) (draws : StepDraws) (w : World) (s s' : Sampler WalkerState)
    (pos st : WalkerState) (n : Nat)
    (h : runMcmc w (ensembleInit post) (ensembleStep post draws) s pos n = (s', .ok st)) :
    ensembleInit post pos = .ok () ∧
    s'.chain = s.chain ++ (iterate (ensembleStep post draws) n pos).2 ∧
    (iterate (ensembleStep post draws) n pos).1 = .ok st := by
  unfold runMcmc at h
  by_cases hp : poolOk w s
  · rw [if_neg (not_not.2 hp)] at h
    cases hi : ensembleInit post pos with
    | error e => rw [hi] at h; simp at h
    | ok u =>
      rw [hi] at h
      simp only at h
      cases hr : (iterate (ensembleStep post draws) n pos).1 with
      | error e => rw [hr] at h; simp at h
      | ok st' =>
        rw [hr] at h
        simp only [Prod.mk.injEq] at h
        obtain ⟨h1, h2⟩ := h
        by_cases hn : n = 0
        · rw [if_pos hn] at h2; cases h2
        · rw [if_neg hn] at h2
          cases h2
          exact ⟨rfl, by rw [← h1], rfl⟩
  · rw [if_pos hp] at h
    simp at h

theorem runMcmc_pos (post : List ℝ → Except PyErr XR) (draws : StepDraws) (w : World) (s s' : Sampler WalkerState)
    (pos st : WalkerState) (n : Nat)
    (h : runMcmc w (ensembleInit post) (ensembleStep post draws) s pos n = (s', .ok st)) : 0 < n := by
  rcases Nat.eq_zero_or_pos n with h0 | h0
  · subst h0
    exfalso
    unfold runMcmc at h
    split at h
    · simp at h
    · split at h
      · simp at h
      · simp [iterate] at h
  · exact h0

/-- The recorded chain of a run, from an ensemble whose walkers could all be evaluated and that is the
starting ensemble or descends from it. -/
theorem runFrom_chain (post : List ℝ → Except PyErr XR) (draws : StepDraws) (nrun threads nburn : Nat)
    (pos : List (List ℝ)) (s : Sampler WalkerState) (st : WalkerState)
    (h : runFrom post draws nrun threads nburn pos = .ok (s, st)) :
    ensembleInit post (startEnsemble post pos) = .ok () ∧
    (startEnsemble post pos :: s.chain).Pairwise (fun a b => List.Forall₂ (Moved post) a.1 b.1) ∧
    st ∈ startEnsemble post pos :: s.chain := by
  unfold runFrom runSampler at h
  simp only at h
  have tail : ∀ (w : World) (s1 : Sampler WalkerState) (e0 : WalkerState),
      (runOn w (ensembleInit post) (ensembleStep post draws) nrun s1 e0).2 = .ok (s, st) →
      ensembleInit post e0 = .ok () ∧ s.chain = (iterate (ensembleStep post draws) nrun e0).2 ∧
        (iterate (ensembleStep post draws) nrun e0).1 = .ok st ∧ 0 < nrun := by
    intro w s1 e0 hr
    unfold runOn at hr
    simp only at hr
    cases hm : runMcmc w (ensembleInit post) (ensembleStep post draws)
        { s1 with nRun := some nrun, chain := [] } e0 nrun with
    | mk s2 r =>
      rw [hm] at hr
      cases r with
      | error e => simp at hr
      | ok st' =>
        simp only [Except.ok.injEq, Prod.mk.injEq] at hr
        obtain ⟨h1, rfl⟩ := hr
        obtain ⟨ha, hb, hc⟩ := runMcmc_ok131 post draws w _ s2 e0 _ nrun hm
        refine ⟨ha, ?_, hc, runMcmc_pos post draws w _ s2 e0 _ nrun hm⟩
        rw [← h1]
        unfold cleanup
        split <;> simp [hb]
  cases hk : makeSampler ⟨[], 0⟩ (ensembleInit post) (ensembleStep post draws) threads nburn
      (startEnsemble post pos) with
  | mk w' r =>
    rw [hk] at h
    cases r with
    | error e => simp at h
    | ok p =>
      obtain ⟨s1, e0⟩ := p
      simp only at h
      obtain ⟨hinit, hch, hst, hn⟩ := tail w' s1 e0 h
      have hlast : st ∈ e0 :: s.chain := by
        rw [hch]; exact (iterate_pairwise post draws nrun e0).2 st hst
      have hpw := (iterate_pairwise post draws nrun e0).1
      rw [← hch] at hpw
      unfold makeSampler at hk
      simp only at hk
      by_cases hb : nburn > 0
      · rw [if_pos hb] at hk
        split at hk
        · simp at hk
        · rename_i sb stb hmb
          simp only [Prod.mk.injEq, Except.ok.injEq] at hk
          obtain ⟨-, -, rfl⟩ := hk
          obtain ⟨i0, -, i2⟩ := runMcmc_ok131 post draws _ _ _ _ _ _ hmb
          have hd := iterate_pairwise post draws nburn (startEnsemble post pos)
          have hfrom : stb = startEnsemble post pos ∨
              List.Forall₂ (Moved post) (startEnsemble post pos).1 stb.1 := by
            rcases List.mem_cons.1 (hd.2 stb i2) with h | h
            · exact Or.inl h
            · exact Or.inr ((List.pairwise_cons.1 hd.1).1 _ h)
          have hst' : st ∈ s.chain := by
            rw [hch]
            cases nrun with
            | zero => omega
            | succ n =>
              unfold iterate at hst ⊢
              cases hs : ensembleStep post draws stb with
              | error e => rw [hs] at hst; cases hst
              | ok s' =>
                rw [hs] at hst
                simp only at hst ⊢
                exact (iterate_pairwise post draws n s').2 st hst
          refine ⟨i0, ?_, List.mem_cons_of_mem _ hst'⟩
          rcases hfrom with rfl | hfrom
          · exact hpw
          · refine List.pairwise_cons.2 ⟨?_, (List.pairwise_cons.1 hpw).2⟩
            intro b hb'
            exact forall₂_trans (R := Moved post) (fun _ _ _ a b => Moved.trans a b) hfrom ((List.pairwise_cons.1 hpw).1 b hb')
      · rw [if_neg hb] at hk
        simp only [Prod.mk.injEq, Except.ok.injEq] at hk
        obtain ⟨-, -, rfl⟩ := hk
        exact ⟨hinit, hpw, hlast⟩

theorem forall₂_get {α : Type} {R : α → α → Prop} : ∀ {l m : List α}, List.Forall₂ R l m → ∀ (i : Nat) (y : α),
    m[i]? = some y → ∃ x, l[i]? = some x ∧ R x y
  | _, _, .nil, i, y, h => by simp at h
  | _, _, .cons (a := a) h1 t1, 0, y, h => by simp at h; subst h; exact ⟨a, by simp, h1⟩
  | _, _, .cons h1 t1, i + 1, y, h => by
    simp only [List.getElem?_cons_succ] at h ⊢
    exact forall₂_get t1 i y h

theorem init_evaluated (post : List ℝ → Except PyErr XR) (pos : List (List ℝ))
    (h : ensembleInit post (startEnsemble post pos) = .ok ()) (w : Walker)
    (hw : w ∈ (startEnsemble post pos).1) : evalLogp post w.coords = .ok w.logp := by
  unfold ensembleInit at h
  have all : ∀ (l : List Walker) (out : List XR), l.mapM (fun w => evalLogp post w.coords) = .ok out →
      ∀ w ∈ l, ∃ x, evalLogp post w.coords = .ok x := by
    intro l
    induction l with
    | nil => simp
    | cons a l ih =>
      intro out ho
      rw [List.mapM_cons] at ho
      cases ha : evalLogp post a.coords with
      | error e => rw [ha] at ho; cases ho
      | ok x =>
        rw [ha] at ho
        cases hl : l.mapM (fun w => evalLogp post w.coords) with
        | error e =>
          have h' : (do let bs ← l.mapM (fun w => evalLogp post w.coords); pure (x :: bs) :
            Except PyErr (List XR)) = .ok out := ho
          rw [hl] at h'; cases h'
        | ok bs =>
          intro w hw
          rcases List.mem_cons.1 hw with rfl | hw
          · exact ⟨x, ha⟩
          · exact ih bs hl w hw
  cases hm : (startEnsemble post pos).1.mapM (fun w => evalLogp post w.coords) with
  | error e => rw [hm] at h; cases h
  | ok out =>
    obtain ⟨x, hx⟩ := all _ out hm w hw
    simp only [startEnsemble, List.mem_map] at hw
    obtain ⟨q, hq, rfl⟩ := hw
    simp only at hx ⊢
    rw [hx]

theorem evalLogp_ok {post : List ℝ → Except PyErr XR} {q : List ℝ} {x : XR} (h : evalLogp post q = .ok x) :
    post q = .ok x ∧ x ≠ nan := by
  unfold evalLogp at h
  cases hp : post q with
  | error e => rw [hp] at h; cases h
  | ok y =>
    rw [hp] at h
    simp only at h
    split_ifs at h with hn
    cases h
    exact ⟨rfl, hn⟩

/-- **C131 (samples).** Whatever the log-probability, the proposals, factors and random numbers, the
numbers of steps, walkers and worker processes: each recorded sample of a walker is a position of non-zero
probability, or the position the walker started from, never left.  The recorded log-probability is that
of the recorded position, and every step records all walkers. -/
theorem C131_sample (post : List ℝ → Except PyErr XR) (draws : StepDraws) (nrun threads nburn : Nat)
    (pos : List (List ℝ)) (s : Sampler WalkerState) (st : WalkerState)
    (h : runFrom post draws nrun threads nburn pos = .ok (s, st)) :
    ∀ e ∈ s.chain, e.1.length = pos.length ∧ ∀ (i : Nat) (w : Walker), e.1[i]? = some w →
      post w.coords = .ok w.logp ∧ w.logp ≠ nan ∧ (Possible post w.coords ∨ pos[i]? = some w.coords) := by
  obtain ⟨h0, h1, -⟩ := runFrom_chain post draws nrun threads nburn pos s st h
  intro e he
  have hf := (List.pairwise_cons.1 h1).1 e he
  refine ⟨?_, ?_⟩
  · rw [← hf.length_eq]; simp [startEnsemble]
  · intro i w hw
    obtain ⟨x, hx, hm⟩ := forall₂_get hf i w hw
    rcases hm with rfl | ⟨h2, h3⟩
    · have := evalLogp_ok (init_evaluated post pos h0 _ (List.mem_of_getElem? hx))
      refine ⟨this.1, this.2, Or.inr ?_⟩
      simp only [startEnsemble, List.getElem?_map, Option.map_eq_some_iff] at hx
      obtain ⟨q, hq, rfl⟩ := hx
      exact hq
    · have := evalLogp_ok h2
      exact ⟨this.1, this.2, Or.inl ⟨_, this.1, h3⟩⟩

/-- **C131 (no return).** A walker once at a position of non-zero probability is at such positions in all
later samples. -/
theorem C131_no_return (post : List ℝ → Except PyErr XR) (draws : StepDraws) (nrun threads nburn : Nat)
    (pos : List (List ℝ)) (s : Sampler WalkerState) (st : WalkerState)
    (h : runFrom post draws nrun threads nburn pos = .ok (s, st)) (k l i : Nat) (e e' : WalkerState)
    (q q' : List ℝ) (hkl : k ≤ l) (hk : s.chain[k]? = some e) (hl : s.chain[l]? = some e')
    (hq : positionOf e i = some q) (hq' : positionOf e' i = some q') (hp : Possible post q) :
    Possible post q' := by
  obtain ⟨h0, h1, -⟩ := runFrom_chain post draws nrun threads nburn pos s st h
  rcases Nat.lt_or_eq_of_le hkl with hlt | rfl
  · obtain ⟨hk1, rfl⟩ := List.getElem?_eq_some_iff.1 hk
    obtain ⟨hl1, rfl⟩ := List.getElem?_eq_some_iff.1 hl
    have hf := (List.pairwise_iff_getElem.1 (List.pairwise_cons.1 h1).2) k l hk1 hl1 hlt
    simp only [positionOf, Option.map_eq_some_iff] at hq hq'
    obtain ⟨w, hw, rfl⟩ := hq
    obtain ⟨w', hw', rfl⟩ := hq'
    obtain ⟨x, hx, hm⟩ := forall₂_get hf i w' hw'
    rw [hw] at hx
    cases hx
    rcases hm with rfl | ⟨h2, h3⟩
    · exact hp
    · exact ⟨_, (evalLogp_ok h2).1, h3⟩
  · rw [hk] at hl
    cases hl
    rw [hq] at hq'
    cases hq'
    exact hp

/-! ## The prior -/

/-- A possible position is one the prior allows. -/
theorem possible_prior {β : Type} (data : VTable) (model : List XR → VTable → Except PyErr (ModelOut β))
    (prior : List XR → Except PyErr XR) (q : List ℝ) (h : Possible (posterior data model (some prior)) q) :
    prior (q.map fin) ≠ .ok ninf := by
  rintro hp
  obtain ⟨x, hx, hne⟩ := h
  unfold posterior lnprob at hx
  simp only [priorValue, hp, bind, Except.bind, pure, Except.pure] at hx
  cases hm : model (q.map fin) data with
  | error e => simp [hm, Except.map] at hx
  | ok out =>
    simp only [hm] at hx
    cases hs : splitOutput out with
    | error e => simp [hs, Except.map] at hx
    | ok mb =>
      simp [hs, Except.map, totalLnprob, isInf] at hx
      exact hne hx.symm

theorem possible_limits {β : Type} (data : VTable) (model : List XR → VTable → Except PyErr (ModelOut β))
    (prior : List XR → Except PyErr XR) (j : Nat) (lo hi : ℝ) (hL : Limits prior j lo hi) (q : List ℝ)
    (v : ℝ) (hv : q[j]? = some v) (h : Possible (posterior data model (some prior)) q) :
    lo ≤ v ∧ v ≤ hi := by
  by_contra hc
  exact possible_prior data model prior q h (hL _ v (by simp [hv]) hc)

/-- **C131 (prior).** If the prior forbids values of a parameter outside `[lo, hi]` and the walkers start
inside, every sample of the chain is inside: for every model function, data table and prior, and all
random choices. -/
theorem C131_prior_partial {β : Type} (data : VTable) (model : List XR → VTable → Except PyErr (ModelOut β))
    (prior : List XR → Except PyErr XR) (j : Nat) (lo hi : ℝ) (hL : Limits prior j lo hi)
    (draws : StepDraws) (nrun threads nburn : Nat) (pos : List (List ℝ)) (s : Sampler WalkerState) (st : WalkerState)
    (h : runFrom (posterior data model (some prior)) draws nrun threads nburn pos = .ok (s, st))
    (hpos : ∀ q ∈ pos, ∀ v, q[j]? = some v → lo ≤ v ∧ v ≤ hi) :
    ∀ step ∈ chainCoords s, ∀ q ∈ step, ∀ v, q[j]? = some v → lo ≤ v ∧ v ≤ hi := by
  intro step hstep q hq v hv
  simp only [chainCoords, List.mem_map] at hstep
  obtain ⟨e, he, rfl⟩ := hstep
  obtain ⟨w, hw, rfl⟩ := List.mem_map.1 hq
  obtain ⟨i, hi', rfl⟩ := List.getElem_of_mem hw
  obtain ⟨-, -, h3⟩ := (C131_sample _ draws nrun threads nburn pos s st h e he).2 i _
    (List.getElem?_eq_getElem hi')
  rcases h3 with h3 | h3
  · exact possible_limits data model prior j lo hi hL _ v hv h3
  · exact hpos _ (List.mem_of_getElem? h3) v hv

/-! ### The prior of the documentation -/

theorem uniformPrior_cases (v lo hi : XR) : uniformPrior v lo hi = fin 0 ∨ uniformPrior v lo hi = ninf := by
  unfold uniformPrior; split_ifs <;> simp

theorem foldl_prior : ∀ (l : List XR) (a : XR), (∀ x ∈ l, x = fin 0 ∨ x = ninf) → (a = fin 0 ∨ a = ninf) →
    (l.foldl (· + ·) a = if a = ninf ∨ ninf ∈ l then ninf else fin 0)
  | [], a, _, ha => by rcases ha with rfl | rfl <;> simp
  | x :: l, a, hl, ha => by
    have e00 : (fin 0 + fin 0 : XR) = fin 0 := by change fin (0 + 0) = _; norm_num
    have e1 : (fin 0 + ninf : XR) = ninf := rfl
    have e2 : (ninf + fin 0 : XR) = ninf := rfl
    have e3 : (ninf + ninf : XR) = ninf := rfl
    rw [List.foldl_cons, foldl_prior l _ (fun y hy => hl y (List.mem_cons_of_mem _ hy))]
    · rcases ha with rfl | rfl <;> rcases hl x (by simp) with rfl | rfl <;> simp [e00, e1, e2, e3]
    · rcases ha with rfl | rfl <;> rcases hl x (by simp) with rfl | rfl <;> simp [e00, e1, e2, e3]

/-- **C131 (uniform priors).** The sum of `uniform_prior` terms of the documentation forbids exactly the
parameter vectors with a parameter outside its interval; with all parameters inside it is 0. -/
theorem C131_box (box : List (XR × XR)) (pars : List XR) :
    boxPrior box pars = .ok (if ∃ p ∈ pars.zip box, ¬ (p.2.1 ≤ p.1 ∧ p.1 ≤ p.2.2) then ninf else fin 0) := by
  unfold boxPrior
  have hz : List.zipWith (fun p (b : XR × XR) => uniformPrior p b.1 b.2) pars box =
      (pars.zip box).map (fun p => uniformPrior p.1 p.2.1 p.2.2) := by
    rw [List.zip, List.map_zipWith]
  rw [hz, foldl_prior _ _ (by
    intro x hx
    obtain ⟨p, -, rfl⟩ := List.mem_map.1 hx
    exact uniformPrior_cases _ _ _) (Or.inl rfl)]
  congr 1
  refine if_congr ?_ rfl rfl
  simp only [reduceCtorEq, false_or, List.mem_map]
  constructor
  · rintro ⟨p, hp, h⟩
    refine ⟨p, hp, fun hc => ?_⟩
    simp only [uniformPrior] at h
    rw [if_pos hc] at h
    cases h
  · rintro ⟨p, hp, h⟩
    refine ⟨p, hp, ?_⟩
    simp only [uniformPrior]
    rw [if_neg h]

theorem box_limits (box : List (XR × XR)) (j : Nat) (lo hi : ℝ) (hb : box[j]? = some (fin lo, fin hi)) :
    Limits (boxPrior box) j lo hi := by
  intro pars v hv hn
  rw [C131_box, if_pos]
  refine ⟨(fin v, fin lo, fin hi), ?_, fun hc => hn ⟨(XR.le_fin _ _).1 hc.1, (XR.le_fin _ _).1 hc.2⟩⟩
  refine List.mem_iff_getElem?.2 ⟨j, ?_⟩
  rw [List.getElem?_zip_eq_some]
  exact ⟨hv, hb⟩

/-! ## What is made of the samples -/

theorem percentile_in (l : List ℝ) (lo hi : ℝ) (hl : l ≠ []) (h : ∀ x ∈ l, lo ≤ x ∧ x ≤ hi) (q : ℝ)
    (h0 : 0 ≤ q) (h1 : q ≤ 100) : lo ≤ percentile l q ∧ percentile l q ≤ hi := by
  obtain ⟨a, ha, b, hb, h2, h3⟩ := (C51_percentiles l hl).2.1 q h0 h1
  exact ⟨(h a ha).1.trans h2, h3.trans (h b hb).2⟩

/-- The three numbers of a row of the results table lie within limits. -/
def RowIn (r : ResRow) (lo hi : ℝ) : Prop :=
  lo ≤ r.median - r.lo ∧ lo ≤ r.median ∧ r.median ≤ hi ∧ r.median + r.hi ≤ hi

theorem mkRow_in (label : Label) (dist : List ℝ) (r : ResRow) (h : mkRow label dist = .ok r) (lo hi : ℝ)
    (hd : ∀ x ∈ dist, lo ≤ x ∧ x ≤ hi) : r.label = label ∧ RowIn r lo hi := by
  unfold mkRow at h
  split_ifs at h with hn
  cases h
  have a := percentile_in dist lo hi hn hd 16 (by norm_num) (by norm_num)
  have b := percentile_in dist lo hi hn hd 50 (by norm_num) (by norm_num)
  have c := percentile_in dist lo hi hn hd 84 (by norm_num) (by norm_num)
  refine ⟨rfl, ?_, b.1, b.2, ?_⟩
  · simp only; linarith [a.1]
  · simp only; linarith [c.2]

theorem paramRows_row (conv : Bool) (dists : List (List ℝ)) : ∀ (ls : List Label) (p : Nat)
    (stale : Option (List ℝ)) (rows : List ResRow), paramRows conv dists p ls stale = .ok rows →
    ∀ (j : Nat) (l : Label), ls[j]? = some l → ∃ k r dist, rows[k]? = some r ∧
      distColumn dists (p + j) = .ok dist ∧ mkRow l dist = .ok r ∧
      (conv = true → isLogLabel l = true → labelHead l = ['l', 'o', 'g', '1', '0'] →
        ∃ r', rows[k + 1]? = some r' ∧ mkRow (labelInner l) (dist.map (fun x => (10 : ℝ) ^ x)) = .ok r')
  | [], p, stale, rows, h => by simp
  | l :: ls, p, stale, rows, h => by
    intro j l' hj
    unfold paramRows at h
    cases hd : distColumn dists p with
    | error e => simp [hd] at h
    | ok dist =>
      simp only [hd] at h
      cases hm : mkRow l dist with
      | error e => simp [hm] at h
      | ok r0 =>
        simp only [hm] at h
        split_ifs at h with hc
        · cases hn : newDist l dist stale with
          | none => simp [hn] at h
          | some nd =>
            simp only [hn] at h
            cases hm' : mkRow (labelInner l) nd with
            | error e => simp [hm'] at h
            | ok r1 =>
              simp only [hm'] at h
              cases hr : paramRows conv dists (p + 1) ls (some nd) with
              | error e => simp [hr, Except.map] at h
              | ok rs =>
                simp only [hr, Except.map, Except.ok.injEq] at h
                subst h
                cases j with
                | zero =>
                  simp only [List.getElem?_cons_zero, Option.some.injEq] at hj
                  subst hj
                  refine ⟨0, r0, dist, rfl, hd, hm, fun _ _ hh => ⟨r1, rfl, ?_⟩⟩
                  unfold newDist at hn
                  rw [if_pos hh] at hn
                  cases hn
                  exact hm'
                | succ j =>
                  obtain ⟨k, r, d, h1, h2, h3, h4⟩ := paramRows_row conv dists ls _ _ _ hr j l' (by simpa using hj)
                  exact ⟨k + 2, r, d, by simpa using h1, by rw [← h2]; congr 1; omega, h3, fun a b c => by
                    obtain ⟨r', e1, e2⟩ := h4 a b c
                    exact ⟨r', by simpa using e1, e2⟩⟩
        · cases hr : paramRows conv dists (p + 1) ls stale with
          | error e => simp [hr, Except.map] at h
          | ok rs =>
            simp only [hr, Except.map, Except.ok.injEq] at h
            subst h
            cases j with
            | zero =>
              simp only [List.getElem?_cons_zero, Option.some.injEq] at hj
              subst hj
              refine ⟨0, r0, dist, rfl, hd, hm, fun a b _ => absurd (by simp [a, b]) hc⟩
            | succ j =>
              obtain ⟨k, r, d, h1, h2, h3, h4⟩ := paramRows_row conv dists ls _ _ _ hr j l' (by simpa using hj)
              exact ⟨k + 1, r, d, by simpa using h1, by rw [← h2]; congr 1; omega, h3, fun a b c => by
                obtain ⟨r', e1, e2⟩ := h4 a b c
                exact ⟨r', by simpa using e1, e2⟩⟩

theorem resultSamples_mem (lastStep : Bool) (chain : List (List (List ℝ))) (dists : List (List ℝ))
    (h : resultSamples lastStep chain = .ok dists) : ∀ q ∈ dists, ∃ step ∈ chain, q ∈ step := by
  unfold resultSamples at h
  split_ifs at h
  · intro q hq
    obtain ⟨a, ha, hb⟩ := mapM_mem _ _ _ h q hq
    refine ⟨a, ha, ?_⟩
    cases hl : a.getLast? with
    | none => rw [hl] at hb; cases hb
    | some w =>
      rw [hl] at hb
      cases hb
      exact List.mem_of_getLast? hl
  · cases h
    intro q hq
    obtain ⟨s, hs, hq⟩ := List.mem_flatten.1 hq
    exact ⟨s, hs, hq⟩

/-- Samples within the limits give a table within the limits. -/
theorem table_in (conv lastStep incl : Bool) (labels : List Label) (chain : List (List (List ℝ)))
    (blobs : List (List (List BlobVal))) (rows : List ResRow) (j : Nat) (lo hi : ℝ)
    (hc : ∀ step ∈ chain, ∀ q ∈ step, ∀ v, q[j]? = some v → lo ≤ v ∧ v ≤ hi) (l : Label)
    (hl : labels[j]? = some l) (h : resultsTable conv lastStep incl labels chain blobs = .ok rows) :
    ∃ k r, rows[k]? = some r ∧ r.label = l ∧ RowIn r lo hi ∧
      (conv = true → isLogLabel l = true → labelHead l = ['l', 'o', 'g', '1', '0'] →
        ∃ r', rows[k + 1]? = some r' ∧ r'.label = labelInner l ∧ RowIn r' ((10 : ℝ) ^ lo) ((10 : ℝ) ^ hi)) := by
  unfold resultsTable at h
  cases hs : resultSamples lastStep chain with
  | error e => simp [hs] at h
  | ok dists =>
    simp only [hs] at h
    cases hp : paramRows conv dists 0 labels none with
    | error e => simp [hp] at h
    | ok rows0 =>
      simp only [hp] at h
      obtain ⟨k, r, dist, h1, h2, h3, h4⟩ := paramRows_row conv dists labels 0 none rows0 hp j l hl
      have hin : ∀ x ∈ dist, lo ≤ x ∧ x ≤ hi := by
        intro x hx
        unfold distColumn at h2
        obtain ⟨q, hq, hqx⟩ := mapM_mem _ _ _ h2 x hx
        obtain ⟨step, hstep, hqs⟩ := resultSamples_mem _ _ _ hs q hq
        rw [Nat.zero_add] at hqx
        cases hv : q[j]? with
        | none => rw [hv] at hqx; cases hqx
        | some v =>
          rw [hv] at hqx
          cases hqx
          exact hc step hstep q hqs x hv
      have hpre : ∀ (m : Nat) (x : ResRow), rows0[m]? = some x → rows[m]? = some x := by
        intro m x hm
        split_ifs at h
        · cases hb : (List.range ((blobs.getLastD []).headD []).length).mapM
            (fun idx => blobRow lastStep blobs idx (blobLabel idx)) with
          | error e => rw [hb] at h; cases h
          | ok rs =>
            rw [hb] at h
            simp only [Except.map, Except.ok.injEq] at h
            subst h
            obtain ⟨hlt, -⟩ := List.getElem?_eq_some_iff.1 hm
            rw [List.getElem?_append_left hlt]
            exact hm
        · cases h; exact hm
      obtain ⟨e1, e2⟩ := mkRow_in l dist r h3 lo hi hin
      refine ⟨k, r, hpre _ _ h1, e1, e2, fun a b c => ?_⟩
      obtain ⟨r', f1, f2⟩ := h4 a b c
      obtain ⟨g1, g2⟩ := mkRow_in _ _ r' f2 ((10 : ℝ) ^ lo) ((10 : ℝ) ^ hi) (by
        intro x hx
        obtain ⟨y, hy, rfl⟩ := List.mem_map.1 hx
        exact ⟨Real.rpow_le_rpow_of_exponent_le (by norm_num) (hin y hy).1,
          Real.rpow_le_rpow_of_exponent_le (by norm_num) (hin y hy).2⟩)
      exact ⟨r', hpre _ _ f1, g1, g2⟩

/-- **C131 (results table).** Under the same conditions the results table has a row of that parameter
whose median, lower and upper values lie in `[lo, hi]`; with the conversion of logarithms, the row of the
converted parameter (`log10(...)`) lies in `[10^lo, 10^hi]`. -/
theorem C131_table_partial {β : Type} (data : VTable) (model : List XR → VTable → Except PyErr (ModelOut β))
    (prior : List XR → Except PyErr XR) (j : Nat) (lo hi : ℝ) (hL : Limits prior j lo hi)
    (draws : StepDraws) (nrun threads nburn : Nat) (pos : List (List ℝ)) (s : Sampler WalkerState) (st : WalkerState)
    (h : runFrom (posterior data model (some prior)) draws nrun threads nburn pos = .ok (s, st))
    (hpos : ∀ q ∈ pos, ∀ v, q[j]? = some v → lo ≤ v ∧ v ≤ hi)
    (conv lastStep incl : Bool) (labels : List Label) (blobs : List (List (List BlobVal))) (rows : List ResRow)
    (l : Label) (hl : labels[j]? = some l)
    (ht : resultsTable conv lastStep incl labels (chainCoords s) blobs = .ok rows) :
    ∃ k r, rows[k]? = some r ∧ r.label = l ∧ RowIn r lo hi ∧
      (conv = true → isLogLabel l = true → labelHead l = ['l', 'o', 'g', '1', '0'] →
        ∃ r', rows[k + 1]? = some r' ∧ r'.label = labelInner l ∧ RowIn r' ((10 : ℝ) ^ lo) ((10 : ℝ) ^ hi)) :=
  table_in conv lastStep incl labels _ blobs rows j lo hi
    (C131_prior_partial data model prior j lo hi hL draws nrun threads nburn pos s st h hpos) l hl ht

/-- **C131 (maximum likelihood).** If any walker reached a position of non-zero probability, the parameters
returned by `find_ML` are such a position, and its log-probability is the one returned: for every
starting ensemble, even one of forbidden positions only. -/
theorem C131_ml {B : Type} (post : List ℝ → Except PyErr XR) (draws : StepDraws) (nrun threads nburn : Nat)
    (pos : List (List ℝ)) (s : Sampler WalkerState) (st : WalkerState)
    (h : runFrom post draws nrun threads nburn pos = .ok (s, st)) (blobs : List (List B))
    (hb : HasShape blobs s.chain.length pos.length) (step : List (List ℝ)) (hstep : step ∈ chainCoords s)
    (q : List ℝ) (hq : q ∈ step) (hp : Possible post q) :
    ∃ m p b, findML (chainLogp s) (chainCoords s) blobs = .ok (m, p, b) ∧ post p = .ok m ∧ m ≠ ninf ∧
      ∀ stp ∈ chainCoords s, ∀ q' ∈ stp, ∀ x, post q' = .ok x → x ≤ m := by
  have hs := C131_sample post draws nrun threads nburn pos s st h
  simp only [chainCoords, List.mem_map] at hstep
  obtain ⟨e, he, rfl⟩ := hstep
  obtain ⟨w, hw, rfl⟩ := List.mem_map.1 hq
  have hwl : 0 < pos.length := by rw [← (hs e he).1]; exact List.length_pos_of_mem hw
  have val : ∀ e ∈ s.chain, ∀ w ∈ e.1, post w.coords = .ok w.logp ∧ w.logp ≠ nan := by
    intro e he w hw
    obtain ⟨i, hi, rfl⟩ := List.getElem_of_mem hw
    have := (hs e he).2 i _ (List.getElem?_eq_getElem hi)
    exact ⟨this.1, this.2.1⟩
  obtain ⟨i, j, m, p, b, h1, h2, h3, -, h5⟩ := C49_consistent (chainLogp s) (chainCoords s) blobs
    s.chain.length pos.length (List.length_pos_of_mem he) hwl
    ⟨by simp [chainLogp], by
      intro r hr
      obtain ⟨e, he, rfl⟩ := List.mem_map.1 hr
      simpa using (hs e he).1⟩
    ⟨by simp [chainCoords], by
      intro r hr
      obtain ⟨e, he, rfl⟩ := List.mem_map.1 hr
      simpa using (hs e he).1⟩ hb (by
      intro r hr a ha
      obtain ⟨e, he, rfl⟩ := List.mem_map.1 hr
      obtain ⟨w, hw, rfl⟩ := List.mem_map.1 ha
      exact (val e he w hw).2)
  have hpm : post p = .ok m := by
    simp only [chainLogp, chainCoords, List.getElem?_map] at h2 h3
    cases hi : s.chain[i]? with
    | none => rw [hi] at h2; simp at h2
    | some e' =>
      rw [hi] at h2 h3
      simp only [Option.map_some, Option.bind_some, List.getElem?_map, Option.map_eq_some_iff] at h2 h3
      obtain ⟨w1, g1, rfl⟩ := h2
      obtain ⟨w2, g2, rfl⟩ := h3
      rw [g1] at g2
      cases g2
      exact (val e' (List.mem_of_getElem? hi) w1 (List.mem_of_getElem? g1)).1
  have hle : ∀ stp ∈ chainCoords s, ∀ q' ∈ stp, ∀ x, post q' = .ok x → x ≤ m := by
    intro stp hstp q' hq' x hx
    simp only [chainCoords, List.mem_map] at hstp
    obtain ⟨e', he', rfl⟩ := hstp
    obtain ⟨w', hw', rfl⟩ := List.mem_map.1 hq'
    rw [(val e' he' w' hw').1] at hx
    cases hx
    exact h5 _ (List.mem_map.2 ⟨e', he', rfl⟩) _ (List.mem_map.2 ⟨w', hw', rfl⟩)
  refine ⟨m, p, b, h1, hpm, ?_, hle⟩
  rintro rfl
  obtain ⟨x, hx, hne⟩ := hp
  have := hle _ (List.mem_map.2 ⟨e, he, rfl⟩) _ (List.mem_map.2 ⟨w, hw, rfl⟩) x hx
  have hxn : x ≠ nan := by
    rw [(val e he w hw).1] at hx
    cases hx
    exact (val e he w hw).2
  cases x with
  | fin v => exact this.elim (fun h => h) (fun h => h)
  | pinf => exact this.elim (fun h => h) (fun h => h)
  | ninf => exact hne rfl
  | nan => exact hxn rfl

/-! ## Walkers that start outside -/

/-- The box of the counterexample: one parameter between 1 and 2. -/
noncomputable def box12 : List XR → Except PyErr XR := boxPrior [(fin 1, fin 2)]

/-- Stretch moves with `z = 1/2`: every walker is proposed the point between the two walkers. -/
noncomputable def halfWay (treat : Nat) : HalfDraw :=
  { treated := fun i => decide (i = treat), proposal := fun _ => [0.8925], factor := fun _ => 0,
    lnu := fun _ => fin (-1) }

theorem box12_out (v : ℝ) (h : v < 1) : box12 ([v].map fin) = .ok ninf :=
  box_limits [(fin 1, fin 2)] 0 1 2 rfl _ v rfl (fun hc => absurd hc.1 (not_le.2 h))

theorem post_out {β : Type} (data : VTable) (model : List XR → VTable → Except PyErr (ModelOut β))
    (hm : ∀ p, ∃ out, model p data = .ok out ∧ out ≠ .iterable []) (v : ℝ) (h : v < 1) :
    evalLogp (posterior data model (some box12)) [v] = .ok ninf := by
  obtain ⟨out, h1, h2⟩ := hm ([v].map fin)
  obtain ⟨blob, hb⟩ := C43_forbidden ([v].map fin) data model box12 (box12_out v h) out h1 h2
  unfold evalLogp posterior
  rw [hb]
  simp [Except.map]

theorem runOn_run {S : Type} (w : World) (init : S → Except PyErr Unit) (step : S → Except PyErr S)
    (n : Nat) (hn : 0 < n) (e st : S) (hinit : init e = .ok ()) (hit : (iterate step n e).1 = .ok st) :
    (runOn w init step n { pool := none, naimaPool := none, chain := [], nRun := none } e).2 =
      .ok ({ pool := none, naimaPool := none, nRun := some n, chain := (iterate step n e).2 }, st) := by
  have hr : runMcmc w init step { pool := none, naimaPool := none, chain := [], nRun := some n } e n =
      ({ pool := none, naimaPool := none, nRun := some n, chain := (iterate step n e).2 }, .ok st) := by
    unfold runMcmc
    rw [if_neg (by simp [poolOk])]
    simp only [hinit, hit, List.nil_append, if_neg (Nat.pos_iff_ne_zero.1 hn)]
  unfold runOn
  simp only [hr, cleanup]

/-- **C131, false for the walkers `get_sampler` makes.** The walkers are scattered by 10 % around `p0`
without regard to the prior. With the prior `uniform_prior(p, 1, 2)` and `p0 = [1.05]`, an allowed
value, two walkers may start at 0.945 and 0.84, and for every number of steps, every data table and model
function there are random choices with which every sample of the chain is forbidden, and so is
everything in the results table. -/
theorem C131_false_start {β : Type} (data : VTable) (model : List XR → VTable → Except PyErr (ModelOut β))
    (hm : ∀ p, ∃ out, model p data = .ok out ∧ out ≠ .iterable []) (n : Nat) (hn : 0 < n) :
    box12 [fin 1.05] = .ok (fin 0) ∧
    initialWalkers false 2 [fin 1.05] (fun i => if i = 0 then [-1] else [-2]) = [[fin 0.945], [fin 0.84]] ∧
    ∃ (draws : StepDraws) (s : Sampler WalkerState) (st : WalkerState),
      runFrom (posterior data model (some box12)) draws n 1 0 [[0.945], [0.84]] = .ok (s, st) ∧
      chainCoords s = List.replicate n [[0.945], [0.84]] ∧
      ∀ (conv lastStep incl : Bool) (l : Label) (blobs : List (List (List BlobVal))) (rows : List ResRow),
        resultsTable conv lastStep incl [l] (chainCoords s) blobs = .ok rows →
        ∃ (k : Nat) (r : ResRow), rows[k]? = some r ∧ r.label = l ∧ r.median + r.hi < 1 := by
  refine ⟨?_, ?_, ?_⟩
  · unfold box12
    rw [C131_box, if_neg]
    rintro ⟨p, hp, h⟩
    simp only [List.zip_cons_cons, List.zip_nil_right, List.mem_singleton] at hp
    subst hp
    exact h ⟨(XR.le_fin _ _).2 (by norm_num), (XR.le_fin _ _).2 (by norm_num)⟩
  · have e : ∀ a b : ℝ, (fin a * fin b : XR) = fin (a * b) := fun _ _ => rfl
    have e' : ∀ a b : ℝ, (fin a + fin b : XR) = fin (a + b) := fun _ _ => rfl
    simp [initialWalkers, List.range_succ, e, e']
    norm_num
  · have h1 := post_out data model hm 0.945 (by norm_num)
    have h2 := post_out data model hm 0.84 (by norm_num)
    have h3 := post_out data model hm 0.8925 (by norm_num)
    generalize posterior data model (some box12) = post at h1 h2 h3 ⊢
    have hacc : accepts 0 ninf ninf (fin (-1)) = false := by
      have e1 : (fin 0 + ninf : XR) - ninf = nan := rfl
      simp only [accepts, e1, decide_eq_false_iff_not]
      exact fun h => h
    set ws : List Walker := [⟨[0.945], ninf⟩, ⟨[0.84], ninf⟩] with hws
    have hhalf : ∀ t, halfMove post (halfWay t) 0 ws = .ok ws := by
      intro t
      have mv : ∀ (i : Nat) (q : List ℝ), moveWalker post (halfWay t) i ⟨q, ninf⟩ = .ok ⟨q, ninf⟩ := by
        intro i q
        unfold moveWalker
        split_ifs
        · simp [halfWay, h3, hacc]
        · rfl
      simp [hws, halfMove, mv, Except.map]
    have hstep : ∀ k, ensembleStep post (fun _ _ => (halfWay 0, fun _ => halfWay 1)) (ws, k) = .ok (ws, k + 1) := by
      intro k
      unfold ensembleStep
      simp only [hhalf]
    have hit : ∀ m k, (iterate (ensembleStep post (fun _ _ => (halfWay 0, fun _ => halfWay 1))) m (ws, k)).1 =
        .ok (ws, k + m) ∧
        (iterate (ensembleStep post (fun _ _ => (halfWay 0, fun _ => halfWay 1))) m (ws, k)).2.map Prod.fst =
          List.replicate m ws := by
      intro m
      induction m with
      | zero => intro k; simp [iterate]
      | succ m ih =>
        intro k
        unfold iterate
        rw [hstep]
        obtain ⟨i1, i2⟩ := ih (k + 1)
        simp only [i1, List.map_cons, i2, List.replicate_succ, and_true]
        congr 2
        omega
    have hstart : startEnsemble post [[0.945], [0.84]] = (ws, 0) := by
      simp [startEnsemble, h1, h2, hws]
    have hinit : ensembleInit post (ws, 0) = .ok () := by
      have : ws.mapM (fun w => evalLogp post w.coords) = .ok [ninf, ninf] := by
        rw [hws, List.mapM_cons]
        simp only [h1]
        change (do let bs ← List.mapM (fun w => evalLogp post w.coords) [(⟨[0.84], ninf⟩ : Walker)]; pure (ninf :: bs) : Except PyErr (List XR)) = _
        rw [List.mapM_cons]
        simp only [h2]
        rfl
      unfold ensembleInit
      simp only [this]
    obtain ⟨i1, i2⟩ := hit n 0
    have hcc : ∀ s : Sampler WalkerState,
        s.chain = (iterate (ensembleStep post (fun _ _ => (halfWay 0, fun _ => halfWay 1))) n (ws, 0)).2 →
        chainCoords s = List.replicate n [[0.945], [0.84]] := by
      intro s hs
      have : chainCoords s = (s.chain.map Prod.fst).map (fun ws => ws.map Walker.coords) := by
        simp [chainCoords]
      rw [this, hs, i2, List.map_replicate]
      simp [hws]
    refine ⟨fun _ _ => (halfWay 0, fun _ => halfWay 1),
      { pool := none, naimaPool := none, nRun := some n,
        chain := (iterate (ensembleStep post (fun _ _ => (halfWay 0, fun _ => halfWay 1))) n (ws, 0)).2 },
      (ws, n), ?_, hcc _ rfl, ?_⟩
    · unfold runFrom runSampler
      have hm : makeSampler ⟨[], 0⟩ (ensembleInit post)
          (ensembleStep post (fun _ _ => (halfWay 0, fun _ => halfWay 1))) 1 0
          (startEnsemble post [[0.945], [0.84]]) =
          (⟨[], 0⟩, .ok ({ pool := none, naimaPool := none, chain := [], nRun := none }, (ws, 0))) := by
        simp [makeSampler, hstart]
      rw [hm]
      simp only
      rw [runOn_run ⟨[], 0⟩ _ _ n hn (ws, 0) _ hinit i1, Nat.zero_add]
    · intro conv lastStep incl l blobs rows hr
      rw [hcc _ rfl] at hr
      obtain ⟨k, r, g1, g2, g3, -⟩ := table_in conv lastStep incl [l] _ blobs rows 0 0 0.95 (by
        intro step hstep q hq v hv
        rw [(List.mem_replicate.1 hstep).2] at hq
        simp only [List.mem_cons, List.not_mem_nil, or_false] at hq
        rcases hq with rfl | rfl
        · simp only [List.getElem?_cons_zero, Option.some.injEq] at hv; subst hv; norm_num
        · simp only [List.getElem?_cons_zero, Option.some.injEq] at hv; subst hv; norm_num) l rfl hr
      exact ⟨k, r, g1, g2, lt_of_le_of_lt g3.2.2.2 (by norm_num)⟩

/-! ## Instances -/

/-- A model function with one parameter whose spectrum does not depend on it. -/
noncomputable def constModel131 (_ : List XR) (_ : VTable) : Except PyErr (ModelOut Unit) :=
  .ok (.array ⟨[fin 5, fin 7, fin 2], ergPerSCm2⟩)

/-- Every walker is proposed 1.5. -/
noncomputable def toMiddle (treat : Nat) : HalfDraw :=
  { treated := fun i => decide (i = treat), proposal := fun _ => [1.5], factor := fun _ => 0,
    lnu := fun _ => fin (-1) }

/-- A run of one step that moves both walkers, to which `C131_sample`, `C131_prior_partial`,
`C131_table_partial` and `C131_ml` apply. -/
theorem prior_example : ∃ (s : Sampler WalkerState) (st : WalkerState),
    runFrom (posterior (ulTable exRows) constModel131 (some box12))
      (fun _ _ => (toMiddle 0, fun _ => toMiddle 1)) 1 1 0 [[1.2], [1.8]] = .ok (s, st) ∧
    chainCoords s = [[[1.5], [1.5]]] ∧ Possible (posterior (ulTable exRows) constModel131 (some box12)) [1.5] := by
  have hl := C41_common_cl_partial [5, 7, 2] ergPerSCm2 (ulTable exRows) exRows_good rfl rfl 0.9 (by norm_num)
    (by simp [ulTable, exRows, ulRow]) ⟨(5, exRows[0]), by simp [ulTable, exRows], Or.inl rfl⟩
  obtain ⟨L, hL⟩ : ∃ L : ℝ, lnprobmodel ⟨[fin 5, fin 7, fin 2], ergPerSCm2⟩ (ulTable exRows) = .ok (fin L) := ⟨_, hl⟩
  obtain ⟨K, hpost⟩ : ∃ K : ℝ, ∀ v : ℝ, 1 ≤ v → v ≤ 2 →
      posterior (ulTable exRows) constModel131 (some box12) [v] = .ok (fin K) := by
    refine ⟨L + 0, ?_⟩
    intro v h1 h2
    have hp : box12 ([v].map fin) = .ok (fin 0) := by
      unfold box12
      rw [C131_box, if_neg]
      rintro ⟨p, hp, h⟩
      simp only [List.map_cons, List.map_nil, List.zip_cons_cons, List.zip_nil_right, List.mem_singleton] at hp
      subst hp
      exact h ⟨(XR.le_fin _ _).2 h1, (XR.le_fin _ _).2 h2⟩
    obtain ⟨b, hb⟩ := C43_sum ([v].map fin) (ulTable exRows) constModel131 (some box12) 0
      (Or.inr ⟨_, rfl, hp⟩) _ [] (Or.inl rfl) _ hL
    unfold posterior
    rw [hb]
    rfl
  have h15 := hpost 1.5 (by norm_num) (by norm_num)
  have hposs : Possible (posterior (ulTable exRows) constModel131 (some box12)) [1.5] := ⟨_, h15, by simp⟩
  have he : ∀ v : ℝ, 1 ≤ v → v ≤ 2 →
      evalLogp (posterior (ulTable exRows) constModel131 (some box12)) [v] = .ok (fin K) := by
    intro v h1 h2
    simp [evalLogp, hpost v h1 h2]
  have e12 := he 1.2 (by norm_num) (by norm_num)
  have e18 := he 1.8 (by norm_num) (by norm_num)
  have e15 := he 1.5 (by norm_num) (by norm_num)
  generalize posterior (ulTable exRows) constModel131 (some box12) = post at e12 e18 e15 hposs ⊢
  have hacc : accepts 0 (fin K) (fin K) (fin (-1)) = true := by
    have e1 : (fin 0 + fin K : XR) - fin K = fin (0 + K - K) := rfl
    simp only [accepts, e1, decide_eq_true_eq, XR.lt_fin]
    linarith
  set w1 : Walker := ⟨[1.2], fin K⟩ with hw1
  set w2 : Walker := ⟨[1.8], fin K⟩ with hw2
  set w3 : Walker := ⟨[1.5], fin K⟩ with hw3
  have m1 : halfMove post (toMiddle 0) 0 [w1, w2] = .ok [w3, w2] := by
    simp [halfMove, moveWalker, toMiddle, e15, hacc, hw1, hw2, hw3, Except.map]
  have m2 : halfMove post (toMiddle 1) 0 [w3, w2] = .ok [w3, w3] := by
    simp [halfMove, moveWalker, toMiddle, e15, hacc, hw2, hw3, Except.map]
  have hstep : ensembleStep post (fun _ _ => (toMiddle 0, fun _ => toMiddle 1)) ([w1, w2], 0) =
      .ok ([w3, w3], 1) := by
    simp only [ensembleStep, m1, m2]
  have hstart : startEnsemble post [[1.2], [1.8]] = ([w1, w2], 0) := by
    simp [startEnsemble, e12, e18, hw1, hw2]
  have hinit : ensembleInit post ([w1, w2], 0) = .ok () := by
    have : [w1, w2].mapM (fun w => evalLogp post w.coords) = .ok [fin K, fin K] := by
      rw [List.mapM_cons]
      simp only [hw1, e12]
      change (do let bs ← List.mapM (fun w => evalLogp post w.coords) [w2]; pure (fin K :: bs) : Except PyErr (List XR)) = _
      rw [List.mapM_cons]
      simp only [hw2, e18]
      rfl
    unfold ensembleInit
    simp only [this]
  refine ⟨{ pool := none, naimaPool := none, nRun := some 1, chain := [([w3, w3], 1)] }, ([w3, w3], 1), ?_, ?_, hposs⟩
  · unfold runFrom runSampler
    have hm : makeSampler ⟨[], 0⟩ (ensembleInit post)
        (ensembleStep post (fun _ _ => (toMiddle 0, fun _ => toMiddle 1))) 1 0
        (startEnsemble post [[1.2], [1.8]]) =
        (⟨[], 0⟩, .ok ({ pool := none, naimaPool := none, chain := [], nRun := none }, ([w1, w2], 0))) := by
      simp [makeSampler, hstart]
    rw [hm]
    simp only
    rw [runOn_run ⟨[], 0⟩ _ _ 1 one_pos ([w1, w2], 0) ([w3, w3], 1) hinit (by simp [iterate, hstep])]
    simp [iterate, hstep]
  · simp [chainCoords, hw3]

example : ∃ s : Sampler WalkerState, ∀ step ∈ chainCoords s, ∀ q ∈ step, ∀ v, q[0]? = some v → (1 : ℝ) ≤ v ∧ v ≤ 2 := by
  obtain ⟨s, st, h, -, -⟩ := prior_example
  exact ⟨s, C131_prior_partial (ulTable exRows) constModel131 box12 0 1 2 (box_limits _ 0 1 2 rfl) _ 1 1 0 _ s st h (by
    intro q hq v hv
    simp only [List.mem_cons, List.not_mem_nil, or_false] at hq
    rcases hq with rfl | rfl
    · simp only [List.getElem?_cons_zero, Option.some.injEq] at hv; subst hv; norm_num
    · simp only [List.getElem?_cons_zero, Option.some.injEq] at hv; subst hv; norm_num)⟩

example : ∃ s : Sampler WalkerState, ∃ m p b, findML (chainLogp s) (chainCoords s) [[(), ()]] = .ok (m, p, b) ∧ m ≠ ninf := by
  obtain ⟨s, st, h, h2, h3⟩ := prior_example
  have hlen : s.chain.length = 1 := by
    have := congrArg List.length h2
    simpa [chainCoords] using this
  obtain ⟨m, p, b, g1, -, g2, -⟩ := C131_ml _ _ 1 1 0 _ s st h [[(), ()]] ⟨by simp [hlen], by simp⟩
    [[1.5], [1.5]] (by rw [h2]; simp) [1.5] (by simp) h3
  exact ⟨s, m, p, b, g1, g2⟩

end Naima.Props
