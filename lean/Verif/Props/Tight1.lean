import Verif.Props.C19_C20_Pion
import Verif.Props.C46_C47_NelderMead
import Verif.Props.C49_C52_Results
import Verif.Props.C56_Interactive

/-! # Theorems added after wrong programs went unnoticed (C47, C52, C56) -/

namespace Naima.Props

open Naima XR Classical

/-! ## C47: the search explores every parameter -/

/-- **C47 (every parameter is varied).** Whatever the objective and limits, a search started at `x0` (a
float vector) evaluates the objective at `x0` and, for every parameter, also if it is zero, at a point
that differs from `x0` in that parameter and in no other. -/
theorem C47_all_parameters_varied (sort : List (Vec × XR) → List (Vec × XR)) (f : Vec → XR) (x0 : Vec)
    (xtol ftol : ℝ) (maxfev maxiter : Option Nat) :
    let r := minimize sort f id x0 xtol ftol maxfev maxiter
    x0 ∈ r.evals ∧ ∀ k, (hk : k < x0.length) → ∃ y ∈ r.evals, ∃ hy : y.length = x0.length,
      y[k] ≠ x0[k] ∧ ∀ j, (hj : j < x0.length) → j ≠ k → y[j] = x0[j] := by
  have key : ∀ mf mi : Nat, ∀ p ∈ (nmInit sort f id x0).evals,
      p ∈ (nmLoop sort f id xtol ftol mf mi (nmInit sort f id x0)).evals := by
    intro mf mi
    apply loop_inv (P := fun s => ∀ p ∈ (nmInit sort f id x0).evals, p ∈ s.evals)
    · intro s h _ _ p hp
      simp [h p hp]
    · exact fun p hp => hp
  have hx : x0 ∈ (nmInit sort f id x0).evals := by simp [nmInit, startSimplex]
  refine ⟨key _ _ _ hx, fun k hk => ⟨startPoint id x0 k, key _ _ _ ?_, by simp [startPoint], ?_, ?_⟩⟩
  · simp only [nmInit, startSimplex, List.map_cons, List.map_map, List.mem_cons, List.mem_map]
    exact Or.inr ⟨k, by simpa using hk, rfl⟩
  · have hg : x0.getD k 0 = x0[k] := by simp [List.getD, hk]
    simp only [startPoint, List.getElem_set_self, id, hg]
    split_ifs with h
    · intro h'
      have : x0[k] = 0 := by linarith
      exact h this
    · push Not at h
      rw [h]; norm_num
  · intro j hj hne
    simp only [startPoint]
    exact List.getElem_set_ne (Ne.symm hne) _

/-! ## C52: rows of the metadata blobs -/

/-- the number in a scalar blob -/
def blobNumber : BlobVal → Option ℝ
  | .qty v => some v
  | .num v => some v
  | .other => none

/-- Every sample has `n` blobs, and blob `idx` is of the same kind in all of them. -/
structure UniformBlobs (blobs : List (List (List BlobVal))) (n : Nat) : Prop where
  steps : blobs ≠ [] ∧ ∀ s ∈ blobs, s ≠ []
  len : ∀ w ∈ blobs.flatten, w.length = n
  kind : ∀ idx < n, (∀ w ∈ blobs.flatten, ∃ v, w.getD idx .other = .qty v) ∨
    (∀ w ∈ blobs.flatten, ∃ v, w.getD idx .other = .num v) ∨
    (∀ w ∈ blobs.flatten, w.getD idx .other = .other)

/-- **C52 (blobs).** With `include_blobs=True` the rows of the parameters are followed by one row for
each scalar blob, in order, named `blob0`, `blob1`, ..., with the median and uncertainties of its values
in all samples (with `last_step=True`: of all walkers at the last step). -/
theorem C52_blobs (conv lastStep : Bool) (labels : List Label) (chain : List (List (List ℝ)))
    (blobs : List (List (List BlobVal))) (n : Nat) (h : UniformBlobs blobs n)
    (used : List (List BlobVal)) (hused : used = if lastStep then blobs.getLastD [] else blobs.flatten) :
    resultsTable conv lastStep true labels chain blobs =
      (resultsTable conv lastStep false labels chain blobs).map (fun rows => rows ++
        ((List.range n).filter (fun idx => (blobNumber ((used.headD []).getD idx .other)).isSome)).map
          (fun idx => describe (blobLabel idx)
            (used.map (fun w => (blobNumber (w.getD idx .other)).getD 0)))) := by
  have hlast : blobs.getLastD [] ∈ blobs := by
    rw [List.getLastD_eq_getLast?, List.getLast?_eq_getLast_of_ne_nil h.steps.1]
    exact List.getLast_mem h.steps.1
  have hlne := h.steps.2 _ hlast
  have hsub : ∀ w ∈ used, w ∈ blobs.flatten := by
    intro w hw
    rw [hused] at hw
    cases lastStep with
    | false => exact hw
    | true => exact List.mem_flatten.2 ⟨_, hlast, hw⟩
  have hune : used ≠ [] := by
    rw [hused]
    cases lastStep with
    | false =>
      obtain ⟨w, l, e⟩ := List.exists_cons_of_ne_nil hlne
      intro h0
      have : w ∈ blobs.flatten := List.mem_flatten.2 ⟨_, hlast, by rw [e]; simp⟩
      simp only [Bool.false_eq_true, if_false] at h0
      rw [h0] at this; cases this
    | true => exact hlne
  have hh : (blobs.getLastD []).headD [] ∈ blobs.flatten := by
    obtain ⟨w, l, e⟩ := List.exists_cons_of_ne_nil hlne
    exact List.mem_flatten.2 ⟨_, hlast, by rw [e]; simp⟩
  have hu : used.headD [] ∈ blobs.flatten := by
    obtain ⟨w, l, e⟩ := List.exists_cons_of_ne_nil hune
    apply hsub; rw [e]; simp
  have hrow : ∀ idx ∈ List.range n, blobRow lastStep blobs idx (blobLabel idx) =
      .ok (if (blobNumber ((used.headD []).getD idx .other)).isSome then
        [describe (blobLabel idx) (used.map (fun w => (blobNumber (w.getD idx .other)).getD 0))] else []) := by
    intro idx hi
    have hi := List.mem_range.1 hi
    have hs : blobSamples lastStep blobs idx = used.map (fun w => w.getD idx .other) := by
      rw [hused]; cases lastStep <;> rfl
    unfold blobRow
    rcases h.kind idx hi with hk | hk | hk
    · obtain ⟨v, hv⟩ := hk _ hh
      obtain ⟨v', hv'⟩ := hk _ hu
      rw [hv, hs, hv']
      simp only [List.mapM_map]
      rw [mapM_ok_map _ (fun w : List BlobVal => (blobNumber (w.getD idx .other)).getD 0) used (by
        intro w hw
        obtain ⟨v, e⟩ := hk w (hsub w hw)
        simp only [Function.comp_apply, e, blobValue, blobNumber, if_true, Option.getD_some])]
      simp only [bind, Except.bind]
      rw [mkRow_describe _ _ (by simpa using hune)]
      simp [blobNumber, pure, Except.pure]
    · obtain ⟨v, hv⟩ := hk _ hh
      obtain ⟨v', hv'⟩ := hk _ hu
      rw [hv, hs, hv']
      simp only [List.mapM_map]
      rw [mapM_ok_map _ (fun w : List BlobVal => (blobNumber (w.getD idx .other)).getD 0) used (by
        intro w hw
        obtain ⟨v, e⟩ := hk w (hsub w hw)
        simp only [Function.comp_apply, e, blobValue, blobNumber, Bool.false_eq_true, if_false, Option.getD_some])]
      simp only [bind, Except.bind]
      rw [mkRow_describe _ _ (by simpa using hune)]
      simp [blobNumber, pure, Except.pure]
    · rw [hk _ hh, hk _ hu]
      simp [blobNumber]
  unfold resultsTable
  cases resultSamples lastStep chain with
  | error e => rfl
  | ok dists =>
    simp only
    cases paramRows conv dists 0 labels none with
    | error e => rfl
    | ok rows =>
      simp only [if_true, Bool.false_eq_true, if_false, Except.map]
      rw [h.len _ hh, mapM_ok_map _ _ _ hrow]
      simp only [Except.ok.injEq, List.append_cancel_left_eq]
      generalize List.range n = l
      induction l with
      | nil => rfl
      | cons a l ih =>
        simp only [List.map_cons, List.flatten_cons, ih, List.filter_cons]
        split_ifs <;> simp

/-- Non-vacuity: two steps of two walkers with a spectrum and a total energy. -/
example : UniformBlobs [[[.other, .qty 1], [.other, .qty 2]], [[.other, .qty 3], [.other, .qty 4]]] 2 := by
  refine ⟨by simp, by simp, ?_⟩
  intro idx hi
  have : idx = 0 ∨ idx = 1 := by omega
  rcases this with rfl | rfl
  · exact Or.inr (Or.inr (by simp))
  · exact Or.inl (by simp)

/-! ## C56: automatic updating -/

/-- **C56 (automatic updating).** If evaluating the model never raises, automatic updating is on after
any history exactly if it was switched an even number of times from on, or odd from off; in particular
a fit leaves it as it was. -/
theorem C56_auto_update (fit : List ℝ → Except PyErr (List ℝ × Bool)) (s : Fitter)
    (evs : List FitterEvent) :
    (fitterRun fit (fun _ => false) s evs).auto =
      xor s.auto (decide ((evs.filter (fun e => match e with | .toggle => true | _ => false)).length % 2 = 1)) := by
  induction evs generalizing s with
  | nil => simp [fitterRun]
  | cons e evs ih =>
    have hrun : fitterRun fit (fun _ => false) s (e :: evs) =
        fitterRun fit (fun _ => false) (fitterStep fit (fun _ => false) s e) evs := rfl
    rw [hrun, ih]
    cases e with
    | move i v =>
      simp only [fitterStep, fitterUpdateIfAuto, List.filter_cons, Bool.false_eq_true, if_false]
      split_ifs <;> simp [fitterUpdate]
    | toggle =>
      simp only [fitterStep, List.filter_cons, if_true, List.length_cons]
      rcases Nat.mod_two_eq_zero_or_one (evs.filter (fun e => match e with
        | FitterEvent.toggle => true | _ => false)).length with h | h
      · have h2 : ((evs.filter (fun e => match e with
          | FitterEvent.toggle => true | _ => false)).length + 1) % 2 = 1 := by omega
        rw [h, h2]; cases s.auto <;> simp
      · have h2 : ((evs.filter (fun e => match e with
          | FitterEvent.toggle => true | _ => false)).length + 1) % 2 = 0 := by omega
        rw [h, h2]; cases s.auto <;> simp
    | update => simp [fitterStep, fitterUpdate]
    | fit =>
      simp only [fitterStep, List.filter_cons, Bool.false_eq_true, if_false]
      have : (fitterDoFit fit (fun _ => false) s).auto = s.auto := by
        unfold fitterDoFit
        simp only []
        split
        · rfl
        · split_ifs <;> first | rfl | (exfalso; simp_all)
      rw [this]

/-- **C56 is false of the code** when the model raises at the fitted parameters: automatic updating is
then off although the user never switched it. -/
theorem C56_false_auto_lost (fit : List ℝ → Except PyErr (List ℝ × Bool)) (raises : List ℝ → Bool) (s : Fitter)
    (p : List ℝ) (h : fit s.sliders = .ok (p, true)) (hl : p.length = s.sliders.length)
    (hr : raises p = true) : (fitterStep fit raises s .fit).auto = false := by
  simp only [fitterStep, fitterDoFit, h, if_true, fitterUpdate, setSliders_same s.sliders p hl, hr]

example : (fitterStep (fun _ => .ok ([2, 3], true)) (fun _ => true) ⟨[1, 1], [1, 1], false, true⟩ .fit).auto = false :=
  C56_false_auto_lost _ _ _ [2, 3] rfl rfl rfl

end Naima.Props
