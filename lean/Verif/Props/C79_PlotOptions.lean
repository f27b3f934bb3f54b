import Verif.Model.PlotData

/-! # C79: plotting options belong to the call they are given to -/

namespace Naima.Props

open Naima Classical

/-! ### Specification -/

/-- What the caller asks for: the value of `ulim_opts`, except that the line width of the error bars, if
given, is also that of the upper limits. -/
def askedOption {V : Type} (c : PlotCall V) (k : String) : Option V :=
  if k = "elinewidth" then
    match (c.errorbarOpts.getD []).get? "elinewidth" with
    | some w => some w
    | none => (c.ulimOpts.getD []).get? "elinewidth"
  else (c.ulimOpts.getD []).get? k

/-- A call which leaves a trace: upper limits drawn, `ulim_opts` not given, and a line width for the
error bars. Its value is the width. -/
def leak {V : Type} (isFit : Bool) (c : PlotCall V) : Option V :=
  if c.isFit = isFit ∧ c.hasUL = true ∧ c.ulimOpts = none then
    (c.errorbarOpts.getD []).get? "elinewidth"
  else none

/-- The session starts with empty default dictionaries. -/
def freshDefaults (V : Type) : PlotDefaults V := ⟨[], []⟩

/-! ### Proof -/

/-- the default dictionary a function uses -/
def _root_.Naima.PlotDefaults.of {V : Type} (st : PlotDefaults V) (isFit : Bool) : Dict String V :=
  if isFit then st.fit else st.data

/-- the state after a history -/
def plotState {V : Type} : PlotDefaults V → List (PlotCall V) → PlotDefaults V
  | st, [] => st
  | st, c :: cs => plotState (plotCall st c).2.2 cs

theorem plotCalls_getElem? {V : Type} (cs : List (PlotCall V)) (st : PlotDefaults V) (i : ℕ)
    (c : PlotCall V) (hi : cs[i]? = some c) :
    (plotCalls st cs)[i]? = some ((plotCall (plotState st (cs.take i)) c).1,
      (plotCall (plotState st (cs.take i)) c).2.1) := by
  induction cs generalizing st i with
  | nil => simp at hi
  | cons a cs ih =>
    cases i with
    | zero =>
      simp only [List.getElem?_cons_zero, Option.some.injEq] at hi
      subst hi
      simp [plotCalls, plotState]
    | succ i =>
      simp only [List.getElem?_cons_succ] at hi
      simp only [plotCalls, List.getElem?_cons_succ, List.take_succ_cons, plotState]
      exact ih _ _ hi

theorem ulimDict_get {V : Type} (c : PlotCall V) (d : Dict String V) (k : String) :
    (ulimDict c d).get? k = if k = "elinewidth" then
      match (c.errorbarOpts.getD []).get? "elinewidth" with
      | some w => some w
      | none => d.get? "elinewidth" else d.get? k := by
  unfold ulimDict
  cases hw : Dict.get? (c.errorbarOpts.getD []) "elinewidth" with
  | none => by_cases hk : k = "elinewidth" <;> simp [hk]
  | some w =>
    by_cases hk : k = "elinewidth"
    · simp only [hk, if_true]; exact Dict.get?_set_self _ _ _
    · simp only [hk, if_false]; exact Dict.get?_set_other _ _ _ _ hk

theorem plotCall_of {V : Type} (st : PlotDefaults V) (c : PlotCall V) (isFit : Bool) (k : String) :
    ((plotCall st c).2.2.of isFit).get? k =
      match (if k = "elinewidth" then leak isFit c else none) with
      | some w => some w
      | none => (st.of isFit).get? k := by
  unfold plotCall leak PlotDefaults.of
  rcases c with ⟨f, ul, eb, has⟩
  cases has
  · cases isFit <;> simp
  cases ul with
  | some d => cases isFit <;> simp
  | none =>
    cases f <;> cases isFit <;> simp [ulimDict_get] <;> by_cases hk : k = "elinewidth" <;> simp [hk]

/-- the default dictionary after a history -/
theorem plotState_of {V : Type} (cs : List (PlotCall V)) (st : PlotDefaults V) (isFit : Bool)
    (k : String) :
    ((plotState st cs).of isFit).get? k =
      match (if k = "elinewidth" then (cs.filterMap (leak isFit)).getLast? else none) with
      | some w => some w
      | none => (st.of isFit).get? k := by
  induction cs generalizing st with
  | nil => simp [plotState]
  | cons c cs ih =>
    rw [plotState, ih, plotCall_of]
    by_cases hk : k = "elinewidth"
    · simp only [hk, if_true]
      cases hl : leak isFit c with
      | none => rw [List.filterMap_cons_none hl]
      | some w =>
        rw [List.filterMap_cons_some hl, List.getLast?_cons]
        cases (cs.filterMap (leak isFit)).getLast? <;> simp
    · simp [hk]

theorem fresh_of {V : Type} (isFit : Bool) (k : String) :
    ((freshDefaults V).of isFit).get? k = none := by
  cases isFit <;> simp [freshDefaults, PlotDefaults.of, Dict.get?]

/-- **C79** (exactly which options are used). In any history of calls from a fresh session, the options
used for the upper limits of the `i`-th call are those asked for, except for one case: if neither
`ulim_opts` nor an error bar line width is given, the line width is the one of the last earlier call of the
same function that left a trace. A call which draws no upper limit uses none. -/
theorem C79_used {V : Type} (cs : List (PlotCall V)) (i : ℕ) (c : PlotCall V) (hi : cs[i]? = some c) :
    ∃ used after, (plotCalls (freshDefaults V) cs)[i]? = some (used, after) ∧
      (used.isSome = c.hasUL) ∧
      ∀ d, used = some d → ∀ k, d.get? k =
        if k = "elinewidth" ∧ c.ulimOpts = none ∧ (c.errorbarOpts.getD []).get? "elinewidth" = none then
          ((cs.take i).filterMap (leak c.isFit)).getLast?
        else askedOption c k := by
  refine ⟨_, _, plotCalls_getElem? cs _ i c hi, ?_, ?_⟩
  · unfold plotCall; cases c.hasUL <;> simp
  intro d hd k
  have hul : c.hasUL = true := by
    unfold plotCall at hd
    cases h : c.hasUL
    · simp [h] at hd
    · rfl
  unfold plotCall at hd
  simp only [hul, if_true, Option.some.injEq] at hd
  subst hd
  rw [ulimDict_get]
  have hst := plotState_of (cs.take i) (freshDefaults V) c.isFit
  unfold askedOption
  cases hu : c.ulimOpts with
  | some u => simp
  | none =>
    have e : (none : Option (Dict String V)).getD (if c.isFit = true
        then (plotState (freshDefaults V) (cs.take i)).fit
        else (plotState (freshDefaults V) (cs.take i)).data) =
        (plotState (freshDefaults V) (cs.take i)).of c.isFit := rfl
    rw [e, hst, hst]
    simp only [fresh_of]
    cases hw : Dict.get? (c.errorbarOpts.getD []) "elinewidth" with
    | some w => by_cases hk : k = "elinewidth" <;> simp [hk, Dict.get?]
    | none =>
      by_cases hk : k = "elinewidth"
      · simp only [hk, if_true, true_and]
        cases ((cs.take i).filterMap (leak c.isFit)).getLast? <;> simp
      · simp [hk, Dict.get?]

/-- **C79** (independence). If no earlier call of the same function left a trace, the options used are
those asked for: they do not depend on the history. Missing: the histories with such a call
(`C79_false_leak`). -/
theorem C79_independent_partial {V : Type} (cs : List (PlotCall V)) (i : ℕ) (c : PlotCall V)
    (hi : cs[i]? = some c) (hul : c.hasUL = true)
    (hclean : ∀ c' ∈ cs.take i, leak c.isFit c' = none) :
    ∃ d after, (plotCalls (freshDefaults V) cs)[i]? = some (some d, after) ∧
      ∀ k, d.get? k = askedOption c k := by
  obtain ⟨used, after, h, hs, hd⟩ := C79_used cs i c hi
  rw [hul] at hs
  obtain ⟨d, rfl⟩ := Option.isSome_iff_exists.1 hs
  refine ⟨d, after, h, fun k => ?_⟩
  rw [hd d rfl k]
  split_ifs with hk
  · have : (cs.take i).filterMap (leak c.isFit) = [] := by
      rw [List.filterMap_eq_nil_iff]; exact hclean
    rw [this]
    unfold askedOption
    rw [if_pos hk.1, hk.2.2, hk.2.1]
    rfl
  · rfl

/-- **C79** (the caller's dictionary). In any session, the caller's `ulim_opts` after the call is as before
for every option but the line width; that is also as before unless upper limits are drawn and the error
bar options have a line width, in which case it is replaced by that one. -/
theorem C79_caller_dictionary {V : Type} (st : PlotDefaults V) (c : PlotCall V) (u : Dict String V)
    (hu : c.ulimOpts = some u) :
    ∃ u', (plotCall st c).2.1 = some u' ∧
      ∀ k, u'.get? k =
        match (if k = "elinewidth" ∧ c.hasUL = true then (c.errorbarOpts.getD []).get? "elinewidth"
          else none) with
        | some w => some w
        | none => u.get? k := by
  unfold plotCall
  cases hul : c.hasUL
  · refine ⟨u, by simp [hu], fun k => by simp⟩
  · refine ⟨ulimDict c u, by simp [hu], fun k => ?_⟩
    rw [ulimDict_get]
    by_cases hk : k = "elinewidth" <;> simp [hk]

/-- **C79** (the options are passed on). A known option of the upper limits has the value of the
dictionary, or its default if the dictionary does not have it. -/
theorem C79_option_value {V : Type} (dflt : String → Option V) (d : Dict String V) (k : String) (v : V)
    (hk : dflt k = some v) (hkn : ∀ k' ∈ d.keys, (dflt k').isSome = true) :
    ulimOption dflt d k = .ok ((d.get? k).getD v) := by
  unfold ulimOption
  rw [if_neg]
  · cases Dict.get? d k <;> simp [hk]
  · rintro ⟨k', hk', h⟩
    have := hkn k' hk'
    rw [h] at this
    simp at this

/-- **C79** fails: after `plot_data(table, errorbar_opts={'elinewidth': 5})` for a table with upper limits,
a later `plot_data(table)` draws upper limits with line width 5 instead of the default. -/
theorem C79_false_leak :
    ¬ ∀ (cs : List (PlotCall ℕ)) (i : ℕ) (c : PlotCall ℕ), cs[i]? = some c → c.hasUL = true →
      ∃ d after, (plotCalls (freshDefaults ℕ) cs)[i]? = some (some d, after) ∧
        ∀ k, d.get? k = askedOption c k := by
  intro h
  obtain ⟨d, after, h1, h2⟩ := h
    [⟨false, none, some [("elinewidth", 5)], true⟩, ⟨false, none, none, true⟩] 1
    ⟨false, none, none, true⟩ rfl rfl
  have hd := h2 "elinewidth"
  simp [plotCalls, plotCall, freshDefaults, ulimDict, Dict.get?, Dict.set, Dict.keys] at h1
  rw [← h1.1] at hd
  simp [askedOption, Dict.get?] at hd

/-- **C79** fails: the caller's dictionary `{'elinewidth': 3}` holds 5 after a call with
`errorbar_opts={'elinewidth': 5}`. -/
theorem C79_false_caller_dictionary :
    ¬ ∀ (c : PlotCall ℕ), (plotCall (freshDefaults ℕ) c).2.1 = c.ulimOpts := by
  intro h
  have := h ⟨false, some [("elinewidth", 3)], some [("elinewidth", 5)], true⟩
  simp [plotCall, ulimDict, Dict.get?, Dict.set, Dict.keys] at this

/-- **C79** (order of the bands). The confidence bands are drawn from the widest to the narrowest, and
each requested level is drawn as often as it is requested. -/
theorem C79_bands (confs : List ℝ) :
    (plotCIConfs confs).1.Pairwise (fun a b => b ≤ a) ∧ (plotCIConfs confs).1.Perm confs := by
  refine ⟨?_, List.perm_insertionSort _ _⟩
  have : Std.Total (fun a b : ℝ => b ≤ a) := ⟨fun a b => le_total b a⟩
  have : IsTrans ℝ (fun a b : ℝ => b ≤ a) := ⟨fun a b c h1 h2 => h2.trans h1⟩
  exact List.pairwise_insertionSort _ _

/-- **C79** (the caller's list of levels). It is unchanged exactly if it was in descending order. -/
theorem C79_confs_partial (confs : List ℝ) :
    (plotCIConfs confs).2 = confs ↔ confs.Pairwise (fun a b => b ≤ a) := by
  constructor
  · intro h
    rw [← h]
    exact (C79_bands confs).1
  · intro h
    exact List.Pairwise.insertionSort_eq h

/-- **C79** fails: `plot_CI(ax, sampler, confs=c)` with `c = [1, 3]` leaves `c = [3, 1]`. -/
theorem C79_false_confs : ¬ ∀ confs : List ℝ, (plotCIConfs confs).2 = confs := by
  intro h
  have := (C79_confs_partial [1, 3]).1 (h _)
  simp at this


/-- The hypotheses are met: two calls with options of their own, the second without a width. -/
example : ∃ d after, (plotCalls (freshDefaults ℕ)
    [⟨false, some [("capsize", 7)], some [("elinewidth", 5)], true⟩, ⟨false, none, none, true⟩])[1]? =
      some (some d, after) ∧
    ∀ k, d.get? k = askedOption (⟨false, none, none, true⟩ : PlotCall ℕ) k :=
  C79_independent_partial _ 1 _ rfl rfl (by intro c' h; simp at h; subst h; rfl)

end Naima.Props
