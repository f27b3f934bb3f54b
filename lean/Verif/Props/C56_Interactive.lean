import Verif.Model.Interactive
import Verif.Props.C46_C47_NelderMead
import Verif.Props.C44_C45_Guess
import Mathlib.Tactic.Linarith

/-! # C56, C58: the interactive fitter -/

namespace Naima.Props

open Naima Classical

/-- a pre-fit returns as many parameters as it is given -/
def SameSize (fit : List ℝ → Except PyErr (List ℝ × Bool)) : Prop :=
  ∀ s p b, fit s = .ok (p, b) → p.length = s.length

theorem setSliders_same (sl p : List ℝ) (h : p.length = sl.length) : setSliders sl p = p := by
  unfold setSliders
  rw [← h, List.take_length, h, List.drop_length, List.append_nil]

theorem step_sliders (fit : List ℝ → Except PyErr (List ℝ × Bool)) (raises : List ℝ → Bool)
    (hfit : SameSize fit) (s : Fitter) (e : FitterEvent)
    (hne : ∀ x, e = .fit → fit s.sliders ≠ .error x)
    (h : s.flag = true → ∃ start, fit start = .ok (s.pars, true)) :
    (fitterStep fit raises s e).flag = true →
      ∃ start, fit start = .ok ((fitterStep fit raises s e).pars, true) := by
  cases e with
  | move i v =>
    simp only [fitterStep, fitterUpdateIfAuto]
    split_ifs
    · simp [fitterUpdate]
    · exact h
  | toggle => exact h
  | update => simp [fitterStep, fitterUpdate]
  | fit =>
    simp only [fitterStep, fitterDoFit]
    cases hf : fit s.sliders with
    | error x => exact absurd hf (hne x rfl)
    | ok r =>
      obtain ⟨p, ml⟩ := r
      have hl := hfit _ _ _ hf
      cases ml with
      | false => simp
      | true =>
        simp only [if_true, fitterUpdate, setSliders_same s.sliders p hl]
        split_ifs
        · simp
        · intro _
          exact ⟨s.sliders, hf⟩

/-- no fit in the history raises -/
def NoFitRaises (fit : List ℝ → Except PyErr (List ℝ × Bool)) : Prop := ∀ s x, fit s ≠ .error x

/-- **C56 (flag truthful), partial.** In every sequence of slider moves, updates, auto-update toggles
and fits, if the fits do not raise, the flag is set only while the parameters are those returned by a
converged fit.  Missing: histories in which a fit raises, for which the claim is false
(`C56_false_failed_fit`). -/
theorem C56_flag_truthful_partial (fit : List ℝ → Except PyErr (List ℝ × Bool)) (raises : List ℝ → Bool)
    (hfit : SameSize fit) (hno : NoFitRaises fit) (labels : List Label) (p0 : List ℝ) (auto : Bool)
    (evs : List FitterEvent) :
    (fitterRun fit raises (fitterInit labels p0 auto) evs).flag = true →
      ∃ start, fit start = .ok ((fitterRun fit raises (fitterInit labels p0 auto) evs).pars, true) := by
  have key : ∀ (evs : List FitterEvent) (s : Fitter),
      (s.flag = true → ∃ start, fit start = .ok (s.pars, true)) →
      (fitterRun fit raises s evs).flag = true →
        ∃ start, fit start = .ok ((fitterRun fit raises s evs).pars, true) := by
    intro evs
    induction evs with
    | nil => intro s h; exact h
    | cons e evs ih =>
      intro s h
      exact ih _ (step_sliders fit raises hfit s e (fun x _ => hno _ x) h)
  exact key evs _ (by simp [fitterInit])

theorem move_points (f : Vec → XR) (cast : ℝ → ℝ) (N : Nat) (hN : 1 ≤ N) (sim : List (Vec × XR))
    (hlen : sim.length = N + 1) (h : ∀ p ∈ sim, p.1.length = N) :
    ∀ p ∈ (nmMove f cast sim).1, p.1.length = N := by
  have hne : sim ≠ [] := by intro h; rw [h] at hlen; simp at hlen
  have hhead : (sim.headD ([], XR.nan)).1.length = N := h _ (head_mem sim hne)
  have hlast : (sim.getLastD ([], XR.nan)).1.length = N := by
    apply h
    rw [List.getLastD_eq_getLast?, List.getLast?_eq_getLast_of_ne_nil hne]
    exact List.getLast_mem hne
  have hdrop : ∀ p ∈ sim.dropLast, p.1.length = N := fun p hp => h p (List.mem_of_mem_dropLast hp)
  have hcen : (centroid sim.dropLast).length = N := by
    have hd : sim.dropLast ≠ [] := by
      intro h'
      have := congrArg List.length h'
      simp [hlen] at this; omega
    cases hs : sim.dropLast with
    | nil => exact absurd hs hd
    | cons a l =>
      rw [hs] at hdrop
      simp only [centroid, List.length_map]
      have ha := hdrop a (by simp)
      have hl : ∀ q ∈ l, q.1.length = N := fun q hq => hdrop q (by simp [hq])
      clear hs hdrop
      generalize a.1 = acc at ha
      induction l generalizing acc with
      | nil => simpa using ha
      | cons q l ih =>
        rw [List.foldl_cons]
        refine ih (fun q hq => hl q (by simp [hq])) _ ?_
        simp [ha, hl q (by simp)]
  have hvl : ∀ a b, (vlin a (centroid sim.dropLast) b (sim.getLastD ([], XR.nan)).1).length = N := by
    intro a b; unfold vlin; rw [List.length_zipWith, hcen, hlast]; simp
  have hput : ∀ (x : Vec) (v : XR), x.length = N →
      ∀ p ∈ sim.dropLast ++ [(List.map cast x, v)], p.1.length = N := by
    intro x v hx p hp
    rcases List.mem_append.1 hp with hp | hp
    · exact hdrop p hp
    · rw [List.mem_singleton.1 hp]
      show (List.map cast x).length = N
      rw [List.length_map, hx]
  have hsh : ∀ p ∈ sim.headD ([], XR.nan) :: (sim.tail.map (fun p =>
      shrinkPt cast (sim.headD ([], XR.nan)).1 p.1)).map (fun y => (y, f y)), p.1.length = N := by
    intro p hp
    rcases List.mem_cons.1 hp with hp | hp
    · rw [hp]; exact hhead
    · simp only [List.map_map, List.mem_map, Function.comp] at hp
      obtain ⟨q, hq, rfl⟩ := hp
      show (shrinkPt cast _ q.1).length = N
      unfold shrinkPt
      rw [List.length_map, List.length_zipWith, hhead, h q (List.mem_of_mem_tail hq)]
      simp
  unfold nmMove
  simp only
  split_ifs
  all_goals first
    | exact hput _ _ (hvl _ _)
    | exact hsh

/-- The vector returned by the minimiser has as many components as the starting vector. -/
theorem minimize_length (sort : List (Vec × XR) → List (Vec × XR)) (hsort : IsNMSort sort)
    (f : Vec → XR) (cast : ℝ → ℝ) (x0 : Vec) (hx : x0 ≠ []) (xtol ftol : ℝ) (maxfev maxiter : Option Nat) :
    (minimize sort f cast x0 xtol ftol maxfev maxiter).x.length = x0.length := by
  have hN : 1 ≤ x0.length := by
    cases x0 with
    | nil => exact absurd rfl hx
    | cons a l => simp
  have key : ∀ mf mi : Nat,
      let s := nmLoop sort f cast xtol ftol mf mi (nmInit sort f cast x0)
      s.sim.length = x0.length + 1 ∧ (∀ p ∈ s.sim, p.1.length = x0.length) := by
    intro mf mi
    apply loop_inv (P := fun s => s.sim.length = x0.length + 1 ∧ (∀ p ∈ s.sim, p.1.length = x0.length))
    · rintro s ⟨h1, h2⟩ - -
      obtain ⟨p1, -⟩ := hsort (nmMove f cast s.sim).1
      refine ⟨?_, fun p hp => ?_⟩
      · show (sort _).length = _
        rw [p1.length_eq]; exact (move_facts f cast s.sim x0.length hN h1).1
      · exact move_points f cast x0.length hN s.sim h1 h2 p (p1.mem_iff.1 hp)
    · obtain ⟨p1, -⟩ := hsort (startSimplex f cast x0)
      refine ⟨?_, fun p hp => ?_⟩
      · show (sort _).length = _
        rw [p1.length_eq]; simp [startSimplex]
      · have hp' := p1.mem_iff.1 hp
        simp only [startSimplex, List.mem_cons, List.mem_map] at hp'
        rcases hp' with rfl | ⟨k, -, rfl⟩
        · rfl
        · simp [startPoint]
  obtain ⟨k1, k2⟩ := key (maxfev.getD (x0.length * 200)) (maxiter.getD (x0.length * 200))
  simp only [minimize]
  refine k2 _ (head_mem _ ?_)
  intro h
  rw [h] at k1
  simp at k1

/-- **C56 (what the flag means).** With the pre-fit of `core._prefit`, whenever the flag is set the
parameters are the end point of a Nelder–Mead minimisation of the flat-prior likelihood that reported
success, and the likelihood is not infinite there. -/
theorem C56_flag_means_converged (sort : List (Vec × XR) → List (Vec × XR)) (hsort : IsNMSort sort)
    (cast : ℝ → ℝ) (ll : Vec → XR) (raises : List ℝ → Bool) (labels : List Label) (p0 : List ℝ) (auto : Bool)
    (evs : List FitterEvent)
    (hflag : (fitterRun (fun v => if v = [] then .ok (v, false) else .ok (prefit sort cast ll ll v)) raises
      (fitterInit labels p0 auto) evs).flag = true) :
    ∃ start, let r := minimize sort (fun p => -(ll p)) cast start 1e-1 1e-3 (some 500) none
      r.success = true ∧
      (fitterRun (fun v => if v = [] then .ok (v, false) else .ok (prefit sort cast ll ll v)) raises
        (fitterInit labels p0 auto) evs).pars = r.x ∧ ll r.x ≠ XR.ninf ∧ ll r.x ≠ XR.pinf := by
  obtain ⟨start, h⟩ := C56_flag_truthful_partial _ raises (by
    intro s p b h
    simp only at h
    split_ifs at h with hs
    · cases h; simp [hs]
    · have hp : p = (prefit sort cast ll ll s).1 := by rw [Except.ok.inj h]
      rw [hp]
      rcases C46_allowed_or_unchanged sort hsort cast ll ll s with ⟨h1, -⟩ | ⟨h1, -⟩
      · rw [h1]
      · rw [h1]; exact minimize_length sort hsort _ cast s hs _ _ _ _) (by
    intro s x
    simp only
    split_ifs <;> simp) labels p0 auto evs hflag
  split_ifs at h with hs
  · simp at h
  · have h' : prefit sort cast ll ll start = _ := Except.ok.inj h
    refine ⟨start, ?_⟩
    rcases C46_allowed_or_unchanged sort hsort cast ll ll start with ⟨h1, -⟩ | ⟨h1, h2, h3, h4, h5⟩
    · rw [h'] at h1
      simp at h1
    · rw [h'] at h1 h3 h4 h5
      simp only [true_iff] at h1 h3 h4 h5
      exact ⟨h5, h1, by rw [← h1]; exact h3, by rw [← h1]; exact h4⟩

/-- **C56 is false of the code when a later fit raises**: after a converged fit, with automatic
updating off, moving a slider and starting a fit that raises leaves the flag set while the parameters
are the slider values, which no fit returned. -/
theorem C56_false_failed_fit :
    ∃ (fit : List ℝ → Except PyErr (List ℝ × Bool)) (evs : List FitterEvent) (p0 : List ℝ),
      SameSize fit ∧
      let s := fitterRun fit (fun _ => false) (fitterInit [['x']] p0 false) evs
      s.flag = true ∧ s.pars = [3] ∧ ∀ start, fit start ≠ .ok ([3], true) := by
  refine ⟨fun v => if v = [3] then .error .valueError else .ok (v.map (fun _ => 2), true),
    [.fit, .move 0 3, .fit], [1], ?_, ?_⟩
  · intro s p b h
    simp only at h
    split_ifs at h
    cases h; simp
  · have hr : sliderRange ['x'] 1 = (1 / 10, 1 * 3) := by
      have : inLabel ['l', 'o', 'g'] ['x'] = false := by
        simp only [inLabel, decide_eq_false_iff_not]; decide
      have h2 : inLabel ['i', 'n', 'd', 'e', 'x'] ['x'] = false := by
        simp only [inLabel, decide_eq_false_iff_not]; decide
      have h3 : inLabel ['a', 'l', 'p', 'h', 'a'] ['x'] = false := by
        simp only [inLabel, decide_eq_false_iff_not]; decide
      have h4 : inLabel ['n', 'o', 'r', 'm'] ['x'] = false := by
        simp only [inLabel, decide_eq_false_iff_not]; decide
      have h5 : inLabel ['a', 'm', 'p', 'l', 'i', 't', 'u', 'd', 'e'] ['x'] = false := by
        simp only [inLabel, decide_eq_false_iff_not]; decide
      simp [sliderRange, this, h2, h3, h4, h5]
    have hv : valueInBounds (sliderRange ['x'] 1) 1 = 1 := by
      rw [hr]; unfold valueInBounds; norm_num
    refine ⟨?_, ?_, ?_⟩
    · simp [fitterRun, fitterInit, fitterStep, fitterDoFit, fitterUpdateIfAuto, fitterUpdate, setSliders, hv]
    · simp [fitterRun, fitterInit, fitterStep, fitterDoFit, fitterUpdateIfAuto, fitterUpdate, setSliders, hv]
    · intro start
      simp only
      split_ifs with h
      · simp
      · simp
        cases start with
        | nil => simp
        | cons a l => intro h'; simp [List.replicate_succ] at h'

/-! ## C58: sliders and parameters -/

/-- The slider of parameter `v` with label `l` initially shows `v`. -/
def Faithful (l : Label) (v : ℝ) : Prop := valueInBounds (sliderRange l v) v = v

/-- **C58 (faithful sliders), partial.** A slider initially shows the parameter's own value if the
parameter is positive and (for an index/alpha label without log) at most 5, or is between -5 and 0 with
such a label, or has any value with a log label.  Missing: other negative values (false, below). -/
theorem C58_sliders_faithful_partial (l : Label) (v : ℝ)
    (h : (0 < v ∧ v ≤ 5) ∨ ("log".toList <:+: l) ∨
      (0 < v ∧ ¬ "index".toList <:+: l ∧ ¬ "alpha".toList <:+: l) ∨
      (-5 ≤ v ∧ v ≤ 0 ∧ ("index".toList <:+: l ∨ "alpha".toList <:+: l))) : Faithful l v := by
  have e1 : inLabel ['l', 'o', 'g'] l = decide ("log".toList <:+: l) := rfl
  have e2 : inLabel ['i', 'n', 'd', 'e', 'x'] l = decide ("index".toList <:+: l) := rfl
  have e3 : inLabel ['a', 'l', 'p', 'h', 'a'] l = decide ("alpha".toList <:+: l) := rfl
  have bnd : ∀ a b : ℝ, sliderRange l v = (a, b) → (v ≤ a → v = a) → (b ≤ v → v = b) → Faithful l v := by
    intro a b hab h1 h2
    unfold Faithful valueInBounds
    rw [hab]
    simp only
    split_ifs with c d
    · exact (h1 c).symm
    · exact (h2 d).symm
    · rfl
  by_cases c1 : "log".toList <:+: l
  · have hr : ∃ t : ℝ, 0 < t ∧ sliderRange l v = (v - t, v + t) := by
      unfold sliderRange
      simp only [e1, c1, decide_true, if_true]
      exact ⟨_, by split_ifs <;> norm_num, rfl⟩
    obtain ⟨t, ht, hr⟩ := hr
    exact bnd _ _ hr (fun h => by linarith) (fun h => by linarith)
  · by_cases c2 : "index".toList <:+: l ∨ "alpha".toList <:+: l
    · have c2' : (decide ("index".toList <:+: l) || decide ("alpha".toList <:+: l)) = true := by
        rcases c2 with c | c
        · rw [decide_eq_true c]; rfl
        · rw [decide_eq_true c, Bool.or_true]
      rcases h with ⟨h, h'⟩ | h | ⟨h, h1, h2⟩ | ⟨h, h', -⟩
      · have hr : sliderRange l v = (0, 5) := by
          unfold sliderRange
          simp only [e1, e2, e3, c1, decide_false, Bool.false_eq_true, if_false, c2', if_true, h]
        exact bnd _ _ hr (fun h => by linarith) (fun h => by linarith)
      · exact absurd h c1
      · exact absurd c2 (by tauto)
      · have hr : sliderRange l v = (-5, 0) := by
          unfold sliderRange
          simp only [e1, e2, e3, c1, decide_false, Bool.false_eq_true, if_false, c2', if_true, not_lt.2 h']
        exact bnd _ _ hr (fun h => by linarith) (fun h => by linarith)
    · have c2' : (decide ("index".toList <:+: l) || decide ("alpha".toList <:+: l)) = false := by
        rw [decide_eq_false (fun c => c2 (Or.inl c)), decide_eq_false (fun c => c2 (Or.inr c))]; rfl
      have hv : 0 < v := by
        rcases h with ⟨h, -⟩ | h | ⟨h, -⟩ | ⟨-, -, h⟩
        · exact h
        · exact absurd h c1
        · exact h
        · exact absurd h c2
      have hr : sliderRange l v = (v / 100, v * 100) ∨ sliderRange l v = (v / 10, v * 3) := by
        unfold sliderRange
        simp only [e1, e2, e3, c1, decide_false, Bool.false_eq_true, if_false, c2']
        split_ifs
        · exact Or.inl rfl
        · exact Or.inr rfl
      rcases hr with hr | hr
      · exact bnd _ _ hr (fun h => by linarith) (fun h => by linarith)
      · exact bnd _ _ hr (fun h => by linarith) (fun h => by linarith)

/-- **C58 is false of the code for negative parameters**: with an ordinary label, the slider of a
negative parameter `v` starts at `v / 10`. -/
theorem C58_false_negative (l : Label) (v : ℝ) (hv : v < 0) (h1 : ¬ "log".toList <:+: l)
    (h2 : ¬ "index".toList <:+: l) (h3 : ¬ "alpha".toList <:+: l) (h4 : ¬ "norm".toList <:+: l)
    (h5 : ¬ "amplitude".toList <:+: l) :
    valueInBounds (sliderRange l v) v = v / 10 ∧ v / 10 ≠ v := by
  have e1 : inLabel ['l', 'o', 'g'] l = false := decide_eq_false h1
  have e2 : inLabel ['i', 'n', 'd', 'e', 'x'] l = false := decide_eq_false h2
  have e3 : inLabel ['a', 'l', 'p', 'h', 'a'] l = false := decide_eq_false h3
  have e4 : inLabel ['n', 'o', 'r', 'm'] l = false := decide_eq_false h4
  have e5 : inLabel ['a', 'm', 'p', 'l', 'i', 't', 'u', 'd', 'e'] l = false := decide_eq_false h5
  unfold sliderRange valueInBounds
  simp only [e1, e2, e3, e4, e5, Bool.or_self, Bool.false_eq_true, if_false]
  refine ⟨if_pos (by linarith), fun h => by linarith⟩

/-- **C58 (a slider move changes one parameter), partial.** If the sliders show the parameters and
automatic updating is on, moving slider `i` to `v` changes parameter `i` to `v` and no other, and the
sliders still show the parameters. -/
theorem C58_move_partial (fit : List ℝ → Except PyErr (List ℝ × Bool)) (raises : List ℝ → Bool) (s : Fitter)
    (hs : s.sliders = s.pars) (ha : s.auto = true) (i : Nat) (v : ℝ) :
    (fitterStep fit raises s (.move i v)).pars = s.pars.set i v ∧
    (fitterStep fit raises s (.move i v)).sliders = (fitterStep fit raises s (.move i v)).pars := by
  simp [fitterStep, fitterUpdateIfAuto, fitterUpdate, ha, hs]

/-- **C58 is false of the code at the start**: moving the slider of one parameter changes another,
negative one. -/
theorem C58_false_move_changes_other (fit : List ℝ → Except PyErr (List ℝ × Bool)) (raises : List ℝ → Bool) :
    (fitterStep fit raises (fitterInit ["B".toList, "beta".toList] [1, -2] true) (.move 0 2)).pars = [2, -2 / 10] := by
  have h := (C58_false_negative "beta".toList (-2) (by norm_num) (by decide) (by decide) (by decide) (by decide)
    (by decide)).1
  simp only [fitterStep, fitterUpdateIfAuto, fitterInit, fitterUpdate, if_true, List.zipWith_cons_cons,
    List.zipWith_nil_left, List.set_cons_zero, h]

/-- Non-vacuity of `C56_flag_truthful_partial`: after one converging fit the flag is set. -/
example : (fitterRun (fun v => .ok (v.map (fun _ => 2), true)) (fun _ => false)
    (fitterInit [['x']] [1] true) [.fit]).flag = true := by
  simp [fitterRun, fitterStep, fitterDoFit, fitterInit, fitterUpdate]

end Naima.Props
