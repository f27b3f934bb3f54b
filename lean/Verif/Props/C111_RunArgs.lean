import Verif.Model.RunArgs
import Verif.Props.C48_Sampler
import Verif.Props.C110_PlotInput

/-! # C111: the sampler and the position that are given are the ones that run -/

namespace Naima.Props

open Naima

variable {M S : Type}

/-- **C111 (partial).** With both a sampler and a position, `run_sampler` runs that sampler, with its own
data and model, from that position: whatever other arguments are given, even invalid ones, nothing is
validated and no pool is made. When it returns, the chain holds exactly the `nrun` states that follow the
position under the sampler's own data and model, and the sampler keeps its data and model.
Missing: only one of the two given (`C111_false_half_given`). -/
theorem C111_continues_partial (sort : List Row → List Row) (w : World)
    (init : VTable → M → S → Except PyErr Unit) (step : VTable → M → S → Except PyErr S) (nrun : Nat)
    (s : LiveSampler M S) (pos : S) (kw : RunKw M S) :
    (∀ kw', runSamplerArgs sort w init step nrun (some s) (some pos) kw =
      runSamplerArgs sort w init step nrun (some s) (some pos) kw') ∧
    (runSamplerArgs sort w init step nrun (some s) (some pos) kw).1.next = w.next ∧
    ∀ w' s' st, runSamplerArgs sort w init step nrun (some s) (some pos) kw = (w', .ok (s', st)) →
      s'.data = s.data ∧ s'.model = s.model ∧ s'.sampler.chain.length = nrun ∧
      IsRun (step s.data s.model) pos s'.sampler.chain ∧ s'.sampler.chain.getLastD pos = st := by
  refine ⟨fun _ => rfl, ?_, ?_⟩
  · unfold runSamplerArgs
    simp only
    have hn : ∀ w' r, runOn w (init s.data s.model) (step s.data s.model) nrun s.sampler pos = (w', r) →
        w'.next = w.next := by
      intro w' r h
      unfold runOn at h
      simp only at h
      split at h
      · cases h; rfl
      · cases h
        unfold cleanup
        split <;> rfl
    cases hr : runOn w (init s.data s.model) (step s.data s.model) nrun s.sampler pos with
    | mk w' r =>
      cases r with
      | error e => exact hn _ _ hr
      | ok p => exact hn _ _ hr
  · intro w' s' st h
    unfold runSamplerArgs at h
    simp only at h
    cases hr : runOn w (init s.data s.model) (step s.data s.model) nrun s.sampler pos with
    | mk w1 r =>
      rw [hr] at h
      cases r with
      | error e => simp at h
      | ok p =>
        obtain ⟨s1, st1⟩ := p
        simp only [Prod.mk.injEq, Except.ok.injEq] at h
        obtain ⟨rfl, rfl, rfl⟩ := h
        obtain ⟨-, -, a3, a4, a5, -⟩ := runOn_ok w w1 _ _ nrun s.sampler s1 pos st1 hr
        exact ⟨rfl, rfl, a3, a4, a5⟩

/-- **C111 (a new fit).** Without sampler and position, `run_sampler(**kwargs)` returns a sampler for the
validated data table and the model of the arguments, whose chain holds exactly the `nrun` states that
follow `nburn` states from the walkers. -/
theorem C111_new (sort : List Row → List Row) (w w' : World)
    (init : VTable → M → S → Except PyErr Unit) (step : VTable → M → S → Except PyErr S) (nrun : Nat)
    (kw : RunKw M S) (s' : LiveSampler M S) (st : S)
    (h : runSamplerArgs sort w init step nrun none none kw = (w', .ok (s', st))) :
    (∃ ts, kw.dataTable = some ts ∧ validateDataTable sort ts kw.dataSed = .ok s'.data) ∧
    kw.model = some s'.model ∧ s'.sampler.chain.length = nrun ∧
    ∃ burn, burn.length = kw.nburn ∧ IsRun (step s'.data s'.model) kw.walkers burn ∧
      IsRun (step s'.data s'.model) (burn.getLastD kw.walkers) s'.sampler.chain ∧
      s'.sampler.chain.getLastD (burn.getLastD kw.walkers) = st := by
  unfold runSamplerArgs at h
  simp only at h
  cases hq : requiredArgs sort kw.dataTable kw.dataSed kw.model with
  | error e => rw [hq] at h; simp at h
  | ok q =>
    obtain ⟨d, m⟩ := q
    rw [hq] at h
    simp only at h
    cases hm : makeSampler w (init d m) (step d m) kw.threads kw.nburn kw.walkers with
    | mk w1 r =>
      rw [hm] at h
      cases r with
      | error e => simp at h
      | ok p =>
        obtain ⟨s1, p1⟩ := p
        simp only at h
        cases hr : runOn w1 (init d m) (step d m) nrun s1 p1 with
        | mk w2 r2 =>
          rw [hr] at h
          cases r2 with
          | error e => simp at h
          | ok p2 =>
            obtain ⟨s2, st2⟩ := p2
            simp only [Prod.mk.injEq, Except.ok.injEq] at h
            obtain ⟨rfl, rfl, rfl⟩ := h
            obtain ⟨-, -, -, -, burn, b1, b2, b3⟩ := makeSampler_ok w w1 _ _ _ _ _ _ _ hm
            obtain ⟨-, -, a3, a4, a5, -⟩ := runOn_ok w1 w2 _ _ nrun s1 s2 p1 st2 hr
            unfold requiredArgs at hq
            cases hd : kw.dataTable with
            | none => rw [hd] at hq; simp at hq
            | some ts =>
              rw [hd] at hq
              simp only at hq
              cases hv : validateDataTable sort ts kw.dataSed with
              | error e => rw [hv] at hq; simp at hq
              | ok v =>
                rw [hv] at hq
                simp only at hq
                cases hmm : kw.model with
                | none => rw [hmm] at hq; simp at hq
                | some m' =>
                  rw [hmm] at hq
                  simp only [Except.ok.injEq, Prod.mk.injEq] at hq
                  obtain ⟨rfl, rfl⟩ := hq
                  refine ⟨⟨ts, rfl, hv⟩, rfl, a3, burn, b1, b2, ?_, ?_⟩
                  · rw [b3]; exact a4
                  · rw [b3]; exact a5

/-- **C111 (required arguments).** A fit without data table or without model function is refused with a
TypeError (an invalid table with the exception of its validation) before a worker pool is made. -/
theorem C111_required (sort : List Row → List Row) (w : World)
    (init : VTable → M → S → Except PyErr Unit) (step : VTable → M → S → Except PyErr S) (nrun : Nat)
    (kw : RunKw M S) :
    (kw.dataTable = none → runSamplerArgs sort w init step nrun none none kw = (w, .error .typeError)) ∧
    (∀ ts e, kw.dataTable = some ts → validateDataTable sort ts kw.dataSed = .error e →
      runSamplerArgs sort w init step nrun none none kw = (w, .error e)) ∧
    (∀ ts v, kw.dataTable = some ts → validateDataTable sort ts kw.dataSed = .ok v → kw.model = none →
      runSamplerArgs sort w init step nrun none none kw = (w, .error .typeError)) := by
  refine ⟨?_, ?_, ?_⟩
  · intro h; simp only [runSamplerArgs, requiredArgs, h]
  · intro ts e h hv; simp only [runSamplerArgs, requiredArgs, h, hv]
  · intro ts v h hv hm; simp only [runSamplerArgs, requiredArgs, h, hv, hm]

/-- **C111 is false of the code when only one of the two is given**: a sampler given without a position, or
a position without a sampler, is ignored altogether (the documentation presents both as independent
options); `run_sampler(sampler=s)`, the natural way to run a sampler, asks for a data table. -/
theorem C111_false_half_given (sort : List Row → List Row) (w : World)
    (init : VTable → M → S → Except PyErr Unit) (step : VTable → M → S → Except PyErr S) (nrun : Nat)
    (s : LiveSampler M S) (pos : S) (kw : RunKw M S) :
    runSamplerArgs sort w init step nrun (some s) none kw =
      runSamplerArgs sort w init step nrun none none kw ∧
    runSamplerArgs sort w init step nrun none (some pos) kw =
      runSamplerArgs sort w init step nrun none none kw ∧
    runSamplerArgs sort w init step nrun (some s) none (RunKw.empty pos) = (w, .error .typeError) :=
  ⟨rfl, rfl, rfl⟩

/-! ### The interactive fitter -/

/-- **C111 (settings, partial).** If the fitter is closed normally, or matplotlib is missing, matplotlib's
`interactive` setting afterwards is what it was; the sampling starts from the parameters of the window,
with its flag, and from `p0` if there was no window.
Missing: the fitter raises (`C111_false_settings`). -/
theorem C111_settings_partial {P : Type} (rc imports ml : Bool) (p p0 : P) (fit : FitterEnd P) :
    interactiveBlock rc true (.closed p ml) p0 = (rc, .ok (p, ml)) ∧
    interactiveBlock rc false fit p0 = (rc, .ok (p0, false)) ∧
    ∀ p' ml', (interactiveBlock rc imports fit p0).2 = .ok (p', ml') → ml' = true →
      fit = .closed p' true := by
  refine ⟨rfl, rfl, ?_⟩
  intro p' ml' h hml
  subst hml
  unfold interactiveBlock at h
  cases imports with
  | false => simp at h
  | true =>
    cases fit with
    | closed q m =>
      simp only [if_true, Except.ok.injEq, Prod.mk.injEq] at h
      rw [h.1, h.2]
    | importError => simp at h
    | raised e => simp at h

/-- **C111 is false of the code for the settings when the fitter fails**: whenever the fitter raises (for
example because the user's model does), interactive mode stays switched off for the rest of the session. -/
theorem C111_false_settings {P : Type} (p0 : P) :
    (∀ e, interactiveBlock true true (.raised e) p0 = (false, .error e)) ∧
    interactiveBlock true true .importError p0 = (false, .ok (p0, false)) := ⟨fun _ => rfl, rfl⟩

/-! ### Hypotheses are met -/

/-- A new fit of the table of C110, continued: the states count up. -/
example (sort : List Row → List Row) (w : World) : ∃ w' s' st,
    runSamplerArgs sort w (fun _ _ _ => .ok ()) (fun _ (m n : ℕ) => .ok (m + n)) 2 none none
      ⟨some [exPlotIn], some 3, none, 1, 1, 10⟩ = (w', .ok (s', st)) ∧ st = 19 ∧
      s'.sampler.chain = [16, 19] ∧
    ∃ w'' s'' st', runSamplerArgs sort w' (fun _ _ _ => .ok ()) (fun _ (m n : ℕ) => .ok (m + n)) 1 (some s')
      (some st) (RunKw.empty 0) = (w'', .ok (s'', st')) ∧ st' = 22 ∧ s''.sampler.chain = [22] := by
  obtain ⟨v, hv⟩ := exPlotIn_ok sort
  have e : runSamplerArgs sort w (fun _ _ _ => .ok ()) (fun _ (m n : ℕ) => .ok (m + n)) 2 none none
      ⟨some [exPlotIn], some 3, none, 1, 1, 10⟩ =
      (w, .ok (⟨⟨none, none, [16, 19], some 2⟩, v, 3⟩, 19)) := by
    simp only [runSamplerArgs, requiredArgs, hv]
    rfl
  exact ⟨_, _, _, e, rfl, rfl, _, _, _, rfl, rfl, rfl⟩

end Naima.Props
