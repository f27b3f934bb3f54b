import Verif.Model.Sampler
import Verif.Model.DataTable

/-! # Which sampler `run_sampler` runs, what `get_sampler` requires, and the interactive fitter's settings
(`naima/core.py:337-343, 421-439, 496-538`) -/

namespace Naima

/-- The keyword arguments of `get_sampler` that matter here: `data_table` and `model` (`none` when not
given), `data_sed`, the number of threads and of burn-in steps, and the walkers drawn around `p0`. -/
structure RunKw (M S : Type) where
  dataTable : Option (List InTable)
  model : Option M
  dataSed : Option Bool
  threads : Nat
  nburn : Nat
  walkers : S

/-- `run_sampler(**{})`: no keyword arguments at all (threads and walkers are never reached). -/
def RunKw.empty {M S : Type} (walkers : S) : RunKw M S := ⟨none, none, none, 1, 100, walkers⟩

/-- core.py:337-343: the checks at the head of `get_sampler`. -/
noncomputable def requiredArgs {M : Type} (sort : List Row → List Row) (dataTable : Option (List InTable))
    (dataSed : Option Bool) (model : Option M) : Except PyErr (VTable × M) :=
  match dataTable with
  | none => .error .typeError
  | some ts =>
    match validateDataTable sort ts dataSed with
    | .error e => .error e
    | .ok v =>
      match model with
      | none => .error .typeError
      | some m => .ok (v, m)

/-- A sampler together with the data table and model function it evaluates. -/
structure LiveSampler (M S : Type) where
  sampler : Sampler S
  data : VTable
  model : M

/-- core.py:496-538 `run_sampler(nrun, sampler, pos, **kwargs)`. `init d m` and `step d m` are the
evaluations of emcee for the data `d` and model `m` (which may raise). What `get_sampler` does between
the checks and the creation of the sampler is modelled elsewhere (`Model/GetSampler.lean`) and enters as
`walkers`. -/
noncomputable def runSamplerArgs {M S : Type} (sort : List Row → List Row) (w : World)
    (init : VTable → M → S → Except PyErr Unit) (step : VTable → M → S → Except PyErr S) (nrun : Nat)
    (sampler : Option (LiveSampler M S)) (pos : Option S) (kw : RunKw M S) :
    World × Except PyErr (LiveSampler M S × S) :=
  let start : World × Except PyErr (LiveSampler M S × S) :=
    match sampler, pos with
    | some s, some p => (w, .ok (s, p))
    | _, _ =>
      match requiredArgs sort kw.dataTable kw.dataSed kw.model with
      | .error e => (w, .error e)
      | .ok (d, m) =>
        match makeSampler w (init d m) (step d m) kw.threads kw.nburn kw.walkers with
        | (w', .error e) => (w', .error e)
        | (w', .ok (s, p)) => (w', .ok (⟨s, d, m⟩, p))
  match start with
  | (w', .error e) => (w', .error e)
  | (w', .ok (s, p)) =>
    match runOn w' (init s.data s.model) (step s.data s.model) nrun s.sampler p with
    | (w'', .error e) => (w'', .error e)
    | (w'', .ok (s', st)) => (w'', .ok (⟨s', s.data, s.model⟩, st))

/-- How the interactive fitter ends: the window is closed and parameters are returned, with the flag that
they are a maximum; a module it needs is missing; another exception. -/
inductive FitterEnd (P : Type)
  | closed (pars : P) (isML : Bool)
  | importError
  | raised (e : PyErr)

/-- core.py:421-439: `rcParams["interactive"]` afterwards, and the parameters and flag or the exception.
`imports`: matplotlib and `naima.model_fitter` can be imported (otherwise ImportError before the setting
is touched). -/
def interactiveBlock {P : Type} (rc : Bool) (imports : Bool) (fit : FitterEnd P) (p0 : P) :
    Bool × Except PyErr (P × Bool) :=
  if imports then
    match fit with
    | .closed p ml => (rc, .ok (p, ml))
    | .importError => (false, .ok (p0, false))
    | .raised e => (false, .error e)
  else (rc, .ok (p0, false))

end Naima
