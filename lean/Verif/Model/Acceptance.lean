import Verif.Model.Sampler
import Verif.Model.LnProb
import Verif.Model.GetSampler
import Verif.Model.Results

/-! # What the sampler does with the log-probability
(`naima/core.py:97-160, 446-538` with the acceptance rule of emcee)

`emcee` is trusted to do the following (`emcee/moves/red_blue.py`, `emcee/ensemble.py`). The
log-probability of every walker of the first ensemble is evaluated before the first step. A step treats
some of the walkers, then the others; to each walker treated a position is proposed, the log-probability
of all proposals is evaluated, and a proposal is accepted if and only if
`factor + new_log_prob - old_log_prob > log(u)` for a random number `0 <= u < 1` (a comparison with NaN is
false).  A log-probability that is NaN raises ValueError.  How the positions, the factors and the random
numbers are chosen is left open. -/

namespace Naima

open XR Classical

noncomputable section

/-- A walker: its position and the log-probability emcee remembers for it. -/
structure Walker where
  coords : List ℝ
  logp : XR

/-- The random choices of one half of a step, for each walker number: whether it is treated, what is
proposed, the factor of the proposal and the logarithm of the random number (`-inf` for 0). -/
structure HalfDraw where
  treated : Nat → Bool
  proposal : Nat → List ℝ
  factor : Nat → ℝ
  lnu : Nat → XR

/-- emcee's evaluation of the log-probability (`lnprob`, core.py:97-121, as a function of the position):
ValueError if it is NaN. -/
def evalLogp (post : List ℝ → Except PyErr XR) (q : List ℝ) : Except PyErr XR :=
  match post q with
  | .error e => .error e
  | .ok x => if x = nan then .error .valueError else .ok x

/-- emcee's acceptance rule. -/
def accepts (f : ℝ) (new old lnu : XR) : Bool := decide (lnu < (fin f + new) - old)

/-- Walker number `i` after one half of a step. -/
def moveWalker (post : List ℝ → Except PyErr XR) (d : HalfDraw) (i : Nat) (w : Walker) :
    Except PyErr Walker :=
  if d.treated i then
    match evalLogp post (d.proposal i) with
    | .error e => .error e
    | .ok new => .ok (if accepts (d.factor i) new w.logp (d.lnu i) then ⟨d.proposal i, new⟩ else w)
  else .ok w

/-- One half of a step. -/
def halfMove (post : List ℝ → Except PyErr XR) (d : HalfDraw) : Nat → List Walker →
    Except PyErr (List Walker)
  | _, [] => .ok []
  | i, w :: ws =>
    match moveWalker post d i w with
    | .error e => .error e
    | .ok w' => (halfMove post d (i + 1) ws).map (w' :: ·)

/-- The random choices of a run: for step `k`, from the ensemble before each half. -/
abbrev StepDraws := Nat → List Walker → HalfDraw × (List Walker → HalfDraw)

/-- The state carried along: the walkers and the number of steps made (so that choices differ). -/
abbrev WalkerState := List Walker × Nat

/-- One step of the ensemble sampler (`sampler.sample`, core.py:131-133). -/
def ensembleStep (post : List ℝ → Except PyErr XR) (draws : StepDraws) (s : WalkerState) :
    Except PyErr WalkerState :=
  match halfMove post (draws s.2 s.1).1 0 s.1 with
  | .error e => .error e
  | .ok mid =>
    match halfMove post ((draws s.2 s.1).2 mid) 0 mid with
    | .error e => .error e
    | .ok ws => .ok (ws, s.2 + 1)

/-- The evaluation of the first ensemble: an exception of the log-probability, or ValueError for NaN. -/
def ensembleInit (post : List ℝ → Except PyErr XR) (s : WalkerState) : Except PyErr Unit :=
  match s.1.mapM (fun w => evalLogp post w.coords) with
  | .error e => .error e
  | .ok _ => .ok ()

/-- The first ensemble of walkers at given positions (core.py:478-481, 486); a log-probability that
cannot be evaluated stops the run in `ensembleInit`. -/
def startEnsemble (post : List ℝ → Except PyErr XR) (pos : List (List ℝ)) : WalkerState :=
  (pos.map (fun q => ⟨q, match evalLogp post q with | .ok x => x | .error _ => nan⟩), 0)

/-- core.py:496-538 `run_sampler(nrun, ...)` making its own sampler with walkers at `pos`. -/
def runFrom (post : List ℝ → Except PyErr XR) (draws : StepDraws) (nrun threads nburn : Nat)
    (pos : List (List ℝ)) : Except PyErr (Sampler WalkerState × WalkerState) :=
  (runSampler ⟨[], 0⟩ (ensembleInit post) (ensembleStep post draws) nrun none threads nburn
    (startEnsemble post pos)).2

/-- `sampler.get_chain()`, `[step][walker][parameter]`. -/
def chainCoords (s : Sampler WalkerState) : List (List (List ℝ)) :=
  s.chain.map (fun e => e.1.map Walker.coords)

/-- `sampler.get_log_prob()`, `[step][walker]`. -/
def chainLogp (s : Sampler WalkerState) : List (List XR) := s.chain.map (fun e => e.1.map Walker.logp)

/-- `lnprob` (core.py:97-121) as emcee sees it: the log-probability of a position, without the blobs.-/
def posterior {β : Type} (data : VTable) (modelfunc : List XR → VTable → Except PyErr (ModelOut β))
    (prior : Option (List XR → Except PyErr XR)) (q : List ℝ) : Except PyErr XR :=
  (lnprob (q.map fin) data modelfunc prior).map Prod.fst

/-- The prior function of the documentation: a sum of `uniform_prior(pars[i], lo_i, hi_i)`
(core.py:34-39), over the parameters for which limits are given. -/
def boxPrior (box : List (XR × XR)) (pars : List XR) : Except PyErr XR :=
  .ok ((List.zipWith (fun p b => uniformPrior p b.1 b.2) pars box).foldl (· + ·) (fin 0))

end

end Naima
