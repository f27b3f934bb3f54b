import Verif.Model.NelderMead
import Verif.Model.Guess
import Mathlib.Data.List.Infix

/-! # `InteractiveModelFitter`: parameters, sliders and the maximum-likelihood flag
(`naima/model_fitter.py:57-272`)

Drawing is not modelled.  `matplotlib` is trusted for this: a `Slider` created with limits and an
initial value holds the value brought within the limits (`_value_in_bounds`), `set_val` stores any
value unchanged and then calls the observers, and an exception in a callback leaves the object as it
is at that point. -/

namespace Naima

open Classical

noncomputable section

/-- `s in label` -/
def inLabel (s : List Char) (label : Label) : Bool := decide (s <:+: label)

/-- model_fitter.py:187-202: slider limits from the label and the initial value. -/
def sliderRange (label : Label) (valinit : ℝ) : ℝ × ℝ :=
  let isNorm := inLabel ['n', 'o', 'r', 'm'] label || inLabel ['a', 'm', 'p', 'l', 'i', 't', 'u', 'd', 'e'] label
  if inLabel ['l', 'o', 'g'] label then
    let span : ℝ := if isNorm then 2 * 2 else 2
    (valinit - span, valinit + span)
  else if inLabel ['i', 'n', 'd', 'e', 'x'] label || inLabel ['a', 'l', 'p', 'h', 'a'] label then
    if 0 < valinit then (0, 5) else (-5, 0)
  else if isNorm then (valinit / 100, valinit * 100)
  else (valinit / 10, valinit * 3)

/-- matplotlib `Slider._value_in_bounds` (closed limits). -/
def valueInBounds (lim : ℝ × ℝ) (v : ℝ) : ℝ :=
  if v ≤ lim.1 then lim.1 else if lim.2 ≤ v then lim.2 else v

/-- The state of the fitter that matters after the window closes. -/
structure Fitter where
  pars : List ℝ
  sliders : List ℝ
  flag : Bool
  auto : Bool

/-- model_fitter.py:71-213 `__init__`: one slider per parameter (labels are at least as many). -/
def fitterInit (labels : List Label) (p0 : List ℝ) (auto : Bool) : Fitter where
  pars := p0
  sliders := List.zipWith (fun l v => valueInBounds (sliderRange l v) v) labels p0
  flag := false
  auto := auto

/-- model_fitter.py:239-256 `update`, up to and including the assignment of `pars`; what follows only
draws, or raises. -/
def fitterUpdate (s : Fitter) : Fitter := { s with flag := false, pars := s.sliders }

/-- model_fitter.py:235-237 `update_if_auto` -/
def fitterUpdateIfAuto (s : Fitter) : Fitter := if s.auto then fitterUpdate s else s

/-- model_fitter.py:264-265: `for slider, val in zip(self.parsliders, self.pars): slider.set_val(val)`.
The observer does nothing, automatic updating having been switched off. -/
def setSliders (sliders vals : List ℝ) : List ℝ :=
  (vals.take sliders.length) ++ sliders.drop vals.length

/-- model_fitter.py:258-268 `do_fit`.  `fit` is `_prefit(pars, data, modelfn, None)`, which may raise;
`raises` says whether evaluating and drawing the model in `update` raises. -/
def fitterDoFit (fit : List ℝ → Except PyErr (List ℝ × Bool)) (raises : List ℝ → Bool) (s : Fitter) :
    Fitter :=
  let s1 := { s with pars := s.sliders }
  match fit s1.pars with
  | .error _ => s1
  | .ok (p, ml) =>
    let s3 := { s1 with pars := p, auto := false }
    if ml then
      let s5 := fitterUpdate { s3 with sliders := setSliders s3.sliders p }
      if raises s5.pars then s5 else { s5 with auto := s.auto, flag := ml }
    else { s3 with auto := s.auto, flag := ml }

/-- What the user can do. -/
inductive FitterEvent
  /-- drag slider `i` to value `v` -/
  | move (i : Nat) (v : ℝ)
  /-- "Auto update" check box -/
  | toggle
  /-- "Update model" button -/
  | update
  /-- "Do Nelder-Mead fit" button -/
  | fit

/-- One event.  (An exception in `update` changes nothing further.) -/
def fitterStep (fit : List ℝ → Except PyErr (List ℝ × Bool)) (raises : List ℝ → Bool) (s : Fitter) :
    FitterEvent → Fitter
  | .move i v => fitterUpdateIfAuto { s with sliders := s.sliders.set i v }
  | .toggle => { s with auto := !s.auto }
  | .update => fitterUpdate s
  | .fit => fitterDoFit fit raises s

/-- A history of events. -/
def fitterRun (fit : List ℝ → Except PyErr (List ℝ × Bool)) (raises : List ℝ → Bool) (s : Fitter)
    (evs : List FitterEvent) : Fitter := evs.foldl (fitterStep fit raises) s

end

end Naima
