import Verif.Model.Distribution
import Verif.Model.Diagnostics

/-!
# `plot_corner` (src/naima/plot.py:1393-1439)

Modelled: what `plot_corner` hands to the `corner` package, with which line width, and what it leaves behind.
The package's own drawing is a parameter. Not modelled: the warning; an ImportError raised by anything but the
import of the package itself.
-/

namespace Naima

open XR

/-- Values of the options of `corner.corner`. -/
inductive CornerVal
  | labels (l : List Label)
  | truths (p : Option (List ℝ))
  | quantiles (q : List ℚ)
  | flag (b : Bool)
  | color (rgb : ℚ × ℚ × ℚ)
  | other (n : ℕ)

/-- The attributes of a sampler that `plot_corner` reads: `get_log_prob()`, `get_chain()` (of `npar` parameters),
`get_blobs()`, `data["energy"]`, `modelfn` and `labels`, the last two `none` if the sampler has no such attribute
(as one that was not made by naima). -/
structure CornerRun where
  lnprob : List (List XR)
  chain : List (List (List ℝ))
  blobs : Option (List (List (List MBlob)))
  npar : ℕ
  energy : BQty
  modelfn : Option (List ℝ → Except PyErr FitOut)
  labels : Option (List Label)

/-- The drawing function of the package: the line width in force, the samples, the options. -/
abbrev CornerFn (F : Type) := ℚ → List (List ℝ) → Dict String CornerVal → Except PyErr F

/-- `color_cycle[0]` (plot.py:16-17) -/
def cornerColor : ℚ × ℚ × ℚ := (2980392156862745 / 10 ^ 16, 4470588235294118 / 10 ^ 16, 6901960784313725 / 10 ^ 16)

/-- plot.py:1421-1429: the options, of which the keywords of the call replace those of the same name. -/
def cornerOpts (labels : List Label) (mlp : Option (List ℝ)) (kwargs : Dict String CornerVal) : Dict String CornerVal :=
  kwargs.foldl (fun d kv => d.set kv.1 kv.2)
    [("labels", .labels labels), ("truths", .truths mlp), ("quantiles", .quantiles [16 / 100, 1 / 2, 84 / 100]),
      ("verbose", .flag false), ("truth_color", .color cornerColor)]

/-- plot.py:1416-1419: the point to mark. -/
noncomputable def cornerTruths (r : CornerRun) (showML : Bool) : Except PyErr (Option (List ℝ)) :=
  if showML then
    match findMLAll r.lnprob r.chain r.blobs r.npar r.energy r.modelfn (some 0) with
    | .error e => .error e
    | .ok (_, p, _) => .ok (some p)
  else .ok none

/-- plot.py:1413-1431: what happens inside the `try` once the package (`some c` if installed) is imported; the
result is `none` if it is missing. -/
noncomputable def cornerTry {F : Type} (pkg : Option (CornerFn F)) (r : CornerRun) (showML : Bool)
    (kwargs : Dict String CornerVal) (lw : ℚ) : Except PyErr (Option F) :=
  match pkg with
  | none => .ok none
  | some c =>
    match cornerTruths r showML with
    | .error e => .error e
    | .ok mlp =>
      match r.labels with
      | none => .error .attributeError
      | some ls =>
        match c lw r.chain.flatten (cornerOpts ls mlp kwargs) with
        | .error e => .error e
        | .ok f => .ok (some f)

/-- plot.py:1393-1439 `plot_corner`: `lw` is `rcParams["lines.linewidth"]`; the result is the value it has
afterwards and the outcome of the call. -/
noncomputable def plotCornerRun {F : Type} (pkg : Option (CornerFn F)) (r : CornerRun) (showML : Bool)
    (kwargs : Dict String CornerVal) (lw : ℚ) : ℚ × Except PyErr (Option F) :=
  match cornerTry pkg r showML kwargs (7 / 10) with
  | .error e => (7 / 10, .error e)
  | .ok f => (lw, .ok f)

/-- A session of calls (after a call that raises the session goes on, as at a prompt): the line width
after them and the outcomes. -/
noncomputable def cornerSession {F : Type} : List (Option (CornerFn F) × CornerRun × Bool × Dict String CornerVal) → ℚ →
    ℚ × List (Except PyErr (Option F))
  | [], lw => (lw, [])
  | (c, r, s, k) :: rest, lw =>
    let o := plotCornerRun c r s k lw
    let t := cornerSession rest o.1
    (t.1, o.2 :: t.2)

end Naima
