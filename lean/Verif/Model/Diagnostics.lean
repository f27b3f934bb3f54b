import Verif.Model.Results

/-!
# `save_diagnostic_plots` and `plot_corner` (src/naima/analysis.py:29-162, src/naima/plot.py:1393-1439)

What is modelled is which figure ends up in which file or page, the settings of matplotlib the functions
change, and what becomes of the caller's list of labels. Drawing itself is a parameter (`Draw`): each
drawing either succeeds or raises. Closing of figures and log messages are not modelled.
-/

namespace Naima

/-- A figure, identified by what it shows. -/
inductive Fig
  | chain (par : ℕ)
  | corner
  | blob (idx : ℕ) (sed : Bool) (label : Label)
  deriving DecidableEq

/-- What the functions change outside: `plt.rcParams` entries, the files written, the pages of the pdf. -/
structure PlotWorld where
  /-- `rcParams["interactive"]` -/
  interactive : Bool
  /-- `rcParams["lines.linewidth"]` -/
  linewidth : ℚ
  /-- `rcParams["pdf.fonttype"]` -/
  fonttype : ℕ
  /-- files by name -/
  files : Dict Label Fig
  /-- pages of `outname_plots.pdf` -/
  pages : List Fig
  /-- whether a `PdfPages` is open and not yet closed -/
  pdfOpen : Bool

/-- The outcome of the drawing functions, including `savefig`. `corner`: `none` stands for the missing
package (plot.py:1433-1435). -/
structure Draw where
  chain : ℕ → Except PyErr Unit
  corner : Except PyErr (Option Unit)
  blob : ℕ → Bool → Label → Except PyErr Unit

/-- `f.savefig(...)` into the pdf or a file of its own (analysis.py:94-99, 113-116, 149-152). -/
def PlotWorld.save (w : PlotWorld) (pdf : Bool) (name : Label) (f : Fig) : PlotWorld :=
  if pdf then { w with pages := w.pages ++ [f] } else { w with files := w.files.set name f }

/-- analysis.py:97-99: the name of the file with the chain of a parameter. -/
def chainFile (out label : Label) : Label :=
  out ++ "_chain_".toList ++ (if isLogLabel label then labelInner label else label) ++ ".png".toList

/-- analysis.py:116 -/
def cornerFile (out : Label) : Label := out ++ "_corner.png".toList

/-- analysis.py:152 -/
def modelFile (out : Label) (idx : ℕ) : Label := out ++ "_model".toList ++ (toString idx).toList ++ ".png".toList

/-- The loop over the parameters (analysis.py:90-105): exceptions are caught. -/
def chainLoop (D : Draw) (pdf : Bool) (out : Label) : List (ℕ × Label) → PlotWorld → PlotWorld
  | [], w => w
  | (p, l) :: rest, w =>
    chainLoop D pdf out rest (match D.chain p with
      | .ok _ => w.save pdf (chainFile out l) (.chain p)
      | .error _ => w)

/-- `plot_corner` (plot.py:1410-1439): the line width is set, and reset unless drawing raises something
other than ImportError. -/
def plotCorner (D : Draw) (w : PlotWorld) : PlotWorld × Except PyErr (Option Unit) :=
  match D.corner with
  | .ok r => (w, .ok r)
  | .error e => ({ w with linewidth := 7 / 10 }, .error e)

/-- The loop over the models (analysis.py:138-156): exceptions are caught. -/
def blobLoop (D : Draw) (pdf : Bool) (out : Label) : List (ℕ × Bool × Label) → PlotWorld → PlotWorld
  | [], w => w
  | (i, s, l) :: rest, w =>
    blobLoop D pdf out rest (match D.blob i s l with
      | .ok _ => w.save pdf (modelFile out i) (.blob i s l)
      | .error _ => w)

/-- The argument `blob_labels`. -/
inductive BlobLabels
  | none
  | str (s : Label)
  | list (ls : List Label)

/-- `"Model output {0}".format(idx)` -/
def defaultLabel (idx : ℕ) : Label := "Model output ".toList ++ (toString idx).toList

/-- analysis.py:129-136: the labels used; `+=` extends the caller's list, and raises for a string. The
iteration over a string yields its characters. -/
def blobLabelsOf (models : List ℕ) : BlobLabels → Except PyErr (List Label)
  | .none => .ok (models.map defaultLabel)
  | .str s =>
    if models.length = 1 then .ok [s]
    else if s.length < models.length then .error .typeError
    else .ok (s.map (fun c => [c]))
  | .list ls =>
    if ls.length < models.length then .ok (ls ++ (models.drop ls.length).map defaultLabel) else .ok ls

/-- What the caller's object is afterwards (analysis.py:133-136). -/
def blobLabelsAfter (models : List ℕ) : BlobLabels → BlobLabels
  | .list ls =>
    if ls.length < models.length then .list (ls ++ (models.drop ls.length).map defaultLabel) else .list ls
  | b => b

/-- The argument `sed`: one flag or one for each model. -/
inductive SedArg
  | all (b : Bool)
  | each (bs : List Bool)

/-- analysis.py:126-127 -/
def sedOfArg (models : List ℕ) : SedArg → List Bool
  | .all b => models.map (fun _ => b)
  | .each bs => bs

/-- `save_diagnostic_plots(outname, sampler, modelidxs, pdf, sed, blob_labels)` (analysis.py:29-162):
the state afterwards and the outcome. `npars`: number of parameters of the chain, `nblobs`: length of the
blob of the first walker at the last step. -/
def saveDiagnosticPlots (D : Draw) (out : Label) (labels : List Label) (npars nblobs : ℕ)
    (modelidxs : Option (List ℕ)) (pdf : Bool) (sed : SedArg) (bl : BlobLabels) (w : PlotWorld) :
    PlotWorld × Except PyErr Unit :=
  let old := w.interactive
  let w := { w with interactive := false }
  let w := if pdf then { w with fonttype := 42, pages := [], pdfOpen := true } else w
  let w := chainLoop D pdf out ((List.range npars).zip labels) w
  match plotCorner D w with
  | (w, .error e) => (w, .error e)
  | (w, .ok r) =>
    let w := match r with
      | some _ => w.save pdf (cornerFile out) .corner
      | none => w
    let models := modelidxs.getD (List.range nblobs)
    match blobLabelsOf models bl with
    | .error e => (w, .error e)
    | .ok ls =>
      let w := blobLoop D pdf out (models.zip ((sedOfArg models sed).zip ls)) w
      let w := if pdf then { w with pdfOpen := false } else w
      ({ w with interactive := old }, .ok ())

end Naima
