import Verif.Model.Pion

/-!
# Which cross section a `PionDecay` object uses (src/naima/radiative.py:1484-1518)

The object's attributes can be changed at any time; every evaluation first selects `self.diffsigma`.
-/

namespace Naima

open XR Classical

/-- The strings of `hiEmodel` (radiative.py:1145-1147). -/
def HiE.name : HiE → String
  | .geant4 => "Geant4"
  | .pythia8 => "Pythia8"
  | .sibyll => "SIBYLL"
  | .qgsjet => "QGSJET"

/-- `LUT_fname` (radiative.py:1510-1513). -/
def lutName (nuc : Bool) (h : HiE) : String :=
  "PionDecayKafexhiu14_LUT_" ++ (if nuc then "NucEnh_" else "") ++ h.name ++ ".npz"

/-- What `self.diffsigma` refers to: a `LookupTable` (by the base name of its file) or the bound method
`self._diffsigma`. -/
inductive DiffSigma
  | table (fname : String)
  | full
  deriving DecidableEq

/-- The attributes involved; `diffsigma` does not exist before the first evaluation. -/
structure LUTState where
  useLUT : Bool
  nuc : Bool
  hiE : HiE
  diffsigma : Option DiffSigma

/-- After `PionDecay(...)` (radiative.py:1163-1173): keyword arguments override the defaults. -/
def LUTState.init (useLUT nuc : Bool) (hiE : HiE) : LUTState := ⟨useLUT, nuc, hiE, none⟩

/-- `_loadLUT` (radiative.py:1484-1493); `installed` says which files are in the package's data
directory. Simplification: a file that exists can be read. -/
def LUTState.load (installed : String → Bool) (s : LUTState) (fname : String) : LUTState :=
  if installed fname then { s with diffsigma := some (.table fname) }
  else { s with diffsigma := some .full, useLUT := false }

/-- The selection at the start of `_spectrum` (radiative.py:1508-1521). -/
def LUTState.select (installed : String → Bool) (s : LUTState) : LUTState :=
  if s.useLUT then
    match s.diffsigma with
    | some (.table f) =>
      if f ≠ lutName s.nuc s.hiE then s.load installed (lutName s.nuc s.hiE) else s
    | _ => s.load installed (lutName s.nuc s.hiE)   -- AttributeError
  else { s with diffsigma := some .full }

/-- What a user can do. -/
inductive LUTEvent
  | setUseLUT (b : Bool)
  | setNuc (b : Bool)
  | setHiE (h : HiE)
  | eval

/-- One event. -/
def LUTState.step (installed : String → Bool) (s : LUTState) : LUTEvent → LUTState
  | .setUseLUT b => { s with useLUT := b }
  | .setNuc b => { s with nuc := b }
  | .setHiE h => { s with hiE := h }
  | .eval => s.select installed

/-- A history. -/
def LUTState.run (installed : String → Bool) (s : LUTState) (evs : List LUTEvent) : LUTState :=
  evs.foldl (LUTState.step installed) s

/-- The cross section an evaluation uses now. -/
def LUTState.used (installed : String → Bool) (s : LUTState) : Option DiffSigma :=
  (s.select installed).diffsigma

noncomputable section

/-- `_spectrum` of an object in a given state (radiative.py:1495-1536); `files` are the readable tables,
with their interpolating function. The class table is returned as well. -/
def PionModel.eval (files : String → Option (ℝ → ℝ → XR)) (m : PionModel) (s : LUTState) (pd : PDist)
    (tbl : FTable) (es : List ℝ) : Except PyErr (FTable × List XR) :=
  let m := { m with nuc := s.nuc, hiE := s.hiE }
  match s.used (fun f => (files f).isSome) with
  | some (.table f) => (m.spectrumLUT pd ((files f).getD (fun _ _ => nan)) es).map (fun r => (tbl, r))
  | _ => m.spectrum pd tbl es

end

end Naima
