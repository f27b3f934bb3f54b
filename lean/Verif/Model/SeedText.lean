import Verif.Model.Memo
import Verif.Model.ICKernel

/-!
# The photon fields in the cache key (src/naima/model_utils.py:52-55, radiative.py:429, 461-545)

`param_names` of an InverseCompton object contains `seed_photon_fields`, so the text `str()` gives that dictionary is
part of the cache key.  The text of a dictionary contains the `repr` of its values; the `repr` of an array Quantity is
`<Quantity [..] unit>` with the numbers written by `numpy.array2string` under numpy's default print options.
-/

namespace Naima

/-- The numbers of an array as written by `numpy.array2string`.  `fmt` chooses one common format for the numbers it is
given and writes each of them (numpy, not modelled further).  Arrays of more than 1000 numbers (`threshold`) are
summarised: only the first and the last three (`edgeitems`) are looked at and written. -/
def arrayText (fmt : List ℝ → List PyStr) (l : List ℝ) : PyStr :=
  if l.length ≤ 1000 then
    '[' :: (List.intercalate ", ".toList (fmt l)) ++ "]".toList
  else
    let edges := fmt (l.take 3 ++ l.drop (l.length - 3))
    '[' :: (List.intercalate ", ".toList (edges.take 3 ++ "...".toList :: edges.drop 3)) ++ "]".toList

/-- `repr` of an array Quantity. -/
def quantityText (fmt : List ℝ → List PyStr) (l : List ℝ) (unit : PyStr) : PyStr :=
  "<Quantity ".toList ++ arrayText fmt l ++ ' ' :: unit ++ ">".toList

/-- `str` of the dictionary of photon fields in which one tabulated field (radiative.py:500-537) follows the text `before` and
precedes the text `after` (other fields, brackets and names). -/
def seedText (fmt : List ℝ → List PyStr) (before after unitE unitN : PyStr) (table : List (ℝ × ℝ)) : PyStr :=
  before ++ "{'isotropic': True, 'type': 'array', 'energy': ".toList ++ quantityText fmt (table.map (·.1)) unitE ++
    ", 'photon_density': ".toList ++ quantityText fmt (table.map (·.2)) unitN ++ "}".toList ++ after

/-- A flux request to an InverseCompton object holding that table: the text is the last of the object's parameters
(radiative.py:142, 429), the table what the result depends on. -/
def tableReq (fmt : List ℝ → List PyStr) (before after unitE unitN : PyStr) (r : FluxReq Unit) (table : List (ℝ × ℝ)) :
    FluxReq (List (ℝ × ℝ)) where
  energyBytes := r.energyBytes
  energyUnit := r.energyUnit
  distance := r.distance
  posArgs := r.posArgs
  modelParams := r.modelParams ++ [.dict (seedText fmt before after unitE unitN table)]
  distParams := r.distParams
  hidden := table

end Naima
