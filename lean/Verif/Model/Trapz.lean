import Verif.Base.XR

/-!
# `naima.utils.trapz_loglog` (src/naima/utils.py:285-355)

The function integrates along one axis; every other axis is carried along element-wise, so the
model is the one-dimensional integral of a list of sample points `(x, y)` and callers map it over
the other axes.  Units factor out (`x_unit * y_unit`) and are handled by the callers' models.
-/

namespace Naima

open XR Classical

noncomputable section

/-- Local power-law index of one bin (utils.py:336). -/
def trapzIndex (x1 x2 y1 y2 : XR) : XR := log10 (y2 / y1) / log10 (x2 / x1)

/-- The `np.where` of utils.py:340-345, before masking. -/
def trapzRaw (x1 x2 y1 y2 : XR) : XR :=
  let b := trapzIndex x1 x2 y1 y2
  if fin 1e-10 < abs (b + fin 1) then
    (y1 * (x2 * pow (x2 / x1) b - x1)) / (b + fin 1)
  else
    x1 * y1 * log (x2 / x1)

/-- One bin with the mask of utils.py:347-348: zero if either sample is zero or the bin has no
width. -/
def trapzBin (x1 x2 y1 y2 : XR) : XR :=
  if eqv y1 (fin 0) ∨ eqv y2 (fin 0) ∨ eqv x1 x2 then fin 0 else trapzRaw x1 x2 y1 y2

/-- `trapz_loglog(y, x, intervals=True)` (utils.py:350-351): contributions of consecutive bins. -/
def trapzIntervals : List (XR × XR) → List XR
  | p :: q :: rest => trapzBin p.1 q.1 p.2 q.2 :: trapzIntervals (q :: rest)
  | _ => []

/-- `trapz_loglog(y, x)` (utils.py:353): sum of all bins. -/
def trapzLL (pts : List (XR × XR)) : XR := XR.sum (trapzIntervals pts)

/-- The same with abscissae and ordinates given as separate equally long arrays, as in the code. -/
def trapz (y x : List XR) : XR := trapzLL (x.zip y)

end

end Naima
