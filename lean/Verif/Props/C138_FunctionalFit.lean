import Verif.Model.FunctionalFit
import Verif.Props.C135_Fit

/-!
# C138: the documented functional fits
-/

namespace Naima.Props

open Naima XR Classical Naima.Spec

noncomputable section

/-- The curve of the first example at `x` TeV, in the unit of the data. -/
def ecplCurve (A alpha p2 x : ℝ) : ℝ := A * x ^ (-alpha) * Real.exp (-(x / 10 ^ p2))

/-- The curve of the second example at `x` TeV, in the unit of the data. -/
def lpCurve (A alpha beta x : ℝ) : ℝ := A * x ^ (-alpha - beta * Real.log x)

/-- The curve at the energies of the table, as the table keeps its fluxes (in cgs; energies in erg). -/
def curveAt (f : ℝ → ℝ) (data : VTable) : List ℝ :=
  data.rows.map (fun r => f (r.energy / PhysUnit.TeV.scale) * data.fluxU.scale)

/-- What the sampler is told: within the prior minus half the sum of the squared normalised deviations of the data from the
curve, minus infinity elsewhere; the spectrum is saved in both cases. -/
def Told (A alpha : ℝ) (f : ℝ → ℝ) (data : VTable) : Except PyErr (XR × List (Blob Unit)) :=
  .ok (if 0 ≤ A ∧ -1 ≤ alpha ∧ alpha ≤ 5 then fin (gaussLnL (curveAt f data) data.rows) else ninf,
    [.spec ⟨(curveAt f data).map fin, data.fluxU⟩, .nan])

theorem functional_prior (A alpha : ℝ) (rest : List ℝ) :
    functionalPrior (A :: alpha :: rest) = .ok (if 0 ≤ A ∧ -1 ≤ alpha ∧ alpha ≤ 5 then fin 0 else ninf) := by
  simp only [functionalPrior, uniform_real, le_pinf', and_true, XR.le_fin]
  congr 1
  by_cases h1 : 0 ≤ A <;> by_cases h2 : -1 ≤ alpha ∧ alpha ≤ 5 <;>
    simp only [h1, h2, true_and, and_true, false_and, and_false, if_true, if_false] <;>
    first
      | rfl
      | (simp only [XR.add_fin]; norm_num)

theorem functional_spectrum (call : Qty XR → Except PyErr XR) (f : ℝ → ℝ) (data : VTable) (hd : GoodData data)
    (h : ∀ q : Qty ℝ, q.PosEnergy → call q.lift = .ok (fin (f (q.phys / PhysUnit.TeV.scale)))) :
    functionalSpectrum call data = .ok (.array ⟨(curveAt f data).map fin, data.fluxU⟩) := by
  have key : ∀ l : List Row, (∀ r ∈ l, 0 < r.energy) → l.mapM (fun r => call ⟨fin r.energy, PhysUnit.erg⟩) =
      .ok (l.map (fun r => fin (f (r.energy / PhysUnit.TeV.scale)))) := by
    intro l hl
    induction l with
    | nil => rfl
    | cons r l ih =>
      have hr := inErg r.energy (hl r (by simp))
      have e1 := h ⟨r.energy, PhysUnit.erg⟩ hr.1
      rw [hr.2] at e1
      have e2 : call ⟨fin r.energy, PhysUnit.erg⟩ = _ := e1
      rw [List.mapM_cons, e2, ih (fun s hs => hl s (by simp [hs]))]
      rfl
  simp only [functionalSpectrum, key data.rows hd.energy, bind, Except.bind, pure, Except.pure, curveAt, List.map_map]
  congr 3

theorem functional_told (A alpha : ℝ) (rest : List ℝ) (m : List ℝ → VTable → Except PyErr (ModelOut Unit)) (f : ℝ → ℝ)
    (data : VTable) (hd : GoodData data) (hul : ∀ r ∈ data.rows, r.ul = false)
    (hm : m (A :: alpha :: rest) data = .ok (.array ⟨(curveAt f data).map fin, data.fluxU⟩)) :
    lnprob (A :: alpha :: rest) data m (some functionalPrior) = Told A alpha f data := by
  have hll := C40_gaussian (curveAt f data) data.fluxU data hd (by simp [curveAt]) rfl hul
  unfold Told
  by_cases hp : 0 ≤ A ∧ -1 ≤ alpha ∧ alpha ≤ 5
  · simp only [lnprob, priorValue, functional_prior, hp, if_true, hm, splitOutput, totalLnprob, isInf, hll, bind, Except.bind,
      pure, Except.pure, Except.map, XR.add_fin, add_zero, Bool.false_eq_true, if_false, and_self]
  · simp only [lnprob, priorValue, functional_prior, hp, if_false, hm, splitOutput, totalLnprob, isInf, bind, Except.bind,
      pure, Except.pure, if_true]

/-- **C138 (power law with exponential cutoff).** For every parameter vector — also outside the prior, and with any sign of
the norm — and every validated table of measured fluxes, of whatever kind and unit, the sampler is told the value for the
curve `A x^(-alpha) exp(-x/10^p2)`, `x` the energy in TeV, in the unit of the data. -/
theorem C138_ecpl (A alpha p2 : ℝ) (rest : List ℝ) (data : VTable) (hd : GoodData data)
    (hul : ∀ r ∈ data.rows, r.ul = false) :
    ecplLnprob (A :: alpha :: p2 :: rest) data = Told A alpha (ecplCurve A alpha p2) data := by
  have hT : (0 : ℝ) < PhysUnit.TeV.scale := by norm_num [PhysUnit.TeV]
  refine functional_told A alpha (p2 :: rest) functionalECPL _ data hd hul ?_
  refine functional_spectrum _ _ data hd (fun q hq => ?_)
  have h := C22_exponential_cutoff_power_law A alpha 1 q ⟨1, PhysUnit.TeV⟩ ⟨10 ^ p2, PhysUnit.TeV⟩ hq
    ⟨rfl, hT, by norm_num⟩ ⟨rfl, hT, Real.rpow_pos_of_pos (by norm_num) _⟩
  refine Eq.trans h ?_
  congr 2
  unfold Spec.ecpl ecplCurve
  simp only [Qty.phys, one_mul, Real.rpow_one]
  rw [div_div, mul_comm PhysUnit.TeV.scale]

/-- **C138 (log-parabola).** The same for the curve `A x^(-alpha - beta log x)`. -/
theorem C138_lp (A alpha beta : ℝ) (rest : List ℝ) (data : VTable) (hd : GoodData data)
    (hul : ∀ r ∈ data.rows, r.ul = false) :
    lpLnprob (A :: alpha :: beta :: rest) data = Told A alpha (lpCurve A alpha beta) data := by
  have hT : (0 : ℝ) < PhysUnit.TeV.scale := by norm_num [PhysUnit.TeV]
  refine functional_told A alpha (beta :: rest) functionalLP _ data hd hul ?_
  refine functional_spectrum _ _ data hd (fun q hq => ?_)
  refine Eq.trans (C22_log_parabola A alpha beta q ⟨1, PhysUnit.TeV⟩ hq ⟨rfl, hT, by norm_num⟩) ?_
  congr 2
  unfold Spec.logParabola lpCurve
  simp only [Qty.phys, one_mul]

/-- **C138 (what the best fit is).** No parameter vector has a positive log-probability, and it is 0 exactly for the vectors
within the prior whose curve goes through every measured flux. -/
theorem C138_best (A alpha : ℝ) (f : ℝ → ℝ) (data : VTable) (hd : GoodData data) (l : XR) (b : List (Blob Unit))
    (h : Told A alpha f data = .ok (l, b)) :
    l ≤ fin 0 ∧ (l = fin 0 ↔ (0 ≤ A ∧ -1 ≤ alpha ∧ alpha ≤ 5) ∧
      ∀ r ∈ data.rows, f (r.energy / PhysUnit.TeV.scale) * data.fluxU.scale = r.flux) := by
  unfold Told at h
  have hl := (Prod.mk.inj (Except.ok.inj h)).1
  have hm := C40_max (curveAt f data) data.rows (by simp [curveAt]) hd.errLo hd.errHi
  have he : curveAt f data = data.rows.map (·.flux) ↔
      ∀ r ∈ data.rows, f (r.energy / PhysUnit.TeV.scale) * data.fluxU.scale = r.flux := by
    unfold curveAt
    exact List.map_inj_left
  by_cases hp : 0 ≤ A ∧ -1 ≤ alpha ∧ alpha ≤ 5
  · rw [if_pos hp] at hl
    subst hl
    rw [XR.le_fin]
    refine ⟨hm.1, ?_⟩
    rw [← he, ← hm.2]
    simp [hp]
  · rw [if_neg hp] at hl
    subst hl
    refine ⟨Or.inl trivial, ?_⟩
    constructor
    · intro h; cases h
    · intro h; exact absurd h.1 hp

/-- **C138 (too few parameters).** Fewer than three parameters raise IndexError. -/
theorem C138_errors (pars : List ℝ) (data : VTable) (h : pars.length < 3) :
    ecplLnprob pars data = .error .indexError ∧ lpLnprob pars data = .error .indexError := by
  match pars, h with
  | [], _ => exact ⟨rfl, rfl⟩
  | [_], _ => exact ⟨rfl, rfl⟩
  | [_, _], _ => exact ⟨rfl, rfl⟩
  | _ :: _ :: _ :: r, h => simp only [List.length_cons] at h; omega

/-! ### The hypotheses are met -/

/-- A starting point, within the prior, and a point outside it. -/
example : ∃ (data : VTable) (l : ℝ) (b b' : List (Blob Unit)), data.rows.length = 2 ∧
    ecplLnprob [1e-12, 2.4, 1.2] data = .ok (fin l, b) ∧ ecplLnprob [-1, 2.4, 1.2] data = .ok (ninf, b') := by
  have hg : GoodData (ulTable [normRow 2 1 1 1 false, normRow 5 1 2 2 false]) :=
    ⟨by simp [ulTable, normRow], by simp [ulTable, normRow], by simp [ulTable, normRow]⟩
  have h := C138_ecpl 1e-12 2.4 1.2 [] _ hg (by simp [ulTable, normRow])
  have h' := C138_ecpl (-1) 2.4 1.2 [] _ hg (by simp [ulTable, normRow])
  unfold Told at h h'
  rw [if_pos (by norm_num)] at h
  rw [if_neg (by norm_num)] at h'
  exact ⟨_, _, _, _, rfl, h, h'⟩

end

end Naima.Props
