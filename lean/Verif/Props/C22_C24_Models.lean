import Verif.Model.Models
import Verif.Spec.Models
import Verif.Proof.Models
import Mathlib.Analysis.SpecialFunctions.Pow.Deriv
import Mathlib.Analysis.SpecialFunctions.Pow.Continuity

/-! # C22, C23, C24: analytic spectral models -/

namespace Naima.Props

open Naima XR Filter Topology

/-! ## C22: documented formula, any units -/

/-- **C22 (PowerLaw).** For positive energies in any energy units the result is the documented
formula of the ratio of the physical energies. -/
theorem C22_power_law (A α : ℝ) (e e0 : Qty ℝ) (he : e.PosEnergy) (h0 : e0.PosEnergy) :
    PowerLaw.call ⟨fin A, e0.lift, fin α⟩ e.lift
      = .ok (fin (Spec.powerLaw A α (e.phys / e0.phys))) :=
  pl_call A α e e0 he h0

/-- **C22 (ExponentialCutoffPowerLaw).** -/
theorem C22_exponential_cutoff_power_law (A α β : ℝ) (e e0 ec : Qty ℝ) (he : e.PosEnergy)
    (h0 : e0.PosEnergy) (hc : ec.PosEnergy) :
    ECPL.call ⟨fin A, e0.lift, fin α, ec.lift, fin β⟩ e.lift
      = .ok (fin (Spec.ecpl A α β (e.phys / e0.phys) (e.phys / ec.phys))) :=
  ecpl_call A α β e e0 ec he h0 hc

/-- **C22 (BrokenPowerLaw).** -/
theorem C22_broken_power_law (A α₁ α₂ : ℝ) (e e0 eb : Qty ℝ) (he : e.PosEnergy)
    (h0 : e0.PosEnergy) (hb : eb.PosEnergy) :
    BPL.call ⟨fin A, e0.lift, eb.lift, fin α₁, fin α₂⟩ e.lift
      = .ok (fin (Spec.bpl A α₁ α₂ (e.phys / e0.phys) (eb.phys / e0.phys))) :=
  bpl_call A α₁ α₂ e e0 eb he h0 hb

/-- **C22 (ExponentialCutoffBrokenPowerLaw).** -/
theorem C22_exponential_cutoff_broken_power_law (A α₁ α₂ β : ℝ) (e e0 eb ec : Qty ℝ)
    (he : e.PosEnergy) (h0 : e0.PosEnergy) (hb : eb.PosEnergy) (hc : ec.PosEnergy) :
    ECBPL.call ⟨fin A, e0.lift, eb.lift, fin α₁, fin α₂, ec.lift, fin β⟩ e.lift
      = .ok (fin (Spec.ecbpl A α₁ α₂ β (e.phys / e0.phys) (eb.phys / e0.phys)
          (e.phys / ec.phys))) :=
  ecbpl_call A α₁ α₂ β e e0 eb ec he h0 hb hc

/-- **C22 (LogParabola).** -/
theorem C22_log_parabola (A α β : ℝ) (e e0 : Qty ℝ) (he : e.PosEnergy) (h0 : e0.PosEnergy) :
    LogParabola.call ⟨fin A, e0.lift, fin α, fin β⟩ e.lift
      = .ok (fin (Spec.logParabola A α β (e.phys / e0.phys))) :=
  lp_call A α β e e0 he h0

/-- **C22 (units do not matter).** Expressing the energy and every energy parameter in other units
(the same physical energies) does not change the result of any of the five models. -/
theorem C22_unit_independent (A α₁ α₂ β : ℝ) (e e' e0 e0' eb eb' ec ec' : Qty ℝ)
    (he : e.PosEnergy) (he' : e'.PosEnergy) (h0 : e0.PosEnergy) (h0' : e0'.PosEnergy)
    (hb : eb.PosEnergy) (hb' : eb'.PosEnergy) (hc : ec.PosEnergy) (hc' : ec'.PosEnergy)
    (se : e.phys = e'.phys) (s0 : e0.phys = e0'.phys) (sb : eb.phys = eb'.phys)
    (sc : ec.phys = ec'.phys) :
    PowerLaw.call ⟨fin A, e0.lift, fin α₁⟩ e.lift = PowerLaw.call ⟨fin A, e0'.lift, fin α₁⟩ e'.lift ∧
    ECPL.call ⟨fin A, e0.lift, fin α₁, ec.lift, fin β⟩ e.lift
      = ECPL.call ⟨fin A, e0'.lift, fin α₁, ec'.lift, fin β⟩ e'.lift ∧
    BPL.call ⟨fin A, e0.lift, eb.lift, fin α₁, fin α₂⟩ e.lift
      = BPL.call ⟨fin A, e0'.lift, eb'.lift, fin α₁, fin α₂⟩ e'.lift ∧
    ECBPL.call ⟨fin A, e0.lift, eb.lift, fin α₁, fin α₂, ec.lift, fin β⟩ e.lift
      = ECBPL.call ⟨fin A, e0'.lift, eb'.lift, fin α₁, fin α₂, ec'.lift, fin β⟩ e'.lift ∧
    LogParabola.call ⟨fin A, e0.lift, fin α₁, fin β⟩ e.lift
      = LogParabola.call ⟨fin A, e0'.lift, fin α₁, fin β⟩ e'.lift := by
  refine ⟨?_, ?_, ?_, ?_, ?_⟩
  · rw [pl_call _ _ _ _ he h0, pl_call _ _ _ _ he' h0', se, s0]
  · rw [ecpl_call _ _ _ _ _ _ he h0 hc, ecpl_call _ _ _ _ _ _ he' h0' hc', se, s0, sc]
  · rw [bpl_call _ _ _ _ _ _ he h0 hb, bpl_call _ _ _ _ _ _ he' h0' hb', se, s0, sb]
  · rw [ecbpl_call _ _ _ _ _ _ _ _ he h0 hb hc, ecbpl_call _ _ _ _ _ _ _ _ he' h0' hb' hc', se, s0,
      sb, sc]
  · rw [lp_call _ _ _ _ _ he h0, lp_call _ _ _ _ _ he' h0', se, s0]

/-- **C22 (wrong units).** An argument that is not an energy raises TypeError. -/
theorem C22_not_an_energy (m : PowerLaw) (m2 : ECPL) (m3 : BPL) (m4 : ECBPL) (m5 : LogParabola)
    (e : Qty XR) (h : e.unit.dim ≠ Dim.energy) :
    m.call e = .error .typeError ∧ m2.call e = .error .typeError ∧ m3.call e = .error .typeError ∧
    m4.call e = .error .typeError ∧ m5.call e = .error .typeError := by
  have hv : validateEneEV e = .error .typeError := by unfold validateEneEV; rw [if_neg h]
  refine ⟨?_, ?_, ?_, ?_, ?_⟩
  · unfold PowerLaw.call; rw [hv]; rfl
  · unfold ECPL.call; rw [hv]; rfl
  · unfold BPL.call; rw [hv]; rfl
  · unfold ECBPL.call; rw [hv]; rfl
  · unfold LogParabola.call; rw [hv]; rfl

/-- Non-vacuity of C22: 1 TeV and 1000 GeV are positive energies of the same size. -/
example : ∃ e e' : Qty ℝ, e.PosEnergy ∧ e'.PosEnergy ∧ e.phys = e'.phys ∧ e ≠ e' := by
  refine ⟨⟨1, PhysUnit.TeV⟩, ⟨1000, PhysUnit.GeV⟩, ⟨rfl, ?_, ?_⟩, ⟨rfl, ?_, ?_⟩, ?_, ?_⟩
  · norm_num [PhysUnit.TeV]
  · norm_num
  · norm_num [PhysUnit.GeV]
  · norm_num
  · norm_num [Qty.phys, PhysUnit.TeV, PhysUnit.GeV]
  · intro h; have := congrArg Qty.value h; norm_num at this

/-! ## C23: continuity and slopes of the broken power laws -/

/-- A positive energy `x` expressed in eV. -/
noncomputable def inEV (x : ℝ) : Qty ℝ := ⟨x, PhysUnit.eV⟩

theorem inEV_pos (x : ℝ) (h : 0 < x) : (inEV x).PosEnergy := ⟨rfl, eV_scale_pos, h⟩

theorem inEV_ratio (x y : ℝ) : (inEV x).phys / (inEV y).phys = x / y := by
  unfold inEV Qty.phys
  have := eV_scale_pos.ne'
  simp only
  rw [mul_div_mul_right _ _ this]

/-- `f` is the function of energy (in eV) that a BrokenPowerLaw instance computes. -/
def ComputesBPL (A α₁ α₂ e0 eb : ℝ) (f : ℝ → ℝ) : Prop :=
  ∀ x, 0 < x → BPL.call ⟨fin A, (inEV e0).lift, (inEV eb).lift, fin α₁, fin α₂⟩ (inEV x).lift
    = .ok (fin (f x))

/-- The same for ExponentialCutoffBrokenPowerLaw. -/
def ComputesECBPL (A α₁ α₂ β e0 eb ec : ℝ) (f : ℝ → ℝ) : Prop :=
  ∀ x, 0 < x → ECBPL.call ⟨fin A, (inEV e0).lift, (inEV eb).lift, fin α₁, fin α₂, (inEV ec).lift,
    fin β⟩ (inEV x).lift = .ok (fin (f x))

/-- **C23 (existence).** For positive reference and break energies the broken power law is
a real-valued function of positive energy (never NaN, infinite or an exception). -/
theorem C23_bpl_total (A α₁ α₂ e0 eb : ℝ) (h0 : 0 < e0) (hb : 0 < eb) :
    ∃ f, ComputesBPL A α₁ α₂ e0 eb f := by
  refine ⟨fun x => Spec.bpl A α₁ α₂ (x / e0) (eb / e0), fun x hx => ?_⟩
  rw [bpl_call _ _ _ _ _ _ (inEV_pos x hx) (inEV_pos e0 h0) (inEV_pos eb hb), inEV_ratio, inEV_ratio]

theorem bpl_eq (A α₁ α₂ e0 eb : ℝ) (h0 : 0 < e0) (hb : 0 < eb) (f : ℝ → ℝ)
    (hf : ComputesBPL A α₁ α₂ e0 eb f) (x : ℝ) (hx : 0 < x) :
    f x = Spec.bpl A α₁ α₂ (x / e0) (eb / e0) := by
  have h := hf x hx
  rw [bpl_call _ _ _ _ _ _ (inEV_pos x hx) (inEV_pos e0 h0) (inEV_pos eb hb), inEV_ratio,
    inEV_ratio] at h
  simp at h
  exact h.symm

/-- below the break -/
theorem bpl_below (A α₁ α₂ e0 eb : ℝ) (h0 : 0 < e0) (x : ℝ) (hlt : x < eb) :
    Spec.bpl A α₁ α₂ (x / e0) (eb / e0) = A * (x / e0) ^ (-α₁) := by
  unfold Spec.bpl; rw [if_pos ((ratio_lt_iff _ _ _ h0).1 hlt)]

/-- at and above the break; at the break both branches agree -/
theorem bpl_above (A α₁ α₂ e0 eb : ℝ) (h0 : 0 < e0) (x : ℝ) (hle : eb ≤ x) :
    Spec.bpl A α₁ α₂ (x / e0) (eb / e0) = A * (eb / e0) ^ (α₂ - α₁) * (x / e0) ^ (-α₂) := by
  unfold Spec.bpl; rw [if_neg (fun h => absurd ((ratio_lt_iff _ _ _ h0).2 h) (not_lt.2 hle))]

theorem bpl_at_break (A α₁ α₂ r : ℝ) (hr : 0 < r) :
    A * r ^ (α₂ - α₁) * r ^ (-α₂) = A * r ^ (-α₁) := by
  rw [mul_assoc, ← Real.rpow_add hr]; congr 2; ring

/-- **C23 (continuity).** The broken power law is continuous on all positive energies, in
particular at the break. -/
theorem C23_bpl_continuous (A α₁ α₂ e0 eb : ℝ) (h0 : 0 < e0) (hb : 0 < eb) (f : ℝ → ℝ)
    (hf : ComputesBPL A α₁ α₂ e0 eb f) : ContinuousOn f (Set.Ioi 0) := by
  have hpow : ∀ s : ℝ, ContinuousOn (fun x : ℝ => (x / e0) ^ s) (Set.Ioi 0) := by
    intro s x hx
    apply ContinuousAt.continuousWithinAt
    apply ContinuousAt.rpow_const
    · exact continuousAt_id.div_const e0
    · left; exact (div_pos hx h0).ne'
  have hmin : ContinuousOn (fun x : ℝ => A * (min x eb / e0) ^ (-α₁)
      * ((max x eb / e0) ^ (-α₂) / (eb / e0) ^ (-α₂))) (Set.Ioi 0) := by
    apply ContinuousOn.mul
    · apply ContinuousOn.mul continuousOn_const
      apply ContinuousOn.comp (hpow (-α₁)) ((continuous_id.min continuous_const).continuousOn)
      intro x hx; exact lt_min hx hb
    · apply ContinuousOn.div_const
      apply ContinuousOn.comp (hpow (-α₂)) ((continuous_id.max continuous_const).continuousOn)
      intro x hx; exact lt_max_of_lt_left (show (0:ℝ) < x from hx)
  apply hmin.congr
  intro x hx
  have hx : 0 < x := hx
  have hrb : 0 < eb / e0 := div_pos hb h0
  have hp2 : (eb / e0) ^ (-α₂) ≠ 0 := (Real.rpow_pos_of_pos hrb _).ne'
  rw [bpl_eq A α₁ α₂ e0 eb h0 hb f hf x hx]
  simp only
  by_cases hlt : x < eb
  · rw [bpl_below _ _ _ _ _ h0 x hlt, min_eq_left hlt.le, max_eq_right hlt.le, div_self hp2, mul_one]
  · push Not at hlt
    rw [bpl_above _ _ _ _ _ h0 x hlt, min_eq_right hlt, max_eq_left hlt]
    have h1 := bpl_at_break A α₁ α₂ (eb / e0) hrb
    rw [← h1]
    field_simp

/-- Logarithmic slope of a power law branch. -/
theorem hasLogSlope (C e0 s y : ℝ) (h0 : 0 < e0) :
    HasDerivAt (fun t => C * (Real.exp t / e0) ^ (-s)) (-s * (C * (Real.exp y / e0) ^ (-s))) y := by
  have hpos : 0 < Real.exp y / e0 := div_pos (Real.exp_pos y) h0
  have h1 : HasDerivAt (fun t => Real.exp t / e0) (Real.exp y / e0) y :=
    (Real.hasDerivAt_exp y).div_const e0
  have h2 := (h1.rpow_const (p := -s) (Or.inl hpos.ne')).const_mul C
  refine h2.congr_deriv ?_
  rw [Real.rpow_sub_one hpos.ne']
  field_simp

/-- **C23 (slopes).** Where the spectrum is non-zero its logarithmic slope
`d ln f / d ln E` is `-alpha_1` at every energy below the break and `-alpha_2` at every energy
above it: `d f(e^y) / d y = - alpha f(e^y)`. -/
theorem C23_bpl_slopes (A α₁ α₂ e0 eb : ℝ) (h0 : 0 < e0) (hb : 0 < eb) (f : ℝ → ℝ)
    (hf : ComputesBPL A α₁ α₂ e0 eb f) (x : ℝ) (hx : 0 < x) :
    (x < eb → HasDerivAt (fun y => f (Real.exp y)) (-α₁ * f x) (Real.log x)) ∧
    (eb < x → HasDerivAt (fun y => f (Real.exp y)) (-α₂ * f x) (Real.log x)) := by
  constructor
  · intro hlt
    have h := hasLogSlope A e0 α₁ (Real.log x) h0
    rw [Real.exp_log hx] at h
    rw [bpl_eq A α₁ α₂ e0 eb h0 hb f hf x hx, bpl_below _ _ _ _ _ h0 x hlt]
    apply h.congr_of_eventuallyEq
    have hev : ∀ᶠ y in 𝓝 (Real.log x), Real.exp y < eb := by
      apply (Real.continuous_exp.continuousAt).eventually_lt continuousAt_const
      rwa [Real.exp_log hx]
    filter_upwards [hev] with y hy
    rw [bpl_eq A α₁ α₂ e0 eb h0 hb f hf _ (Real.exp_pos y), bpl_below _ _ _ _ _ h0 _ hy]
  · intro hlt
    have h := hasLogSlope (A * (eb / e0) ^ (α₂ - α₁)) e0 α₂ (Real.log x) h0
    rw [Real.exp_log hx] at h
    rw [bpl_eq A α₁ α₂ e0 eb h0 hb f hf x hx, bpl_above _ _ _ _ _ h0 x hlt.le]
    apply h.congr_of_eventuallyEq
    have hev : ∀ᶠ y in 𝓝 (Real.log x), eb < Real.exp y := by
      apply ContinuousAt.eventually_lt continuousAt_const (Real.continuous_exp.continuousAt)
      rwa [Real.exp_log hx]
    filter_upwards [hev] with y hy
    rw [bpl_eq A α₁ α₂ e0 eb h0 hb f hf _ (Real.exp_pos y), bpl_above _ _ _ _ _ h0 _ hy.le]

/-- **C23 (normalisation).** If the reference energy is below the break the value there is the
amplitude. -/
theorem C23_bpl_at_reference (A α₁ α₂ e0 eb : ℝ) (h0 : 0 < e0) (hlt : e0 < eb) (f : ℝ → ℝ)
    (hf : ComputesBPL A α₁ α₂ e0 eb f) : f e0 = A := by
  rw [bpl_eq A α₁ α₂ e0 eb h0 (h0.trans hlt) f hf e0 h0, bpl_below _ _ _ _ _ h0 e0 hlt,
    div_self h0.ne', Real.one_rpow, mul_one]

/-- **C23 (docstring claim that is false of the code).** The docstring calls `amplitude` the "model
amplitude at the break energy".  It is not: with e_0 = 1, e_break = 2, alpha_1 = 1, amplitude 1 the
value at the break is 1/2. -/
theorem C23_false_amplitude_at_break (α₂ : ℝ) (f : ℝ → ℝ) (hf : ComputesBPL 1 1 α₂ 1 2 f) :
    f 2 = 1 / 2 := by
  rw [bpl_eq 1 1 α₂ 1 2 one_pos two_pos f hf 2 two_pos, bpl_above _ _ _ _ _ one_pos 2 le_rfl,
    bpl_at_break _ _ _ _ (by norm_num)]
  norm_num [Real.rpow_neg_one]

/-- **C23 (with cutoff).** ExponentialCutoffBrokenPowerLaw is the broken power law times
`exp(-(E/E_cutoff)^beta)`, hence continuous on positive energies too. -/
theorem C23_ecbpl_continuous (A α₁ α₂ β e0 eb ec : ℝ) (h0 : 0 < e0) (hb : 0 < eb) (hc : 0 < ec)
    (f g : ℝ → ℝ) (hf : ComputesBPL A α₁ α₂ e0 eb f) (hg : ComputesECBPL A α₁ α₂ β e0 eb ec g) :
    (∀ x, 0 < x → g x = f x * Real.exp (-((x / ec) ^ β))) ∧ ContinuousOn g (Set.Ioi 0) := by
  have hgx : ∀ x, 0 < x → g x = f x * Real.exp (-((x / ec) ^ β)) := by
    intro x hx
    have h := hg x hx
    rw [ecbpl_call _ _ _ _ _ _ _ _ (inEV_pos x hx) (inEV_pos e0 h0) (inEV_pos eb hb)
      (inEV_pos ec hc), inEV_ratio, inEV_ratio, inEV_ratio] at h
    simp at h
    rw [← h, bpl_eq A α₁ α₂ e0 eb h0 hb f hf x hx, Spec.ecbpl, mul_comm]
  refine ⟨hgx, ?_⟩
  have hcont : ContinuousOn (fun x => f x * Real.exp (-((x / ec) ^ β))) (Set.Ioi 0) := by
    apply (C23_bpl_continuous A α₁ α₂ e0 eb h0 hb f hf).mul
    apply Real.continuous_exp.comp_continuousOn
    apply ContinuousOn.neg
    intro x hx
    apply ContinuousAt.continuousWithinAt
    apply ContinuousAt.rpow_const (continuousAt_id.div_const ec)
    left; exact (div_pos hx hc).ne'
  exact hcont.congr (fun x hx => hgx x hx)

/-- Non-vacuity of C23: such an `f` exists for typical parameters, so the hypotheses are met. -/
example : ∃ f, ComputesBPL 1 1 3 1 2 f ∧ f 2 = 1 / 2 := by
  obtain ⟨f, hf⟩ := C23_bpl_total 1 1 3 1 2 one_pos two_pos
  exact ⟨f, hf, C23_false_amplitude_at_break 3 f hf⟩

/-! ## C24: nesting, proportionality, positivity -/

/-- **C24 (no break).** With equal indices a BrokenPowerLaw is a PowerLaw, whatever the break, and
ExponentialCutoffBrokenPowerLaw is ExponentialCutoffPowerLaw. -/
theorem C24_no_break (A α β : ℝ) (e e0 eb ec : Qty ℝ) (he : e.PosEnergy) (h0 : e0.PosEnergy)
    (hb : eb.PosEnergy) (hc : ec.PosEnergy) :
    BPL.call ⟨fin A, e0.lift, eb.lift, fin α, fin α⟩ e.lift
      = PowerLaw.call ⟨fin A, e0.lift, fin α⟩ e.lift ∧
    ECBPL.call ⟨fin A, e0.lift, eb.lift, fin α, fin α, ec.lift, fin β⟩ e.lift
      = ECPL.call ⟨fin A, e0.lift, fin α, ec.lift, fin β⟩ e.lift := by
  constructor
  · rw [bpl_call _ _ _ _ _ _ he h0 hb, pl_call _ _ _ _ he h0]
    unfold Spec.bpl Spec.powerLaw; simp
  · rw [ecbpl_call _ _ _ _ _ _ _ _ he h0 hb hc, ecpl_call _ _ _ _ _ _ he h0 hc]
    unfold Spec.ecbpl Spec.bpl Spec.ecpl
    simp [mul_comm]

/-- **C24 (below the break).** Below the break a BrokenPowerLaw is the PowerLaw with index
alpha_1. -/
theorem C24_below_break (A α₁ α₂ : ℝ) (e e0 eb : Qty ℝ) (he : e.PosEnergy) (h0 : e0.PosEnergy)
    (hb : eb.PosEnergy) (hlt : e.phys < eb.phys) :
    BPL.call ⟨fin A, e0.lift, eb.lift, fin α₁, fin α₂⟩ e.lift
      = PowerLaw.call ⟨fin A, e0.lift, fin α₁⟩ e.lift := by
  rw [bpl_call _ _ _ _ _ _ he h0 hb, pl_call _ _ _ _ he h0,
    bpl_below _ _ _ _ _ h0.phys_pos _ hlt]
  rfl

/-- **C24 (no curvature).** A LogParabola with beta = 0 is a PowerLaw. -/
theorem C24_no_curvature (A α : ℝ) (e e0 : Qty ℝ) (he : e.PosEnergy) (h0 : e0.PosEnergy) :
    LogParabola.call ⟨fin A, e0.lift, fin α, fin 0⟩ e.lift
      = PowerLaw.call ⟨fin A, e0.lift, fin α⟩ e.lift := by
  rw [lp_call _ _ _ _ _ he h0, pl_call _ _ _ _ he h0]
  unfold Spec.logParabola Spec.powerLaw; simp

/-- **C24 (cutoff at infinity).** For beta > 0, as the cutoff energy grows the value of the
exponential-cutoff model at any fixed energy tends to that of the model without cutoff, and it is
never larger in absolute value. -/
theorem C24_cutoff_to_infinity (A α β : ℝ) (hβ : 0 < β) (e e0 : Qty ℝ) (he : e.PosEnergy)
    (h0 : e0.PosEnergy) :
    ∃ (g : ℝ → ℝ) (v : ℝ), PowerLaw.call ⟨fin A, e0.lift, fin α⟩ e.lift = .ok (fin v) ∧
      (∀ x, 0 < x →
        ECPL.call ⟨fin A, e0.lift, fin α, (inEV x).lift, fin β⟩ e.lift = .ok (fin (g x))) ∧
      (∀ x, 0 < x → |g x| ≤ |v|) ∧ Tendsto g atTop (𝓝 v) := by
  refine ⟨fun x => Spec.ecpl A α β (e.phys / e0.phys) (e.phys / (inEV x).phys),
    Spec.powerLaw A α (e.phys / e0.phys), pl_call _ _ _ _ he h0, fun x hx =>
      ecpl_call _ _ _ _ _ _ he h0 (inEV_pos x hx), ?_, ?_⟩
  · intro x hx
    unfold Spec.ecpl Spec.powerLaw
    rw [abs_mul]
    apply mul_le_of_le_one_right (abs_nonneg _)
    rw [abs_of_pos (Real.exp_pos _)]
    apply Real.exp_le_one_iff.2
    have : 0 ≤ (e.phys / (inEV x).phys) ^ β :=
      Real.rpow_nonneg (div_pos he.phys_pos (inEV_pos x hx).phys_pos).le β
    linarith
  · unfold Spec.ecpl Spec.powerLaw
    have h1 : Tendsto (fun x : ℝ => e.phys / (inEV x).phys) atTop (𝓝 0) := by
      apply Tendsto.div_atTop tendsto_const_nhds
      unfold inEV Qty.phys
      exact tendsto_id.atTop_mul_const eV_scale_pos
    have h2 : Tendsto (fun x : ℝ => (e.phys / (inEV x).phys) ^ β) atTop (𝓝 0) := by
      have := h1.rpow_const (p := β) (Or.inr hβ.le)
      rwa [Real.zero_rpow hβ.ne'] at this
    have h3 : Tendsto (fun x : ℝ => Real.exp (-((e.phys / (inEV x).phys) ^ β))) atTop (𝓝 1) := by
      have := (Real.continuous_exp.tendsto _).comp h2.neg
      simpa [Function.comp_def] using this
    have h4 := h3.const_mul (A * (e.phys / e0.phys) ^ (-α))
    simpa using h4

/-- **C24 (proportional to amplitude).** Multiplying the amplitude by `c` multiplies every model by
`c`. -/
theorem C24_proportional (c A α₁ α₂ β : ℝ) (e e0 eb ec : Qty ℝ) (he : e.PosEnergy)
    (h0 : e0.PosEnergy) (hb : eb.PosEnergy) (hc : ec.PosEnergy) :
    (∃ v, PowerLaw.call ⟨fin A, e0.lift, fin α₁⟩ e.lift = .ok (fin v) ∧
      PowerLaw.call ⟨fin (c * A), e0.lift, fin α₁⟩ e.lift = .ok (fin (c * v))) ∧
    (∃ v, ECPL.call ⟨fin A, e0.lift, fin α₁, ec.lift, fin β⟩ e.lift = .ok (fin v) ∧
      ECPL.call ⟨fin (c * A), e0.lift, fin α₁, ec.lift, fin β⟩ e.lift = .ok (fin (c * v))) ∧
    (∃ v, BPL.call ⟨fin A, e0.lift, eb.lift, fin α₁, fin α₂⟩ e.lift = .ok (fin v) ∧
      BPL.call ⟨fin (c * A), e0.lift, eb.lift, fin α₁, fin α₂⟩ e.lift = .ok (fin (c * v))) ∧
    (∃ v, ECBPL.call ⟨fin A, e0.lift, eb.lift, fin α₁, fin α₂, ec.lift, fin β⟩ e.lift
        = .ok (fin v) ∧
      ECBPL.call ⟨fin (c * A), e0.lift, eb.lift, fin α₁, fin α₂, ec.lift, fin β⟩ e.lift
        = .ok (fin (c * v))) ∧
    (∃ v, LogParabola.call ⟨fin A, e0.lift, fin α₁, fin β⟩ e.lift = .ok (fin v) ∧
      LogParabola.call ⟨fin (c * A), e0.lift, fin α₁, fin β⟩ e.lift = .ok (fin (c * v))) := by
  refine ⟨⟨_, pl_call _ _ _ _ he h0, ?_⟩, ⟨_, ecpl_call _ _ _ _ _ _ he h0 hc, ?_⟩,
    ⟨_, bpl_call _ _ _ _ _ _ he h0 hb, ?_⟩, ⟨_, ecbpl_call _ _ _ _ _ _ _ _ he h0 hb hc, ?_⟩,
    ⟨_, lp_call _ _ _ _ _ he h0, ?_⟩⟩
  · rw [pl_call _ _ _ _ he h0]; unfold Spec.powerLaw; congr 2; ring
  · rw [ecpl_call _ _ _ _ _ _ he h0 hc]; unfold Spec.ecpl; congr 2; ring
  · rw [bpl_call _ _ _ _ _ _ he h0 hb]; unfold Spec.bpl; congr 2; split_ifs <;> ring
  · rw [ecbpl_call _ _ _ _ _ _ _ _ he h0 hb hc]; unfold Spec.ecbpl Spec.bpl; congr 2
    split_ifs <;> ring
  · rw [lp_call _ _ _ _ _ he h0]; unfold Spec.logParabola; congr 2; ring

/-- **C24 (positivity).** With positive amplitude every model is positive at every positive
energy. -/
theorem C24_positive (A α₁ α₂ β : ℝ) (hA : 0 < A) (e e0 eb ec : Qty ℝ) (he : e.PosEnergy)
    (h0 : e0.PosEnergy) (hb : eb.PosEnergy) (hc : ec.PosEnergy) :
    (∃ v, 0 < v ∧ PowerLaw.call ⟨fin A, e0.lift, fin α₁⟩ e.lift = .ok (fin v)) ∧
    (∃ v, 0 < v ∧ ECPL.call ⟨fin A, e0.lift, fin α₁, ec.lift, fin β⟩ e.lift = .ok (fin v)) ∧
    (∃ v, 0 < v ∧ BPL.call ⟨fin A, e0.lift, eb.lift, fin α₁, fin α₂⟩ e.lift = .ok (fin v)) ∧
    (∃ v, 0 < v ∧ ECBPL.call ⟨fin A, e0.lift, eb.lift, fin α₁, fin α₂, ec.lift, fin β⟩ e.lift
        = .ok (fin v)) ∧
    (∃ v, 0 < v ∧ LogParabola.call ⟨fin A, e0.lift, fin α₁, fin β⟩ e.lift = .ok (fin v)) := by
  have hr := div_pos he.phys_pos h0.phys_pos
  have hrb := div_pos hb.phys_pos h0.phys_pos
  have hbpl : 0 < Spec.bpl A α₁ α₂ (e.phys / e0.phys) (eb.phys / e0.phys) := by
    unfold Spec.bpl
    split_ifs
    · exact mul_pos hA (Real.rpow_pos_of_pos hr _)
    · exact mul_pos (mul_pos hA (Real.rpow_pos_of_pos hrb _)) (Real.rpow_pos_of_pos hr _)
  exact ⟨⟨_, mul_pos hA (Real.rpow_pos_of_pos hr _), pl_call _ _ _ _ he h0⟩,
    ⟨_, mul_pos (mul_pos hA (Real.rpow_pos_of_pos hr _)) (Real.exp_pos _),
      ecpl_call _ _ _ _ _ _ he h0 hc⟩,
    ⟨_, hbpl, bpl_call _ _ _ _ _ _ he h0 hb⟩,
    ⟨_, mul_pos (Real.exp_pos _) hbpl, ecbpl_call _ _ _ _ _ _ _ _ he h0 hb hc⟩,
    ⟨_, mul_pos hA (Real.rpow_pos_of_pos hr _), lp_call _ _ _ _ _ he h0⟩⟩

/-- Non-vacuity of C24: energies below and above a break exist. -/
example : (inEV 1).PosEnergy ∧ (inEV 2).PosEnergy ∧ (inEV 1).phys < (inEV 2).phys := by
  refine ⟨inEV_pos 1 one_pos, inEV_pos 2 two_pos, ?_⟩
  norm_num [inEV, Qty.phys, PhysUnit.eV]

end Naima.Props
