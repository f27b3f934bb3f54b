import Verif.Model.Models
import Verif.Spec.Models
import Verif.Proof.XR

namespace Naima
open XR

theorem eV_scale_pos : 0 < PhysUnit.eV.scale := by norm_num [PhysUnit.eV]

theorem lift_toValue_eV (q : Qty ℝ) (h : q.unit.dim = Dim.energy) :
    q.lift.toValue PhysUnit.eV = .ok (fin (q.phys / PhysUnit.eV.scale)) := by
  unfold Qty.toValue Qty.lift Qty.phys
  simp only [h]
  rw [if_pos (show Dim.energy = PhysUnit.eV.dim from rfl)]
  simp [mul_div_assoc]

theorem validateEneEV_ok (q : Qty ℝ) (h : q.unit.dim = Dim.energy) :
    validateEneEV q.lift = .ok (fin (q.phys / PhysUnit.eV.scale)) := by
  unfold validateEneEV
  rw [if_pos (by simpa [Qty.lift] using h), lift_toValue_eV q h]

theorem ratio_eV (a b : ℝ) (hb : 0 < b) :
    (fin (a / PhysUnit.eV.scale) / fin (b / PhysUnit.eV.scale) : XR) = fin (a / b) := by
  have := eV_scale_pos
  rw [div_fin _ _ (div_pos hb this).ne']
  congr 1
  field_simp

theorem lt_eV (a b : ℝ) :
    ((fin (a / PhysUnit.eV.scale) : XR) < fin (b / PhysUnit.eV.scale)) ↔ a < b := by
  rw [lt_fin, div_lt_div_iff_of_pos_right eV_scale_pos]

theorem ratio_lt_iff (e e0 eb : ℝ) (h : 0 < e0) : e < eb ↔ e / e0 < eb / e0 :=
  (div_lt_div_iff_of_pos_right h).symm

theorem pl_call (A α : ℝ) (e e0 : Qty ℝ) (he : e.PosEnergy) (h0 : e0.PosEnergy) :
    PowerLaw.call ⟨fin A, e0.lift, fin α⟩ e.lift
      = .ok (fin (Spec.powerLaw A α (e.phys / e0.phys))) := by
  unfold PowerLaw.call
  simp only [validateEneEV_ok e he.isEnergy, lift_toValue_eV e0 h0.isEnergy]
  show Except.ok (plEval _ _ _ _) = _
  unfold plEval
  rw [ratio_eV _ _ h0.phys_pos, neg_fin, pow_fin _ _ (div_pos he.phys_pos h0.phys_pos), mul_fin]
  rfl

theorem ecpl_call (A α β : ℝ) (e e0 ec : Qty ℝ) (he : e.PosEnergy) (h0 : e0.PosEnergy)
    (hc : ec.PosEnergy) :
    ECPL.call ⟨fin A, e0.lift, fin α, ec.lift, fin β⟩ e.lift
      = .ok (fin (Spec.ecpl A α β (e.phys / e0.phys) (e.phys / ec.phys))) := by
  unfold ECPL.call
  simp only [validateEneEV_ok e he.isEnergy, lift_toValue_eV e0 h0.isEnergy,
    lift_toValue_eV ec hc.isEnergy]
  show Except.ok (ecplEval _ _ _ _ _ _) = _
  unfold ecplEval
  rw [ratio_eV _ _ h0.phys_pos, ratio_eV _ _ hc.phys_pos, neg_fin,
    pow_fin _ _ (div_pos he.phys_pos h0.phys_pos), pow_fin _ _ (div_pos he.phys_pos hc.phys_pos),
    neg_fin, exp_fin, mul_fin, mul_fin]
  rfl

theorem bplEval_fin (A α₁ α₂ : ℝ) (e e0 eb : ℝ) (he : 0 < e) (h0 : 0 < e0) (hb : 0 < eb) :
    bplEval (fin (e / PhysUnit.eV.scale)) (fin A) (fin (e0 / PhysUnit.eV.scale))
      (fin (eb / PhysUnit.eV.scale)) (fin α₁) (fin α₂)
      = fin (Spec.bpl A α₁ α₂ (e / e0) (eb / e0)) := by
  unfold bplEval Spec.bpl
  simp only [lt_eV, ← ratio_lt_iff e e0 eb h0]
  by_cases h : e < eb
  · simp only [h, if_true]
    rw [ratio_eV _ _ h0, neg_fin, pow_fin _ _ (div_pos he h0), mul_fin, mul_fin, mul_one]
  · simp only [h, if_false]
    rw [ratio_eV _ _ h0, ratio_eV _ _ h0, neg_fin, sub_fin, pow_fin _ _ (div_pos he h0),
      pow_fin _ _ (div_pos hb h0), mul_fin, mul_fin]

theorem bpl_call (A α₁ α₂ : ℝ) (e e0 eb : Qty ℝ) (he : e.PosEnergy) (h0 : e0.PosEnergy)
    (hb : eb.PosEnergy) :
    BPL.call ⟨fin A, e0.lift, eb.lift, fin α₁, fin α₂⟩ e.lift
      = .ok (fin (Spec.bpl A α₁ α₂ (e.phys / e0.phys) (eb.phys / e0.phys))) := by
  unfold BPL.call
  simp only [validateEneEV_ok e he.isEnergy, lift_toValue_eV e0 h0.isEnergy,
    lift_toValue_eV eb hb.isEnergy]
  show Except.ok (bplEval _ _ _ _ _ _) = _
  rw [bplEval_fin _ _ _ _ _ _ he.phys_pos h0.phys_pos hb.phys_pos]

theorem ecbpl_call (A α₁ α₂ β : ℝ) (e e0 eb ec : Qty ℝ) (he : e.PosEnergy) (h0 : e0.PosEnergy)
    (hb : eb.PosEnergy) (hc : ec.PosEnergy) :
    ECBPL.call ⟨fin A, e0.lift, eb.lift, fin α₁, fin α₂, ec.lift, fin β⟩ e.lift
      = .ok (fin (Spec.ecbpl A α₁ α₂ β (e.phys / e0.phys) (eb.phys / e0.phys)
          (e.phys / ec.phys))) := by
  unfold ECBPL.call
  simp only [validateEneEV_ok e he.isEnergy, lift_toValue_eV e0 h0.isEnergy,
    lift_toValue_eV eb hb.isEnergy, lift_toValue_eV ec hc.isEnergy]
  show Except.ok (ecbplEval _ _ _ _ _ _ _ _) = _
  have hbpl := bplEval_fin A α₁ α₂ _ _ _ he.phys_pos h0.phys_pos hb.phys_pos
  unfold ecbplEval
  unfold bplEval at hbpl
  simp only at hbpl ⊢
  rw [hbpl, ratio_eV _ _ hc.phys_pos, pow_fin _ _ (div_pos he.phys_pos hc.phys_pos), neg_fin,
    exp_fin, mul_fin]
  unfold Spec.ecbpl
  rw [mul_comm]

theorem lp_call (A α β : ℝ) (e e0 : Qty ℝ) (he : e.PosEnergy) (h0 : e0.PosEnergy) :
    LogParabola.call ⟨fin A, e0.lift, fin α, fin β⟩ e.lift
      = .ok (fin (Spec.logParabola A α β (e.phys / e0.phys))) := by
  unfold LogParabola.call
  simp only [validateEneEV_ok e he.isEnergy, lift_toValue_eV e0 h0.isEnergy]
  show Except.ok (lpEval _ _ _ _ _) = _
  have hr := div_pos he.phys_pos h0.phys_pos
  unfold lpEval
  simp only [ratio_eV _ _ h0.phys_pos, neg_fin, log_fin _ hr, mul_fin, sub_fin, pow_fin _ _ hr]
  rfl

end Naima
