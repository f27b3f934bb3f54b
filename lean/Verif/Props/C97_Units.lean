import Verif.Spec.Same
import Verif.Model.ICModel
import Verif.Model.PionLUT
import Verif.Proof.Electron
import Verif.Proof.Synchrotron
import Verif.Proof.Brems
import Verif.Proof.Kelner
import Verif.Proof.IC
import Verif.Model.Pion

/-!
# C97 — results do not depend on the units of the inputs
-/

namespace Naima.Props

open XR Classical

/-! ### helpers -/

theorem sameQty_ratio {q q' : Qty ℝ} (h : SameQty q q') (s : ℝ) :
    q.value * (q.unit.scale / s) = q'.value * (q'.unit.scale / s) := by
  have := h.size
  rw [← mul_div_assoc, ← mul_div_assoc, this]

theorem sameQty_toReal {q q' : Qty ℝ} (h : SameQty q q') (u : PhysUnit) :
    q.toReal u = q'.toReal u := by
  unfold Qty.toReal
  rw [h.dim, sameQty_ratio h]

theorem sameQty_log10Ratio {q q' : Qty ℝ} (h : SameQty q q') (s : ℝ) :
    log10Ratio q s = log10Ratio q' s := by
  unfold log10Ratio
  rw [h.dim, sameQty_ratio h]

theorem sameOpt_getD {o o' : Option (Qty ℝ)} {q q' : Qty ℝ} (h : SameOpt o o') (hq : SameQty q q') :
    SameQty (o.getD q) (o'.getD q') := by
  cases h with
  | none => exact hq
  | some h => exact h

theorem same_gamGrid (n : ℝ) {lo lo' hi hi' : Qty ℝ} (h1 : SameQty lo lo') (h2 : SameQty hi hi') :
    gamGrid n lo hi = gamGrid n lo' hi' := by
  unfold gamGrid
  rw [sameQty_log10Ratio h1, sameQty_log10Ratio h2]

theorem same_epGrid (n : ℝ) {lo lo' hi hi' : Qty ℝ} (h1 : SameQty lo lo') (h2 : SameQty hi hi') :
    epGrid n lo hi = epGrid n lo' hi' := by
  unfold epGrid inGeV
  rw [sameQty_toReal h1, sameQty_toReal h2]

theorem mul_fin_div (a : XR) (s t : ℝ) (ht : 0 < t) : a * fin (s / t) = fin (1 / t) * (a * fin s) := by
  rw [mul_comm' a (fin s), ← scale_mul' t ht, mul_comm']
where
  scale_mul' (t : ℝ) (ht : 0 < t) {s : ℝ} {a : XR} : fin (s / t) * a = fin (1 / t) * (fin s * a) := by
    rw [← scale_mul _ (by positivity), mul_fin]
    congr 2
    ring

theorem sameDist_conv {p p' : PDist} (h : SameDist p p') (e : ℝ) (t : ℝ) (ht : 0 < t) :
    p.f e * fin (p.unit.scale / t) = p'.f e * fin (p'.unit.scale / t) := by
  rw [mul_fin_div _ _ _ ht, h.size e, ← mul_fin_div _ _ _ ht]

theorem sameDist_values {p p' : PDist} (h : SameDist p p') (u : PhysUnit) (hu : 0 < u.scale)
    (es : List ℝ) : p.valuesIn u es = p'.valuesIn u es := by
  unfold PDist.valuesIn
  simp only [h.dim, sameDist_conv h _ _ hu]

theorem perMec2_pos : 0 < perMec2.scale := by
  have := cMec2_pos
  simp only [perMec2]; positivity

theorem perGeV_pos : 0 < perGeV.scale := by
  have := GeV_pos
  simp only [perGeV]; positivity

theorem sameDist_nelec {p p' : PDist} (h : SameDist p p') (gam : List ℝ) :
    nelecOf p gam = nelecOf p' gam := sameDist_values h _ perMec2_pos _

theorem sameDist_prot {p p' : PDist} (h : SameDist p p') (ep : List ℝ) :
    protOf p ep = protOf p' ep := sameDist_values h _ perGeV_pos _

theorem sameDist_wpQty {p p' : PDist} (h : SameDist p p') (ep : List ℝ) :
    wpQty ep p = wpQty ep p' := by
  rw [wpQty_eq _ _ h.proper, wpQty_eq _ _ h.proper', sameDist_prot h]

/-- Two electron models with the same limits in other units. -/
structure SameEl (m m' : ElModel) : Prop where
  lo : SameQty m.Eemin m'.Eemin
  hi : SameQty m.Eemax m'.Eemax
  n : m.nEed = m'.nEed

/-- Two proton models with the same limits in other units. -/
structure SamePr (m m' : PrModel) : Prop where
  lo : SameQty m.Epmin m'.Epmin
  hi : SameQty m.Epmax m'.Epmax
  n : m.nEpd = m'.nEpd

theorem sameEl_gam {m m' : ElModel} (h : SameEl m m') : m.gam = m'.gam := by
  unfold ElModel.gam
  rw [h.n, same_gamGrid _ h.lo h.hi]

theorem sameEl_nelec {m m' : ElModel} (h : SameEl m m') {p p' : PDist} (hp : SameDist p p') :
    m.nelec p = m'.nelec p' := by
  unfold ElModel.nelec
  simp only [sameEl_gam h, sameDist_nelec hp]

theorem samePr_Ep {m m' : PrModel} (h : SamePr m m') : m.Ep = m'.Ep := by
  unfold PrModel.Ep inGeV decadesRatio
  rw [h.n, sameQty_toReal h.lo, sameQty_toReal h.hi, h.lo.size, h.hi.size]

theorem samePr_J {m m' : PrModel} (h : SamePr m m') {p p' : PDist} (hp : SameDist p p') :
    m.J p = m'.J p' := by
  unfold PrModel.J
  simp only [samePr_Ep h, sameDist_prot hp]

/-! ### energy content -/

/-- **C97 (`compute_We`).** The electron energy content does not depend on the units in which the
limits of the model, the limits of the call and the particle distribution are expressed. -/
theorem C97_compute_We (m m' : ElModel) (h : SameEl m m') (p p' : PDist) (hp : SameDist p p')
    (lo lo' hi hi' : Option (Qty ℝ)) (h1 : SameOpt lo lo') (h2 : SameOpt hi hi') :
    m.computeWe p lo hi = m'.computeWe p' lo' hi' := by
  have key : ∀ q q' r r', SameQty q q' → SameQty r r' →
      ((gamGrid m.nEed q r).bind fun gam => (nelecOf p gam).bind fun n => Except.ok (weOf gam n)) =
      ((gamGrid m'.nEed q' r').bind fun gam => (nelecOf p' gam).bind fun n => Except.ok (weOf gam n)) := by
    intro q q' r r' hq hr
    rw [h.n, same_gamGrid _ hq hr]
    simp only [sameDist_nelec hp]
  have k0 : m.We p = m'.We p' := by
    unfold ElModel.We
    simp only [sameEl_gam h, sameEl_nelec h hp]
  cases h1 with
  | none =>
    cases h2 with
    | none => exact k0
    | some h2 => exact key _ _ _ _ h.lo h2
  | some h1 =>
    cases h2 with
    | none => exact key _ _ _ _ h1 h.hi
    | some h2 => exact key _ _ _ _ h1 h2

/-- **C97 (`compute_Wp`).** -/
theorem C97_compute_Wp (m m' : PrModel) (h : SamePr m m') (p p' : PDist) (hp : SameDist p p')
    (lo lo' hi hi' : Option (Qty ℝ)) (h1 : SameOpt lo lo') (h2 : SameOpt hi hi') :
    m.computeWp p lo hi = m'.computeWp p' lo' hi' := by
  have key : ∀ q q' r r', SameQty q q' → SameQty r r' →
      ((epGrid m.nEpd q r).bind fun ep => wpQty ep p) =
      ((epGrid m'.nEpd q' r').bind fun ep => wpQty ep p') := by
    intro q q' r r' hq hr
    rw [h.n, same_epGrid _ hq hr]
    simp only [sameDist_wpQty hp]
  have k0 : m.Wp p = m'.Wp p' := by
    unfold PrModel.Wp
    simp only [samePr_Ep h, samePr_J h hp]
  cases h1 with
  | none =>
    cases h2 with
    | none => exact k0
    | some h2 => exact key _ _ _ _ h.lo h2
  | some h1 =>
    cases h2 with
    | none => exact key _ _ _ _ h1 h.hi
    | some h2 => exact key _ _ _ _ h1 h2

/-! ### spectra -/

/-- **C97 (Synchrotron).** -/
theorem C97_synchrotron (m m' : SyncModel) (h : SameEl m.toElModel m'.toElModel)
    (hB : SameQty m.B m'.B) (p p' : PDist) (hp : SameDist p p') (es : List ℝ) :
    m.spectrum p es = m'.spectrum p' es := by
  unfold SyncModel.spectrum
  rw [sameQty_toReal hB]
  simp only [sameEl_gam h, sameEl_nelec h hp]

/-- **C97 (Bremsstrahlung).** -/
theorem C97_bremsstrahlung (m m' : BremsModel) (h : SameEl m.toElModel m'.toElModel)
    (hn : SameQty m.n0 m'.n0) (hee : m.wee = m'.wee) (hep : m.wep = m'.wep)
    (p p' : PDist) (hp : SameDist p p') (es : List ℝ) :
    m.spectrum p es = m'.spectrum p' es := by
  have he : ∀ w s, m.emiss p w s es = m'.emiss p' w s es := by
    intro w s
    unfold BremsModel.emiss
    simp only [sameEl_gam h, sameEl_nelec h hp]
  unfold BremsModel.spectrum BremsModel.spectrumQ
  simp only [he, hee, hep, bind, Except.bind, pure, Except.pure]
  cases m'.emiss p' m'.wee bremsEe es with
  | error e => rfl
  | ok a =>
    cases m'.emiss p' m'.wep bremsEp es with
    | error e => rfl
    | ok b =>
      dsimp only
      cases addQ ⟨a.value.map (fun x => fin m'.wee * x), a.unit⟩
          ⟨b.value.map (fun x => fin m'.wep * x), b.unit⟩ with
      | error e => rfl
      | ok t =>
        dsimp only
        unfold Qty.toArr
        have hd : (m.n0.unit.mul t.unit).dim = (m'.n0.unit.mul t.unit).dim := by
          simp only [PhysUnit.mul, hn.dim]
        simp only [hd]
        by_cases hk : (m'.n0.unit.mul t.unit).dim = uLum.dim
        · simp only [hk, if_true]
          congr 1
          simp only [List.map_map]
          apply List.map_congr_left
          intro x _
          simp only [Function.comp_apply]
          have e1 : fin m.n0.value * x * fin ((m.n0.unit.mul t.unit).scale / uLum.scale) =
              fin (m.n0.value * m.n0.unit.scale) * x * fin (t.unit.scale / uLum.scale) :=
            brems_unit _ _ _ _ _ hn.proper
          have e2 : fin m'.n0.value * x * fin ((m'.n0.unit.mul t.unit).scale / uLum.scale) =
              fin (m'.n0.value * m'.n0.unit.scale) * x * fin (t.unit.scale / uLum.scale) :=
            brems_unit _ _ _ _ _ hn.proper'
          rw [e1, e2, hn.size]
        · simp only [hk, if_false]
where
  brems_unit (n s t w : ℝ) (x : XR) (hs : 0 < s) :
      fin n * x * fin (s * t / w) = fin (n * s) * x * fin (t / w) := by
    have : fin (s * t / w) = fin s * fin (t / w) := by rw [mul_fin]; congr 1; ring
    rw [this, mul_left_swap _ hs, mul_comm n s, ← mul_fin, scale_mul _ hs, scale_mul _ hs]

/-- **C97 (PionDecay, full calculation).** -/
theorem C97_pion (m m' : PionModel) (h : SamePr m.toPrModel m'.toPrModel)
    (hn : SameQty m.nh m'.nh) (hu : m.nuc = m'.nuc) (hh : m.hiE = m'.hiE)
    (p p' : PDist) (hp : SameDist p p') (tbl : FTable) (es : List ℝ) :
    m.spectrum p tbl es = m'.spectrum p' tbl es := by
  have hl : ∀ (es : List ℝ) ep j tbl, pionLoop m ep j tbl es = pionLoop m' ep j tbl es := by
    intro es
    induction es with
    | nil => intro ep j tbl; rfl
    | cons e es ih =>
      intro ep j tbl
      simp only [pionLoop, hu, hh, ih]
  unfold PionModel.spectrum
  simp only [samePr_Ep h, samePr_J h hp, sameQty_toReal hn, hl]

/-- **C97 (PionDecay, lookup table).** -/
theorem C97_pion_lut (m m' : PionModel) (h : SamePr m.toPrModel m'.toPrModel)
    (hn : SameQty m.nh m'.nh) (p p' : PDist) (hp : SameDist p p') (lut : ℝ → ℝ → XR) (es : List ℝ) :
    m.spectrumLUT p lut es = m'.spectrumLUT p' lut es := by
  unfold PionModel.spectrumLUT
  simp only [samePr_Ep h, samePr_J h hp, sameQty_toReal hn]

theorem same_kDist {p p' : PDist} (hp : SameDist p p') : kDist p = kDist p' := by
  funext E
  exact sameDist_conv hp _ _ (by norm_num [perTeV])

/-- **C97 (PionDecayKelner06).** -/
theorem C97_kelner (m m' : KelnerModel) (hn : SameQty m.nh m'.nh) (ht : SameQty m.Etrans m'.Etrans)
    (Q : Quad) (p p' : PDist) (hp : SameDist p p') (r : EneReq) :
    m.spectrum Q p r = m'.spectrum Q p' r := by
  have hd := same_kDist hp
  have e1 : kHi Q p = kHi Q p' := by
    funext x; unfold kHi kPhoton; simp only [hd]
  have e2 : kLo Q p = kLo Q p' := by
    funext n x; unfold kLo kDelta; simp only [hd]
  have e3 : m.Etrans.phys = m'.Etrans.phys := ht.size
  have e4 : m.nh.phys = m'.nh.phys := hn.size
  cases r with
  | scalar e => rfl
  | array es =>
    simp only [KelnerModel.spectrum, KelnerModel.at, KelnerModel.nhat, e1, e2, e3, e4, hp.dim]

/-! ### inverse Compton: the seed photon fields -/

theorem sameQty_lt_zero {q q' : Qty ℝ} (h : SameQty q q') : q.value < 0 ↔ q'.value < 0 := by
  have := h.size
  have a := h.proper
  have b := h.proper'
  constructor
  · intro hx
    by_contra hn
    push Not at hn
    nlinarith [mul_neg_of_neg_of_pos hx a, mul_nonneg hn b.le]
  · intro hx
    by_contra hn
    push Not at hn
    nlinarith [mul_neg_of_neg_of_pos hx b, mul_nonneg hn a.le]

theorem sameQty_zero {q q' : Qty ℝ} (h : SameQty q q') : q.value = 0 ↔ q'.value = 0 := by
  have := h.size
  have a := h.proper.ne'
  have b := h.proper'.ne'
  constructor
  · intro hx
    rw [hx, zero_mul] at this
    rcases mul_eq_zero.mp this.symm with h | h
    · exact h
    · exact absurd h b
  · intro hx
    rw [hx, zero_mul] at this
    rcases mul_eq_zero.mp this with h | h
    · exact h
    · exact absurd h a

theorem sameArray_length {q q' : Qty (List ℝ)} (h : SameArray q q') :
    q.value.length = q'.value.length := by
  have := congrArg List.length h.size
  simpa using this

/-- The unit and the data of the same values. -/
theorem sameArray_one {x x' : ℝ} {u u' : PhysUnit} (h : SameArray ⟨[x], u⟩ ⟨[x'], u'⟩) :
    SameQty ⟨x, u⟩ ⟨x', u'⟩ :=
  ⟨h.dim, h.proper, h.proper', by have := h.size; simpa using this⟩

theorem same_cmpQty {x x' : ℝ} {u u' : PhysUnit} (h : SameQty ⟨x, u⟩ ⟨x', u'⟩) :
    cmpQty (fin x) u (· < ·) (fin 0) = cmpQty (fin x') u' (· < ·) (fin 0) := by
  have h1 := h.size
  have h2 := sameQty_lt_zero h
  have h3 := h.dim
  simp only at h1 h2 h3
  unfold cmpQty
  simp only [h3, mul_fin, h1, lt_fin, h2]

theorem same_cmpScalar {v v' : PyVal} (h : SameVal v v') :
    cmpScalar v (· < ·) (fin 0) = cmpScalar v' (· < ·) (fin 0) := by
  cases h with
  | num x => rfl
  | cplx => rfl
  | arr s d => rfl
  | seq s d => rfl
  | qty h => exact same_cmpQty h
  | @qarr s d d' u u' h =>
    have hl := sameArray_length h
    simp only at hl
    match d, d', hl with
    | [], [], _ => rfl
    | [x], [x'], _ => exact same_cmpQty (sameArray_one h)
    | _ :: _ :: _, _ :: _ :: _, _ => rfl

theorem same_physType {v v' : PyVal} (h : SameVal v v') (pt : Option (List Dim)) :
    validatePhysicalType v pt = validatePhysicalType v' pt := by
  cases pt with
  | none => rfl
  | some t =>
    cases h with
    | num x => rfl
    | cplx => rfl
    | arr s d => rfl
    | seq s d => rfl
    | qty h => have := h.dim; simp only at this; simp only [validatePhysicalType, this]
    | qarr s h => have := h.dim; simp only at this; simp only [validatePhysicalType, this]

/-- what a call gives for the same input: the same error, or related results -/
def RelE {α : Type} (R : α → α → Prop) : Except PyErr α → Except PyErr α → Prop
  | .ok a, .ok b => R a b
  | .error e, .error e' => e = e'
  | _, _ => False

theorem relE_bind {α β : Type} {R : α → α → Prop} {S : β → β → Prop} {x y : Except PyErr α}
    (h : RelE R x y) {f g : α → Except PyErr β} (hfg : ∀ a b, R a b → RelE S (f a) (g b)) :
    RelE S (x.bind f) (y.bind g) := by
  cases x <;> cases y <;> simp only [RelE, Except.bind] at h ⊢
  · exact h
  · exact hfg _ _ h

theorem relE_eq {α : Type} {x y : Except PyErr α} (h : x = y) : RelE (fun a b => a = b) x y := by
  subst h
  cases x <;> simp [RelE]

theorem eq_of_relE {α : Type} {x y : Except PyErr α} (h : RelE (fun a b => a = b) x y) : x = y := by
  cases x <;> cases y <;> simp only [RelE] at h <;> first | rw [h] | exact h.elim

theorem same_validateScalar_pos {v v' : PyVal} (h : SameVal v v') (t : List Dim) :
    RelE SameVal (validateScalar v .positive (some t)) (validateScalar v' .positive (some t)) := by
  unfold validateScalar
  rw [same_physType h, same_cmpScalar h]
  cases validatePhysicalType v' (some t) with
  | error e => rfl
  | ok _ =>
    simp only [bind, Except.bind, pure, Except.pure]
    cases cmpScalar v' (· < ·) (fin 0) with
    | error e => rfl
    | ok b => cases b <;> simp [RelE, h, throw, throwThe, MonadExceptOf.throw]

theorem same_validateScalar_none {v v' : PyVal} (h : SameVal v v') (t : List Dim) :
    RelE SameVal (validateScalar v .none (some t)) (validateScalar v' .none (some t)) := by
  unfold validateScalar
  rw [same_physType h]
  cases validatePhysicalType v' (some t) with
  | error e => rfl
  | ok _ => exact h

theorem same_isZero {v v' : PyVal} (h : SameVal v v') : isZeroVal v = isZeroVal v' := by
  cases h with
  | num x => rfl
  | cplx => rfl
  | arr s d => rfl
  | seq s d => rfl
  | qty h =>
    have := sameQty_zero h
    simp only at this
    simp only [isZeroVal, eqv_fin, this]
  | @qarr s d d' u u' h =>
    have hl := sameArray_length h
    simp only at hl
    match d, d', hl with
    | [], [], _ => rfl
    | [x], [x'], _ =>
      have := sameQty_zero (sameArray_one h)
      simp only at this
      simp only [isZeroVal, List.map_cons, List.map_nil, eqv_fin, this]
    | _ :: _ :: _, _ :: _ :: _, _ => rfl

theorem pow_fin_four (x : ℝ) : pow (fin x) (fin 4) = fin (x ^ (4 : ℕ)) := by
  have h4 : (x : ℝ) ^ (4 : ℝ) = x ^ (4 : ℕ) := by
    rw [← Real.rpow_natCast]; norm_num
  show powFin x 4 = _
  unfold powFin
  rcases lt_trichotomy x 0 with h | h | h
  · rw [if_neg (by norm_num), if_neg (by linarith), if_neg h.ne, if_pos ⟨4, by norm_num⟩, h4]
  · subst h; norm_num
  · rw [if_neg (by norm_num), if_pos h, h4]

theorem pow_fin_two (x : ℝ) : pow (fin x) (fin 2) = fin (x ^ (2 : ℕ)) := by
  have h4 : (x : ℝ) ^ (2 : ℝ) = x ^ (2 : ℕ) := by
    rw [← Real.rpow_natCast]; norm_num
  show powFin x 2 = _
  unfold powFin
  rcases lt_trichotomy x 0 with h | h | h
  · rw [if_neg (by norm_num), if_neg (by linarith), if_neg h.ne, if_pos ⟨2, by norm_num⟩, h4]
  · subst h; norm_num
  · rw [if_neg (by norm_num), if_pos h, h4]

theorem same_arT4 {x x' : ℝ} {u u' : PhysUnit} (h : SameQty ⟨x, u⟩ ⟨x', u'⟩) :
    SameQty ⟨cAr * x ^ 4, ⟨u.scale ^ 4, Dim.pressure⟩⟩ ⟨cAr * x' ^ 4, ⟨u'.scale ^ 4, Dim.pressure⟩⟩ := by
  have h1 := h.size
  have h2 := h.proper
  have h3 := h.proper'
  simp only at h1 h2 h3
  refine ⟨rfl, by simp only; positivity, by simp only; positivity, ?_⟩
  simp only
  rw [mul_assoc, mul_assoc, ← mul_pow, ← mul_pow, h1]

theorem same_arT4Of {v v' : PyVal} (h : SameVal v v') : SameVal (arT4Of v) (arT4Of v') := by
  cases h with
  | num x => exact .num x
  | cplx => exact .cplx
  | arr s d => exact .arr s d
  | seq s d => exact .seq s d
  | qty h =>
    simp only [arT4Of, arT4, pow_fin_four, mul_fin]
    exact .qty (same_arT4 h)
  | @qarr s d d' u u' h =>
    simp only [arT4Of, List.map_map]
    have e : ∀ l : List ℝ, l.map ((fun x => fin cAr * pow x (fin 4)) ∘ fin) =
        (l.map (fun x => cAr * x ^ 4)).map fin := by
      intro l
      simp only [List.map_map]
      apply List.map_congr_left
      intro x _
      simp only [Function.comp_apply, pow_fin_four, mul_fin]
    rw [e, e]
    have h1 := h.size
    have h2 := h.proper
    have h3 := h.proper'
    simp only at h1 h2 h3
    refine .qarr s ⟨rfl, by simp only; positivity, by simp only; positivity, ?_⟩
    simp only [List.map_map]
    have k : ∀ (l : List ℝ) (w : ℝ), l.map ((· * w ^ 4) ∘ fun x => cAr * x ^ 4) =
        (l.map (· * w)).map (fun y => cAr * y ^ 4) := by
      intro l w
      rw [List.map_map]
      apply List.map_congr_left
      intro x _
      simp only [Function.comp_apply]
      ring
    rw [k, k, h1]

theorem same_sizeOf {v v' : PyVal} (h : SameVal v v') (d : Dim) : sizeOf v d = sizeOf v' d := by
  cases h with
  | num x => rfl
  | cplx => rfl
  | arr s d => rfl
  | seq s d => rfl
  | qty h =>
    have h1 := h.size
    have h2 := h.dim
    simp only at h1 h2
    simp only [sizeOf, scalarQty, asFinite, h1, h2]
  | @qarr s e e' u u' h =>
    have hl := sameArray_length h
    simp only at hl
    match e, e', hl with
    | [], [], _ => rfl
    | [x], [x'], _ =>
      have h1 := (sameArray_one h).size
      have h2 := h.dim
      simp only at h1 h2
      simp only [sizeOf, scalarQty, List.map_cons, List.map_nil, asFinite, h1, h2]
    | _ :: _ :: _, _ :: _ :: _, _ => rfl

/-- The same angle. -/
inductive SameTheta : Option PyVal → Option PyVal → Prop
  | none : SameTheta none none
  | some {v v'} : SameVal v v' → SameTheta (some v) (some v')

theorem same_thetaOf {t t' : Option PyVal} (h : SameTheta t t') : thetaOf t = thetaOf t' := by
  cases h with
  | none => rfl
  | some h => simp only [thetaOf, same_sizeOf h]

/-- fields that give the same numbers -/
def SameField (f f' : SeedField) : Prop := f.toNum = f'.toNum

theorem same_thermal {T T' v v' : PyVal} {t t' : Option PyVal} (h1 : SameVal T T')
    (h2 : SameVal v v') (h3 : SameTheta t t') : SameField (.thermal T v t) (.thermal T' v' t') := by
  simp only [SameField, SeedField.toNum, same_sizeOf h1, same_sizeOf h2, same_thetaOf h3]

theorem same_parseThermal {T T' v v' : PyVal} {t t' : Option PyVal} (h1 : SameVal T T')
    (h2 : SameVal v v') (h3 : SameTheta t t') :
    RelE SameField (parseThermal T v t) (parseThermal T' v' t') := by
  unfold parseThermal
  refine relE_bind (same_validateScalar_pos h1 _) ?_
  intro _ _ _
  rw [same_isZero h2]
  refine relE_bind (relE_eq rfl) ?_
  rintro b _ rfl
  cases b with
  | true => exact same_thermal h1 (same_arT4Of h1) h3
  | false =>
    refine relE_bind (same_validateScalar_pos h2 _) ?_
    intro _ _ _
    exact same_thermal h1 h2 h3


/-- what `flatQ` gives for the same values: the same plain data, or the same array in two units -/
inductive SameFlat : List XR × PhysUnit → List XR × PhysUnit → Prop
  | plain (l) : SameFlat (l, ⟨1, Dim.one⟩) (l, ⟨1, Dim.one⟩)
  | arr {d d' : List ℝ} {u u'} : SameArray ⟨d, u⟩ ⟨d', u'⟩ → SameFlat (d.map fin, u) (d'.map fin, u')

theorem same_flatQ {v v' : PyVal} (h : SameVal v v') : RelE SameFlat (flatQ v) (flatQ v') := by
  cases h with
  | num x => exact .plain _
  | cplx => rfl
  | arr s d => exact .plain _
  | seq s d => exact .plain _
  | @qty x x' u u' h =>
    exact SameFlat.arr (d := [x]) (d' := [x'])
      ⟨h.dim, h.proper, h.proper', by have := h.size; simpa using this⟩
  | qarr s h => exact .arr h

/-- the densities of the same field: proportional numbers, the products with the units agree -/
structure SameDens (d d' : List XR) (u u' : PhysUnit) : Prop where
  dim : u.dim = u'.dim
  len : d.length = d'.length
  conv : ∀ c : ℝ, 0 < c → d.map (fun x => x * fin (u.scale * c)) = d'.map (fun x => x * fin (u'.scale * c))

theorem same_photE0 {d d' : List ℝ} {u u' : PhysUnit} (h : SameArray ⟨d, u⟩ ⟨d', u'⟩) (s s' : List Nat) :
    photE0 (.qarr s (d.map fin) u) = photE0 (.qarr s' (d'.map fin) u') := by
  have k : ∀ l : List ℝ, (l.map fin).mapM asFinite = some l := by
    intro l
    induction l with
    | nil => rfl
    | cons x l ih => simp [asFinite, ih]
  have h1 := h.size
  have h2 := h.dim
  simp only at h1 h2
  simp only [photE0, k, h2]
  have e : ∀ (l : List ℝ) (w : ℝ), l.map (fun r => r * w / cMec2) = (l.map (· * w)).map (· / cMec2) := by
    intro l w; simp only [List.map_map]; rfl
  rw [e, e, h1]

theorem same_photDens {d d' : List XR} {u u' : PhysUnit} (h : SameDens d d' u u') (s s' : List Nat) :
    photDens (.qarr s d u) = photDens (.qarr s' d' u') := by
  have h1 := h.conv cMec2 cMec2_pos
  have h2 := h.conv (1 / cMec2) (by have := cMec2_pos; positivity)
  simp only [mul_one_div] at h2
  simp only [photDens, h.len, h.dim, h1, h2]

theorem sameDens_arr {d d' : List ℝ} {u u' : PhysUnit} (h : SameArray ⟨d, u⟩ ⟨d', u'⟩) :
    SameDens (d.map fin) (d'.map fin) u u' := by
  have h1 := h.size
  have hl := sameArray_length h
  simp only at h1 hl
  refine ⟨h.dim, by simpa using hl, ?_⟩
  intro c _
  have e : ∀ (l : List ℝ) (w : ℝ), (l.map fin).map (fun x => x * fin (w * c)) =
      (l.map (· * w)).map (fun x => fin (x * c)) := by
    intro l w
    simp only [List.map_map]
    apply List.map_congr_left
    intro x _
    simp only [Function.comp_apply, mul_fin, mul_assoc]
  rw [e, e, h1]

theorem div_unit (a b s t c : ℝ) (hs : 0 < s) (ht : 0 < t) (hc : 0 < c) :
    fin a / fin (b ^ 2) * fin (s / t ^ 2 * c) = fin (a * s) / fin ((b * t) ^ 2) * fin c := by
  have h1 : fin (s / t ^ 2 * c) = fin (s / t ^ 2) * fin c := (mul_fin _ _).symm
  have hk : 0 < s / t ^ 2 := by positivity
  rw [h1, ← mul_comm' (fin c), mul_left_swap _ hc, mul_comm' (fin (a * s) / fin ((b * t) ^ 2))]
  congr 1
  show XR.div _ _ * _ = XR.div _ _
  by_cases hb : b = 0
  · subst hb
    have e1 : ((0 : ℝ)) ^ 2 = 0 := by norm_num
    have e2 : ((0 : ℝ) * t) ^ 2 = 0 := by ring
    simp only [XR.div, e1, e2, if_true]
    rw [mul_comm' (infMul a), mul_infMul _ _ hk, mul_comm a s, infMul_scale _ _ hs]
  · have e1 : b ^ 2 ≠ 0 := by positivity
    have e2 : (b * t) ^ 2 ≠ 0 := by positivity
    simp only [XR.div, e1, e2, if_false, mul_fin]
    congr 1
    field_simp

theorem sameDens_div {d d' e e' : List ℝ} {u u' w w' : PhysUnit} (h : SameArray ⟨d, u⟩ ⟨d', u'⟩)
    (h2 : SameArray ⟨e, w⟩ ⟨e', w'⟩) :
    RelE (fun a b => SameDens a.1 b.1 a.2 b.2) (divEnergySq (d.map fin) u (e.map fin) w)
      (divEnergySq (d'.map fin) u' (e'.map fin) w') := by
  have hl := sameArray_length h
  have hl2 := sameArray_length h2
  simp only at hl hl2
  unfold divEnergySq
  simp only [List.length_map]
  by_cases hk : d'.length = e'.length
  · rw [if_pos (by rw [hl, hl2, hk]), if_pos hk]
    simp only [RelE]
    refine ⟨?_, ?_, ?_⟩
    · have := h.dim; have := h2.dim; simp_all
    · simp [hl, hl2]
    · intro c hc
      have key : ∀ (d e : List ℝ) (u w : PhysUnit), 0 < u.scale → 0 < w.scale →
          (List.zipWith (fun a b => a / pow b (fin 2)) (d.map fin) (e.map fin)).map
            (fun x => x * fin (u.scale / w.scale ^ 2 * c)) =
          List.zipWith (fun a b => fin a / fin (b ^ 2) * fin c) (d.map (· * u.scale))
            (e.map (· * w.scale)) := by
        intro d e u w hu hw
        rw [List.map_zipWith, List.zipWith_map, List.zipWith_map]
        congr 1
        funext a b
        rw [pow_fin_two, div_unit _ _ _ _ _ hu hw hc]
      simp only
      rw [key _ _ _ _ h.proper h2.proper, key _ _ _ _ h.proper' h2.proper', h.size, h2.size]
  · rw [if_neg (by rw [hl, hl2]; exact hk), if_neg hk]
    rfl

theorem validateArray_flat (l : List XR) (u : PhysUnit) (dom : Domain) (t : List Dim) :
    validateArray (.qarr [l.length] l u) dom 1 none (some t) =
      if u.dim ∈ t then .ok (.qarr [l.length] l u) else .error .typeError := by
  unfold validateArray validatePhysicalType
  by_cases h : u.dim ∈ t
  · simp [h, bind, Except.bind, pure, Except.pure]
  · simp [h, bind, Except.bind]

/-- processed densities that give the same numbers -/
def SamePhot (v v' : PyVal) : Prop := photDens v = photDens v'

theorem same_parseDensity {d d' e e' : List ℝ} {u u' w w' : PhysUnit} (h : SameArray ⟨d, u⟩ ⟨d', u'⟩)
    (h2 : SameArray ⟨e, w⟩ ⟨e', w'⟩) :
    RelE SamePhot (parseDensity (e.map fin) w (d.map fin) u)
      (parseDensity (e'.map fin) w' (d'.map fin) u') := by
  have hl := sameArray_length h
  have hl2 := sameArray_length h2
  have hd := h.dim
  simp only at hl hl2 hd
  unfold parseDensity
  simp only [List.length_map, hl2, hl, hd]
  by_cases h1 : e'.length = 1
  · rw [if_pos h1, if_pos h1]
    have := same_validateScalar_pos (SameVal.qarr [d'.length] h) [Dim.pressure]
    revert this
    generalize hx : validateScalar (.qarr [d'.length] (d.map fin) u) .positive (some [Dim.pressure]) = x
    generalize hy : validateScalar (.qarr [d'.length] (d'.map fin) u') .positive (some [Dim.pressure]) = y
    intro this
    cases x <;> cases y <;> simp only [RelE] at this ⊢
    · exact this
    · have ex := validateScalar_id _ _ _ _ hx
      have ey := validateScalar_id _ _ _ _ hy
      subst ex; subst ey
      exact same_photDens (sameDens_arr h) _ _
  · rw [if_neg h1, if_neg h1]
    have fin' : ∀ a b : List XR × PhysUnit, SameDens a.1 b.1 a.2 b.2 →
        RelE SamePhot
          (validateArray (.qarr [a.1.length] a.1 a.2) .positive 1 none (some [Dim.diffNumDensity]))
          (validateArray (.qarr [b.1.length] b.1 b.2) .positive 1 none (some [Dim.diffNumDensity])) := by
      intro a b hab
      rw [validateArray_flat, validateArray_flat, hab.dim]
      split
      · exact same_photDens hab _ _
      · rfl
    by_cases hp : u'.dim = Dim.pressure
    · simp only [hp, if_true]
      exact relE_bind (sameDens_div h h2) fin'
    · simp only [hp, if_false]
      exact fin' (_, _) (_, _) (sameDens_arr h)
where
  validateScalar_id (v w : PyVal) (dom : Domain) (t : List Dim)
      (h : validateScalar v dom (some t) = .ok w) : w = v := by
    unfold validateScalar at h
    cases hv : validatePhysicalType v (some t) with
    | error e => rw [hv] at h; cases h
    | ok _ =>
      rw [hv] at h
      simp only [bind, Except.bind, pure, Except.pure] at h
      cases dom <;> simp only at h <;> (repeat' split at h) <;> cases h <;> rfl


theorem parseDensity_plain (e : List XR) (w : PhysUnit) (l : List XR) :
    parseDensity e w l ⟨1, Dim.one⟩ = .error .typeError := by
  have h1 : ¬ (Dim.one = Dim.pressure) := by decide
  have h2 : ¬ (Dim.one ∈ [Dim.pressure]) := by decide
  have h3 : ¬ (Dim.one ∈ [Dim.diffNumDensity]) := by decide
  unfold parseDensity
  by_cases h : e.length = 1
  · rw [if_pos h]
    simp only [validateScalar, validatePhysicalType, h2, if_false, bind, Except.bind]
  · rw [if_neg h]
    simp only [h1, if_false, pure, Except.pure, bind, Except.bind, validateArray_flat, h3]

theorem same_parseArray {T T' v v' : PyVal} {t t' : Option PyVal} (h1 : SameVal T T')
    (h2 : SameVal v v') (h3 : SameTheta t t') :
    RelE SameField (parseArray T v t) (parseArray T' v' t') := by
  unfold parseArray
  refine relE_bind (same_flatQ h1) ?_
  intro a b hab
  refine relE_bind (same_flatQ h2) ?_
  intro c d hcd
  have hone : ¬ (Dim.one ∈ [Dim.energy]) := by decide
  cases hab with
  | plain l =>
    simp only [validateArray_flat, hone, if_false]
    rfl
  | @arr e e' u u' hab =>
    have hd := hab.dim
    simp only at hd
    simp only [validateArray_flat, hd]
    by_cases he : u'.dim ∈ [Dim.energy]
    · simp only [he, if_true, bind, Except.bind]
      cases hcd with
      | plain l => simp only [parseDensity_plain]; rfl
      | @arr x x' w w' hcd =>
        have hp := same_parseDensity hcd hab
        revert hp
        generalize parseDensity (e.map fin) u (x.map fin) w = y
        generalize parseDensity (e'.map fin) u' (x'.map fin) w' = y'
        intro hp
        cases y <;> cases y' <;> simp only [RelE] at hp ⊢
        · exact hp
        · simp only [SamePhot] at hp
          simp only [pure, Except.pure, SameField, SeedField.toNum, same_photE0 hab _ [(e'.map fin).length], hp,
            same_thetaOf h3]
    · simp only [he, if_false]
      rfl

theorem same_unitOf {v v' : PyVal} (h : SameVal v v') :
    RelE (fun u u' => u.dim = u'.dim) (unitOf v) (unitOf v') := by
  cases h with
  | num x => rfl
  | cplx => rfl
  | arr s d => rfl
  | seq s d => rfl
  | qty h => exact h.dim
  | qarr s h => exact h.dim

theorem same_parseList {T T' v v' : PyVal} {t t' : Option PyVal} (h1 : SameVal T T')
    (h2 : SameVal v v') (h3 : SameTheta t t') :
    RelE SameField (parseList T v t) (parseList T' v' t') := by
  have rest : ∀ t t', SameTheta t t' → RelE SameField
      ((unitOf T).bind fun u => if u.dim = Dim.temperature then parseThermal T v t else parseArray T v t)
      ((unitOf T').bind fun u =>
        if u.dim = Dim.temperature then parseThermal T' v' t' else parseArray T' v' t') := by
    intro t t' h3
    refine relE_bind (same_unitOf h1) ?_
    intro u u' hu
    rw [hu]
    split
    · exact same_parseThermal h1 h2 h3
    · exact same_parseArray h1 h2 h3
  unfold parseList
  cases h3 with
  | none => exact rest _ _ .none
  | some h =>
    simp only
    have hv := same_validateScalar_none h [Dim.angle]
    revert hv
    rename_i a a'
    generalize validateScalar a .none (some [Dim.angle]) = x
    generalize validateScalar a' .none (some [Dim.angle]) = x'
    intro hv
    cases x <;> cases x' <;> simp only [RelE] at hv
    · subst hv; rfl
    · exact rest _ _ (.some hv)

theorem same_parseSeed {s s' : SeedSpec} (h : SameSeed s s') :
    RelE (fun a b => a.1 = b.1 ∧ SameField a.2 b.2) (parseSeed s) (parseSeed s') := by
  cases h with
  | str s =>
    exact relE_bind (relE_eq rfl) (fun _ _ h => ⟨rfl, by rw [h]; rfl⟩)
  | list3 n h1 h2 =>
    exact relE_bind (same_parseList h1 h2 .none) (fun _ _ h => ⟨rfl, h⟩)
  | list4 n h1 h2 h3 =>
    exact relE_bind (same_parseList h1 h2 (.some h3)) (fun _ _ h => ⟨rfl, h⟩)
  | listN => rfl
  | other => rfl

/-- dictionaries of fields that give the same numbers under the same names -/
def SameDict : Dict String SeedField → Dict String SeedField → Prop :=
  List.Forall₂ (fun a b => a.1 = b.1 ∧ SameField a.2 b.2)

theorem sameDict_keys {d d' : Dict String SeedField} (h : SameDict d d') : d.keys = d'.keys := by
  unfold Dict.keys
  induction h with
  | nil => rfl
  | cons h _ ih => simp only [List.map_cons, h.1, ih]

theorem sameDict_set {d d' : Dict String SeedField} (h : SameDict d d') (n : String)
    {f f' : SeedField} (hf : SameField f f') : SameDict (d.set n f) (d'.set n f') := by
  have hk := sameDict_keys h
  unfold Dict.set
  rw [hk]
  split
  · rename_i hmem
    clear hk hmem
    unfold SameDict at h ⊢
    induction h with
    | nil => exact .nil
    | @cons a b l l' hab _ ih =>
      simp only [List.map_cons]
      refine .cons ?_ ih
      simp only [hab.1]
      split
      · exact ⟨rfl, hf⟩
      · exact ⟨hab.1, hab.2⟩
  · exact List.rel_append h (.cons ⟨rfl, hf⟩ .nil)

theorem same_parseLoop {l l' : List SeedSpec} (h : List.Forall₂ SameSeed l l') :
    ∀ {d d' : Dict String SeedField}, SameDict d d' →
      RelE SameDict (parseLoop l d) (parseLoop l' d') := by
  induction h with
  | nil => intro d d' hd; exact hd
  | cons hs _ ih =>
    intro d d' hd
    refine relE_bind (same_parseSeed hs) ?_
    rintro ⟨n, f⟩ ⟨n', f'⟩ ⟨hn, hf⟩
    simp only at hn hf
    subst hn
    exact ih (sameDict_set hd n hf)

theorem same_processInputSeed {a a' : SeedsArg} (h : SameSeeds a a') :
    RelE SameDict (processInputSeed a) (processInputSeed a') := by
  cases h with
  | list h => exact same_parseLoop h .nil
  | str s =>
    refine same_parseLoop ?_ .nil
    exact List.forall₂_same.mpr (by
      intro x hx
      obtain ⟨y, _, rfl⟩ := List.mem_map.mp hx
      exact .str y)
  | other => rfl

/-- **C97 (InverseCompton).** The spectrum does not depend on the units of the limits, of the
particle distribution and of the seed photon fields: temperatures, energy densities, photon energies,
photon densities and angles. -/
theorem C97_inverse_compton (m m' : ElModel) (h : SameEl m m') (a a' : SeedsArg) (ha : SameSeeds a a')
    (p p' : PDist) (hp : SameDist p p') (es : List ℝ) :
    icModelSpectrum m a p es = icModelSpectrum m' a' p' es := by
  unfold icModelSpectrum
  have hd := same_processInputSeed ha
  have key : ∀ {d d' : Dict String SeedField}, SameDict d d' →
      d.mapM (fun f => f.2.toNum) = d'.mapM (fun f => f.2.toNum) := by
    intro d d' hdd
    induction hdd with
    | nil => rfl
    | cons hab _ ih =>
      simp only [List.mapM_cons, ih]
      rw [show _ = _ from hab.2]
  revert hd
  generalize processInputSeed a = x
  generalize processInputSeed a' = x'
  intro hd
  cases x <;> cases x' <;> simp only [RelE] at hd
  · subst hd; rfl
  · simp only [bind, Except.bind]
    rw [key hd]
    unfold icSpectrum
    simp only [sameEl_gam h, sameEl_nelec h hp]

/-! ### `flux` and `sed` -/

theorem same_energiesErg {e e' : Qty (List ℝ)} (h : SameArray e e') : energiesErg e = energiesErg e' := by
  unfold energiesErg
  rw [h.dim, h.size]

theorem same_distance {d d' : DistArg} (h : SameDistance d d') :
    d.isZero = d'.isZero ∧ d.cm = d'.cm := by
  cases h with
  | num x => exact ⟨rfl, rfl⟩
  | qty h =>
    refine ⟨?_, ?_⟩
    · simp only [DistArg.isZero, sameQty_zero h]
    · simp only [DistArg.cm, h.dim, h.size]

/-- **C97 (`flux`).** For every radiative model, the flux does not depend on the units in which the
photon energies and the distance are expressed — numbers and unit of the result are the same. -/
theorem C97_flux (spectrum : List ℝ → Except PyErr (List XR)) (e e' : Qty (List ℝ)) (he : SameArray e e')
    (d d' : DistArg) (hd : SameDistance d d') : fluxOf spectrum e d = fluxOf spectrum e' d' := by
  unfold fluxOf
  rw [same_energiesErg he, (same_distance hd).1, (same_distance hd).2]

/-- **C97 (`sed`).** -/
theorem C97_sed (spectrum : List ℝ → Except PyErr (List XR)) (e e' : Qty (List ℝ)) (he : SameArray e e')
    (d d' : DistArg) (hd : SameDistance d d') : sedOf spectrum e d = sedOf spectrum e' d' := by
  unfold sedOf
  rw [same_energiesErg he, (same_distance hd).1, C97_flux spectrum e e' he d d' hd]
  cases energiesErg e' with
  | error x => rfl
  | ok es =>
    cases fluxOf spectrum e' d' with
    | error x => rfl
    | ok fl =>
      simp only [bind, Except.bind]
      unfold Qty.toArr
      generalize (if d'.isZero = true then uPower else uSed) = out
      have hdim : ((fl.unit.mul e.unit).mul e.unit).dim = ((fl.unit.mul e'.unit).mul e'.unit).dim := by
        simp only [PhysUnit.mul, he.dim]
      simp only [hdim]
      split
      · congr 2
        have key : ∀ (l : List ℝ) (u : PhysUnit), 0 < u.scale →
            (List.zipWith (fun f x => f * fin (x ^ 2)) fl.value l).map
              (fun x => x * fin (((fl.unit.mul u).mul u).scale / out.scale)) =
            List.zipWith (fun f x => f * fin (x ^ 2) * fin (fl.unit.scale / out.scale)) fl.value
              (l.map (· * u.scale)) := by
          intro l u hu
          rw [List.map_zipWith, List.zipWith_map_right]
          congr 1
          funext f x
          have e1 : fin (((fl.unit.mul u).mul u).scale / out.scale) =
              fin (u.scale ^ 2) * fin (fl.unit.scale / out.scale) := by
            rw [mul_fin]
            congr 1
            simp only [PhysUnit.mul]
            ring
          have e2 : fin ((x * u.scale) ^ 2) = fin (u.scale ^ 2) * fin (x ^ 2) := by
            rw [mul_fin]; congr 1; ring
          have h2 : 0 < u.scale ^ 2 := by positivity
          rw [e1, e2, mul_left_swap _ h2, mul_left_swap _ h2, scale_mul _ h2]
        rw [key _ _ he.proper, key _ _ he.proper', he.size]
      · rfl

/-! ### concrete cases -/

/-- 1 GeV and 1e9 eV; a field of 30 K and 0.5 eV/cm³ given as 30000 mK and in erg/cm³; a list of
photon energies in eV or in erg; a distribution in 1/erg or in 1/eV. -/
example : SameQty ⟨1, PhysUnit.GeV⟩ ⟨1e9, PhysUnit.eV⟩ ∧
    SameSeeds (.list [.list3 "dust" (.qty (fin 30) kelvin) (.qty (fin 0.5) eVcm3)])
      (.list [.list3 "dust" (.qty (fin 30000) ⟨1e-3, Dim.temperature⟩)
        (.qty (fin 8.01088317e-13) ⟨1, Dim.pressure⟩)]) ∧
    SameArray ⟨[1, 5], PhysUnit.eV⟩ ⟨[1.602176634e-12, 8.01088317e-12], PhysUnit.erg⟩ ∧
    SameDist ⟨⟨1, Dim.diffEnergy⟩, fun e => fin (e ^ 2)⟩
      ⟨⟨1 / 1.602176634e-12, Dim.diffEnergy⟩, fun e => fin (1.602176634e-12 * e ^ 2)⟩ := by
  refine ⟨⟨rfl, ?_, ?_, ?_⟩, ?_, ⟨rfl, ?_, ?_, ?_⟩, ⟨rfl, ?_, ?_, ?_⟩⟩
  · norm_num [PhysUnit.GeV]
  · norm_num [PhysUnit.eV]
  · norm_num [PhysUnit.eV, PhysUnit.GeV]
  · refine .list (.cons (.list3 _ (.qty ⟨rfl, ?_, ?_, ?_⟩) (.qty ⟨rfl, ?_, ?_, ?_⟩)) .nil) <;>
      norm_num [kelvin, eVcm3, cEV]
  · norm_num [PhysUnit.eV]
  · norm_num [PhysUnit.erg]
  · norm_num [PhysUnit.eV, PhysUnit.erg]
  · norm_num
  · norm_num
  · intro e
    simp only [mul_fin]
    congr 1
    norm_num
    ring

/-- A synchrotron model with both sets of units accepts its inputs: the equation of
`C97_synchrotron` is between results, not between errors. -/
example : ∃ l, SyncModel.spectrum ⟨⟨⟨1, PhysUnit.GeV⟩, ⟨510, PhysUnit.TeV⟩, 20⟩, ⟨3.24e-6, gauss⟩⟩
    ⟨⟨1, Dim.diffEnergy⟩, fun e => fin (e ^ 2)⟩ [1] = .ok l := by
  have hg : ∃ g, gamGrid 20 ⟨1, PhysUnit.GeV⟩ ⟨510, PhysUnit.TeV⟩ = .ok g := by
    have h1 : (0 : ℝ) < PhysUnit.GeV.scale / cMec2 := div_pos GeV_pos cMec2_pos
    have h2 : (0 : ℝ) < PhysUnit.TeV.scale / cMec2 := div_pos TeV_pos cMec2_pos
    have d1 : PhysUnit.GeV.dim = Dim.energy := rfl
    have d2 : PhysUnit.TeV.dim = Dim.energy := rfl
    simp only [gamGrid, log10Ratio, d1, d2, if_true, bind, Except.bind, logGrid, gridSize,
      log10_fin _ (by positivity : (0 : ℝ) < 1 * (PhysUnit.GeV.scale / cMec2)),
      log10_fin _ (by positivity : (0 : ℝ) < 510 * (PhysUnit.TeV.scale / cMec2)), sub_fin, mul_fin,
      pyInt, pure, Except.pure]
    exact ⟨_, rfl⟩
  obtain ⟨g, hg⟩ := hg
  have d3 : Dim.diffEnergy = perMec2.dim := rfl
  simp only [SyncModel.spectrum, Qty.toReal, ElModel.nelec, ElModel.gam, hg, nelecOf, PDist.valuesIn, d3,
    if_true, bind, Except.bind, pure, Except.pure]
  exact ⟨_, rfl⟩

end Naima.Props
