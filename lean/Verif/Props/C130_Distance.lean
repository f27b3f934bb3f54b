import Verif.Spec.Distance
import Verif.Props.C07_Flux
import Verif.Proof.Memo
import Verif.Spec.Memo

/-!
# C130: the distance a flux or an SED is for

`flux(E, distance=d)` is for the distance `d` exactly, whatever was asked before.  `sed` passes the distance on by
position, where it enters the cache key with the digits numpy prints: an SED can be that for another distance asked for
before, if the two are printed alike.
-/

namespace Naima.Props

open Naima XR Classical

private theorem split_blank (n n' u u' : PyStr) (h : ' ' ∉ n) (h' : ' ' ∉ n') (he : n ++ ' ' :: u = n' ++ ' ' :: u') :
    n = n' ∧ u = u' := by
  induction n generalizing n' with
  | nil =>
    cases n' with
    | nil => simpa using he
    | cons c n' => simp only [List.nil_append, List.cons_append, List.cons.injEq] at he; exact absurd (he.1 ▸ List.mem_cons_self) h'
  | cons c n ih =>
    cases n' with
    | nil => simp only [List.nil_append, List.cons_append, List.cons.injEq] at he; exact absurd (he.1 ▸ List.mem_cons_self) h
    | cons c' n' =>
      simp only [List.cons_append, List.cons.injEq] at he
      obtain ⟨h1, h2⟩ := ih n' (fun hm => h (List.mem_cons_of_mem _ hm)) (fun hm => h' (List.mem_cons_of_mem _ hm)) he.2
      exact ⟨by rw [he.1, h1], h2⟩

private theorem shown_blank {D : Set (Qty ℝ)} {t : NumText} {uname : PhysUnit → PyStr} (w : Writes D t uname) (x : ℝ) :
    ' ' ∉ t.shown x := by
  unfold NumText.shown
  split
  · exact w.fixed_blank _
  · exact w.sci_blank _

private theorem near_of_same_round {rnd : ℝ → ℤ} (hr : ∀ x, |(rnd x : ℝ) - x| ≤ 1 / 2) (s x y : ℝ) (hs : 0 < s)
    (h : rnd (x * s) = rnd (y * s)) : |x - y| ≤ 1 / s := by
  have hx := abs_le.1 (hr (x * s))
  have hy := abs_le.1 (hr (y * s))
  rw [h] at hx
  rw [le_div_iff₀ hs]
  have e : |x - y| * s = |x * s - y * s| := by rw [← sub_mul, abs_mul, abs_of_pos hs]
  rw [e, abs_le]
  constructor <;> linarith [hx.1, hx.2, hy.1, hy.2]

private theorem sci_near {rnd : ℝ → ℤ} (hr : ∀ x, |(rnd x : ℝ) - x| ≤ 1 / 2) (p : ℕ) (x : ℝ) (hx : 0 < x) :
    |((rnd (x * (10 : ℝ) ^ ((p : ℤ) - ⌊Real.logb 10 x⌋)) : ℚ) / (10 : ℚ) ^ ((p : ℤ) - ⌊Real.logb 10 x⌋) : ℚ) - x|
      ≤ x / 2 / 10 ^ p := by
  set e := ⌊Real.logb 10 x⌋ with he
  have h10 : (0 : ℝ) < (10 : ℝ) ^ ((p : ℤ) - e) := by positivity
  have hle : (10 : ℝ) ^ e ≤ x := by
    have h1 : (e : ℝ) ≤ Real.logb 10 x := Int.floor_le _
    have := (Real.le_logb_iff_rpow_le (by norm_num : (1:ℝ) < 10) hx).1 h1
    rwa [Real.rpow_intCast] at this
  push_cast
  have h2 := hr (x * (10 : ℝ) ^ ((p : ℤ) - e))
  generalize (rnd (x * (10 : ℝ) ^ ((p : ℤ) - e)) : ℝ) = k at h2
  have e1 : k / (10 : ℝ) ^ ((p : ℤ) - e) - x = (k - x * (10 : ℝ) ^ ((p : ℤ) - e)) / (10 : ℝ) ^ ((p : ℤ) - e) := by
    field_simp
  rw [e1, abs_div, abs_of_pos h10, div_le_iff₀ h10]
  have e2 : x / 2 / 10 ^ p * (10 : ℝ) ^ ((p : ℤ) - e) = x / 2 / (10 : ℝ) ^ e := by
    rw [zpow_sub₀ (by norm_num), zpow_natCast]
    field_simp
  rw [e2]
  refine h2.trans ?_
  rw [le_div_iff₀ (by positivity)]
  linarith

/-- Two numbers printed alike are close. -/
private theorem shown_near {D : Set (Qty ℝ)} {t : NumText} {uname : PhysUnit → PyStr} (w : Writes D t uname) (x y : ℝ)
    (hx : 0 < x) (hy : 0 < y) (h : t.shown x = t.shown y) : |y - x| ≤ min (max 1 (2 * x)) (10000 * x) / 10 ^ t.precision := by
  have hp : (0 : ℝ) < 10 ^ t.precision := by positivity
  unfold NumText.shown at h
  by_cases h1 : 1e-4 ≤ x ∧ x < 1e8 <;> by_cases h2 : 1e-4 ≤ y ∧ y < 1e8
  · rw [if_pos h1, if_pos h2] at h
    have h3 := w.fixed_inj h
    have h10 : (10 : ℚ) ^ t.precision ≠ 0 := by positivity
    rw [div_left_inj' h10] at h3
    have := near_of_same_round w.near (10 ^ t.precision) x y hp (by exact_mod_cast h3)
    rw [abs_sub_comm]
    refine this.trans ?_
    gcongr
    refine le_min (le_max_left _ _) ?_
    have := h1.1
    norm_num at this
    linarith
  · rw [if_pos h1, if_neg h2] at h; exact absurd h (w.notation_differs _ _)
  · rw [if_neg h1, if_pos h2] at h; exact absurd h.symm (w.notation_differs _ _)
  · rw [if_neg h1, if_neg h2] at h
    have h3 := w.sci_inj h
    have hx1 := sci_near w.near t.precision x hx
    have hy1 := sci_near w.near t.precision y hy
    rw [← h3] at hy1
    generalize ((t.rnd (x * (10 : ℝ) ^ ((t.precision : ℤ) - ⌊Real.logb 10 x⌋)) : ℚ) /
      (10 : ℚ) ^ ((t.precision : ℤ) - ⌊Real.logb 10 x⌋) : ℚ) = v at hx1 hy1
    have hone : (1 : ℝ) ≤ 10 ^ t.precision := one_le_pow₀ (by norm_num)
    obtain ⟨a1, a2⟩ := abs_le.1 hx1
    obtain ⟨b1, b2⟩ := abs_le.1 hy1
    have ha : x / 2 / 10 ^ t.precision ≤ x / 2 := div_le_self (by positivity) hone
    have hb : y / 2 / 10 ^ t.precision ≤ y / 2 := div_le_self (by positivity) hone
    have hyx : y ≤ 3 * x := by linarith
    have : |y - x| ≤ (x + y) / 2 / 10 ^ t.precision := by
      have e : (x + y) / 2 / 10 ^ t.precision = x / 2 / 10 ^ t.precision + y / 2 / 10 ^ t.precision := by ring
      rw [e, abs_le]; constructor <;> linarith
    refine this.trans ?_
    gcongr
    exact le_min (le_trans (by linarith) (le_max_right _ _)) (by linarith)

/-- What the distance contributes to the key. -/
private noncomputable def distPart (t : NumText) (uname : PhysUnit → PyStr) : DistOp → PyStr
  | .flux => ['0']
  | .fluxAt d => t.full d.value ++ ' ' :: uname d.unit
  | .sedAt d => '0' :: t.args uname d

private theorem token_eq (t : NumText) (uname : PhysUnit → PyStr) (sha : PyStr → PyStr) (r : FluxReq Unit) (o : DistOp) :
    (distReq t uname r o.call).token sha = (sha r.energyBytes ++ r.energyUnit) ++ (distPart t uname o ++
      ((r.modelParams.map PyScalar.str).flatten ++ (r.distParams.map PyScalar.str).flatten)) := by
  cases o <;> simp [FluxReq.token, distReq, DistOp.call, distPart, PyScalar.str]

private theorem kw_pos {D : Set (Qty ℝ)} {t : NumText} {uname : PhysUnit → PyStr} (w : Writes D t uname) (d d' : Qty ℝ) :
    distPart t uname (.sedAt d) ≠ distPart t uname (.fluxAt d') := by
  intro he
  have hs := w.full_some d'.value
  have hb := w.full_bracket d'.value
  simp only [distPart, NumText.args, argsHead] at he
  cases hf : t.full d'.value with
  | nil => exact hs hf
  | cons c l =>
    rw [hf] at he hb
    cases l with
    | nil => simp at he
    | cons c' l =>
      simp only [List.cons_append, List.cons.injEq] at he
      exact hb (by rw [← he.2.1]; simp)

private theorem kw_default {D : Set (Qty ℝ)} {t : NumText} {uname : PhysUnit → PyStr} (w : Writes D t uname) (d : Qty ℝ) :
    distPart t uname (.fluxAt d) ≠ distPart t uname .flux := by
  intro he
  have hl := congrArg List.length he
  have := List.length_pos_iff.2 (w.full_some d.value)
  simp [distPart] at hl
  omega

private theorem pos_default (t : NumText) (uname : PhysUnit → PyStr) (d : Qty ℝ) :
    distPart t uname (.sedAt d) ≠ distPart t uname .flux := by
  intro he
  have hl := congrArg List.length he
  simp [distPart, NumText.args, argsHead] at hl

/-- Two calls with the same key: the same call, or two positional calls with the same unit and numbers printed alike. -/
private theorem same_key {D : Set (Qty ℝ)} {t : NumText} {uname : PhysUnit → PyStr} (w : Writes D t uname) (sha : PyStr → PyStr)
    (r : FluxReq Unit) (o o' : DistOp) (ho : o.Good D) (ho' : o'.Good D)
    (hc : NoCollision sha ((distReq t uname r o.call).token sha) ((distReq t uname r o'.call).token sha))
    (h : distKey t uname sha r o.call = distKey t uname sha r o'.call) :
    o = o' ∨ ∃ d d', o = .sedAt d ∧ o' = .sedAt d' ∧ d.unit = d'.unit ∧ t.shown d.value = t.shown d'.value := by
  have ht := hc h
  rw [token_eq, token_eq] at ht
  have h2 : distPart t uname o = distPart t uname o' := List.append_cancel_right (List.append_cancel_left ht)
  cases o with
  | flux =>
    cases o' with
    | flux => exact .inl rfl
    | fluxAt d' => exact absurd h2.symm (kw_default w d')
    | sedAt d' => exact absurd h2.symm (pos_default t uname d')
  | fluxAt d =>
    cases o' with
    | flux => exact absurd h2 (kw_default w d)
    | fluxAt d' =>
      left
      obtain ⟨h3, h4⟩ := split_blank _ _ _ _ (w.full_blank _) (w.full_blank _) h2
      have h5 := w.full_inj _ ho.1 _ ho'.1 h3
      have h6 := w.uname_inj _ ho.1 _ ho'.1 h4
      cases d; cases d'; simp_all
    | sedAt d' => exact absurd h2.symm (kw_pos w d' d)
  | sedAt d =>
    cases o' with
    | flux => exact absurd h2 (pos_default t uname d)
    | fluxAt d' => exact absurd h2 (kw_pos w d d')
    | sedAt d' =>
      right
      simp only [distPart, NumText.args, List.cons.injEq, true_and, List.append_assoc] at h2
      have h2 := List.append_cancel_left h2
      obtain ⟨h3, h4⟩ := split_blank _ _ _ _ (shown_blank w _) (shown_blank w _) h2
      exact ⟨d, d', rfl, rfl, w.uname_inj _ ho.1 _ ho'.1 (List.append_cancel_right h4), h3⟩

private theorem sed_exact (spectrum : List ℝ → Except PyErr (List XR)) (e : Qty (List ℝ)) (d : Qty ℝ) :
    sedOf spectrum e (.qty d) = (match energiesErg e with
      | .error x => .error x
      | .ok _ => (fluxOf spectrum e (.qty d)).bind (sedFromFlux e d)) := by
  unfold sedOf sedFromFlux
  cases energiesErg e <;> rfl


/-- Everything cached belongs to a request of the history. -/
private theorem step_sound {D : Set (Qty ℝ)} (ops : List DistOp) (t : NumText) (uname : PhysUnit → PyStr) (sha : PyStr → PyStr)
    (r : FluxReq Unit) (spectrum : List ℝ → Except PyErr (List XR)) (e : Qty (List ℝ)) (m : Memo PyStr (Qty (List XR)))
    (hm : m.SoundOn (fun q => ∃ o ∈ ops, q = o.call) (fun q : DistCall => fluxOf spectrum e (.qty q.distance))
      (distKey t uname sha r)) (o : DistOp) (ho : o ∈ ops) :
    (distCall t uname sha r spectrum e m o).2.SoundOn (fun q => ∃ o ∈ ops, q = o.call)
      (fun q : DistCall => fluxOf spectrum e (.qty q.distance)) (distKey t uname sha r) := by
  have h := Memo.call_soundOn (fun q => ∃ o ∈ ops, q = o.call) (fun q : DistCall => fluxOf spectrum e (.qty q.distance))
    (distKey t uname sha r) m true o.call ⟨o, ho, rfl⟩ hm
  cases o with
  | flux => exact h
  | fluxAt d => exact h
  | sedAt d =>
    unfold distCall
    cases energiesErg e with
    | error x => exact hm
    | ok es =>
      simp only
      split
      · rename_i hcall; rw [hcall] at h; exact h
      · rename_i hcall; rw [hcall] at h; exact h

/-- What a call answers: the result of some request of the history with the same key. -/
private theorem call_from (P : DistCall → Prop) (compute : DistCall → Except PyErr (Qty (List XR))) (key : DistCall → PyStr)
    (m : Memo PyStr (Qty (List XR))) (hm : m.SoundOn P compute key) (q : DistCall) (hq : P q) :
    ∃ q', P q' ∧ key q' = key q ∧ (Memo.call compute key m true q).1 = compute q' := by
  unfold Memo.call
  simp only [if_true]
  cases hg : m.cache.get? (key q) with
  | some v =>
    obtain ⟨q', hp, hk, hv⟩ := hm _ _ (Dict.get?_some_mem _ _ _ hg)
    exact ⟨q', hp, hk, hv.symm⟩
  | none =>
    refine ⟨q, hq, rfl, ?_⟩
    cases compute q <;> rfl

private theorem step_answer {D : Set (Qty ℝ)} (ops : List DistOp) (t : NumText) (uname : PhysUnit → PyStr) (w : Writes D t uname)
    (sha : PyStr → PyStr) (r : FluxReq Unit)
    (hc : ∀ o ∈ ops, ∀ o' ∈ ops,
      NoCollision sha ((distReq t uname r o.call).token sha) ((distReq t uname r o'.call).token sha))
    (hg : ∀ o ∈ ops, o.Good D) (spectrum : List ℝ → Except PyErr (List XR)) (e : Qty (List ℝ))
    (m : Memo PyStr (Qty (List XR)))
    (hm : m.SoundOn (fun q => ∃ o ∈ ops, q = o.call) (fun q : DistCall => fluxOf spectrum e (.qty q.distance))
      (distKey t uname sha r)) (o : DistOp) (ho : o ∈ ops) :
    (distCall t uname sha r spectrum e m o).1 = o.exact spectrum e ∨
      ∃ d d', o = .sedAt d ∧ .sedAt d' ∈ ops ∧ d'.unit = d.unit ∧ t.shown d.value = t.shown d'.value ∧
        (distCall t uname sha r spectrum e m o).1 = sedOf spectrum e (.qty d') := by
  obtain ⟨q', ⟨o', ho', rfl⟩, hk, hv⟩ := call_from (fun q => ∃ o ∈ ops, q = o.call)
    (fun q : DistCall => fluxOf spectrum e (.qty q.distance)) (distKey t uname sha r) m hm o.call ⟨o, ho, rfl⟩
  rcases same_key w sha r o' o (hg _ ho') (hg _ ho) (hc _ ho' _ ho) hk with rfl | ⟨d', d, rfl, rfl, hu, hs⟩
  · left
    cases o' with
    | flux => exact hv
    | fluxAt d => exact hv
    | sedAt d =>
      show _ = sedOf spectrum e (.qty d)
      rw [sed_exact]
      unfold distCall
      cases energiesErg e with
      | error x => rfl
      | ok es =>
        simp only
        have hv' : (Memo.call (fun q : DistCall => fluxOf spectrum e (.qty q.distance)) (distKey t uname sha r) m true
          (DistOp.sedAt d).call).1 = fluxOf spectrum e (.qty d) := hv
        rw [← hv']
        split <;> (rename_i hcall; rw [hcall]; rfl)
  · right
    refine ⟨d, d', rfl, ho', hu, hs.symm, ?_⟩
    have hd : d.value ≠ 0 := (hg _ ho).2.1.ne'
    have hd' : d'.value ≠ 0 := (hg _ ho').2.1.ne'
    unfold distCall
    rw [sed_exact]
    have hz : sedFromFlux e d = sedFromFlux e d' := by
      funext fl; simp [sedFromFlux, DistArg.isZero, hd, hd']
    cases energiesErg e with
    | error x => rfl
    | ok es =>
      simp only
      have hv' : (Memo.call (fun q : DistCall => fluxOf spectrum e (.qty q.distance)) (distKey t uname sha r) m true
        (DistOp.sedAt d).call).1 = fluxOf spectrum e (.qty d') := hv
      rw [← hv', ← hz]
      split <;> (rename_i hcall; rw [hcall]; rfl)

private theorem run_answer {D : Set (Qty ℝ)} (ops : List DistOp) (t : NumText) (uname : PhysUnit → PyStr) (w : Writes D t uname)
    (sha : PyStr → PyStr) (r : FluxReq Unit)
    (hc : ∀ o ∈ ops, ∀ o' ∈ ops,
      NoCollision sha ((distReq t uname r o.call).token sha) ((distReq t uname r o'.call).token sha))
    (hg : ∀ o ∈ ops, o.Good D) (spectrum : List ℝ → Except PyErr (List XR)) (e : Qty (List ℝ)) (rest : List DistOp)
    (hr : ∀ o ∈ rest, o ∈ ops) (m : Memo PyStr (Qty (List XR)))
    (hm : m.SoundOn (fun q => ∃ o ∈ ops, q = o.call) (fun q : DistCall => fluxOf spectrum e (.qty q.distance))
      (distKey t uname sha r)) :
    List.Forall₂ (fun o a => a = o.exact spectrum e ∨
      ∃ d d', o = .sedAt d ∧ .sedAt d' ∈ ops ∧ d'.unit = d.unit ∧ t.shown d.value = t.shown d'.value ∧
        a = sedOf spectrum e (.qty d')) rest (distRun t uname sha r spectrum e m rest) := by
  induction rest generalizing m with
  | nil => exact .nil
  | cons o rest ih =>
    have ho : o ∈ ops := hr o List.mem_cons_self
    exact .cons (step_answer ops t uname w sha r hc hg spectrum e m hm o ho)
      (ih (fun o h => hr o (List.mem_cons_of_mem _ h)) _ (step_sound (D := D) ops t uname sha r spectrum e m hm o ho))

/-- **C130 (flux).** In every history of `flux(E)`, `flux(E, distance=d)` and `sed(E, d)` on one object, for the same
energies and parameters, every flux is that for the distance asked for (1 kpc when none is given). -/
theorem C130_flux {D : Set (Qty ℝ)} (ops : List DistOp) (t : NumText) (uname : PhysUnit → PyStr) (w : Writes D t uname)
    (sha : PyStr → PyStr) (r : FluxReq Unit)
    (hc : ∀ o ∈ ops, ∀ o' ∈ ops,
      NoCollision sha ((distReq t uname r o.call).token sha) ((distReq t uname r o'.call).token sha))
    (hg : ∀ o ∈ ops, o.Good D) (spectrum : List ℝ → Except PyErr (List XR)) (e : Qty (List ℝ)) :
    List.Forall₂ (fun o a => (o = .flux → a = fluxOf spectrum e (.qty ⟨1, kpc⟩)) ∧
      ∀ d, o = .fluxAt d → a = fluxOf spectrum e (.qty d)) ops (distRun t uname sha r spectrum e Memo.empty ops) := by
  refine (run_answer ops t uname w sha r hc hg spectrum e ops (fun _ h => h) Memo.empty
    (by intro k v h; simp [Memo.empty] at h)).imp ?_
  rintro o a (h | ⟨d, d', rfl, -⟩)
  · exact ⟨fun ho => by rw [h, ho]; rfl, fun d ho => by rw [h, ho]; rfl⟩
  · exact ⟨fun ho => (by cases ho), fun d ho => (by cases ho)⟩

/-- **C130 (SED), the part that holds.** In every such history every SED is that for a distance asked for in the history,
in the same unit, which differs from the one of the call by at most `10^-p` of the unit or, if that is more, two parts in
`10^p`, and never by more than one part in `10^(p-4)`, `p` being the number of digits numpy prints (8 by default).  Missing: that it is the distance of the call itself. -/
theorem C130_sed_partial {D : Set (Qty ℝ)} (ops : List DistOp) (t : NumText) (uname : PhysUnit → PyStr) (w : Writes D t uname)
    (sha : PyStr → PyStr) (r : FluxReq Unit)
    (hc : ∀ o ∈ ops, ∀ o' ∈ ops,
      NoCollision sha ((distReq t uname r o.call).token sha) ((distReq t uname r o'.call).token sha))
    (hg : ∀ o ∈ ops, o.Good D) (spectrum : List ℝ → Except PyErr (List XR)) (e : Qty (List ℝ)) :
    List.Forall₂ (fun o a => ∀ d, o = .sedAt d → ∃ d', DistOp.sedAt d' ∈ ops ∧ d'.unit = d.unit ∧
        |d'.value - d.value| ≤ min (max 1 (2 * d.value)) (10000 * d.value) / 10 ^ t.precision ∧ a = sedOf spectrum e (.qty d'))
      ops (distRun t uname sha r spectrum e Memo.empty ops) := by
  have h := run_answer ops t uname w sha r hc hg spectrum e ops (fun _ h => h) Memo.empty
    (by intro k v h; simp [Memo.empty] at h)
  have hmem : List.Forall₂ (fun o _ => o ∈ ops) ops (distRun t uname sha r spectrum e Memo.empty ops) := by
    rw [List.forall₂_iff_get] at h ⊢
    exact ⟨h.1, fun i hi _ => List.get_mem _ _⟩
  rw [List.forall₂_iff_get] at h hmem ⊢
  refine ⟨h.1, fun i h1 h2 d hd => ?_⟩
  have hm := hmem.2 i h1 h2
  have hpos : 0 < d.value := by
    have := hg _ hm
    rw [hd] at this
    exact this.2.1
  rcases h.2 i h1 h2 with ha | ⟨d0, d', ho, hm', hu, hs, ha⟩
  · refine ⟨d, hd ▸ hm, rfl, by
      simp only [sub_self, abs_zero]
      exact div_nonneg (le_min (le_trans zero_le_one (le_max_left _ _)) (by linarith)) (by positivity), ?_⟩
    rw [ha, hd]; rfl
  · have : d0 = d := by rw [hd] at ho; cases ho; rfl
    subst this
    exact ⟨d', hm', hu, shown_near w _ _ hpos (hg _ hm').2.1 hs, ha⟩

/-- The SED of a source with luminosities `L`: `L E² / (4 π d²)`. -/
private theorem sed_value (spectrum : List ℝ → Except PyErr (List XR)) (e : Qty (List ℝ))
    (he : e.unit.dim = Dim.energy) (hu : 0 < e.unit.scale) (L : List ℝ) (hL : spectrum (energyPhys e) = .ok (L.map fin))
    (d : Qty ℝ) (hd : d.unit.dim = Dim.length) (hs : 0 < d.unit.scale) (h0 : 0 < d.value) :
    sedOf spectrum e (.qty d) = .ok ⟨List.zipWith (fun l E => fin (l * (E ^ 2 / cEV) / (4 * Real.pi * d.phys ^ 2))) L (energyPhys e),
      uSed⟩ := by
  rw [C07_sed spectrum e he hu (.qty d) _ (C07_flux_inverse_square spectrum e he _ hL d hd h0.ne')]
  have hp : (4 * Real.pi * d.phys ^ 2) ≠ 0 := by
    have : 0 < d.phys := mul_pos h0 hs
    positivity
  have hz : (DistArg.qty d).isZero = false := by simp [DistArg.isZero, h0.ne']
  simp only [hz, Bool.false_eq_true, if_false, List.map_map, List.zipWith_map_left]
  congr 3
  funext l E
  simp only [Function.comp]
  rw [XR.div_fin _ _ hp, XR.mul_fin]
  congr 1; ring

/-- **C130 (SED, how wrong it can be).** With the default print options, for a source of finite luminosities, each number of
each SED of such a history is the right one times one factor, which differs from 1 by at most `3·10⁻⁴`, and by at most
`5·10⁻⁸` when the distance is at least one unit. -/
theorem C130_sed_value_partial {D : Set (Qty ℝ)} (ops : List DistOp) (t : NumText) (ht : t.precision = 8)
    (uname : PhysUnit → PyStr) (w : Writes D t uname) (sha : PyStr → PyStr) (r : FluxReq Unit)
    (hc : ∀ o ∈ ops, ∀ o' ∈ ops,
      NoCollision sha ((distReq t uname r o.call).token sha) ((distReq t uname r o'.call).token sha))
    (hg : ∀ o ∈ ops, o.Good D) (hs : ∀ d, DistOp.sedAt d ∈ ops → 0 < d.unit.scale)
    (spectrum : List ℝ → Except PyErr (List XR)) (e : Qty (List ℝ)) (he : e.unit.dim = Dim.energy)
    (hu : 0 < e.unit.scale) (L : List ℝ) (hL : spectrum (energyPhys e) = .ok (L.map fin)) :
    List.Forall₂ (fun o a => ∀ d, o = .sedAt d → ∃ (F : List ℝ) (q : ℝ),
        sedOf spectrum e (.qty d) = .ok ⟨F.map fin, uSed⟩ ∧ a = .ok ⟨(F.map (fun x => x * q)).map fin, uSed⟩ ∧
        |q - 1| ≤ 3e-4 ∧ (1 ≤ d.value → |q - 1| ≤ 5e-8))
      ops (distRun t uname sha r spectrum e Memo.empty ops) := by
  have h := C130_sed_partial ops t uname w sha r hc hg spectrum e
  have hmem : List.Forall₂ (fun o _ => o ∈ ops) ops (distRun t uname sha r spectrum e Memo.empty ops) := by
    rw [List.forall₂_iff_get] at h ⊢
    exact ⟨h.1, fun i hi _ => List.get_mem _ _⟩
  rw [List.forall₂_iff_get] at h hmem ⊢
  refine ⟨h.1, fun i h1 h2 d hd => ?_⟩
  have hm : DistOp.sedAt d ∈ ops := hd ▸ hmem.2 i h1 h2
  obtain ⟨d', hm', hunit, hnear, ha⟩ := h.2 i h1 h2 d hd
  have hd0 := hg _ hm
  have hd1 := hg _ hm'
  have p0 : 0 < d.value := hd0.2.1
  have p1 : 0 < d'.value := hd1.2.1
  rw [ht] at hnear
  have hk : ∃ k : ℝ, d.value = k := ⟨_, rfl⟩
  refine ⟨List.zipWith (fun l E => l * (E ^ 2 / cEV) / (4 * Real.pi * d.phys ^ 2)) L (energyPhys e),
    (d.value / d'.value) ^ 2, ?_, ?_, ?_, ?_⟩
  · rw [sed_value spectrum e he hu L hL d hd0.2.2 (hs _ hm) p0, List.map_zipWith]
  · rw [ha, sed_value spectrum e he hu L hL d' hd1.2.2 (hs _ hm') p1, List.map_map, List.map_zipWith]
    congr 3
    funext l E
    simp only [Function.comp]
    congr 1
    have hsc := hs _ hm
    simp only [Qty.phys, hunit]
    field_simp
  · have hb : |d'.value - d.value| ≤ 1e-4 * d.value := by
      refine hnear.trans ?_
      have : min (max 1 (2 * d.value)) (10000 * d.value) ≤ 10000 * d.value := min_le_right _ _
      rw [div_le_iff₀ (by positivity)]
      linarith
    obtain ⟨b1, b2⟩ := abs_le.1 hb
    have hq1 : d.value / d'.value ≤ 1 / (1 - 1e-4) := by
      rw [div_le_div_iff₀ p1 (by norm_num)]; linarith
    have hq2 : 1 / (1 + 1e-4) ≤ d.value / d'.value := by
      rw [div_le_div_iff₀ (by norm_num) p1]; linarith
    generalize d.value / d'.value = x at hq1 hq2
    rw [abs_le]
    norm_num at hq1 hq2 ⊢
    constructor <;> nlinarith
  · intro hone
    have hb : |d'.value - d.value| ≤ 2e-8 * d.value := by
      refine hnear.trans ?_
      have : min (max 1 (2 * d.value)) (10000 * d.value) ≤ 2 * d.value :=
        (min_le_left _ _).trans (max_le (by linarith) le_rfl)
      rw [div_le_iff₀ (by positivity)]
      linarith
    obtain ⟨b1, b2⟩ := abs_le.1 hb
    have hq1 : d.value / d'.value ≤ 1 / (1 - 2e-8) := by
      rw [div_le_div_iff₀ p1 (by norm_num)]; linarith
    have hq2 : 1 / (1 + 2e-8) ≤ d.value / d'.value := by
      rw [div_le_div_iff₀ (by norm_num) p1]; linarith
    generalize d.value / d'.value = x at hq1 hq2
    rw [abs_le]
    norm_num at hq1 hq2 ⊢
    constructor <;> nlinarith

/-- **C130 (negation: the SED is for another distance).** Ask a new object for the SED at 1 kpc and then at `1 + 0.4·10^-p`
kpc, `p` being the number of digits numpy prints: both answers are the SED at 1 kpc.  With `numpy.set_printoptions(precision=0)`
that is the SED at 1 kpc instead of the one at 1.4 kpc, which is smaller by a factor 1.96. -/
theorem C130_false_sed (t : NumText) (hr : ∀ x, |(t.rnd x : ℝ) - x| ≤ 1 / 2) (uname : PhysUnit → PyStr)
    (sha : PyStr → PyStr) (r : FluxReq Unit) (spectrum : List ℝ → Except PyErr (List XR)) (e : Qty (List ℝ))
    (he : e.unit.dim = Dim.energy) (hu : 0 < e.unit.scale) (L : List ℝ) (hL : spectrum (energyPhys e) = .ok (L.map fin)) :
    ∃ F : List ℝ, F = List.zipWith (fun l E => l * (E ^ 2 / cEV) / (4 * Real.pi * kpc.scale ^ 2)) L (energyPhys e) ∧
      distRun t uname sha r spectrum e Memo.empty [.sedAt ⟨1, kpc⟩, .sedAt ⟨1 + 0.4 / 10 ^ t.precision, kpc⟩] =
        [.ok ⟨F.map fin, uSed⟩, .ok ⟨F.map fin, uSed⟩] ∧
      sedOf spectrum e (.qty ⟨1 + 0.4 / 10 ^ t.precision, kpc⟩) =
        .ok ⟨(F.map (fun x => x / (1 + 0.4 / 10 ^ t.precision) ^ 2)).map fin, uSed⟩ := by
  have hp : (0 : ℝ) < 10 ^ t.precision := by positivity
  have hone : (1 : ℝ) ≤ 10 ^ t.precision := one_le_pow₀ (by norm_num)
  have hks : 0 < kpc.scale := by simp only [kpc]; norm_num
  set x' : ℝ := 1 + 0.4 / 10 ^ t.precision with hx'
  have hq : (0.4 : ℝ) / 10 ^ t.precision ≤ 0.4 := div_le_self (by norm_num) hone
  have hq0 : (0 : ℝ) < 0.4 / 10 ^ t.precision := by positivity
  have hx0 : 0 < x' := by linarith
  -- both numbers are printed alike
  have hsh : t.shown x' = t.shown 1 := by
    have r1 : ((t.rnd (1 * 10 ^ t.precision) : ℤ) : ℝ) = 10 ^ t.precision := by
      have h1 := hr (1 * 10 ^ t.precision)
      have : t.rnd (1 * 10 ^ t.precision) = 10 ^ t.precision := by
        rw [abs_le] at h1
        have a : ((t.rnd (1 * 10 ^ t.precision) - 10 ^ t.precision : ℤ) : ℝ) < 1 := by push_cast; linarith [h1.2]
        have b : (-1 : ℝ) < ((t.rnd (1 * 10 ^ t.precision) - 10 ^ t.precision : ℤ) : ℝ) := by push_cast; linarith [h1.1]
        have a' : t.rnd (1 * 10 ^ t.precision) - 10 ^ t.precision < 1 := by exact_mod_cast a
        have b' : -1 < t.rnd (1 * 10 ^ t.precision) - 10 ^ t.precision := by exact_mod_cast b
        omega
      rw [this]; push_cast; rfl
    have r2 : t.rnd (x' * 10 ^ t.precision) = t.rnd (1 * 10 ^ t.precision) := by
      have h1 := hr (x' * 10 ^ t.precision)
      have e1 : x' * 10 ^ t.precision = 10 ^ t.precision + 0.4 := by rw [hx', add_mul, div_mul_cancel₀ _ hp.ne', one_mul]
      rw [e1] at h1 ⊢
      have h2 : t.rnd (1 * 10 ^ t.precision) = 10 ^ t.precision := by exact_mod_cast r1
      rw [h2]
      rw [abs_le] at h1
      have a : ((t.rnd (10 ^ t.precision + 0.4) - 10 ^ t.precision : ℤ) : ℝ) < 1 := by push_cast; linarith [h1.2]
      have b : (-1 : ℝ) < ((t.rnd (10 ^ t.precision + 0.4) - 10 ^ t.precision : ℤ) : ℝ) := by push_cast; linarith [h1.1]
      have a' : t.rnd (10 ^ t.precision + 0.4) - 10 ^ t.precision < 1 := by exact_mod_cast a
      have b' : -1 < t.rnd (10 ^ t.precision + 0.4) - 10 ^ t.precision := by exact_mod_cast b
      omega
    unfold NumText.shown
    rw [if_pos ⟨by linarith, by linarith⟩, if_pos ⟨by norm_num, by norm_num⟩, r2]
  have hkey : distKey t uname sha r (DistOp.sedAt ⟨x', kpc⟩).call = distKey t uname sha r (DistOp.sedAt ⟨1, kpc⟩).call := by
    simp only [distKey, FluxReq.key, FluxReq.token, distReq, DistOp.call, NumText.args, hsh]
  have hdim : kpc.dim = Dim.length := rfl
  have s1 := sed_value spectrum e he hu L hL ⟨1, kpc⟩ hdim hks one_pos
  have s2 := sed_value spectrum e he hu L hL ⟨x', kpc⟩ hdim hks hx0
  have p1 : (⟨1, kpc⟩ : Qty ℝ).phys = kpc.scale := by simp [Qty.phys]
  have p2 : (⟨x', kpc⟩ : Qty ℝ).phys = x' * kpc.scale := by simp [Qty.phys]
  rw [p1] at s1
  rw [p2] at s2
  refine ⟨_, rfl, ?_, ?_⟩
  · have hf := C07_flux_inverse_square spectrum e he _ hL ⟨1, kpc⟩ hdim one_ne_zero
    have hz : sedFromFlux e ⟨x', kpc⟩ = sedFromFlux e ⟨1, kpc⟩ := by
      funext fl; simp [sedFromFlux, DistArg.isZero, hx0.ne']
    have hee : energiesErg e = .ok (e.value.map (· * e.unit.scale)) := if_pos he
    rw [sed_exact, hee] at s1
    simp only [hf] at s1
    simp only [distRun, distCall, hee, Memo.call, if_true, Memo.empty, Dict.get?, Memo.store, Dict.set, Dict.keys,
      hkey]
    rw [show (DistOp.sedAt ⟨1, kpc⟩ : DistOp).call.distance = ⟨1, kpc⟩ from rfl, hf]
    simp [hkey, hz, Except.bind] at s1 ⊢
    rw [s1]
  · rw [s2, List.map_map, List.map_zipWith]
    congr 3
    funext l E
    simp only [Function.comp]
    congr 1
    field_simp

/-! ## The hypotheses are met -/

/-- A way of writing numbers, with any number of digits, that meets the assumptions for all distances of a rational number
of kpc. -/
theorem C130_writes_exists (p : ℕ) : ∃ (t : NumText) (uname : PhysUnit → PyStr), t.precision = p ∧
    Writes (Set.range (fun q : ℚ => (⟨(q : ℝ), kpc⟩ : Qty ℝ))) t uname := by
  let code : Char → ℚ → PyStr := fun c q => c :: List.replicate (Encodable.encode q) '1'
  have hcode : ∀ c, Function.Injective (code c) := by
    intro c a b h
    have := congrArg List.length h
    simp only [code, List.length_cons, List.length_replicate, Nat.add_right_cancel_iff] at this
    exact Encodable.encode_injective this
  have hmem : ∀ c q x, x ∈ code c q → x = c ∨ x = '1' := by
    intro c q x h
    simp only [code, List.mem_cons, List.mem_replicate] at h
    exact h.imp id And.right
  let t : NumText := ⟨p, round, code 'f', code 's',
    fun x => if h : ∃ q : ℚ, (q : ℝ) = x then code 'g' h.choose else code 'g' 0⟩
  have hfull : ∀ x, ∃ q, t.full x = code 'g' q := by
    intro x
    simp only [t]
    split
    · exact ⟨_, rfl⟩
    · exact ⟨_, rfl⟩
  refine ⟨t, fun _ => ['k', 'p', 'c'], rfl, ?_⟩
  refine ⟨fun x => by rw [abs_sub_comm]; exact abs_sub_round x, hcode 'f', hcode 's', ?_, ?_, ?_, ?_, ?_, ?_, ?_, ?_⟩
  · intro a b h
    simp only [t, code, List.cons.injEq] at h
    exact absurd h.1 (by decide)
  · rintro _ ⟨a, rfl⟩ _ ⟨b, rfl⟩ h
    have ha : ∃ q : ℚ, (q : ℝ) = (a : ℝ) := ⟨a, rfl⟩
    have hb : ∃ q : ℚ, (q : ℝ) = (b : ℝ) := ⟨b, rfl⟩
    simp only [t] at h
    rw [dif_pos ha, dif_pos hb] at h
    have := hcode _ h
    simp only
    rw [← ha.choose_spec, ← hb.choose_spec, this]
  · rintro _ ⟨a, rfl⟩ _ ⟨b, rfl⟩ -; rfl
  · intro a h; rcases hmem _ _ _ h with h | h <;> exact absurd h (by decide)
  · intro a h; rcases hmem _ _ _ h with h | h <;> exact absurd h (by decide)
  · intro x h; obtain ⟨q, hq⟩ := hfull x; rw [hq] at h; rcases hmem _ _ _ h with h | h <;> exact absurd h (by decide)
  · intro x h; obtain ⟨q, hq⟩ := hfull x; rw [hq] at h; rcases hmem _ _ _ h with h | h <;> exact absurd h (by decide)
  · intro x h; obtain ⟨q, hq⟩ := hfull x; rw [hq] at h; simp [code] at h

/-- A history that meets the hypotheses of `C130_flux` and `C130_sed_partial`. -/
example : ∃ (t : NumText) (uname : PhysUnit → PyStr) (sha : PyStr → PyStr) (r : FluxReq Unit) (ops : List DistOp),
    t.precision = 8 ∧ Writes (Set.range (fun q : ℚ => (⟨(q : ℝ), kpc⟩ : Qty ℝ))) t uname ∧ ops.length = 4 ∧
    (∀ o ∈ ops, ∀ o' ∈ ops,
      NoCollision sha ((distReq t uname r o.call).token sha) ((distReq t uname r o'.call).token sha)) ∧
    ∀ o ∈ ops, o.Good (Set.range (fun q : ℚ => (⟨(q : ℝ), kpc⟩ : Qty ℝ))) := by
  obtain ⟨t, uname, hp, w⟩ := C130_writes_exists 8
  refine ⟨t, uname, id, ⟨[], [], none, none, [], [], ()⟩,
    [.flux, .fluxAt ⟨2, kpc⟩, .sedAt ⟨2, kpc⟩, .sedAt ⟨(5 / 2 : ℚ), kpc⟩], hp, w, rfl, fun _ _ _ _ h => h, ?_⟩
  intro o ho
  simp only [List.mem_cons, List.not_mem_nil, or_false] at ho
  rcases ho with rfl | rfl | rfl | rfl
  · trivial
  · exact ⟨⟨2, by simp⟩, by norm_num, rfl⟩
  · exact ⟨⟨2, by simp⟩, by norm_num, rfl⟩
  · exact ⟨⟨5 / 2, rfl⟩, by norm_num, rfl⟩

end Naima.Props
