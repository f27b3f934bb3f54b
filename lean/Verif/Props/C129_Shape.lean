import Verif.Model.EneKey
import Verif.Props.C94_EneArg
import Verif.Props.C01_C04_Memo
import Verif.Props.C15_ICKernel

/-!
# C129: the shape of the photon energies and the cache

"What `flux` and `sed` return, or whether they raise, for photon energies of a given shape does not depend on what was
asked before."  False: the cache key holds the numbers of the energies but not their shape.
-/

namespace Naima.Props

open XR Naima

variable {κ ρ : Type} [DecidableEq κ]

private theorem isQ_val {v : PyVal} (h : IsEnergy v) : hasValue (.val v) = .ok v ∧ validateEne (.val v) = .ok v := by
  rcases h with ⟨x, u, rfl, h⟩ | ⟨s, d, u, rfl, h⟩ <;>
    simp [hasValue, validateEne, quantityOf, validatePhysicalType, h]

private theorem call_val (body : PyVal → Except PyErr ρ) (key : PyVal → κ) (m : Memo κ ρ) {v : PyVal} (h : IsEnergy v) :
    energyCall body key m true (.val v) = Memo.call (fun v => (validateEne (.val v)).bind body) key m true v := by
  simp [energyCall, memoEnergy, (isQ_val h).1]

private theorem first_call (body : PyVal → Except PyErr ρ) (key : PyVal → κ) {v : PyVal} (h : IsEnergy v) {a : ρ}
    (hb : body v = .ok a) :
    energyCall body key Memo.empty true (.val v) = (.ok a, (Memo.empty : Memo κ ρ).store (key v) a) := by
  rw [call_val _ _ _ h]
  simp [Memo.call, Memo.empty, Dict.get?, (isQ_val h).2, Except.bind, hb]

private theorem second_call (body : PyVal → Except PyErr ρ) (key : PyVal → κ) {v v' : PyVal} (h' : IsEnergy v')
    (a : ρ) (hk : key v' = key v) :
    energyCall body key ((Memo.empty : Memo κ ρ).store (key v) a) true (.val v') =
      (.ok a, (Memo.empty : Memo κ ρ).store (key v) a) := by
  rw [call_val _ _ _ h']
  simp [Memo.call, Memo.empty, Memo.store, Dict.set, Dict.keys, Dict.get?, hk]

/-- The same numbers in the same unit have the same cache key, whatever their shapes: scalar, array, matrix. -/
theorem C129_same_key (enc : XR → PyStr) (uname : PhysUnit → PyStr) (sha : PyStr → PyStr) (r : FluxReq Unit)
    (v v' : PyVal) (hd : eneData v = eneData v') (hu : eneUnit v = eneUnit v') :
    eneKey enc uname sha r v = eneKey enc uname sha r v' := by
  simp [eneKey, FluxReq.key, FluxReq.token, eneReq, eneBytes, hd, hu]

/-- **C129 (negation: any shape).** After a request that succeeds, a request for the same energies in any other shape
returns the result of the first, in the shape of the first, whatever the code would give for the second shape, even where
it would raise. -/
theorem C129_false_other_shape (body : PyVal → Except PyErr ρ) (enc : XR → PyStr) (uname : PhysUnit → PyStr)
    (sha : PyStr → PyStr) (r : FluxReq Unit) (s s' : List ℕ) (d : List XR) (u : PhysUnit)
    (hu : u.dim = Dim.energy) (a : ρ) (ha : body (.qarr s d u) = .ok a) :
    (energyRun body (eneKey enc uname sha r) Memo.empty
      [(true, .val (.qarr s d u)), (true, .val (.qarr s' d u))]).1 = [.ok a, .ok a] ∧
    (energyRun body (eneKey enc uname sha r) Memo.empty [(true, .val (.qarr s' d u))]).1 = [body (.qarr s' d u)] := by
  have h1 : IsEnergy (.qarr s d u) := Or.inr ⟨_, _, _, rfl, hu⟩
  have h2 : IsEnergy (.qarr s' d u) := Or.inr ⟨_, _, _, rfl, hu⟩
  constructor
  · simp only [energyRun, first_call body _ h1 ha]
    rw [second_call body _ (v := .qarr s d u) h2 a (C129_same_key enc uname sha r _ _ rfl rfl)]
  · simp only [energyRun]
    rw [call_val _ _ _ h2]
    simp only [Memo.call, Memo.empty, Dict.get?, (isQ_val h2).2, Except.bind]
    cases body (.qarr s' d u) <;> rfl

/-- **C129 (negation: a single energy).** A bare photon energy, which makes `InverseCompton.flux` raise on a new object,
gives the one-element array of an earlier request for that energy in an array. -/
theorem C129_false_scalar (m : ElModel) (seeds : List SeedNum) (pd : PDist)
    (deep : PyVal → Except PyErr (List ℕ × List XR)) (enc : XR → PyStr) (uname : PhysUnit → PyStr)
    (sha : PyStr → PyStr) (r : FluxReq Unit) (e : ℝ) (u : PhysUnit) (hu : u.dim = Dim.energy) (l : List XR)
    (hl : icSpectrum m seeds pd [e * u.scale] = .ok l) :
    (∃ err, (energyRun (icBody m seeds pd deep) (eneKey enc uname sha r) Memo.empty
      [(true, .val (.qty (fin e) u))]).1 = [.error err]) ∧
    (energyRun (icBody m seeds pd deep) (eneKey enc uname sha r) Memo.empty
      [(true, .val (.qarr [1] [fin e] u)), (true, .val (.qty (fin e) u))]).1 = [.ok ([1], l), .ok ([1], l)] := by
  have h1 : IsEnergy (.qarr [1] [fin e] u) := Or.inr ⟨_, _, _, rfl, hu⟩
  have h2 : IsEnergy (.qty (fin e) u) := Or.inl ⟨_, _, rfl, hu⟩
  have hb : icBody m seeds pd deep (.qarr [1] [fin e] u) = .ok ([1], l) := by
    simp [icBody, icSpectrumReq, eneUnit, hl, Except.map]
  constructor
  · obtain ⟨x, hx⟩ := C12_false_ic_scalar m seeds pd (e * u.scale)
    refine ⟨x, ?_⟩
    simp only [energyRun]
    rw [call_val _ _ _ h2]
    simp [Memo.call, Memo.empty, Dict.get?, (isQ_val h2).2, Except.bind, icBody, eneUnit, hx, Except.map]
  · simp only [energyRun, first_call _ _ h1 hb]
    rw [second_call _ _ (v := .qarr [1] [fin e] u) h2 _ (C129_same_key enc uname sha r _ _ rfl rfl)]

private theorem outer (n : ℕ) (F E : List XR) :
    bcastMul ([n], F) ([n, 1], E) = .ok ([n, n], (List.range (n * n)).map (fun i : ℕ =>
      F.getD (i % n) nan * E.getD (i / n) nan)) := by
  have hs : bcastShape [n] [1, n] = .ok [n, n] := by
    by_cases h : n = 1
    · subst h; rfl
    · simp [bcastShape, h]
  simp only [bcastMul, List.reverse_cons, List.reverse_nil, List.nil_append, List.cons_append, hs]
  have hp : [n, n].prod = n * n := by simp
  rw [hp]
  congr 2
  apply List.map_congr_left
  intro i hi
  have hi' : i < n * n := by simpa using hi
  have hn : 0 < n := by
    rcases Nat.eq_zero_or_pos n with h | h
    · subst h; simp at hi'
    · exact h
  have h1 : bcastIndex [n, n] [n] i = i % n := by
    by_cases h : n = 1
    · subst h; simp [bcastIndex, Nat.mod_one]
    · simp [bcastIndex, h]
  have h2 : bcastIndex [n, n] [1, n] i = i / n := by
    have hd : i / n < n := Nat.div_lt_of_lt_mul hi'
    by_cases h : n = 1
    · subst h
      have : i = 0 := by omega
      subst this
      simp [bcastIndex]
    · simp [bcastIndex, h, Nat.mod_eq_of_lt hd]
  rw [h1, h2]

/-- **C129 (negation: SED of a column).** After the SED of `n` energies in a row, `sed` of the same energies in a column
is an `n × n` matrix, in which the flux at each energy is multiplied by the square of every energy: entry `(i, j)` is
`F(E_j) E_i²`. -/
theorem C129_false_column (body : PyVal → Except PyErr (List ℕ × List XR)) (enc : XR → PyStr)
    (uname : PhysUnit → PyStr) (sha : PyStr → PyStr) (r : FluxReq Unit) (k : ℝ) (E F : List XR) (u : PhysUnit)
    (hu : u.dim = Dim.energy) (hF : F.length = E.length) (hb : body (.qarr [E.length] E u) = .ok ([E.length], F))
    (m : Memo PyStr (List ℕ × List XR))
    (hm : m = (energySed body (eneKey enc uname sha r) (sedFinish k) Memo.empty true
      (.val (.qarr [E.length] E u))).2) :
    ∃ out, (energySed body (eneKey enc uname sha r) (sedFinish k) m true
        (.val (.qarr [E.length, 1] E u))).1 = .ok ([E.length, E.length], out) ∧
      out.length = E.length * E.length ∧
      ∀ (i j : ℕ) (hi : i < E.length) (hj : j < E.length),
        out[i * E.length + j]? = some (F[j]'(hF ▸ hj) * (E[i] * E[i]) * fin k) := by
  have h1 : IsEnergy (.qarr [E.length] E u) := Or.inr ⟨_, _, _, rfl, hu⟩
  have h2 : IsEnergy (.qarr [E.length, 1] E u) := Or.inr ⟨_, _, _, rfl, hu⟩
  have hm' : m = (Memo.empty : Memo PyStr (List ℕ × List XR)).store
      (eneKey enc uname sha r (.qarr [E.length] E u)) ([E.length], F) := by
    rw [hm]
    simp only [energySed, (isQ_val h1).2, first_call body _ h1 hb]
  subst hm'
  simp only [energySed, (isQ_val h2).2,
    second_call body _ h2 _ (C129_same_key enc uname sha r (.qarr [E.length, 1] E u) (.qarr [E.length] E u) rfl rfl),
    sedFinish, eneShape, eneData, outer]
  refine ⟨_, rfl, by simp, ?_⟩
  intro i j hi hj
  have hlt : i * E.length + j < E.length * E.length := by nlinarith
  have hmod : (i * E.length + j) % E.length = j := by
    rw [Nat.add_comm, Nat.add_mul_mod_self_right, Nat.mod_eq_of_lt hj]
  have hdiv : (i * E.length + j) / E.length = i := by
    rw [Nat.add_comm, Nat.add_mul_div_right _ _ (by omega), Nat.div_eq_of_lt hj, Nat.zero_add]
  simp [List.getElem?_map, List.getElem?_range hlt, hmod, hdiv, List.getD_eq_getElem?_getD, hi, hF ▸ hj]

/-! ## Where the shapes do not conflict -/

private theorem flatten_inj (enc : XR → PyStr) (h8 : ∀ x, (enc x).length = 8) :
    ∀ (l l' : List XR), (∀ x ∈ l, ∀ y ∈ l', enc x = enc y → x = y) →
      (l.map enc).flatten = (l'.map enc).flatten → l = l' := by
  intro l
  induction l with
  | nil =>
    intro l' _ h
    cases l' with
    | nil => rfl
    | cons y l' =>
      have := congrArg List.length h
      simp [h8] at this
      omega
  | cons x l ih =>
    intro l' hi h
    cases l' with
    | nil =>
      have := congrArg List.length h
      simp [h8] at this
    | cons y l' =>
      simp only [List.map_cons, List.flatten_cons] at h
      obtain ⟨h1, h2⟩ := List.append_inj h (by simp [h8])
      rw [hi x (by simp) y (by simp) h1,
        ih l' (fun a ha b hb => hi a (by simp [ha]) b (by simp [hb])) h2]

/-- A well-formed Quantity: a scalar, or an array of at least one axis (numpy makes a scalar of the others). -/
def Shaped (v : PyVal) : Prop := (∃ x u, v = .qty x u) ∨ ∃ n s d u, v = .qarr (n :: s) d u

/-- What the cache key separates: with equal keys the numbers and the unit are equal, and so is all if the shape is. -/
theorem C129_key_partial (enc : XR → PyStr) (uname : PhysUnit → PyStr) (sha : PyStr → PyStr) (r : FluxReq Unit)
    (v v' : PyVal) (h8 : ∀ x, (enc x).length = 8) (h64 : ∀ x, (sha x).length = 64)
    (henc : ∀ x ∈ eneData v, ∀ y ∈ eneData v', enc x = enc y → x = y)
    (hun : uname (eneUnit v) = uname (eneUnit v') → eneUnit v = eneUnit v')
    (hc1 : NoCollision sha (eneBytes enc v) (eneBytes enc v'))
    (hc2 : NoCollision sha ((eneReq enc uname r v).token sha) ((eneReq enc uname r v').token sha))
    (hk : eneKey enc uname sha r v = eneKey enc uname sha r v') :
    eneData v = eneData v' ∧ eneUnit v = eneUnit v' ∧
      (Shaped v → Shaped v' → eneShape v = eneShape v' → v = v') := by
  have ht := hc2 hk
  simp only [FluxReq.token, eneReq, List.append_assoc] at ht
  obtain ⟨hb, ht⟩ := List.append_inj ht (by simp [h64])
  have hd : eneData v = eneData v' := flatten_inj enc h8 _ _ henc (hc1 hb)
  have hu : eneUnit v = eneUnit v' := hun (List.append_cancel_right ht)
  refine ⟨hd, hu, ?_⟩
  rintro (⟨x, u, rfl⟩ | ⟨n, s, d, u, rfl⟩) (⟨x', u', rfl⟩ | ⟨n', s', d', u', rfl⟩) hs
  · simp only [eneData, List.cons.injEq, and_true] at hd
    simp only [eneUnit] at hu
    rw [hd, hu]
  · cases hs
  · cases hs
  · simp only [eneData] at hd
    simp only [eneUnit] at hu
    simp only [eneShape] at hs
    rw [hd, hu, hs]

/-- **C129, the part that holds.** In any history of requests to one object, cached and uncached, in which the same
energies are always asked for in the same shape: `flux` of a Quantity, or of a table or dict with an `energy` column, gives
the flux at the energies meant, as on a new object. -/
theorem C129_one_shape_partial (body : PyVal → Except PyErr ρ) (enc : XR → PyStr) (uname : PhysUnit → PyStr)
    (sha : PyStr → PyStr) (r : FluxReq Unit) (history : List (Bool × EneArg))
    (h8 : ∀ x, (enc x).length = 8) (h64 : ∀ x, (sha x).length = 64)
    (asked : PyVal → Prop) (hasked : ∀ v, asked v ↔ ∃ op ∈ history, Asks op.2 v)
    (hsh : ∀ v, asked v → Shaped v)
    (henc : ∀ v v', asked v → asked v' → ∀ x ∈ eneData v, ∀ y ∈ eneData v', enc x = enc y → x = y)
    (hun : ∀ v v', asked v → asked v' → uname (eneUnit v) = uname (eneUnit v') → eneUnit v = eneUnit v')
    (hc : ∀ v v', asked v → asked v' → NoCollision sha (eneBytes enc v) (eneBytes enc v') ∧
      NoCollision sha ((eneReq enc uname r v).token sha) ((eneReq enc uname r v').token sha))
    (hone : ∀ v v', asked v → asked v' → eneData v = eneData v' → eneShape v = eneShape v') :
    ∀ en arg out, ((en, arg), out) ∈ history.zip (energyRun body (eneKey enc uname sha r) Memo.empty history).1 →
      ∀ v, Denotes arg v → (∀ l, arg ≠ .qseq l) → out = body v := by
  intro en arg out hm v hv hl
  refine ((C94_histories body (eneKey enc uname sha r) history ?_).2 en arg out hm).1 v hv hl
  intro v v' hv hv' hk
  have a := (hasked v).2 hv
  have a' := (hasked v').2 hv'
  obtain ⟨hd, -, h⟩ := C129_key_partial enc uname sha r v v' h8 h64 (henc v v' a a') (hun v v' a a')
    (hc v v' a a').1 (hc v v' a a').2 hk
  exact h (hsh v a) (hsh v' a') (hone v v' a a' hd)

/-- Energies in one-dimensional arrays never conflict: their shape is their number. -/
theorem C129_one_dimensional (v v' : PyVal) (h : ∃ d u, v = .qarr [d.length] d u) (h' : ∃ d u, v' = .qarr [d.length] d u)
    (hd : eneData v = eneData v') : Shaped v ∧ eneShape v = eneShape v' := by
  obtain ⟨d, u, rfl⟩ := h
  obtain ⟨d', u', rfl⟩ := h'
  simp only [eneData] at hd
  subst hd
  exact ⟨Or.inr ⟨_, _, _, _, rfl⟩, rfl⟩

/-! ## The hypotheses are met -/

/-- A matrix and a row of the same two energies, in a model that keeps the shape of its energies (the analytic
functions do). -/
example : ∃ body : PyVal → Except PyErr (List ℕ × List XR), body (.qarr [1, 2] [fin 1, fin 2] PhysUnit.TeV) =
    .ok ([1, 2], [fin 1, fin 2]) ∧ body (.qarr [2] [fin 1, fin 2] PhysUnit.TeV) = .ok ([2], [fin 1, fin 2]) ∧
    PhysUnit.TeV.dim = Dim.energy :=
  ⟨fun v => .ok (eneShape v, eneData v), rfl, rfl, rfl⟩

open Classical in
/-- A history for the part that holds: one energy, another one, and the first again. -/
example : ∃ (enc : XR → PyStr) (uname : PhysUnit → PyStr) (sha : PyStr → PyStr) (r : FluxReq Unit)
    (history : List (Bool × EneArg)) (asked : PyVal → Prop), history.length = 3 ∧
    (∀ x, (enc x).length = 8) ∧ (∀ x, (sha x).length = 64) ∧ (∀ v, asked v ↔ ∃ op ∈ history, Asks op.2 v) ∧
    (∀ v, asked v → Shaped v) ∧
    (∀ v v', asked v → asked v' → ∀ x ∈ eneData v, ∀ y ∈ eneData v', enc x = enc y → x = y) ∧
    (∀ v v', asked v → asked v' → uname (eneUnit v) = uname (eneUnit v') → eneUnit v = eneUnit v') ∧
    (∀ v v', asked v → asked v' → NoCollision sha (eneBytes enc v) (eneBytes enc v') ∧
      NoCollision sha ((eneReq enc uname r v).token sha) ((eneReq enc uname r v').token sha)) ∧
    (∀ v v', asked v → asked v' → eneData v = eneData v' → eneShape v = eneShape v') := by
  let enc : XR → PyStr := fun x => if x = fin 1 then "1-------".toList else "2-------".toList
  let a : PyVal := .qarr [1] [fin 1] PhysUnit.TeV
  let b : PyVal := .qarr [1] [fin 2] PhysUnit.TeV
  have h12 : (fin 1 : XR) ≠ fin 2 := by intro h; have := (XR.fin_inj _ _).1 h; norm_num at this
  have e1 : enc (fin 1) = "1-------".toList := if_pos rfl
  have e2 : enc (fin 2) = "2-------".toList := if_neg h12.symm
  have hcase : ∀ v, (v = a ∨ v = b) ↔
      ∃ op ∈ [(true, EneArg.val a), (true, EneArg.val b), (true, EneArg.val a)], Asks op.2 v := by
    intro v
    have ask : ∀ w v, IsQuantity w → (Asks (.val w) v ↔ v = w) := by
      intro w v hw
      constructor
      · rintro (⟨h, -⟩ | ⟨_, _, h, -⟩) <;> cases h; rfl
      · rintro rfl; exact Or.inl ⟨rfl, hw⟩
    simp only [List.mem_cons, List.not_mem_nil, or_false, exists_eq_or_imp, exists_eq_left,
      ask a v (Or.inr ⟨_, _, _, rfl⟩), ask b v (Or.inr ⟨_, _, _, rfl⟩)]
    tauto
  refine ⟨enc, fun _ => "TeV".toList, pad64, ⟨[], [], none, none, [], [], ()⟩,
    [(true, .val a), (true, .val b), (true, .val a)], fun v => v = a ∨ v = b, rfl, ?_, ?_, hcase, ?_, ?_, ?_, ?_, ?_⟩
  · intro x; simp only [enc]; split <;> rfl
  · intro x; simp [pad64]
  · rintro v (rfl | rfl) <;> exact Or.inr ⟨_, _, _, _, rfl⟩
  · rintro v v' (rfl | rfl) (rfl | rfl) x hx y hy h <;>
      simp only [a, b, eneData, List.mem_singleton] at hx hy <;> subst hx <;> subst hy
    · rfl
    · rw [e1, e2] at h; revert h; decide
    · rw [e1, e2] at h; revert h; decide
    · rfl
  · rintro v v' (rfl | rfl) (rfl | rfl) - <;> rfl
  · rintro v v' (rfl | rfl) (rfl | rfl) <;>
      simp only [NoCollision, FluxReq.token, eneReq, eneBytes, a, b, eneData, List.map, e1, e2] <;>
      constructor <;> decide
  · rintro v v' (rfl | rfl) (rfl | rfl) - <;> rfl

end Naima.Props
