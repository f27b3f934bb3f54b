import Verif.Model.EneArg
import Verif.Proof.Memo

/-!
# C94: in which forms photon energies may be given

"`flux` and `sed` accept energies as a Quantity, as a table or dict with an `energy` column, or as a
list of Quantities, give for them what they give for the same energies as a Quantity, and refuse with a
TypeError what is not an energy; whether results are cached makes no difference."

Small specification: `denotes arg v`: the energies the argument stands for.
-/

namespace Naima.Props

open XR Naima

/-- The energies meant by an argument, as a Quantity: the Quantity itself; the column named `energy`,
a one-dimensional Quantity; a non-empty list of energies, in the unit of the first. -/
inductive Denotes : EneArg → PyVal → Prop
  | scalar (x : XR) (u : PhysUnit) (h : u.dim = Dim.energy) : Denotes (.val (.qty x u)) (.qty x u)
  | array (s : List Nat) (d : List XR) (u : PhysUnit) (h : u.dim = Dim.energy) :
      Denotes (.val (.qarr s d u)) (.qarr s d u)
  | column (cols : Dict String EneCol) (n : Nat) (d : List XR) (u : PhysUnit) (h : u.dim = Dim.energy)
      (hc : cols.get? "energy" = some (.val (.qarr [n] d u))) : Denotes (.mapping cols) (.qarr [n] d u)
  | columnList (cols : Dict String EneCol) (x : XR) (u : PhysUnit) (rest : List (XR × PhysUnit))
      (h : u.dim = Dim.energy) (hr : ∀ q ∈ rest, q.2.dim = Dim.energy)
      (hc : cols.get? "energy" = some (.qseq ((x, u) :: rest))) :
      Denotes (.mapping cols)
        (.qarr [rest.length + 1] (x :: rest.map (fun q => q.1 * fin (q.2.scale / u.scale))) u)
  | list (x : XR) (u : PhysUnit) (rest : List (XR × PhysUnit)) (h : u.dim = Dim.energy)
      (hr : ∀ q ∈ rest, q.2.dim = Dim.energy) :
      Denotes (.qseq ((x, u) :: rest))
        (.qarr [rest.length + 1] (x :: rest.map (fun q => q.1 * fin (q.2.scale / u.scale))) u)

/-- a Quantity (of any dimension) -/
def IsQuantity (v : PyVal) : Prop := (∃ x u, v = .qty x u) ∨ ∃ s d u, v = .qarr s d u

variable {κ ρ : Type} [DecidableEq κ]

private theorem Denotes.quantity {arg : EneArg} {v : PyVal} (h : Denotes arg v) :
    (∃ x u, v = .qty x u ∧ u.dim = Dim.energy) ∨ ∃ s d u, v = .qarr s d u ∧ u.dim = Dim.energy := by
  cases h with
  | scalar x u h => exact Or.inl ⟨x, u, rfl, h⟩
  | array s d u h => exact Or.inr ⟨s, d, u, rfl, h⟩
  | column cols n d u h hc => exact Or.inr ⟨_, _, _, rfl, h⟩
  | columnList cols x u rest h hr hc => exact Or.inr ⟨_, _, _, rfl, h⟩
  | list x u rest h hr => exact Or.inr ⟨_, _, _, rfl, h⟩

private theorem va_qarr (s : List Nat) (d : List XR) (u : PhysUnit) :
    validateArray (.qarr s d u) .none 1 none (some [Dim.energy]) =
      if u.dim = Dim.energy ∧ s.length = 1 then .ok (.qarr s d u) else .error .typeError := by
  by_cases hu : u.dim = Dim.energy <;> by_cases hs : s.length = 1 <;>
    simp [validateArray, validatePhysicalType, hu, hs] <;> rfl

private theorem va_qty (x : XR) (u : PhysUnit) :
    validateArray (.qty x u) .none 1 none (some [Dim.energy]) = .error .typeError := by
  by_cases hu : u.dim = Dim.energy <;> simp [validateArray, validatePhysicalType, hu] <;> rfl

private theorem quantityOf_list (x : XR) (u : PhysUnit) (rest : List (XR × PhysUnit))
    (hr : ∀ q ∈ rest, q.2.dim = u.dim) :
    quantityOf (.qseq ((x, u) :: rest)) =
      .ok (.qarr [rest.length + 1] (x :: rest.map (fun q => q.1 * fin (q.2.scale / u.scale))) u) := by
  simp only [quantityOf, if_pos hr]

private theorem quantityOf_list_bad (x : XR) (u : PhysUnit) (rest : List (XR × PhysUnit))
    (hr : ¬ ∀ q ∈ rest, q.2.dim = u.dim) :
    quantityOf (.qseq ((x, u) :: rest)) = .error .unitConversionError := by
  simp only [quantityOf, if_neg hr]

private theorem validate_val {v : PyVal}
    (h : (∃ x u, v = .qty x u ∧ u.dim = Dim.energy) ∨ ∃ s d u, v = .qarr s d u ∧ u.dim = Dim.energy) :
    validateEne (.val v) = .ok v := by
  rcases h with ⟨x, u, rfl, h⟩ | ⟨s, d, u, rfl, h⟩ <;>
    simp [validateEne, quantityOf, validatePhysicalType, h]

private theorem validate_denotes {arg : EneArg} {v : PyVal} (h : Denotes arg v) :
    validateEne arg = .ok v := by
  cases h with
  | scalar x u h => exact validate_val (Or.inl ⟨x, u, rfl, h⟩)
  | array s d u h => exact validate_val (Or.inr ⟨s, d, u, rfl, h⟩)
  | column cols n d u h hc =>
    simp [validateEne, hc, quantityOf, va_qarr, h]
  | columnList cols x u rest h hr hc =>
    have hr' : ∀ q ∈ rest, q.2.dim = u.dim := fun q hq => (hr q hq).trans h.symm
    simp [validateEne, hc, quantityOf_list x u rest hr', va_qarr, h]
  | list x u rest h hr =>
    have hr' : ∀ q ∈ rest, q.2.dim = u.dim := fun q hq => (hr q hq).trans h.symm
    simp [validateEne, quantityOf_list x u rest hr', validatePhysicalType, h]

/-- **C94 (tables, dicts and Quantities).** Whatever is in the cache and whether it is used or not, `flux`
of a Quantity, or of a table or dict with an `energy` column, is the flux at the energies meant, and
the cache afterwards is the same. (The full claim also has lists of Quantities; see the negation
`C94_false_list`.) -/
theorem C94_flux_partial (body : PyVal → Except PyErr ρ) (key : PyVal → κ) (m : Memo κ ρ) (enabled : Bool)
    (arg : EneArg) (v : PyVal) (h : Denotes arg v) (hl : ∀ l, arg ≠ .qseq l) :
    energyCall body key m enabled arg = energyCall body key m enabled (.val v) ∧
      (enabled = false → (energyCall body key m enabled arg).1 = body v) := by
  have hv := validate_denotes h
  have hv' := validate_val h.quantity
  constructor
  · cases enabled with
    | false => simp [energyCall, hv, hv']
    | true =>
      cases h with
      | scalar x u h => rfl
      | array s d u h => rfl
      | column cols n d u h hc => simp [energyCall, memoEnergy, hc, quantityOf]
      | columnList cols x u rest h hr hc =>
        have : ∀ q ∈ rest, q.2.dim = u.dim := fun q hq => (hr q hq).trans h.symm
        simp [energyCall, memoEnergy, hc, quantityOf_list x u rest this]
      | list x u rest h hr => exact absurd rfl (hl _)
  · rintro rfl
    simp [energyCall, hv]

/-- **C94 (sed).** `sed` gives for every form of the argument, lists included, what it gives for the
energies meant, whatever is in the cache. -/
theorem C94_sed (body : PyVal → Except PyErr ρ) (key : PyVal → κ)
    (finish : PyVal → ρ → Except PyErr ρ) (m : Memo κ ρ) (enabled : Bool) (arg : EneArg) (v : PyVal)
    (h : Denotes arg v) :
    energySed body key finish m enabled arg = energySed body key finish m enabled (.val v) := by
  simp [energySed, validate_denotes h, validate_val h.quantity]

private theorem quantity_isq {c : EneCol} {v : PyVal} (h : quantityOf c = .ok v) : IsQuantity v := by
  match c, h with
  | .val (.qty x u), h => simp only [quantityOf, Except.ok.injEq] at h; exact h ▸ Or.inl ⟨_, _, rfl⟩
  | .val (.qarr s d u), h => simp only [quantityOf, Except.ok.injEq] at h; exact h ▸ Or.inr ⟨_, _, _, rfl⟩
  | .val (.num x), h => simp only [quantityOf, Except.ok.injEq] at h; exact h ▸ Or.inl ⟨_, _, rfl⟩
  | .val .cplx, h => simp only [quantityOf, Except.ok.injEq] at h; exact h ▸ Or.inl ⟨_, _, rfl⟩
  | .val (.arr s d), h => simp only [quantityOf, Except.ok.injEq] at h; exact h ▸ Or.inr ⟨_, _, _, rfl⟩
  | .val (.seq s d), h => simp only [quantityOf, Except.ok.injEq] at h; exact h ▸ Or.inr ⟨_, _, _, rfl⟩
  | .qseq [], h => simp only [quantityOf, Except.ok.injEq] at h; exact h ▸ Or.inr ⟨_, _, _, rfl⟩
  | .qseq ((x, u) :: rest), h =>
    simp only [quantityOf] at h
    split at h
    · simp only [Except.ok.injEq] at h; exact h ▸ Or.inr ⟨_, _, _, rfl⟩
    · cases h

/-- The unit of a Quantity is an energy. -/
def IsEnergy (v : PyVal) : Prop :=
  (∃ x u, v = .qty x u ∧ u.dim = Dim.energy) ∨ ∃ s d u, v = .qarr s d u ∧ u.dim = Dim.energy

private theorem validate_val_ok {v w : PyVal} (h : validateEne (.val v) = .ok w) :
    v = w ∧ IsEnergy v := by
  have one : ¬ (Dim.one = Dim.energy) := by simp [Dim.one, Dim.energy]
  cases v with
  | qty x u =>
    by_cases hu : u.dim = Dim.energy <;> simp [validateEne, quantityOf, validatePhysicalType, hu] at h
    exact ⟨h, Or.inl ⟨x, u, rfl, hu⟩⟩
  | qarr s d u =>
    by_cases hu : u.dim = Dim.energy <;> simp [validateEne, quantityOf, validatePhysicalType, hu] at h
    exact ⟨h, Or.inr ⟨s, d, u, rfl, hu⟩⟩
  | num x => simp [validateEne, quantityOf, validatePhysicalType, one] at h
  | cplx => simp [validateEne, quantityOf, validatePhysicalType, one] at h
  | arr s d => simp [validateEne, quantityOf, validatePhysicalType, one] at h
  | seq s d => simp [validateEne, quantityOf, validatePhysicalType, one] at h

private theorem validate_cases (arg : EneArg) :
    (∃ v, Denotes arg v ∧ validateEne arg = .ok v) ∨ validateEne arg = .error .typeError ∨
      validateEne arg = .error .unitConversionError := by
  have one : ¬ (Dim.one = Dim.energy) := by simp [Dim.one, Dim.energy]
  have seqcase : ∀ (x : XR) (u : PhysUnit) (rest : List (XR × PhysUnit)),
      ((u.dim = Dim.energy ∧ ∀ q ∈ rest, q.2.dim = Dim.energy)) ∨
        ¬ (u.dim = Dim.energy) ∨ ¬ ∀ q ∈ rest, q.2.dim = u.dim := by
    intro x u rest
    by_cases hu : u.dim = Dim.energy
    · by_cases hr : ∀ q ∈ rest, q.2.dim = u.dim
      · exact Or.inl ⟨hu, fun q hq => (hr q hq).trans hu⟩
      · exact Or.inr (Or.inr hr)
    · exact Or.inr (Or.inl hu)
  match arg with
  | .val (.qty x u) =>
    by_cases hu : u.dim = Dim.energy
    · exact Or.inl ⟨_, .scalar x u hu, validate_denotes (.scalar x u hu)⟩
    · exact Or.inr (Or.inl (by simp [validateEne, quantityOf, validatePhysicalType, hu]))
  | .val (.qarr s d u) =>
    by_cases hu : u.dim = Dim.energy
    · exact Or.inl ⟨_, .array s d u hu, validate_denotes (.array s d u hu)⟩
    · exact Or.inr (Or.inl (by simp [validateEne, quantityOf, validatePhysicalType, hu]))
  | .val (.num x) => exact Or.inr (Or.inl (by simp [validateEne, quantityOf, validatePhysicalType, one]))
  | .val .cplx => exact Or.inr (Or.inl (by simp [validateEne, quantityOf, validatePhysicalType, one]))
  | .val (.arr s d) => exact Or.inr (Or.inl (by simp [validateEne, quantityOf, validatePhysicalType, one]))
  | .val (.seq s d) => exact Or.inr (Or.inl (by simp [validateEne, quantityOf, validatePhysicalType, one]))
  | .qseq [] => exact Or.inr (Or.inl (by simp [validateEne, quantityOf, validatePhysicalType, one]))
  | .qseq ((x, u) :: rest) =>
    rcases seqcase x u rest with ⟨hu, hr⟩ | hu | hr
    · exact Or.inl ⟨_, .list x u rest hu hr, validate_denotes (.list x u rest hu hr)⟩
    · by_cases hr : ∀ q ∈ rest, q.2.dim = u.dim
      · exact Or.inr (Or.inl (by simp [validateEne, quantityOf_list x u rest hr, validatePhysicalType, hu]))
      · exact Or.inr (Or.inr (by simp [validateEne, quantityOf_list_bad x u rest hr]))
    · exact Or.inr (Or.inr (by simp [validateEne, quantityOf_list_bad x u rest hr]))
  | .mapping cols =>
    cases hc : cols.get? "energy" with
    | none => exact Or.inr (Or.inl (by simp [validateEne, hc]))
    | some c =>
      match c, hc with
      | .val (.qty x u), hc =>
        exact Or.inr (Or.inl (by simp [validateEne, hc, quantityOf, va_qty]))
      | .val (.qarr s d u), hc =>
        by_cases hu : u.dim = Dim.energy
        · by_cases hs : s.length = 1
          · obtain ⟨n, rfl⟩ := List.length_eq_one_iff.mp hs
            exact Or.inl ⟨_, .column cols n d u hu hc, validate_denotes (.column cols n d u hu hc)⟩
          · exact Or.inr (Or.inl (by
              simp [validateEne, hc, quantityOf, va_qarr, hu, hs]))
        · exact Or.inr (Or.inl (by
              simp [validateEne, hc, quantityOf, va_qarr, hu]))
      | .val (.num x), hc => exact Or.inr (Or.inl (by
          simp [validateEne, hc, quantityOf, va_qarr, va_qty, one]))
      | .val .cplx, hc => exact Or.inr (Or.inl (by
          simp [validateEne, hc, quantityOf, va_qarr, va_qty, one]))
      | .val (.arr s d), hc => exact Or.inr (Or.inl (by
          simp [validateEne, hc, quantityOf, va_qarr, va_qty, one]))
      | .val (.seq s d), hc => exact Or.inr (Or.inl (by
          simp [validateEne, hc, quantityOf, va_qarr, va_qty, one]))
      | .qseq [], hc => exact Or.inr (Or.inl (by
          simp [validateEne, hc, quantityOf, va_qarr, va_qty, one]))
      | .qseq ((x, u) :: rest), hc =>
        rcases seqcase x u rest with ⟨hu, hr⟩ | hu | hr
        · exact Or.inl ⟨_, .columnList cols x u rest hu hr hc,
            validate_denotes (.columnList cols x u rest hu hr hc)⟩
        · by_cases hr : ∀ q ∈ rest, q.2.dim = u.dim
          · exact Or.inr (Or.inl (by
              simp [validateEne, hc, quantityOf_list x u rest hr, va_qarr, hu]))
          · exact Or.inr (Or.inr (by simp [validateEne, hc, quantityOf_list_bad x u rest hr]))
        · exact Or.inr (Or.inr (by simp [validateEne, hc, quantityOf_list_bad x u rest hr]))

/-- **C94 (what is not an energy is refused).** An argument that stands for no energies (a plain number or
array, a Quantity of another kind, a table without `energy` column or with one that is not a sequence
of energies) makes `sed`, with and without caching, and `flux` without caching raise a TypeError
(astropy's UnitConversionError is one), and nothing is stored. -/
theorem C94_refused (body : PyVal → Except PyErr ρ) (key : PyVal → κ)
    (finish : PyVal → ρ → Except PyErr ρ) (m : Memo κ ρ) (enabled : Bool) (arg : EneArg)
    (h : ∀ v, ¬ Denotes arg v) :
    (∃ e, (e = .typeError ∨ e = .unitConversionError) ∧
      energySed body key finish m enabled arg = (.error e, m)) ∧
    ∃ e, (e = .typeError ∨ e = .unitConversionError) ∧ energyCall body key m false arg = (.error e, m) := by
  rcases validate_cases arg with ⟨v, hv, -⟩ | hv | hv
  · exact absurd hv (h v)
  · exact ⟨⟨_, Or.inl rfl, by simp [energySed, hv]⟩, ⟨_, Or.inl rfl, by simp [energyCall, hv]⟩⟩
  · exact ⟨⟨_, Or.inr rfl, by simp [energySed, hv]⟩, ⟨_, Or.inr rfl, by simp [energyCall, hv]⟩⟩

/-- A history of `flux` calls on one object: the results and the cache at the end. -/
noncomputable def energyRun (body : PyVal → Except PyErr ρ) (key : PyVal → κ) (m : Memo κ ρ) :
    List (Bool × EneArg) → List (Except PyErr ρ) × Memo κ ρ
  | [] => ([], m)
  | (en, a) :: rest =>
    let r := energyCall body key m en a
    let rs := energyRun body key r.2 rest
    (r.1 :: rs.1, rs.2)

/-- The argument is an energy, or a table or dict whose `energy` item is one (of any shape). -/
def HoldsEnergy (arg : EneArg) : Prop :=
  (∃ v, Denotes arg v) ∨ ∃ cols v, arg = .mapping cols ∧ IsEnergy v ∧
    cols.get? "energy" = some (.val v)

private theorem isEnergy_denotes {v : PyVal} (h : IsEnergy v) : Denotes (.val v) v := by
  rcases h with ⟨x, u, rfl, h⟩ | ⟨s, d, u, rfl, h⟩
  · exact .scalar x u h
  · exact .array s d u h

/-- The Quantities an argument asks for: itself, or what its `energy` item is as a Quantity. -/
def Asks (arg : EneArg) (v : PyVal) : Prop :=
  (arg = .val v ∧ IsQuantity v) ∨ ∃ cols c, arg = .mapping cols ∧ cols.get? "energy" = some c ∧ quantityOf c = .ok v

private theorem denotes_asks {arg : EneArg} {v : PyVal} (h : Denotes arg v) (hl : ∀ l, arg ≠ .qseq l) :
    Asks arg v := by
  cases h with
  | scalar x u h => exact Or.inl ⟨rfl, Or.inl ⟨_, _, rfl⟩⟩
  | array s d u h => exact Or.inl ⟨rfl, Or.inr ⟨_, _, _, rfl⟩⟩
  | column cols n d u h hc => exact Or.inr ⟨cols, _, rfl, hc, rfl⟩
  | columnList cols x u rest h hr hc =>
    exact Or.inr ⟨cols, _, rfl, hc, quantityOf_list x u rest (fun q hq => (hr q hq).trans h.symm)⟩
  | list x u rest h hr => exact absurd rfl (hl _)

private theorem call_soundOn (P : PyVal → Prop) (body : PyVal → Except PyErr ρ) (key : PyVal → κ) (m : Memo κ ρ)
    (en : Bool) (arg : EneArg) (ha : ∀ v, Asks arg v → P v)
    (hm : m.SoundOn P (fun v => (validateEne (.val v)).bind body) key) :
    (energyCall body key m en arg).2.SoundOn P (fun v => (validateEne (.val v)).bind body) key := by
  cases en with
  | false => unfold energyCall; simp only [Bool.false_eq_true, if_false]; split <;> exact hm
  | true =>
    cases arg with
    | val v =>
      simp only [energyCall, memoEnergy, if_true]
      cases hv : hasValue (.val v) with
      | error e => exact hm
      | ok w =>
        have : w = v ∧ IsQuantity v := by
          cases v <;> simp [hasValue] at hv
          · exact ⟨hv.symm, Or.inl ⟨_, _, rfl⟩⟩
          · exact ⟨hv.symm, Or.inr ⟨_, _, _, rfl⟩⟩
        obtain ⟨rfl, hq⟩ := this
        exact Memo.call_soundOn P _ key m true _ (ha _ (Or.inl ⟨rfl, hq⟩)) hm
    | qseq l => simp only [energyCall, memoEnergy, hasValue, if_true]; exact hm
    | mapping cols =>
      cases hc : cols.get? "energy" with
      | none => simp only [energyCall, memoEnergy, hc, if_true]; exact hm
      | some c =>
        cases hq : quantityOf c with
        | error e =>
          cases e <;> simp only [energyCall, memoEnergy, hc, hq, hasValue, if_true] <;> exact hm
        | ok v =>
          have hh : hasValue (.val v) = .ok v := by
            rcases quantity_isq hq with ⟨x, u, rfl⟩ | ⟨s, d, u, rfl⟩ <;> rfl
          simp only [energyCall, memoEnergy, hc, hq, hh, if_true]
          exact Memo.call_soundOn P _ key m true _ (ha _ (Or.inr ⟨cols, c, rfl, hc, hq⟩)) hm

private theorem call_holds (P : PyVal → Prop) (body : PyVal → Except PyErr ρ) (key : PyVal → κ)
    (hk : ∀ v v', P v → P v' → key v = key v' → v = v') (m : Memo κ ρ)
    (hm : m.SoundOn P (fun v => (validateEne (.val v)).bind body) key) (en : Bool) (arg : EneArg)
    (ha : ∀ v, Asks arg v → P v) :
    (∀ v, Denotes arg v → (∀ l, arg ≠ .qseq l) → (energyCall body key m en arg).1 = body v) ∧
      (∀ r, (energyCall body key m en arg).1 = .ok r → HoldsEnergy arg) := by
  have hout : ∀ v, P v → (Memo.call (fun v => (validateEne (.val v)).bind body) key m true v).1 =
      (validateEne (.val v)).bind body := fun v hv =>
    Memo.call_outOn P _ key (fun a b ha hb e => by rw [hk a b ha hb e]) m true v hv hm
  have hval : ∀ (v : PyVal) (r : ρ), (validateEne (.val v)).bind body = .ok r → IsEnergy v := by
    intro v r h
    cases hv : validateEne (.val v) with
    | error e => rw [hv] at h; cases h
    | ok w => exact (validate_val_ok hv).2
  constructor
  · intro v hd hl
    rw [(C94_flux_partial body key m en arg v hd hl).1]
    have hv := validate_val hd.quantity
    cases en with
    | false => simp [energyCall, hv]
    | true =>
      have : hasValue (.val v) = .ok v := by
        rcases hd.quantity with ⟨x, u, rfl, -⟩ | ⟨s, d, u, rfl, -⟩ <;> rfl
      simp only [energyCall, memoEnergy, this, if_true]
      rw [hout v (ha v (denotes_asks hd hl)), hv]
      rfl
  · intro r h
    cases en with
    | false =>
      rcases validate_cases arg with ⟨v, hv, -⟩ | hv | hv
      · exact Or.inl ⟨v, hv⟩
      · simp [energyCall, hv] at h
      · simp [energyCall, hv] at h
    | true =>
      have key1 : ∀ v, P v →
          (∀ r, (Memo.call (fun v => (validateEne (.val v)).bind body) key m true v).1 = .ok r →
            IsEnergy v) := fun v hp r h => hval v r (by rwa [hout v hp] at h)
      cases arg with
      | val v =>
        simp only [energyCall, memoEnergy, if_true] at h
        cases v with
        | qty x u => exact Or.inl ⟨_, isEnergy_denotes (key1 _ (ha _ (Or.inl ⟨rfl, Or.inl ⟨_, _, rfl⟩⟩)) r h)⟩
        | qarr s d u => exact Or.inl ⟨_, isEnergy_denotes (key1 _ (ha _ (Or.inl ⟨rfl, Or.inr ⟨_, _, _, rfl⟩⟩)) r h)⟩
        | num x => simp [hasValue] at h
        | cplx => simp [hasValue] at h
        | arr s d => simp [hasValue] at h
        | seq s d => simp [hasValue] at h
      | qseq l => simp [energyCall, memoEnergy, hasValue] at h
      | mapping cols =>
        cases hc : cols.get? "energy" with
        | none => simp [energyCall, memoEnergy, hc] at h
        | some c =>
          cases hq : quantityOf c with
          | error e =>
            simp only [energyCall, memoEnergy, hc, hq, if_true] at h
            cases e <;> simp [hasValue] at h
          | ok v =>
            have hh : hasValue (.val v) = .ok v := by
              rcases quantity_isq hq with ⟨x, u, rfl⟩ | ⟨s, d, u, rfl⟩ <;> rfl
            simp only [energyCall, memoEnergy, hc, hq, hh, if_true] at h
            have hv := key1 v (ha v (Or.inr ⟨cols, c, rfl, hc, hq⟩)) r h
            match c, hc, hq with
            | .val w, hc, hq =>
              refine Or.inr ⟨cols, w, rfl, ?_, hc⟩
              have one : ¬ (Dim.one = Dim.energy) := by simp [Dim.one, Dim.energy]
              cases w <;> simp only [quantityOf, Except.ok.injEq] at hq <;> subst hq <;>
                first
                  | exact hv
                  | (exfalso; rcases hv with ⟨x, u, e, hu⟩ | ⟨s, d, u, e, hu⟩ <;> cases e <;> exact one hu)
            | .qseq [], hc, hq =>
              have one : ¬ (Dim.one = Dim.energy) := by simp [Dim.one, Dim.energy]
              simp only [quantityOf, Except.ok.injEq] at hq
              subst hq
              exfalso
              rcases hv with ⟨x, u, e, hu⟩ | ⟨s, d, u, e, hu⟩ <;> cases e
              exact one hu
            | .qseq ((x, u) :: rest), hc, hq =>
              by_cases hr : ∀ q ∈ rest, q.2.dim = u.dim
              · rw [quantityOf_list x u rest hr] at hq
                simp only [Except.ok.injEq] at hq
                subst hq
                rcases hv with ⟨x', u', e, hu⟩ | ⟨s, d, u', e, hu⟩ <;> cases e
                exact Or.inl ⟨_, .columnList cols x u rest hu (fun q hq => (hr q hq).trans hu) hc⟩
              · rw [quantityOf_list_bad x u rest hr] at hq
                cases hq

/-- **C94 (histories).** In any history of `flux` calls on one object, cached and uncached calls mixed
(the cache key separating the different energies asked for in it, see C129): a Quantity, or a table or dict with
an `energy` column, always gives the flux at the energies meant, and no call whose argument does not
hold energies ever returns anything. -/
theorem C94_histories (body : PyVal → Except PyErr ρ) (key : PyVal → κ)
    (history : List (Bool × EneArg))
    (hk : ∀ v v', (∃ op ∈ history, Asks op.2 v) → (∃ op ∈ history, Asks op.2 v') → key v = key v' → v = v') :
    (energyRun body key Memo.empty history).1.length = history.length ∧
    ∀ en arg out, ((en, arg), out) ∈ history.zip (energyRun body key Memo.empty history).1 →
      (∀ v, Denotes arg v → (∀ l, arg ≠ .qseq l) → out = body v) ∧
      (∀ r, out = .ok r → HoldsEnergy arg) := by
  generalize hP : (fun v => ∃ op ∈ history, Asks op.2 v) = P
  have hk' : ∀ v v', P v → P v' → key v = key v' → v = v' := by subst hP; exact hk
  have hin : ∀ op ∈ history, ∀ v, Asks op.2 v → P v := by subst hP; exact fun op h v hv => ⟨op, h, hv⟩
  clear hk hP
  suffices ∀ m : Memo κ ρ, m.SoundOn P (fun v => (validateEne (.val v)).bind body) key →
      (energyRun body key m history).1.length = history.length ∧
      ∀ en arg out, ((en, arg), out) ∈ history.zip (energyRun body key m history).1 →
        (∀ v, Denotes arg v → (∀ l, arg ≠ .qseq l) → out = body v) ∧
        (∀ r, out = .ok r → HoldsEnergy arg) from
    this Memo.empty (by intro k w h; simp [Memo.empty] at h)
  induction history with
  | nil => intro m _; simp [energyRun]
  | cons op rest ih =>
    intro m hm
    obtain ⟨en, a⟩ := op
    have ha : ∀ v, Asks a v → P v := fun v hv => hin (en, a) (by simp) v hv
    have hs := call_soundOn P body key m en a ha hm
    obtain ⟨h1, h2⟩ := ih (fun op h => hin op (List.mem_cons_of_mem _ h)) _ hs
    refine ⟨by simp [energyRun, h1], ?_⟩
    intro en' arg out h
    simp only [energyRun, List.zip_cons_cons, List.mem_cons] at h
    rcases h with h | h
    · simp only [Prod.mk.injEq] at h
      obtain ⟨⟨rfl, rfl⟩, rfl⟩ := h
      exact call_holds P body key hk' m hm en' arg ha
    · exact h2 en' arg out h

/-! ## Where the claim fails -/

/-- **C94 (negation: lists).** A list of Quantities, `[1 * u.TeV, 2 * u.TeV]`, is accepted by `sed` and by
`flux` without caching, and refused by `flux` with caching, which is the default, with an
AttributeError. -/
theorem C94_false_list (body : PyVal → Except PyErr ρ) (key : PyVal → κ)
    (finish : PyVal → ρ → Except PyErr ρ) (m : Memo κ ρ) (x y : XR) :
    let arg : EneArg := .qseq [(x, PhysUnit.TeV), (y, PhysUnit.TeV)]
    let v : PyVal := .qarr [2] [x, y * fin (PhysUnit.TeV.scale / PhysUnit.TeV.scale)] PhysUnit.TeV
    Denotes arg v ∧ energyCall body key m true arg = (.error .attributeError, m) ∧
      energyCall body key m false arg = (body v, m) ∧
      energySed body key finish m true arg = energySed body key finish m true (.val v) := by
  intro arg v
  have hd : Denotes arg v := .list x PhysUnit.TeV [(y, PhysUnit.TeV)] rfl (by simp [PhysUnit.TeV])
  refine ⟨hd, rfl, ?_, C94_sed body key finish m true arg v hd⟩
  simp [energyCall, validate_denotes hd]

/-- **C94 (negation: missing column).** A table without `energy` column is a TypeError without caching and
an uncaught KeyError with caching. -/
theorem C94_false_missing (body : PyVal → Except PyErr ρ) (key : PyVal → κ) (m : Memo κ ρ)
    (cols : Dict String EneCol) (h : cols.get? "energy" = none) :
    energyCall body key m false (.mapping cols) = (.error .typeError, m) ∧
      energyCall body key m true (.mapping cols) = (.error .keyError, m) := by
  constructor <;> simp [energyCall, validateEne, memoEnergy, h]

/-- **C94 (negation: one number in the column).** A dict whose `energy` is a single Quantity is refused
without caching, and accepted with caching. -/
theorem C94_false_scalar (body : PyVal → Except PyErr ρ) (key : PyVal → κ) (x : XR) (r : ρ)
    (hb : body (.qty x PhysUnit.TeV) = .ok r) :
    let arg : EneArg := .mapping [("energy", .val (.qty x PhysUnit.TeV))]
    (energyCall body key Memo.empty false arg).1 = .error .typeError ∧
      (energyCall body key Memo.empty true arg).1 = .ok r := by
  intro arg
  have hg : Dict.get? [("energy", EneCol.val (.qty x PhysUnit.TeV))] "energy" =
      some (.val (.qty x PhysUnit.TeV)) := by simp [Dict.get?]
  have hv : validateEne (.val (.qty x PhysUnit.TeV)) = .ok (.qty x PhysUnit.TeV) :=
    validate_val (Or.inl ⟨_, _, rfl, rfl⟩)
  constructor
  · simp [energyCall, arg, validateEne, hg, quantityOf, va_qty]
  · simp [energyCall, arg, memoEnergy, hg, quantityOf, hasValue, Memo.call, Memo.empty, Dict.get?, hv,
      Except.bind, hb]

/-- **C94 (SED of one seed field).** For energies given as a Quantity, `InverseCompton.sed(E, seed=s)` is
the flux of that field times E², once the SED of all fields could be computed. -/
theorem C94_seed_sed {σ S : Type} (sedAll : σ → EneArg → Except PyErr ρ × σ)
    (fluxSeed : σ → EneArg → S → Except PyErr ρ × σ) (finish : PyVal → ρ → Except PyErr ρ) (s s' s'' : σ)
    (v : PyVal) (hv : IsEnergy v) (tot f : ρ) (k : S) (h1 : sedAll s (.val v) = (.ok tot, s'))
    (h2 : fluxSeed s' (.val v) k = (.ok f, s'')) :
    icSed sedAll fluxSeed finish s (.val v) none = (.ok tot, s') ∧
      icSed sedAll fluxSeed finish s (.val v) (some k) = (finish v f, s'') := by
  constructor
  · simp [icSed, h1]
  · rcases hv with ⟨x, u, rfl, -⟩ | ⟨sh, d, u, rfl, -⟩ <;> simp [icSed, h1, h2, squareable]

/-- **C94 (negation: SED of one seed field of a table or list).** `InverseCompton.sed(energies, seed=...)` never
returns for a table, a dict or a list: `photon_energy**2.0` is computed from the argument itself. -/
theorem C94_false_seed_table {σ S : Type} (sedAll : σ → EneArg → Except PyErr ρ × σ)
    (fluxSeed : σ → EneArg → S → Except PyErr ρ × σ) (finish : PyVal → ρ → Except PyErr ρ) (s : σ)
    (arg : EneArg) (harg : (∃ cols, arg = .mapping cols) ∨ (∃ l, arg = .qseq l) ∨ ∃ sh d, arg = .val (.seq sh d))
    (k : S) : ∃ e, (icSed sedAll fluxSeed finish s arg (some k)).1 = .error e := by
  have hsq : squareable arg = .error .typeError := by
    rcases harg with ⟨c, rfl⟩ | ⟨l, rfl⟩ | ⟨sh, d, rfl⟩ <;> rfl
  simp only [icSed, hsq]
  split
  · exact ⟨_, rfl⟩
  · split <;> exact ⟨_, rfl⟩

/-- **C94 (SED).** With a cache that holds only what was computed for energies among `P` (as any history of requests
for them leaves it, C02), and a key that separates the energies among `P`, `sed` of whatever is accepted as energies is the flux at the energies meant, times
`E²` of the same energies. -/
theorem C94_sed_value (P : PyVal → Prop) (body : PyVal → Except PyErr ρ) (key : PyVal → κ)
    (hk : ∀ v v', P v → P v' → key v = key v' → v = v')
    (finish : PyVal → ρ → Except PyErr ρ) (m : Memo κ ρ)
    (hm : m.SoundOn P (fun v => (validateEne (.val v)).bind body) key) (enabled : Bool) (arg : EneArg) (v : PyVal)
    (h : Denotes arg v) (hP : P v) :
    (energySed body key finish m enabled arg).1 = (body v).bind (finish v) := by
  have hd : Denotes (.val v) v := by
    rcases h.quantity with ⟨x, u, rfl, hu⟩ | ⟨s, d, u, rfl, hu⟩
    · exact .scalar x u hu
    · exact .array s d u hu
  have hc := (call_holds P body key hk m hm enabled (.val v) (by
    rintro w (⟨e, -⟩ | ⟨cols, c, e, -, -⟩)
    · cases e; exact hP
    · cases e)).1 v hd (by intro l; exact EneArg.noConfusion)
  simp only [energySed, validate_denotes h]
  rw [← hc]
  split
  · rename_i e m' he; rw [he]; rfl
  · rename_i f m' he; rw [he]; rfl

/-! ## The hypotheses are met -/

example : Denotes (.mapping [("flux", .val (.num (fin 1))),
    ("energy", .val (.qarr [2] [fin 1, fin 2] PhysUnit.TeV))])
    (.qarr [2] [fin 1, fin 2] PhysUnit.TeV) :=
  .column _ 2 _ PhysUnit.TeV rfl (by simp [Dict.get?])

example : ∀ v, ¬ Denotes (.val (.num (fin 1))) v := by intro v h; cases h

example : ∀ v, ¬ Denotes (.mapping [("e", .val (.num (fin 1)))]) v := by
  intro v h
  cases h with
  | column _ _ _ _ _ hc => simp [Dict.get?] at hc
  | columnList _ _ _ _ _ _ hc => simp [Dict.get?] at hc

end Naima.Props
