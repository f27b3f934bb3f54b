import Verif.Model.Validator
import Verif.Spec.Validator
import Mathlib.Tactic.Linarith
import Mathlib.Tactic.NormNum

/-! # C27, C28: argument validation -/

set_option linter.unusedSimpArgs false

namespace Naima.Props

open Naima XR Spec
open scoped Classical

/-- A domain given by a range of non-NaN limits. -/
def ProperDomain : Domain → Prop
  | .range lo hi => lo ≠ .nan ∧ hi ≠ .nan
  | _ => True

theorem not_lt_iff_le {a b : XR} (ha : a ≠ .nan) (hb : b ≠ .nan) : ¬ (a < b) ↔ b ≤ a := by
  show ¬ XR.lt a b ↔ (XR.lt b a ∨ XR.eqv b a)
  cases a <;> cases b <;> simp_all [XR.lt, XR.eqv]
  rename_i x y
  exact (le_iff_lt_or_eq (a := y) (b := x))

/-- **C27 (plain numbers).** A finite plain number is accepted exactly when no physical type is
required and it lies in the domain, and is returned unchanged; a required physical type gives
TypeError, a value outside the domain ValueError. -/
theorem C27_number (x : ℝ) (d : Domain) (hd : ProperDomain d) (pt : Option (List Dim)) :
    validateScalar (.num (fin x)) d pt =
      (if pt ≠ none then .error .typeError
       else if InDomain d x then .ok (.num (fin x)) else .error .valueError) := by
  cases pt with
  | some l => rfl
  | none =>
    simp only [ne_eq, not_true_eq_false, if_false]
    cases d with
    | none => simp [InDomain]; rfl
    | other => simp [InDomain]; rfl
    | positive =>
      by_cases h : x < 0
      · have : ¬ 0 ≤ x := not_le.2 h
        simp [InDomain, this, validateScalar, validatePhysicalType, cmpScalar, h,
          bind, Except.bind, pure, Except.pure, throw, throwThe, MonadExceptOf.throw]
      · have h' : 0 ≤ x := not_lt.1 h
        simp [InDomain, h', validateScalar, validatePhysicalType, cmpScalar, h,
          bind, Except.bind, pure, Except.pure]
    | strictlyPositive =>
      by_cases h : x ≤ 0
      · have : ¬ 0 < x := not_lt.2 h
        simp [InDomain, this, validateScalar, validatePhysicalType, cmpScalar, h,
          bind, Except.bind, pure, Except.pure, throw, throwThe, MonadExceptOf.throw]
      · have h' : 0 < x := not_le.1 h
        simp [InDomain, h', validateScalar, validatePhysicalType, cmpScalar, h,
          bind, Except.bind, pure, Except.pure]
    | negative =>
      by_cases h : 0 < x
      · have : ¬ x ≤ 0 := not_le.2 h
        simp [InDomain, this, validateScalar, validatePhysicalType, cmpScalar, h,
          bind, Except.bind, pure, Except.pure, throw, throwThe, MonadExceptOf.throw]
      · have h' : x ≤ 0 := not_lt.1 h
        simp [InDomain, h', validateScalar, validatePhysicalType, cmpScalar, h,
          bind, Except.bind, pure, Except.pure]
    | strictlyNegative =>
      by_cases h : 0 ≤ x
      · have : ¬ x < 0 := not_lt.2 h
        simp [InDomain, this, validateScalar, validatePhysicalType, cmpScalar, h,
          bind, Except.bind, pure, Except.pure, throw, throwThe, MonadExceptOf.throw]
      · have h' : x < 0 := not_le.1 h
        simp [InDomain, h', validateScalar, validatePhysicalType, cmpScalar, h,
          bind, Except.bind, pure, Except.pure]
    | range lo hi =>
      obtain ⟨hlo, hhi⟩ := hd
      have e1 := not_lt_iff_le (a := fin x) (b := lo) (by simp) hlo
      have e2 := not_lt_iff_le (a := hi) (b := fin x) hhi (by simp)
      by_cases h1 : (fin x) < lo
      · have : ¬ (lo ≤ fin x) := fun h => e1.2 h h1
        simp [InDomain, this, validateScalar, validatePhysicalType, cmpScalar, h1,
          bind, Except.bind, pure, Except.pure, throw, throwThe, MonadExceptOf.throw]
      · by_cases h2 : hi < (fin x)
        · have : ¬ (fin x ≤ hi) := fun h => e2.2 h h2
          simp [InDomain, this, validateScalar, validatePhysicalType, cmpScalar, h1, h2,
            bind, Except.bind, pure, Except.pure, throw, throwThe, MonadExceptOf.throw]
        · simp [InDomain, e1.1 h1, e2.1 h2, validateScalar, validatePhysicalType, cmpScalar, h1, h2,
            bind, Except.bind, pure, Except.pure]

/-- **C27 (quantities).** A finite scalar Quantity is accepted against a sign domain exactly when
one of the required physical types is its own and its value has the required sign, and is returned
unchanged; a wrong (or missing) physical type gives TypeError, a wrong sign ValueError. -/
theorem C27_quantity (x : ℝ) (u : PhysUnit) (hu : 0 < u.scale) (d : Domain)
    (hd : ∀ lo hi, d ≠ .range lo hi) (pt : Option (List Dim)) :
    validateScalar (.qty (fin x) u) d pt =
      (match pt with
       | none => .error .typeError
       | some types =>
         if u.dim ∉ types then .error .typeError
         else if InDomain d x then .ok (.qty (fin x) u) else .error .valueError) := by
  cases pt with
  | none => rfl
  | some types =>
    simp only
    by_cases ht : u.dim ∈ types
    swap
    · simp [ht, validateScalar, validatePhysicalType, bind, Except.bind]
    have s1 : x * u.scale < 0 ↔ x < 0 := by
      constructor
      · intro h; by_contra h'; push Not at h'; nlinarith [mul_nonneg h' hu.le]
      · intro h; exact mul_neg_of_neg_of_pos h hu
    have s2 : 0 < x * u.scale ↔ 0 < x := by
      constructor
      · intro h; by_contra h'; push Not at h'; nlinarith [mul_nonneg (neg_nonneg.2 h') hu.le]
      · intro h; exact mul_pos h hu
    have hc : ∀ (op : XR → XR → Prop) (P : Prop), (op (fin x) (fin 0) ↔ P) →
        (op (fin (x * u.scale)) (fin 0) ↔ P) →
        cmpScalar (.qty (fin x) u) op (fin 0) = .ok (@decide P (Classical.propDecidable P)) := by
      intro op P h1 h2
      unfold cmpScalar cmpQty
      by_cases hdim : u.dim = Dim.one
      · simp [hdim, h2]
      · simp [hdim, h1]
    have c1 := hc (· < ·) (x < 0) (by simp) (by simpa using s1)
    have c2 := hc (· ≤ ·) (x ≤ 0) (by simp) (by
      show fin (x * u.scale) ≤ fin 0 ↔ _
      rw [le_fin, ← not_lt, s2, not_lt])
    have c3 := hc (fun a b => b < a) (0 < x) (by simp) (by simpa using s2)
    have c4 := hc (fun a b => b ≤ a) (0 ≤ x) (by simp) (by
      show fin 0 ≤ fin (x * u.scale) ↔ _
      rw [le_fin, ← not_lt, s1, not_lt])
    cases d with
    | none => simp [InDomain, ht, validateScalar, validatePhysicalType, bind, Except.bind, pure,
        Except.pure]
    | other => simp [InDomain, ht, validateScalar, validatePhysicalType, bind, Except.bind, pure,
        Except.pure]
    | range lo hi => exact absurd rfl (hd lo hi)
    | positive =>
      by_cases h : x < 0
      · simp [InDomain, ht, validateScalar, validatePhysicalType, c1, h, not_le.2 h, bind,
          Except.bind, pure, Except.pure, throw, throwThe, MonadExceptOf.throw]
      · simp [InDomain, ht, validateScalar, validatePhysicalType, c1, h, not_lt.1 h, bind,
          Except.bind, pure, Except.pure]
    | strictlyPositive =>
      by_cases h : x ≤ 0
      · simp [InDomain, ht, validateScalar, validatePhysicalType, c2, h, not_lt.2 h, bind,
          Except.bind, pure, Except.pure, throw, throwThe, MonadExceptOf.throw]
      · simp [InDomain, ht, validateScalar, validatePhysicalType, c2, h, not_le.1 h, bind,
          Except.bind, pure, Except.pure]
    | negative =>
      by_cases h : 0 < x
      · simp [InDomain, ht, validateScalar, validatePhysicalType, c3, h, not_le.2 h, bind,
          Except.bind, pure, Except.pure, throw, throwThe, MonadExceptOf.throw]
      · simp [InDomain, ht, validateScalar, validatePhysicalType, c3, h, not_lt.1 h, bind,
          Except.bind, pure, Except.pure]
    | strictlyNegative =>
      by_cases h : 0 ≤ x
      · simp [InDomain, ht, validateScalar, validatePhysicalType, c4, h, not_lt.2 h, bind,
          Except.bind, pure, Except.pure, throw, throwThe, MonadExceptOf.throw]
      · simp [InDomain, ht, validateScalar, validatePhysicalType, c4, h, not_le.1 h, bind,
          Except.bind, pure, Except.pure]

/-- **C27 (wrong kind).** Without a required physical type only real plain scalars pass: complex
numbers, arrays, sequences and Quantities raise TypeError.  With one, only Quantities can pass. -/
theorem C27_wrong_kind (v : PyVal) (d : Domain) :
    ((∀ x, v ≠ .num x) → validateScalar v d none = .error .typeError) ∧
    ((∀ x u, v ≠ .qty x u) → (∀ s l u, v ≠ .qarr s l u) →
      ∀ types, validateScalar v d (some types) = .error .typeError) := by
  constructor
  · intro h
    cases v with
    | num x => exact absurd rfl (h x)
    | _ => rfl
  · intro h1 h2 types
    cases v with
    | qty x u => exact absurd rfl (h1 x u)
    | qarr s l u => exact absurd rfl (h2 s l u)
    | _ => rfl

/-- **C27 (infinities).** `+inf` is accepted as (strictly) positive and rejected as negative,
`-inf` the other way round. -/
theorem C27_infinities :
    validateScalar (.num pinf) .positive none = .ok (.num pinf) ∧
    validateScalar (.num pinf) .strictlyPositive none = .ok (.num pinf) ∧
    validateScalar (.num pinf) .negative none = .error .valueError ∧
    validateScalar (.num ninf) .positive none = .error .valueError ∧
    validateScalar (.num ninf) .strictlyPositive none = .error .valueError ∧
    validateScalar (.num ninf) .negative none = .ok (.num ninf) := by
  have hl : ∀ a b : XR, (a < b) = XR.lt a b := fun _ _ => rfl
  have hle : ∀ a b : XR, (a ≤ b) = (XR.lt a b ∨ XR.eqv a b) := fun _ _ => rfl
  simp [validateScalar, validatePhysicalType, cmpScalar, hl, hle, XR.lt, XR.eqv, bind, Except.bind,
    pure, Except.pure, throw, throwThe, MonadExceptOf.throw]

/-- **C27 is false of the code at NaN.** NaN is accepted by *every* domain, including closed ranges
and "strictly-positive" (all its comparisons are False). -/
theorem C27_false_nan_accepted (d : Domain) :
    validateScalar (.num nan) d none = .ok (.num nan) := by
  have h1 : ∀ b, ¬ ((nan : XR) < b) := by intro b h; cases b <;> exact h
  have h2 : ∀ b, ¬ (b < (nan : XR)) := by intro b h; cases b <;> exact h
  have h3 : ∀ b, ¬ ((nan : XR) ≤ b) := by
    intro b h; rcases h with h | h <;> cases b <;> exact h
  have h4 : ∀ b, ¬ (b ≤ (nan : XR)) := by
    intro b h; rcases h with h | h <;> cases b <;> exact h
  cases d <;> simp [validateScalar, validatePhysicalType, cmpScalar, h1, h2, h3, h4, bind,
    Except.bind, pure, Except.pure]

/-- **C27 is false of the code for array quantities.** Where a physical type is required and no
domain is given, an array Quantity of that type passes as a scalar. -/
theorem C27_false_array_as_scalar (shape : List Nat) (data : List XR) (u : PhysUnit) :
    validateScalar (.qarr shape data u) .none (some [u.dim]) = .ok (.qarr shape data u) := by
  simp [validateScalar, validatePhysicalType, bind, Except.bind, pure, Except.pure]

/-- **C28 is false of the code.** The domain of an array is never looked at: every array accepted
at all is accepted with every domain. In particular negative energies and fluxes declared
"positive" pass. -/
theorem C28_false_domain_ignored (v : PyVal) (d d' : Domain) (n : Nat) (sh : Option (List Nat))
    (pt : Option (List Dim)) :
    validateArray v d n sh pt = validateArray v d' n sh pt := rfl

theorem C28_false_negative_accepted :
    validateArray (.qarr [2] [fin (-1), fin 2] PhysUnit.TeV) .positive 1 none (some [Dim.energy])
      = .ok (.qarr [2] [fin (-1), fin 2] PhysUnit.TeV) := by
  simp [validateArray, validatePhysicalType, PhysUnit.TeV, bind, Except.bind, pure, Except.pure]

/-- **C28 (the part that holds).** An array Quantity is accepted exactly when its physical type is
one of those required (none required also passes), it has the required number of dimensions and,
if a shape is given, that shape; it is returned unchanged.  TypeError for a wrong type or dimension,
ValueError for a wrong shape. Missing for the full property: the domain. -/
theorem C28_array_partial (shape : List Nat) (data : List XR) (u : PhysUnit) (d : Domain) (n : Nat)
    (want : Option (List Nat)) (pt : Option (List Dim)) :
    validateArray (.qarr shape data u) d n want pt =
      (if (∃ types, pt = some types ∧ u.dim ∉ types) ∨ shape.length ≠ n then .error .typeError
       else if ∃ w, want = some w ∧ shape ≠ w then .error .valueError
       else .ok (.qarr shape data u)) := by
  unfold validateArray validatePhysicalType
  cases pt with
  | none =>
    by_cases hn : shape.length = n
    · cases want with
      | none => simp [hn, bind, Except.bind, pure, Except.pure]
      | some w =>
        by_cases hw : shape = w
        · subst hw; simp [hn, bind, Except.bind, pure, Except.pure]
        · simp [hn, hw, bind, Except.bind, pure, Except.pure, throw, throwThe, MonadExceptOf.throw]
    · simp [hn, bind, Except.bind, pure, Except.pure, throw, throwThe, MonadExceptOf.throw]
  | some types =>
    by_cases ht : u.dim ∈ types
    · by_cases hn : shape.length = n
      · cases want with
        | none => simp [hn, ht, bind, Except.bind, pure, Except.pure]
        | some w =>
          by_cases hw : shape = w
          · subst hw; simp [hn, ht, bind, Except.bind, pure, Except.pure]
          · simp [hn, ht, hw, bind, Except.bind, pure, Except.pure, throw, throwThe,
              MonadExceptOf.throw]
      · simp [hn, ht, bind, Except.bind, pure, Except.pure, throw, throwThe, MonadExceptOf.throw]
    · simp [ht, bind, Except.bind]

/-- non-vacuity -/
example : ProperDomain (.range (fin 0) pinf) := ⟨by simp, by simp⟩
example : validateScalar (.num (fin (-1))) .positive none = .error .valueError := by
  rw [C27_number (-1) .positive trivial]; simp [InDomain]
example : validateScalar (.qty (fin 3) PhysUnit.TeV) .strictlyPositive (some [Dim.energy])
    = .ok (.qty (fin 3) PhysUnit.TeV) := by
  rw [C27_quantity 3 PhysUnit.TeV (by norm_num [PhysUnit.TeV]) _ (by simp)]
  simp [PhysUnit.TeV, InDomain]

end Naima.Props
