/-!
# Python vocabulary: exceptions and insertion-ordered dictionaries
-/

namespace Naima

/-- The Python exceptions the modelled code can raise. -/
inductive PyErr : Type
  | typeError | valueError | keyError | indexError | attributeError
  | unitConversionError | unitsError | unboundLocalError | zeroDivisionError | ioError
  | overflowError
  | userError (n : Nat)
  deriving DecidableEq, Repr

/-- A Python `dict` (insertion ordered). -/
abbrev Dict (κ ν : Type _) := List (κ × ν)

namespace Dict
variable {κ ν : Type _} [DecidableEq κ]

/-- `d.get(k)` / `k in d` -/
def get? (d : Dict κ ν) (k : κ) : Option ν := (d.find? (fun p => p.1 = k)).map (·.2)

/-- `d.keys()` in insertion order -/
def keys (d : Dict κ ν) : List κ := d.map (·.1)

/-- `d[k] = v`: overwrite in place, or append -/
def set (d : Dict κ ν) (k : κ) (v : ν) : Dict κ ν :=
  if k ∈ d.keys then d.map (fun p => if p.1 = k then (k, v) else p) else d ++ [(k, v)]

/-- `d.pop(k, None)` -/
def pop (d : Dict κ ν) (k : κ) : Dict κ ν := d.filter (fun p => p.1 ≠ k)

theorem get?_eq_none_iff (d : Dict κ ν) (k : κ) : get? d k = none ↔ k ∉ keys d := by
  unfold get? keys
  induction d with
  | nil => simp
  | cons p d ih =>
    by_cases h : p.1 = k
    · simp [List.find?, h]
    · have h' : ¬ k = p.1 := fun e => h e.symm
      simp [List.find?, h, h'] at ih ⊢
      exact ih

theorem get?_some_mem (d : Dict κ ν) (k : κ) (v : ν) (h : get? d k = some v) : (k, v) ∈ d := by
  unfold get? at h
  cases hf : d.find? (fun p => p.1 = k) with
  | none => simp [hf] at h
  | some p =>
    have hm := List.mem_of_find?_eq_some hf
    have hp := List.find?_some hf
    simp [hf] at h hp
    obtain ⟨a, b⟩ := p
    simp at h hp
    subst h hp
    exact hm

theorem get?_set_self (d : Dict κ ν) (k : κ) (v : ν) : get? (set d k v) k = some v := by
  unfold set
  split
  · rename_i h
    unfold get?
    induction d with
    | nil => simp [keys] at h
    | cons p d ih =>
      by_cases hp : p.1 = k
      · simp [hp]
      · have h' : k ∈ keys d := by
          simp [keys] at h ⊢
          rcases h with h | h
          · exact absurd h.symm hp
          · exact h
        simpa [List.find?, hp] using ih h'
  · rename_i h
    unfold get?
    have : d.find? (fun p => p.1 = k) = none := by
      have := (get?_eq_none_iff d k).2 h
      unfold get? at this
      simpa using this
    simp [List.find?_append, this]

theorem get?_set_other (d : Dict κ ν) (k k' : κ) (v : ν) (hk : k' ≠ k) :
    get? (set d k v) k' = get? d k' := by
  unfold set
  split
  · rename_i hmem
    clear hmem
    unfold get?
    induction d with
    | nil => simp
    | cons p d ih =>
      by_cases hp : p.1 = k
      · have : ¬ k = k' := fun e => hk e.symm
        have h2 : ¬ p.1 = k' := fun e => this (hp ▸ e)
        simpa [List.find?, hp, this, h2] using ih
      · by_cases hp' : p.1 = k'
        · rw [List.map_cons, if_neg hp, List.find?_cons_of_pos (by simpa using hp'),
            List.find?_cons_of_pos (by simpa using hp')]
        · simpa [List.find?, hp, hp'] using ih
  · unfold get?
    have : ¬ k = k' := fun e => hk e.symm
    rw [List.find?_append]
    cases d.find? (fun p => p.1 = k') <;> simp [this]

end Dict

/-- Python list indexing `l[i]` with negative indices counted from the end. -/
def pyIndex {α : Type _} (l : List α) (i : Int) : Except PyErr α :=
  if 0 ≤ i then
    match l[i.toNat]? with
    | some a => .ok a
    | none => .error .indexError
  else if -(l.length : Int) ≤ i then
    match l[((l.length : Int) + i).toNat]? with
    | some a => .ok a
    | none => .error .indexError
  else .error .indexError

end Naima
