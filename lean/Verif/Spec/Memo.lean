import Verif.Model.Memo

/-! # What is meant by cache order, collisions and caller writes -/

namespace Naima

/-- The keys newly stored by a history, in chronological order: a call stores its key when caching
is on, the key is not cached at that moment, and the computation succeeds. -/
def storedKeys {κ ρ α : Type} [DecidableEq κ] (compute : α → Except PyErr ρ) (key : α → κ)
    (m : Memo κ ρ) : List (Bool × α) → List κ
  | [] => []
  | (en, r) :: rest =>
    (match en, m.cache.get? (key r), compute r with
      | true, none, .ok _ => [key r]
      | _, _, _ => [])
    ++ storedKeys compute key (Memo.call compute key m en r).2 rest

/-- The last `n` elements of a list. -/
def lastN {α : Type} (n : Nat) (l : List α) : List α := l.drop (l.length - n)

/-- `sha` has no collision between `a` and `b`. -/
def NoCollision (sha : PyStr → PyStr) (a b : PyStr) : Prop := sha a = sha b → a = b

/-- The references a caller has written to in a history. -/
def writtenRefs {α ρ : Type} : List (HeapOp α ρ) → List Nat
  | [] => []
  | .call _ :: rest => writtenRefs rest
  | .write ref _ :: rest => ref :: writtenRefs rest

end Naima
