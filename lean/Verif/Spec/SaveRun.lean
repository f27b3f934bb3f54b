import Verif.Model.SaveRun

/-! # What saving and reading a run should preserve -/

namespace Naima.Spec

open Naima

/-- What kind of blob a model function returns at a given place: always a scalar or a vector Quantity
with the same unit and length, always a float, or always a pair of vectors. -/
inductive Kind
  | scalar (u : PhysUnit)
  | vec (m : Nat) (u : PhysUnit)
  | num
  | pair (m : Nat) (ua ub : Option PhysUnit)

/-- A blob is of a kind. -/
def HasKind : Kind → SBlob → Prop
  | .scalar u, b => ∃ x, b = .qty (.d0 x) u
  | .vec m u, b => ∃ l, l.length = m ∧ b = .qty (.d1 l) u
  | .num, b => ∃ x, b = .num x
  | .pair m ua ub, b => ∃ l l', l.length = m ∧ l'.length = m ∧ b = .tup [(l, ua), (l', ub)]

/-- The units of a kind are proper (have positive size). -/
def Kind.Proper : Kind → Prop
  | .scalar u => u.Proper
  | .vec _ u => u.Proper
  | .num => True
  | .pair _ _ _ => True

/-- Length of the first axis. -/
def Kind.lead : Kind → Option Nat
  | .scalar _ => none
  | .vec m _ => some m
  | .num => none
  | .pair _ _ _ => some 2

/-- What should be read back: the same numbers with the same units; a float becomes a dimensionless
Quantity, plain arrays in a tuple become dimensionless Quantities. -/
inductive SameBlob : SBlob → RBlob → Prop
  | qty (a : Arr) (u : PhysUnit) : SameBlob (.qty a u) (.qty a u)
  | num (x : XR) : SameBlob (.num x) (.qty (.d0 x) dimless)
  | pair (a b : List XR) (ua ub : Option PhysUnit) :
      SameBlob (.tup [(a, ua), (b, ub)]) (.pair a (ua.getD dimless) b (ub.getD dimless))

/-- The blobs of a run have the shape `nsteps × nwalkers × kinds.length` and at each place always the
same kind; not all blobs have a first axis of the same length. -/
structure GoodBlobs (blobs : List (List (List SBlob))) (nsteps nwalkers : Nat) (kinds : List Kind) : Prop where
  steps : blobs.length = nsteps
  walkers : ∀ s ∈ blobs, s.length = nwalkers
  each : ∀ s ∈ blobs, ∀ w ∈ s, List.Forall₂ HasKind kinds w
  proper : ∀ k ∈ kinds, k.Proper
  count : kinds.length ≤ 100
  varied : kinds = [] ∨ ¬ ∃ n, ∀ k ∈ kinds, k.lead = some n

/-- Two results describe the same run (the dictionary of run information aside). -/
def SameRun {V T : Type} (r r' : ReadResult V T) : Prop :=
  r.chain = r'.chain ∧ r.logProb = r'.logProb ∧ r.blobs = r'.blobs ∧ r.acceptance = r'.acceptance ∧
  r.labels = r'.labels ∧ r.data = r'.data

end Naima.Spec
