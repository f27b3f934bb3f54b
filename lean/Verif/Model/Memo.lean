import Verif.Base.Py

/-!
# `naima.model_utils.memoize` (src/naima/model_utils.py:10-79)
-/

namespace Naima

/-- The `_cache` dict and `_queue` list of a model object
(src/naima/radiative.py:143-145, 998-1000, 1576-1578; models.py:76-78). -/
structure Memo (κ ρ : Type) where
  cache : Dict κ ρ
  queue : List κ

namespace Memo

/-- A freshly constructed object (src/naima/radiative.py:144-145). -/
def empty {κ ρ : Type} : Memo κ ρ := ⟨[], []⟩

/-- Storing a fresh result (model_utils.py:65-72): if the queue already holds more than 16 keys
drop the oldest from queue and cache, then append the key and store the result. -/
def store {κ ρ : Type} [DecidableEq κ] (m : Memo κ ρ) (k : κ) (v : ρ) : Memo κ ρ :=
  let m' : Memo κ ρ :=
    if m.queue.length > 16 then
      match m.queue with
      | [] => m
      | k0 :: q => ⟨m.cache.pop k0, q⟩
    else m
  ⟨m'.cache.set k v, m'.queue ++ [k]⟩

/-- One call of a function decorated with `@memoize` (model_utils.py:13-74).  `enabled` is
`cls._memoize` at the time of the call; `key r` is the digest of model_utils.py:34-58; `compute r`
is the decorated function, which may raise. -/
def call {κ ρ α : Type} [DecidableEq κ] (compute : α → Except PyErr ρ) (key : α → κ)
    (m : Memo κ ρ) (enabled : Bool) (r : α) : Except PyErr ρ × Memo κ ρ :=
  if enabled then
    match m.cache.get? (key r) with
    | some v => (.ok v, m)
    | none =>
      match compute r with
      | .error e => (.error e, m)
      | .ok v => (.ok v, m.store (key r) v)
  else
    (compute r, m)

/-- A history of calls on one object; the outputs in order and the final state. -/
def run {κ ρ α : Type} [DecidableEq κ] (compute : α → Except PyErr ρ) (key : α → κ)
    (m : Memo κ ρ) : List (Bool × α) → List (Except PyErr ρ) × Memo κ ρ
  | [] => ([], m)
  | (en, r) :: rest =>
    let (o, m') := call compute key m en r
    let (os, m'') := run compute key m' rest
    (o :: os, m'')

end Memo

/-! ## The cache key (model_utils.py:34-58) -/

/-- A Python `str`. -/
abbrev PyStr := List Char

/-- Python scalars that become part of the key, with the exact text `str()` gives them.  A float
is identified with its shortest repr (`repr` of a double is injective). -/
inductive PyScalar
  | float (repr : PyStr)
  | quantity (repr unit : PyStr)
  | int (repr : PyStr)
  | dict (text : PyStr)
  deriving DecidableEq

/-- `str(x)`; for a Quantity the value, a blank and the unit; for a dict the text it prints (`Model/SeedText.lean`). -/
def PyScalar.str : PyScalar → PyStr
  | .float r => r
  | .int r => r
  | .quantity r u => r ++ ' ' :: u
  | .dict t => t

/-- One request to a memoised `flux(energy, distance=...)` together with the parameter values of
the model object and of its particle distribution at that moment.
`distance = none` means the keyword was not given (the function then uses its default).
`posArgs` is the text of `str(args)` for positional arguments after the energy, if any.
`hidden` is everything the result depends on that `param_names` does not list (for instance a
particle distribution that is a plain function or a `TableModel`). -/
structure FluxReq (η : Type) where
  energyBytes : PyStr
  energyUnit : PyStr
  distance : Option PyScalar
  posArgs : Option PyStr
  modelParams : List PyScalar
  distParams : List PyScalar
  hidden : η

/-- The joined token (model_utils.py:41-57): sha256 of the energy bytes, the energy unit,
`str(kwargs.get("distance", 0))`, `str(args)` if any, and the parameter strings, joined without a
separator. -/
def FluxReq.token {η : Type} (sha : PyStr → PyStr) (r : FluxReq η) : PyStr :=
  sha r.energyBytes ++ r.energyUnit
    ++ (match r.distance with | none => ['0'] | some d => d.str)
    ++ (match r.posArgs with | none => [] | some a => a)
    ++ (r.modelParams.map PyScalar.str).flatten
    ++ (r.distParams.map PyScalar.str).flatten

/-- The digest used as cache key (model_utils.py:58). -/
def FluxReq.key {η : Type} (sha : PyStr → PyStr) (r : FluxReq η) : PyStr := sha (r.token sha)

/-! ## Results as shared mutable arrays (model_utils.py:60-61, 71-74)

The cached object itself is returned, so the caller and the cache share one array. -/

/-- Object heap of result arrays plus the memo holding references into it. -/
structure HeapMemo (κ ρ : Type) where
  heap : List ρ
  memo : Memo κ Nat

/-- What the caller can do: call the memoised method, or write into an array it holds. -/
inductive HeapOp (α ρ : Type)
  | call (r : α)
  | write (ref : Nat) (v : ρ)

namespace HeapMemo

/-- A memoised call returning a reference: a hit returns the cached reference, a miss allocates the
freshly computed array. -/
def call {κ ρ α : Type} [DecidableEq κ] (compute : α → ρ) (key : α → κ)
    (s : HeapMemo κ ρ) (r : α) : Nat × HeapMemo κ ρ :=
  match s.memo.cache.get? (key r) with
  | some ref => (ref, s)
  | none => (s.heap.length, ⟨s.heap ++ [compute r], s.memo.store (key r) s.heap.length⟩)

/-- One caller action; the output of a call is the content of the array it returns, and its
reference. -/
def step {κ ρ α : Type} [DecidableEq κ] (compute : α → ρ) (key : α → κ)
    (s : HeapMemo κ ρ) : HeapOp α ρ → Option (Nat × Option ρ) × HeapMemo κ ρ
  | .call r =>
    let (ref, s') := call compute key s r
    (some (ref, s'.heap[ref]?), s')
  | .write ref v => (none, ⟨s.heap.set ref v, s.memo⟩)

/-- A history of caller actions. -/
def run {κ ρ α : Type} [DecidableEq κ] (compute : α → ρ) (key : α → κ)
    (s : HeapMemo κ ρ) : List (HeapOp α ρ) → List (Option (Nat × Option ρ)) × HeapMemo κ ρ
  | [] => ([], s)
  | op :: rest =>
    let (o, s') := step compute key s op
    let (os, s'') := run compute key s' rest
    (o :: os, s'')

/-- no objects yet -/
def empty {κ ρ : Type} : HeapMemo κ ρ := ⟨[], Memo.empty⟩

end HeapMemo

end Naima
