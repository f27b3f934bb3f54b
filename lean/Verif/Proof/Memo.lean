import Verif.Model.Memo
import Verif.Spec.Memo

namespace Naima
namespace Memo

variable {κ ρ α : Type} [DecidableEq κ]

/-- queue and cache agree, no duplicate keys, at most 17 entries -/
def Inv (m : Memo κ ρ) : Prop :=
  m.cache.keys = m.queue ∧ m.queue.Nodup ∧ m.queue.length ≤ 17

theorem pop_head_keys (k0 : κ) (v0 : ρ) (d : Dict κ ρ) (q : List κ) (hd : Dict.keys d = q)
    (hn : (k0 :: q).Nodup) : Dict.pop ((k0, v0) :: d) k0 = d := by
  unfold Dict.pop
  have hk : k0 ∉ q := (List.nodup_cons.1 hn).1
  rw [List.filter_cons]
  simp only [ne_eq, not_true_eq_false, decide_false, Bool.false_eq_true, if_false]
  apply List.filter_eq_self.2
  intro p hp
  have : p.1 ∈ q := hd ▸ List.mem_map_of_mem hp
  simp
  intro e; exact hk (e ▸ this)

theorem store_inv (m : Memo κ ρ) (k : κ) (v : ρ) (h : m.Inv) (hk : k ∉ m.cache.keys) :
    (m.store k v).Inv := by
  obtain ⟨h1, h2, h3⟩ := h
  obtain ⟨cache, queue⟩ := m
  simp only at h1 h2 h3 hk
  unfold store
  by_cases hl : queue.length > 16
  · cases cache with
    | nil => simp [Dict.keys] at h1; subst h1; simp at hl
    | cons p d =>
      obtain ⟨k0, v0⟩ := p
      cases queue with
      | nil => simp at hl
      | cons q0 q =>
        simp only [Dict.keys, List.map_cons, List.cons.injEq] at h1
        obtain ⟨rfl, hq⟩ := h1
        have hd : Dict.keys d = q := hq
        have hkd : k ∉ Dict.keys d := by
          intro hm; apply hk; simp only [Dict.keys, List.map_cons, List.mem_cons]; right; exact hm
        have hpop := pop_head_keys k0 v0 d q hd h2
        simp only [hl, if_true, Inv, hpop]
        refine ⟨?_, ?_, ?_⟩
        · unfold Dict.set; rw [if_neg hkd]; simp [Dict.keys] at hd ⊢; exact hd
        · rw [List.nodup_append]
          refine ⟨(List.nodup_cons.1 h2).2, by simp, ?_⟩
          intro a ha b hb e
          simp at hb; subst hb; subst e; exact hkd (hd ▸ ha)
        · simp at h3 ⊢; omega
  · simp only [hl, if_false, Inv]
    refine ⟨?_, ?_, ?_⟩
    · unfold Dict.set; rw [if_neg hk]; simp [Dict.keys] at h1 ⊢; exact h1
    · rw [List.nodup_append]
      refine ⟨h2, by simp, ?_⟩
      intro a ha b hb e
      simp at hb; subst hb; subst e; exact hk (h1 ▸ ha)
    · simp; omega

theorem call_inv (compute : α → Except PyErr ρ) (key : α → κ) (m : Memo κ ρ) (en : Bool) (r : α)
    (h : m.Inv) : (call compute key m en r).2.Inv := by
  unfold call
  cases en with
  | false => simpa using h
  | true =>
    simp only [if_true]
    cases hg : m.cache.get? (key r) with
    | some v => exact h
    | none =>
      cases compute r with
      | error e => exact h
      | ok v => exact store_inv m _ v h ((Dict.get?_eq_none_iff _ _).1 hg)

theorem run_inv (compute : α → Except PyErr ρ) (key : α → κ) (ops : List (Bool × α))
    (m : Memo κ ρ) (h : m.Inv) : (run compute key m ops).2.Inv := by
  induction ops generalizing m with
  | nil => exact h
  | cons op rest ih =>
    obtain ⟨en, r⟩ := op
    simpa [run] using ih _ (call_inv compute key m en r h)

/-- every cached value is the value of some request with that key -/
def Sound (compute : α → Except PyErr ρ) (key : α → κ) (m : Memo κ ρ) : Prop :=
  ∀ k v, (k, v) ∈ m.cache → ∃ r, key r = k ∧ compute r = .ok v

theorem mem_set (d : Dict κ ρ) (k : κ) (v : ρ) (p : κ × ρ) (h : p ∈ Dict.set d k v) :
    p = (k, v) ∨ p ∈ d := by
  unfold Dict.set at h
  split at h
  · simp only [List.mem_map] at h
    obtain ⟨q, hq, e⟩ := h
    split at e
    · left; exact e.symm
    · right; exact e ▸ hq
  · simp at h; exact h.symm

theorem store_mem (m : Memo κ ρ) (k : κ) (v : ρ) (p : κ × ρ) (h : p ∈ (m.store k v).cache) :
    p = (k, v) ∨ p ∈ m.cache := by
  unfold store at h
  simp only at h
  rcases mem_set _ _ _ _ h with h | h
  · exact .inl h
  · right
    split at h
    · split at h
      · exact h
      · exact (List.mem_filter.1 h).1
    · exact h

theorem store_sound (compute : α → Except PyErr ρ) (key : α → κ) (m : Memo κ ρ) (r : α) (v : ρ)
    (hv : compute r = .ok v) (h : m.Sound compute key) :
    (m.store (key r) v).Sound compute key := by
  intro k w hm
  rcases store_mem m _ _ _ hm with e | hm
  · simp at e; exact ⟨r, e.1.symm, e.2 ▸ hv⟩
  · exact h k w hm

theorem call_sound (compute : α → Except PyErr ρ) (key : α → κ) (m : Memo κ ρ) (en : Bool) (r : α)
    (h : m.Sound compute key) : (call compute key m en r).2.Sound compute key := by
  unfold call
  cases en with
  | false => simpa using h
  | true =>
    simp only [if_true]
    cases hg : m.cache.get? (key r) with
    | some v => exact h
    | none =>
      cases hc : compute r with
      | error e => exact h
      | ok v => exact store_sound compute key m r v hc h

theorem call_out (compute : α → Except PyErr ρ) (key : α → κ)
    (hsep : ∀ r r', key r = key r' → compute r = compute r') (m : Memo κ ρ) (en : Bool) (r : α)
    (h : m.Sound compute key) : (call compute key m en r).1 = compute r := by
  unfold call
  cases en with
  | false => simp
  | true =>
    simp only [if_true]
    cases hg : m.cache.get? (key r) with
    | some v =>
      obtain ⟨r', hk, hv⟩ := h _ _ (Dict.get?_some_mem _ _ _ hg)
      simp only
      rw [hsep r r' hk.symm, hv]
    | none =>
      cases hc : compute r with
      | error e => rfl
      | ok v => rfl

theorem run_out (compute : α → Except PyErr ρ) (key : α → κ)
    (hsep : ∀ r r', key r = key r' → compute r = compute r') (ops : List (Bool × α))
    (m : Memo κ ρ) (h : m.Sound compute key) :
    (run compute key m ops).1 = ops.map (fun op => compute op.2) := by
  induction ops generalizing m with
  | nil => rfl
  | cons op rest ih =>
    obtain ⟨en, r⟩ := op
    simp only [run, List.map_cons]
    rw [call_out compute key hsep m en r h, ih _ (call_sound compute key m en r h)]

/-- every cached value is the value of some request among `P` with that key -/
def SoundOn (P : α → Prop) (compute : α → Except PyErr ρ) (key : α → κ) (m : Memo κ ρ) : Prop :=
  ∀ k v, (k, v) ∈ m.cache → ∃ r, P r ∧ key r = k ∧ compute r = .ok v

theorem call_soundOn (P : α → Prop) (compute : α → Except PyErr ρ) (key : α → κ) (m : Memo κ ρ) (en : Bool)
    (r : α) (hr : P r) (h : m.SoundOn P compute key) : (call compute key m en r).2.SoundOn P compute key := by
  unfold call
  cases en with
  | false => simpa using h
  | true =>
    simp only [if_true]
    cases hg : m.cache.get? (key r) with
    | some v => exact h
    | none =>
      cases hc : compute r with
      | error e => exact h
      | ok v =>
        intro k w hm
        rcases store_mem m _ _ _ hm with e | hm
        · simp at e; exact ⟨r, hr, e.1.symm, e.2 ▸ hc⟩
        · exact h k w hm

theorem call_outOn (P : α → Prop) (compute : α → Except PyErr ρ) (key : α → κ)
    (hsep : ∀ r r', P r → P r' → key r = key r' → compute r = compute r') (m : Memo κ ρ) (en : Bool) (r : α)
    (hr : P r) (h : m.SoundOn P compute key) : (call compute key m en r).1 = compute r := by
  unfold call
  cases en with
  | false => simp
  | true =>
    simp only [if_true]
    cases hg : m.cache.get? (key r) with
    | some v =>
      obtain ⟨r', hp, hk, hv⟩ := h _ _ (Dict.get?_some_mem _ _ _ hg)
      simp only
      rw [hsep r r' hr hp hk.symm, hv]
    | none =>
      cases hc : compute r with
      | error e => rfl
      | ok v => rfl

/-! ### order of the queue -/

omit [DecidableEq κ] in
theorem lastN_snoc (l : List κ) (k : κ) :
    lastN 17 (l ++ [k]) =
      (if (lastN 17 l).length > 16 then (lastN 17 l).tail else lastN 17 l) ++ [k] := by
  unfold lastN
  rw [List.drop_append_of_le_length (by simp)]
  congr 1
  by_cases h : l.length > 16
  · rw [if_pos (by simp; omega), List.tail_drop]
    simp
    congr 1; omega
  · rw [if_neg (by simp; omega)]
    simp
    rw [show l.length - 16 = 0 by omega, show l.length - 17 = 0 by omega]

theorem store_queue (m : Memo κ ρ) (k : κ) (v : ρ) :
    (m.store k v).queue = (if m.queue.length > 16 then m.queue.tail else m.queue) ++ [k] := by
  unfold store
  by_cases h : m.queue.length > 16
  · simp only [h, if_true]
    cases hq : m.queue with
    | nil => simp [hq] at h
    | cons a q => simp
  · simp [h]

theorem run_queue (compute : α → Except PyErr ρ) (key : α → κ) (ops : List (Bool × α))
    (m : Memo κ ρ) (log : List κ) (h : m.queue = lastN 17 log) :
    (run compute key m ops).2.queue = lastN 17 (log ++ storedKeys compute key m ops) := by
  induction ops generalizing m log with
  | nil => simpa [run, storedKeys] using h
  | cons op rest ih =>
    obtain ⟨en, r⟩ := op
    simp only [run, storedKeys]
    rw [← List.append_assoc]
    apply ih
    unfold call
    cases en with
    | false => simpa using h
    | true =>
      simp only [if_true]
      cases hg : m.cache.get? (key r) with
      | some v => simpa using h
      | none =>
        cases compute r with
        | error e => simpa using h
        | ok v =>
          simp only [store_queue, h]
          rw [lastN_snoc]

end Memo

/-! ### the heap of result arrays -/
namespace HeapMemo
variable {κ ρ α : Type}

/-- cached references are allocated, and hold the right content unless written to -/
def Good (compute : α → ρ) (key : α → κ) (s : HeapMemo κ ρ) (w : List Nat) : Prop :=
  ∀ k ref, (k, ref) ∈ s.memo.cache →
    ref < s.heap.length ∧ (ref ∉ w → ∃ r, key r = k ∧ s.heap[ref]? = some (compute r))

theorem call_good [DecidableEq κ] (compute : α → ρ) (key : α → κ) (s : HeapMemo κ ρ) (w : List Nat) (r : α)
    (h : Good compute key s w) : Good compute key (call compute key s r).2 w := by
  unfold call
  cases hg : s.memo.cache.get? (key r) with
  | some v => exact h
  | none =>
    intro k ref hm
    rcases Memo.store_mem _ _ _ _ hm with e | hm
    · simp only [Prod.mk.injEq] at e
      obtain ⟨rfl, rfl⟩ := e
      exact ⟨by simp, fun _ => ⟨r, rfl, by simp⟩⟩
    · obtain ⟨h1, h2⟩ := h k ref hm
      refine ⟨by simp; omega, fun hw => ?_⟩
      obtain ⟨r', hk, hr⟩ := h2 hw
      exact ⟨r', hk, by simp [List.getElem?_append_left h1, hr]⟩

theorem write_good (compute : α → ρ) (key : α → κ) (s : HeapMemo κ ρ) (w : List Nat) (ref : Nat)
    (v : ρ) (h : Good compute key s w) : Good compute key ⟨s.heap.set ref v, s.memo⟩ (ref :: w) := by
  intro k ref' hm
  obtain ⟨h1, h2⟩ := h k ref' hm
  refine ⟨by simpa using h1, fun hw => ?_⟩
  simp at hw
  obtain ⟨r', hk, hr⟩ := h2 hw.2
  exact ⟨r', hk, by rw [List.getElem?_set_ne (fun e => hw.1 e.symm)]; exact hr⟩

theorem good_mono (compute : α → ρ) (key : α → κ) (s : HeapMemo κ ρ) (w w' : List Nat)
    (hw : ∀ x ∈ w, x ∈ w') (h : Good compute key s w) : Good compute key s w' := by
  intro k ref hm
  obtain ⟨h1, h2⟩ := h k ref hm
  exact ⟨h1, fun h' => h2 (fun hx => h' (hw _ hx))⟩

theorem call_out [DecidableEq κ] (compute : α → ρ) (key : α → κ)
    (hsep : ∀ r r', key r = key r' → compute r = compute r')
    (s : HeapMemo κ ρ) (w : List Nat) (r : α) (h : Good compute key s w)
    (hw : (call compute key s r).1 ∉ w) :
    (call compute key s r).2.heap[(call compute key s r).1]? = some (compute r) := by
  unfold call at hw ⊢
  cases hg : s.memo.cache.get? (key r) with
  | some ref =>
    simp only [hg] at hw ⊢
    obtain ⟨_, h2⟩ := h _ _ (Dict.get?_some_mem _ _ _ hg)
    obtain ⟨r', hk, hr⟩ := h2 hw
    rw [hr, hsep r r' hk.symm]
  | none => simp

end HeapMemo
end Naima
