import Verif.Model.Objects
import Verif.Model.Kelner
import Verif.Proof.Memo

/-!
# C99 — model objects are independent of each other
-/

namespace Naima.Props

variable {κ ρ α : Type} [DecidableEq κ]

/-- The outputs of a session that belong to one object. -/
def outputsOf (o : ModelObj) (hist : List (ModelObj × Bool × α)) (outs : List (Except PyErr ρ)) :
    List (Except PyErr ρ) :=
  ((hist.zip outs).filter (fun p => p.1.1 = o)).map (·.2)

/-- The calls of a session on one object. -/
def callsOn (o : ModelObj) (hist : List (ModelObj × Bool × α)) : List (Bool × α) :=
  (hist.filter (fun p => p.1 = o)).map (·.2)

/-- The four radiative classes whose cache is created with the object. -/
def OwnCache (c : ModelClass) : Prop :=
  c = .synchrotron ∨ c = .inverseCompton ∨ c = .bremsstrahlung ∨ c = .pionDecay

theorem ownCache_loc {o : ModelObj} (h : OwnCache o.cls) : o.cacheLoc = .ofObject o.id := by
  unfold ModelObj.cacheLoc
  rcases h with h | h | h | h <;> rw [h]

theorem loc_ne {o o' : ModelObj} (h : OwnCache o.cls) (hid : o'.id ≠ o.id) :
    o'.cacheLoc ≠ o.cacheLoc := by
  rw [ownCache_loc h]
  unfold ModelObj.cacheLoc
  cases o'.cls <;> simp [hid]

/-- **C99 (independence), for `Synchrotron`, `InverseCompton`, `Bremsstrahlung`, `PionDecay`.**  In any
session, with calls on any number of model objects of any class in any order, the results of the calls on
one such object are those it would have given had no other object been used. -/
theorem C99_independent_partial (compute : ModelObj → α → Except PyErr ρ) (key : ModelObj → α → κ)
    (hist : List (ModelObj × Bool × α)) (o : ModelObj) (ho : OwnCache o.cls)
    (hid : ∀ p ∈ hist, p.1.id = o.id → p.1 = o) :
    outputsOf o hist (Session.run compute key Session.start hist).1 =
      (Memo.run (compute o) (key o) Memo.empty (callsOn o hist)).1 := by
  have gen : ∀ (hist : List (ModelObj × Bool × α)) (s : Session κ ρ),
      (∀ p ∈ hist, p.1.id = o.id → p.1 = o) →
      outputsOf o hist (Session.run compute key s hist).1 =
        (Memo.run (compute o) (key o) (s o.cacheLoc) (callsOn o hist)).1 := by
    intro hist
    induction hist with
    | nil => intro s _; rfl
    | cons p rest ih =>
      obtain ⟨o', en, r⟩ := p
      intro s hid
      have hrest : ∀ p ∈ rest, p.1.id = o.id → p.1 = o := fun p hp => hid p (by simp [hp])
      have hi := ih (Session.call compute key s o' en r).2 hrest
      unfold outputsOf callsOn at hi ⊢
      simp only [Session.run, List.zip_cons_cons]
      by_cases h : o' = o
      · subst h
        rw [List.filter_cons_of_pos (by simp), List.filter_cons_of_pos (by simp)]
        simp only [List.map_cons, Memo.run]
        rw [hi]
        simp [Session.call]
      · rw [List.filter_cons_of_neg (by simpa using h), List.filter_cons_of_neg (by simpa using h), hi]
        have hne : o'.id ≠ o.id := fun hc => h (hid (o', en, r) (by simp) hc)
        have hl : o.cacheLoc ≠ o'.cacheLoc := (loc_ne ho hne).symm
        simp only [Session.call, hl, if_false]
  exact gen hist Session.start hid

/-- **C99 (other objects share nothing they need).**  In any session, if the keys of two calls that use the
same cache agree only when the results do, every call gives what an uncached call gives — for the classes
with a shared cache (`PionDecayKelner06`, the spectral models with caching switched on) included. -/
theorem C99_shared_separated_partial (compute : ModelObj → α → Except PyErr ρ) (key : ModelObj → α → κ)
    (hsep : ∀ o o' r r', o.cacheLoc = o'.cacheLoc → key o r = key o' r' → compute o r = compute o' r')
    (hist : List (ModelObj × Bool × α)) :
    (Session.run compute key Session.start hist).1 = hist.map (fun p => compute p.1 p.2.2) := by
  have gen : ∀ (hist : List (ModelObj × Bool × α)) (s : Session κ ρ),
      (∀ l k v, (k, v) ∈ (s l).cache → ∃ o r, o.cacheLoc = l ∧ key o r = k ∧ compute o r = .ok v) →
      (Session.run compute key s hist).1 = hist.map (fun p => compute p.1 p.2.2) := by
    intro hist
    induction hist with
    | nil => intro s _; rfl
    | cons p rest ih =>
      obtain ⟨o, en, r⟩ := p
      intro s hs
      have step : (Memo.call (compute o) (key o) (s o.cacheLoc) en r).1 = compute o r ∧
          ∀ k v, (k, v) ∈ (Memo.call (compute o) (key o) (s o.cacheLoc) en r).2.cache →
            ∃ o' r', o'.cacheLoc = o.cacheLoc ∧ key o' r' = k ∧ compute o' r' = .ok v := by
        unfold Memo.call
        cases en with
        | false => exact ⟨rfl, fun k v h => hs _ k v h⟩
        | true =>
          simp only [if_true]
          cases hg : (s o.cacheLoc).cache.get? (key o r) with
          | some v =>
            obtain ⟨o', r', h1, h2, h3⟩ := hs _ _ _ (Dict.get?_some_mem _ _ _ hg)
            exact ⟨(h3.symm.trans (hsep o' o r' r h1 h2)), fun k v h => hs _ k v h⟩
          | none =>
            cases hc : compute o r with
            | error e => exact ⟨rfl, fun k v h => hs _ k v h⟩
            | ok v =>
              refine ⟨rfl, ?_⟩
              intro k w hk
              rcases Memo.store_mem (s o.cacheLoc) (key o r) v (k, w) hk with h | h
              · obtain ⟨rfl, rfl⟩ := Prod.mk.inj h
                exact ⟨o, r, rfl, rfl, hc⟩
              · exact hs _ k w h
      simp only [Session.run, List.map_cons]
      refine congrArg₂ _ step.1 (ih _ ?_)
      intro l k v hk
      simp only [Session.call] at hk
      by_cases hl : l = o.cacheLoc
      · rw [if_pos hl] at hk
        obtain ⟨o', r', h1, h2, h3⟩ := step.2 k v hk
        exact ⟨o', r', by rw [h1, hl], h2, h3⟩
      · rw [if_neg hl] at hk
        exact hs l k v hk
  exact gen hist Session.start (by intro l k v h; simp [Session.start, Memo.empty] at h)

/-- **C99 (spectral models).**  With caching off, the default of the spectral models, every call in a
session gives what it computes, whatever else was called before. -/
theorem C99_uncached (compute : ModelObj → α → Except PyErr ρ) (key : ModelObj → α → κ)
    (hist : List (ModelObj × Bool × α)) (hoff : ∀ p ∈ hist, p.2.1 = false) :
    (Session.run compute key Session.start hist).1 = hist.map (fun p => compute p.1 p.2.2) := by
  have gen : ∀ s : Session κ ρ,
      (Session.run compute key s hist).1 = hist.map (fun p => compute p.1 p.2.2) := by
    induction hist with
    | nil => intro s; rfl
    | cons p rest ih =>
      obtain ⟨o, en, r⟩ := p
      intro s
      have h0 : en = false := hoff (o, en, r) (by simp)
      subst h0
      simp only [Session.run, List.map_cons, Session.call, Memo.call, Bool.false_eq_true, if_false]
      rw [ih (fun p hp => hoff p (by simp [hp]))]
  exact gen Session.start

/-- Which classes cache by default. -/
theorem C99_default (c : ModelClass) : c.memoizeDefault = true ↔ OwnCache c ∨ c = .pionDecayKelner06 := by
  cases c <;> simp [ModelClass.memoizeDefault, OwnCache]

/-- **C99 is false of `PionDecayKelner06`**: two different objects share one cache.  Whenever the first gives a
result `v`, the second — with another particle distribution that lists no parameters, such as a `TableModel` or a
function — gives the same `v`, whatever it should compute. -/
theorem C99_false_kelner_shared {η : Type} (sha : PyStr → PyStr)
    (compute : ModelObj → FluxReq η → Except PyErr ρ) (i j : Nat) (r : FluxReq η) (h' : η) (v : ρ)
    (hv : compute ⟨.pionDecayKelner06, i⟩ r = .ok v) :
    (Session.run compute (fun _ r => r.key sha) Session.start
      [(⟨.pionDecayKelner06, i⟩, true, r), (⟨.pionDecayKelner06, j⟩, true, { r with hidden := h' })]).1
      = [.ok v, .ok v] := by
  have hk : FluxReq.key sha { r with hidden := h' } = FluxReq.key sha r := rfl
  have hl : (⟨.pionDecayKelner06, j⟩ : ModelObj).cacheLoc = (⟨.pionDecayKelner06, i⟩ : ModelObj).cacheLoc := rfl
  simp [Session.run, Session.call, Session.start, hl, Memo.call, Memo.empty, Dict.get?, hv, Memo.store,
    Dict.set, Dict.keys, hk]

/-- The same with the spectrum of the class: the second model, whose distribution has a wrong unit, must raise
UnitConversionError and does when used alone; after a call on the first it returns the first model's spectrum. -/
theorem C99_false_kelner_spectrum (Q : Quad) (sha : PyStr → PyStr) (r : FluxReq PDist)
    (good bad : PDist) (hg : good.unit.dim = Dim.diffEnergy) (hb : bad.unit.dim ≠ Dim.diffEnergy)
    (m : KelnerModel) :
    let compute : ModelObj → FluxReq PDist → Except PyErr (List XR) :=
      fun _ q => m.spectrum Q q.hidden (.array [1])
    let key : ModelObj → FluxReq PDist → PyStr := fun _ q => q.key sha
    let first : ModelObj := ⟨.pionDecayKelner06, 0⟩
    let second : ModelObj := ⟨.pionDecayKelner06, 1⟩
    (Session.run compute key Session.start [(second, true, { r with hidden := bad })]).1 =
      [.error .unitConversionError] ∧
    ∃ v, (Session.run compute key Session.start
      [(first, true, { r with hidden := good }), (second, true, { r with hidden := bad })]).1 =
        [.ok v, .ok v] := by
  refine ⟨?_, ?_⟩
  · simp [Session.run, Session.call, Session.start, Memo.call, Memo.empty, Dict.get?,
      KelnerModel.spectrum, hb]
  · exact ⟨_, C99_false_kelner_shared sha
      (fun _ (q : FluxReq PDist) => m.spectrum Q q.hidden (.array [1])) 0 1 { r with hidden := good } bad _
      (by simp only [KelnerModel.spectrum, hg]; rw [if_neg (by simp)])⟩

/-! ### concrete cases -/

/-- Two synchrotron objects and a pion-decay object, interleaved: hypotheses of `C99_independent_partial`. -/
example : OwnCache (ModelObj.mk .synchrotron 0).cls ∧
    (∀ p ∈ [((⟨.synchrotron, 0⟩ : ModelObj), true, (3 : Nat)), (⟨.pionDecayKelner06, 1⟩, true, 3),
        (⟨.synchrotron, 2⟩, true, 3), (⟨.synchrotron, 0⟩, true, 3)],
      p.1.id = 0 → p.1 = (⟨.synchrotron, 0⟩ : ModelObj)) ∧
    callsOn (⟨.synchrotron, 0⟩ : ModelObj) [((⟨.synchrotron, 0⟩ : ModelObj), true, (3 : Nat)),
        (⟨.pionDecayKelner06, 1⟩, true, 3), (⟨.synchrotron, 2⟩, true, 3), (⟨.synchrotron, 0⟩, true, 3)] =
      [(true, 3), (true, 3)] :=
  ⟨Or.inl rfl, by simp, rfl⟩

/-- In the session above the object returns its own results, though keys are equal on all objects. -/
example : outputsOf (⟨.synchrotron, 2⟩ : ModelObj)
    [((⟨.synchrotron, 0⟩ : ModelObj), true, (3 : Nat)), (⟨.synchrotron, 2⟩, true, 3)]
    (Session.run (ρ := Nat) (fun o r => .ok (o.id + r)) (fun _ r => r) Session.start
      [((⟨.synchrotron, 0⟩ : ModelObj), true, (3 : Nat)), (⟨.synchrotron, 2⟩, true, 3)]).1 = [.ok 5] := by
  rfl

end Naima.Props
