import Verif.Model.PionLUT
import Verif.Props.C14_Synchrotron

/-! # C21: the lookup table in use is the one configured -/

namespace Naima.Props

open Naima XR Classical

/-- What the user last set, and whether the last setting of `useLUT` has been revoked: a small
specification that reads a history from its beginning. -/
structure Wanted where
  useLUT : Bool
  nuc : Bool
  hiE : HiE
  /-- an evaluation asked for a missing table since `useLUT` was last set -/
  missed : Bool

/-- The table for the user's settings. -/
def Wanted.table (w : Wanted) : String := lutName w.nuc w.hiE

def Wanted.step (installed : String → Bool) (w : Wanted) : LUTEvent → Wanted
  | .setUseLUT b => { w with useLUT := b, missed := false }
  | .setNuc b => { w with nuc := b }
  | .setHiE h => { w with hiE := h }
  | .eval => { w with missed := w.missed || (w.useLUT && !installed w.table) }

def wanted (installed : String → Bool) (useLUT nuc : Bool) (hiE : HiE) (evs : List LUTEvent) :
    Wanted := evs.foldl (Wanted.step installed) ⟨useLUT, nuc, hiE, false⟩

/-- What is to be used: the table for the current settings if lookup tables are wanted and that table
is installed, the full calculation otherwise. -/
def expected (installed : String → Bool) (useLUT nuc : Bool) (hiE : HiE) : DiffSigma :=
  if useLUT ∧ installed (lutName nuc hiE) then .table (lutName nuc hiE) else .full

/-- the link between the object and the history -/
private structure Inv (installed : String → Bool) (s : LUTState) (w : Wanted) : Prop where
  nuc : s.nuc = w.nuc
  hiE : s.hiE = w.hiE
  use : s.useLUT = (w.useLUT && !w.missed)
  ds : ∀ f, s.diffsigma = some (.table f) → installed f = true

private theorem select_spec (installed : String → Bool) (s : LUTState)
    (hds : ∀ f, s.diffsigma = some (.table f) → installed f = true) :
    (s.select installed).diffsigma = some (expected installed s.useLUT s.nuc s.hiE) ∧
    (s.select installed).nuc = s.nuc ∧ (s.select installed).hiE = s.hiE ∧
    (s.select installed).useLUT = (s.useLUT && installed (lutName s.nuc s.hiE)) := by
  obtain ⟨u, n, h, d⟩ := s
  unfold LUTState.select expected
  cases u with
  | false => simp
  | true =>
    by_cases hi : installed (lutName n h) = true
    · rcases d with _ | ⟨f⟩ | _
      · simp [LUTState.load, hi]
      · by_cases hf : f = lutName n h <;> simp [LUTState.load, hi, hf]
      · simp [LUTState.load, hi]
    · rcases d with _ | ⟨f⟩ | _
      · simp [LUTState.load, hi]
      · by_cases hf : f = lutName n h
        · have := hds f rfl
          rw [hf] at this
          exact absurd this hi
        · simp [LUTState.load, hi, hf]
      · simp [LUTState.load, hi]

private theorem inv_step (installed : String → Bool) (s : LUTState) (w : Wanted)
    (h : Inv installed s w) (e : LUTEvent) :
    Inv installed (s.step installed e) (w.step installed e) := by
  obtain ⟨h1, h2, h3, h4⟩ := h
  cases e with
  | setUseLUT b => exact ⟨h1, h2, by simp [LUTState.step, Wanted.step], h4⟩
  | setNuc b => exact ⟨rfl, h2, h3, h4⟩
  | setHiE b => exact ⟨h1, rfl, h3, h4⟩
  | eval =>
    obtain ⟨a1, a2, a3, a4⟩ := select_spec installed s h4
    refine ⟨a2.trans h1, a3.trans h2, ?_, ?_⟩
    · show (s.select installed).useLUT = _
      rw [a4, h3, h1, h2]
      simp only [Wanted.step, Wanted.table]
      cases w.useLUT <;> cases w.missed <;> cases installed (lutName w.nuc w.hiE) <;> rfl
    · intro f hf
      have hf : (s.select installed).diffsigma = some (.table f) := hf
      rw [a1] at hf
      unfold expected at hf
      by_cases c : s.useLUT = true ∧ installed (lutName s.nuc s.hiE) = true
      · rw [if_pos c] at hf
        injection hf with hf
        injection hf with hf
        rw [← hf]; exact c.2
      · rw [if_neg c] at hf
        cases hf

private theorem inv_run (installed : String → Bool) (u n : Bool) (h : HiE) (evs : List LUTEvent) :
    Inv installed ((LUTState.init u n h).run installed evs) (wanted installed u n h evs) := by
  unfold LUTState.run wanted
  have : ∀ (evs : List LUTEvent) s w, Inv installed s w →
      Inv installed (evs.foldl (LUTState.step installed) s) (evs.foldl (Wanted.step installed) w) := by
    intro evs
    induction evs with
    | nil => intro s w h; exact h
    | cons e evs ih => intro s w h; exact ih _ _ (inv_step installed s w h e)
  exact this evs _ _ ⟨rfl, rfl, by simp [LUTState.init], by intro f hf; cases hf⟩

/-- the attributes are those last set -/
theorem settings_run (installed : String → Bool) (u n : Bool) (h : HiE) (evs : List LUTEvent) :
    ((LUTState.init u n h).run installed evs).nuc = (wanted installed u n h evs).nuc ∧
    ((LUTState.init u n h).run installed evs).hiE = (wanted installed u n h evs).hiE :=
  ⟨(inv_run installed u n h evs).nuc, (inv_run installed u n h evs).hiE⟩

/-- **C21 (exact behaviour).** After every history of changes and evaluations, whatever tables are
installed, an evaluation uses the table for the current `hiEmodel` and `nuclear_enhancement` exactly if
the user's last setting of `useLUT` is True, that table is installed, and no evaluation since that
setting met a missing table; the full calculation in all other cases. -/
theorem C21_selection (installed : String → Bool) (useLUT nuc : Bool) (hiE : HiE)
    (evs : List LUTEvent) :
    let w := wanted installed useLUT nuc hiE evs
    ((LUTState.init useLUT nuc hiE).run installed evs).used installed =
      some (expected installed (w.useLUT && !w.missed) w.nuc w.hiE) := by
  intro w
  obtain ⟨h1, h2, h3, h4⟩ := inv_run installed useLUT nuc hiE evs
  unfold LUTState.used
  rw [(select_spec installed _ h4).1, h1, h2, h3]

/-- **C21 (partial): the full property while no table is missing.** In every history in which no
evaluation with `useLUT` set has asked for a missing table, evaluations use the table configured.
Missing from the full property: histories after such an evaluation, see `C21_false_sticky`. -/
theorem C21_configured_partial (installed : String → Bool) (useLUT nuc : Bool) (hiE : HiE)
    (evs : List LUTEvent) (h : (wanted installed useLUT nuc hiE evs).missed = false) :
    let w := wanted installed useLUT nuc hiE evs
    ((LUTState.init useLUT nuc hiE).run installed evs).used installed =
      some (expected installed w.useLUT w.nuc w.hiE) := by
  intro w
  have := C21_selection installed useLUT nuc hiE evs
  simp only [h] at this
  rw [this]; simp [w]

/-- **C21: a wrong table is never used.** Whenever a table is used it is the one for the current
settings, and it is installed; this holds for all histories without exception. -/
theorem C21_never_wrong_table (installed : String → Bool) (useLUT nuc : Bool) (hiE : HiE)
    (evs : List LUTEvent) (f : String)
    (h : ((LUTState.init useLUT nuc hiE).run installed evs).used installed = some (.table f)) :
    let w := wanted installed useLUT nuc hiE evs
    w.useLUT = true ∧ f = lutName w.nuc w.hiE ∧ installed f = true := by
  intro w
  rw [C21_selection] at h
  injection h with h
  unfold expected at h
  split at h
  · rename_i c
    injection h with h
    subst h
    refine ⟨?_, rfl, c.2⟩
    have := c.1
    simp at this
    exact this.1
  · cases h

/-- The eight table names are different, so "the table for the settings" is unambiguous. -/
theorem C21_table_names (n n' : Bool) (h h' : HiE) (e : lutName n h = lutName n' h') :
    n = n' ∧ h = h' := by
  revert e
  cases n <;> cases n' <;> cases h <;> cases h' <;> decide

/-- The tables shipped with the package: only Pythia 8 with nuclear enhancement. -/
def shipped (f : String) : Bool := f == lutName true .pythia8

/-- **C21 fails after a missing table.** With the tables shipped with the package: evaluate with
`hiEmodel = "SIBYLL"`, go back to `"Pythia8"`: although the user never unset `useLUT` and the table is
installed, the full calculation is used, in this and all later evaluations until `useLUT` is set again,
whatever changes are made to the model in between. -/
theorem C21_false_sticky (evs : List LUTEvent) (h : ∀ b, LUTEvent.setUseLUT b ∉ evs) :
    let hist := [.setHiE .sibyll, .eval, .setHiE .pythia8] ++ evs
    let w := wanted shipped true true .pythia8 hist
    w.useLUT = true ∧
    ((LUTState.init true true .pythia8).run shipped hist).used shipped = some .full ∧
    expected shipped (wanted shipped true true .pythia8
      [.setHiE .sibyll, .eval, .setHiE .pythia8]).useLUT true .pythia8 =
      .table "PionDecayKafexhiu14_LUT_NucEnh_Pythia8.npz" := by
  have key : ∀ (evs : List LUTEvent) (w : Wanted), (∀ b, LUTEvent.setUseLUT b ∉ evs) →
      w.useLUT = true → w.missed = true →
      (evs.foldl (Wanted.step shipped) w).useLUT = true ∧
      (evs.foldl (Wanted.step shipped) w).missed = true := by
    intro evs
    induction evs with
    | nil => intro w _ h1 h2; exact ⟨h1, h2⟩
    | cons e evs ih =>
      intro w hm h1 h2
      rw [List.foldl_cons]
      apply ih
      · intro b hb; exact hm b (List.mem_cons_of_mem _ hb)
      · cases e with
        | setUseLUT b => exact absurd List.mem_cons_self (hm b)
        | _ => exact h1
      · cases e with
        | setUseLUT b => exact absurd List.mem_cons_self (hm b)
        | eval => simp [Wanted.step, h2]
        | _ => exact h2
  have hw : wanted shipped true true .pythia8 [.setHiE .sibyll, .eval, .setHiE .pythia8] =
      ⟨true, true, .pythia8, true⟩ := by
    have : shipped (lutName true .sibyll) = false := by decide
    simp [wanted, Wanted.step, Wanted.table, this]
  obtain ⟨k1, k2⟩ := key evs ⟨true, true, .pythia8, true⟩ h rfl rfl
  have hw' : wanted shipped true true .pythia8
      ([.setHiE .sibyll, .eval, .setHiE .pythia8] ++ evs) =
      evs.foldl (Wanted.step shipped) ⟨true, true, .pythia8, true⟩ := by
    unfold wanted at hw ⊢
    rw [List.foldl_append, hw]
  refine ⟨by simp only [hw', k1], ?_, ?_⟩
  · have := C21_selection shipped true true .pythia8 ([.setHiE .sibyll, .eval, .setHiE .pythia8] ++ evs)
    simp only [] at this ⊢
    rw [this, hw', k1, k2]
    rfl
  · rw [hw]
    have : shipped (lutName true .pythia8) = true := by decide
    simp only [expected, this]
    decide

/-- A non-trivial history in which no table is missed: switch tables off, change the model, evaluate,
go back. -/
example : (wanted shipped true true .pythia8
    [.eval, .setUseLUT false, .setHiE .sibyll, .eval, .setHiE .pythia8, .setUseLUT true, .eval]).missed =
      false ∧ ∃ f, ((LUTState.init true true .pythia8).run shipped
    [.eval, .setUseLUT false, .setHiE .sibyll, .eval, .setHiE .pythia8, .setUseLUT true, .eval]).used
      shipped = some (.table f) := by
  refine ⟨by decide, lutName true .pythia8, ?_⟩
  rw [C21_configured_partial _ _ _ _ _ (by decide)]
  have : shipped (lutName true .pythia8) = true := by decide
  simp [wanted, Wanted.step, expected, this]

end Naima.Props
