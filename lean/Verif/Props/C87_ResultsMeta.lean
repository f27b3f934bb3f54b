import Verif.Model.ResultsMeta
import Verif.Props.C49_C52_Results
import Verif.Props.Tight1
import Std.Data.String.ToNat

/-! # C87: metadata and file of the results table -/

namespace Naima.Props

open Naima XR Classical

/-! ### Specification -/

/-- What a reader of the table finds under a name: among the keywords if the table has keywords (IPAC),
otherwise in `meta`. -/
def ResTable.entry {V : Type} (t : ResTable V) (k : Label) : Option (MetaVal V) :=
  match t.keywords with
  | some kw => kw.get? k
  | none => t.top.get? k

/-- The number in an entry. -/
def metaNumber {V : Type} : MetaVal V → Option XR
  | .nat n => some (fin n)
  | .float x => some x
  | .npScalar x => some x
  | _ => none

/-- The same content, possibly in plain Python instead of numpy. -/
inductive SameMeta {V : Type} : MetaVal V → MetaVal V → Prop
  | same (v : MetaVal V) : SameMeta v v
  | scalar (x : XR) : SameMeta (.npScalar x) (.float x)
  | vector (l : List ℝ) : SameMeta (.npVector l) (.floats l)
  | column (l : List ℝ) : SameMeta (.npMatrix (l.map (fun x => [x]))) (.floats l)

/-- The names under which the function itself stores something. -/
def ownKeys : List Label := ["n_samples".toList, "ML_pars".toList, "MaxLogLikelihood".toList, "BIC".toList]

/-- The name of the unit of blob `idx`. -/
def unitName (idx : ℕ) : Label := "blob".toList ++ (toString idx).toList ++ "_unit".toList

/-- `run_info` is a dictionary that uses none of the names of the function itself. -/
def InfoGood {V : Type} (d : Dict Label (MetaVal V)) : Prop :=
  d.keys.Nodup ∧ (∀ k ∈ d.keys, k ∉ ownKeys) ∧ ∀ k ∈ d.keys, ∀ idx : ℕ, k ≠ unitName idx

/-! ### Dictionaries -/

theorem dictUpdate_get {V : Type} (d m : Dict Label (MetaVal V)) (hd : d.keys.Nodup) (k : Label) :
    (dictUpdate m d).get? k = match d.get? k with
      | some v => some v
      | none => m.get? k := by
  induction d generalizing m with
  | nil => rfl
  | cons p d ih =>
    obtain ⟨k0, v0⟩ := p
    have hd' : k0 ∉ Dict.keys d ∧ (Dict.keys d).Nodup := by
      simpa [Dict.keys] using hd
    have := ih (m.set k0 v0) hd'.2
    unfold dictUpdate at this ⊢
    rw [List.foldl_cons, this]
    by_cases h : k0 = k
    · subst h
      have e1 : Dict.get? d k0 = none := (Dict.get?_eq_none_iff d k0).2 hd'.1
      have e2 : Dict.get? ((k0, v0) :: d) k0 = some v0 := by simp [Dict.get?]
      rw [e1, e2]
      exact Dict.get?_set_self _ _ _
    · have e2 : Dict.get? ((k0, v0) :: d) k = Dict.get? d k := by simp [Dict.get?, h]
      rw [e2, Dict.get?_set_other _ _ _ _ (fun e => h e.symm)]

theorem plainMeta_get {V : Type} (m m' : Dict Label (MetaVal V)) (h : plainMeta m = .ok m') (k : Label)
    (v : MetaVal V) (hv : m.get? k = some v) : ∃ v', toPlain v = .ok v' ∧ m'.get? k = some v' := by
  induction m generalizing m' with
  | nil => simp [Dict.get?] at hv
  | cons p m ih =>
    obtain ⟨k0, v0⟩ := p
    unfold plainMeta at h
    cases h0 : toPlain v0 with
    | error e => simp [h0] at h
    | ok v0' =>
      rw [h0] at h
      cases h1 : plainMeta m with
      | error e => simp [h1, Except.map] at h
      | ok m1 =>
        simp only [h1, Except.map, Except.ok.injEq] at h
        subst h
        by_cases hk : k0 = k
        · subst hk
          have : Dict.get? ((k0, v0) :: m) k0 = some v0 := by simp [Dict.get?]
          rw [this] at hv
          cases hv
          exact ⟨v0', h0, by simp [Dict.get?]⟩
        · have e : Dict.get? ((k0, v0) :: m) k = Dict.get? m k := by simp [Dict.get?, hk]
          rw [e] at hv
          obtain ⟨v', a, b⟩ := ih m1 h1 hv
          exact ⟨v', a, by simpa [Dict.get?, hk] using b⟩

theorem plainMeta_keys {V : Type} (m m' : Dict Label (MetaVal V)) (h : plainMeta m = .ok m') :
    m'.keys = m.keys := by
  induction m generalizing m' with
  | nil => cases h; rfl
  | cons p m ih =>
    obtain ⟨k0, v0⟩ := p
    unfold plainMeta at h
    cases h0 : toPlain v0 with
    | error e => simp [h0] at h
    | ok v0' =>
      rw [h0] at h
      cases h1 : plainMeta m with
      | error e => simp [h1, Except.map] at h
      | ok m1 =>
        simp only [h1, Except.map, Except.ok.injEq] at h
        subst h
        have := ih m1 h1
        simpa [Dict.keys] using this

theorem toPlain_same {V : Type} (v v' : MetaVal V) (h : toPlain v = .ok v') : SameMeta v v' := by
  cases v with
  | npScalar x => cases h; exact .scalar x
  | npVector l => cases h; exact .vector l
  | npMatrix l =>
    unfold toPlain at h
    have key : ∀ (l : List (List ℝ)) (r : List ℝ), l.mapM rowItem = .ok r → l = r.map (fun x => [x]) := by
      intro l
      induction l with
      | nil => intro r hr; cases hr; rfl
      | cons a l ih =>
        intro r hr
        rw [List.mapM_cons] at hr
        match a, hr with
        | [], hr => cases hr
        | [x], hr =>
          cases h1 : l.mapM rowItem with
          | error e => rw [h1] at hr; cases hr
          | ok r1 =>
            rw [h1] at hr
            cases hr
            rw [ih r1 h1]
            rfl
        | x :: y :: t, hr => cases hr
    simp only at h
    cases h1 : l.mapM rowItem with
    | error e => rw [h1] at h; cases h
    | ok r =>
      rw [h1] at h
      cases h
      rw [key l r h1]
      exact .column r
  | nat n => cases h; exact .same _
  | float x => cases h; exact .same _
  | floats l => cases h; exact .same _
  | text s => cases h; exact .same _
  | py v => cases h; exact .same _

theorem blobUnitKey_inj (i j : ℕ) (h : blobUnitKey i = blobUnitKey j) : i = j := by
  unfold blobUnitKey at h
  simp only [List.append_assoc, List.append_cancel_left_eq, List.append_cancel_right_eq] at h
  have h2 : (toString i) = toString j := String.toList_inj.1 h
  exact Nat.repr_injective h2

theorem blobUnitKey_own (i : ℕ) : blobUnitKey i ∉ ownKeys := by
  unfold blobUnitKey ownKeys
  simp

/-- the blob number `idx` of the first walker of the last step -/
def lastBlob (blobs : List (List (List UBlob))) (idx : ℕ) : UBlob :=
  ((blobs.getLastD []).headD []).getD idx .other

theorem blobUnitEntries_other {V : Type} (blobs : List (List (List UBlob))) (m : Dict Label (MetaVal V))
    (k : Label) (hk : ∀ idx, k ≠ blobUnitKey idx) : (blobUnitEntries blobs m).get? k = m.get? k := by
  unfold blobUnitEntries
  generalize List.range _ = l
  induction l generalizing m with
  | nil => rfl
  | cons i l ih =>
    rw [List.foldl_cons, ih]
    unfold blobUnitEntry
    split
    · exact Dict.get?_set_other _ _ _ _ (hk i)
    · rfl

theorem blobUnitEntries_unit {V : Type} (blobs : List (List (List UBlob))) (m : Dict Label (MetaVal V))
    (idx : ℕ) (hi : idx < ((blobs.getLastD []).headD []).length) :
    (blobUnitEntries blobs m).get? (blobUnitKey idx) = match lastBlob blobs idx with
      | .qty _ u => some (.text u)
      | _ => m.get? (blobUnitKey idx) := by
  unfold blobUnitEntries
  have hmem : idx ∈ List.range ((blobs.getLastD []).headD []).length := List.mem_range.2 hi
  have hnd : (List.range ((blobs.getLastD []).headD []).length).Nodup := List.nodup_range
  revert hmem hnd
  generalize List.range _ = l
  have other : ∀ (l : List ℕ) (m : Dict Label (MetaVal V)), idx ∉ l →
      (l.foldl (fun m idx => blobUnitEntry blobs idx m) m).get? (blobUnitKey idx) =
        m.get? (blobUnitKey idx) := by
    intro l
    induction l with
    | nil => intro m _; rfl
    | cons i l ih =>
      intro m h
      rw [List.foldl_cons, ih _ (fun h' => h (List.mem_cons_of_mem _ h'))]
      unfold blobUnitEntry
      split
      · refine Dict.get?_set_other _ _ _ _ (fun e => h ?_)
        rw [blobUnitKey_inj _ _ e]; exact List.mem_cons_self
      · rfl
  induction l generalizing m with
  | nil => intro h; simp at h
  | cons i l ih =>
    intro hmem hnd
    rw [List.nodup_cons] at hnd
    rw [List.foldl_cons]
    rcases List.mem_cons.1 hmem with rfl | hmem
    · rw [other l _ hnd.1]
      unfold blobUnitEntry lastBlob
      split
      · rename_i v u h; rw [h]; exact Dict.get?_set_self _ _ _
      · rename_i h
        split
        · rename_i v u h'; exact absurd h' (h v u)
        · rfl
    · rw [ih _ hmem hnd.2]
      have hne : idx ≠ i := fun e => hnd.1 (e ▸ hmem)
      split
      · rfl
      · unfold blobUnitEntry
        split
        · exact Dict.get?_set_other _ _ _ _ (fun e => hne (blobUnitKey_inj _ _ e))
        · rfl

/-! ### The metadata of the table -/

/-- entries of the metadata survive the conversion -/
theorem metaTable_entry {V : Type} (f : TableFormat) (rows : List ResRow) (m : Dict Label (MetaVal V))
    (t : ResTable V) (h : metaTable f rows m = .ok t) (k : Label) (v : MetaVal V) (hv : m.get? k = some v) :
    ∃ v', ResTable.entry t k = some v' ∧ SameMeta v v' := by
  unfold metaTable at h
  cases f with
  | ipac => cases h; exact ⟨v, hv, .same v⟩
  | other n => cases h; exact ⟨v, hv, .same v⟩
  | ecsv =>
    cases hp : plainMeta m with
    | error e => rw [hp] at h; cases h
    | ok m' =>
      rw [hp] at h
      cases h
      obtain ⟨v', a, b⟩ := plainMeta_get m m' hp k v hv
      exact ⟨v', b, toPlain_same v v' a⟩

theorem metaTable_format {V : Type} (f : TableFormat) (rows : List ResRow) (m : Dict Label (MetaVal V))
    (t : ResTable V) (h : metaTable f rows m = .ok t) : t.format = f ∧ t.rows = rows := by
  unfold metaTable at h
  cases f with
  | ipac => cases h; exact ⟨rfl, rfl⟩
  | other n => cases h; exact ⟨rfl, rfl⟩
  | ecsv =>
    cases hp : plainMeta m with
    | error e => rw [hp] at h; cases h
    | ok m' => rw [hp] at h; cases h; exact ⟨rfl, rfl⟩

theorem tableMeta_get {V : Type} (incl : Bool) (n : ℕ) (ml : XR) (mlp : List ℝ) (run : ResRun V)
    (hr : ∀ d, run.runInfo = some d → InfoGood d) :
    (∀ k ∈ ownKeys, (tableMeta incl n ml mlp run).get? k = (baseMeta n run.nData ml mlp).get? k) ∧
    (∀ d, run.runInfo = some d → ∀ k v, d.get? k = some v → (tableMeta incl n ml mlp run).get? k = some v) ∧
    (∀ b, incl = true → run.blobs = some b → ∀ idx v u, idx < ((b.getLastD []).headD []).length →
      lastBlob b idx = .qty v u → (tableMeta incl n ml mlp run).get? (blobUnitKey idx) = some (.text u)) := by
  have step : ∀ (m : Dict Label (MetaVal V)) (k : Label), (∀ idx, k ≠ blobUnitKey idx) →
      (withBlobUnits incl run m).get? k = m.get? k := by
    intro m k hk
    unfold withBlobUnits
    split
    · exact blobUnitEntries_other _ _ _ hk
    · rfl
  refine ⟨?_, ?_, ?_⟩
  · intro k hk
    have hne : ∀ idx, k ≠ blobUnitKey idx := fun idx e => blobUnitKey_own idx (e ▸ hk)
    unfold tableMeta
    simp only
    rw [step _ k hne]
    unfold withRunInfo
    cases hi : run.runInfo with
    | none => rfl
    | some d =>
      have hd := hr d hi
      have : d.get? k = none := (Dict.get?_eq_none_iff d k).2 (fun h => hd.2.1 k h hk)
      simp only
      rw [dictUpdate_get d _ hd.1 k, this]
  · intro d hi k v hv
    have hd := hr d hi
    have hk : k ∈ d.keys := by
      by_contra h
      rw [(Dict.get?_eq_none_iff d k).2 h] at hv
      cases hv
    unfold tableMeta
    simp only
    rw [step _ k (hd.2.2 k hk)]
    unfold withRunInfo
    simp only [hi]
    rw [dictUpdate_get d _ hd.1 k, hv]
  · intro b hin hb idx v u hidx hl
    unfold tableMeta withBlobUnits
    simp only [hin, hb]
    rw [blobUnitEntries_unit b _ idx hidx, hl]

/-- **C87 (metadata).** For every run with at least one step and one walker, whose log-probabilities are not
NaN and whose run information uses none of the function's own names: whenever the call returns a table, in
any format, with any options, the table holds as metadata the number of samples used, the largest
log-probability and the parameters of a sample that has it, the Bayesian information criterion
k·ln(number of data) − 2·(largest log-probability), everything in the run information, and the unit of every
blob that gets a row. -/
theorem C87_metadata {V : Type} (hasYaml : Bool) (out : Label) (format : TableFormat)
    (conv lastStep incl overwrite : Bool) (run : ResRun V) (files files' : Dict Label (ResTable V))
    (t : ResTable V) (s w : ℕ) (hs : 0 < s) (hw : 0 < w) (h1 : HasShape run.lnprob s w)
    (h2 : HasShape run.chain s w) (hn : ∀ r ∈ run.lnprob, ∀ a ∈ r, a ≠ nan)
    (hr : ∀ d, run.runInfo = some d → InfoGood d)
    (ht : saveResultsTable hasYaml out format conv lastStep incl overwrite run files = (files', .ok t)) :
    (∃ dists, resultSamples lastStep run.chain = .ok dists ∧
      ResTable.entry t "n_samples".toList = some (.nat dists.length)) ∧
    (∃ (i j : ℕ) (m : XR) (p : List ℝ), (run.lnprob[i]?.bind (·[j]?)) = some m ∧
      (run.chain[i]?.bind (·[j]?)) = some p ∧ (∀ r ∈ run.lnprob, ∀ a ∈ r, a ≤ m) ∧
      ResTable.entry t "ML_pars".toList = some (.floats p) ∧
      ResTable.entry t "MaxLogLikelihood".toList = some (.float m) ∧
      ∀ x : ℝ, m = fin x → 0 < run.nData → ∃ v, ResTable.entry t "BIC".toList = some v ∧
        metaNumber v = some (fin (p.length * Real.log run.nData - 2 * x))) ∧
    (∀ d, run.runInfo = some d → ∀ k v, d.get? k = some v →
      ∃ v', ResTable.entry t k = some v' ∧ SameMeta v v') ∧
    (∀ b, incl = true → run.blobs = some b → ∀ idx v u, idx < ((b.getLastD []).headD []).length →
      lastBlob b idx = .qty v u → ResTable.entry t (unitName idx) = some (.text u)) := by
  obtain ⟨i, j, m, p, b, hf, hm, hp, _, hmax⟩ :=
    C49_consistent run.lnprob run.chain run.lnprob s w hs hw h1 h2 h1 hn
  have hmk : makeTable hasYaml format conv lastStep incl run = .ok t := by
    unfold saveResultsTable at ht
    cases h : makeTable hasYaml format conv lastStep incl run with
    | error e => rw [h] at ht; cases ht
    | ok t' =>
      rw [h] at ht
      simp only at ht
      split_ifs at ht
      · cases ht
      · cases ht; rfl
  unfold makeTable at hmk
  cases hd : resultSamples lastStep run.chain with
  | error e => rw [hd] at hmk; cases hmk
  | ok dists =>
    rw [hd, hf] at hmk
    simp only at hmk
    have hmt : ∃ rows, metaTable (formatUsed hasYaml format) rows (tableMeta incl dists.length m p run) = .ok t := by
      split at hmk
      · split at hmk <;> cases hmk
      · split at hmk
        · cases hmk
        · exact ⟨_, hmk⟩
    obtain ⟨rows, hmt⟩ := hmt
    obtain ⟨own, info, units⟩ := tableMeta_get incl dists.length m p run hr
    have ent := metaTable_entry (formatUsed hasYaml format) rows _ t hmt
    refine ⟨⟨dists, rfl, ?_⟩, ⟨i, j, m, p, hm, hp, hmax, ?_, ?_, ?_⟩, ?_, ?_⟩
    · obtain ⟨v', e, sm⟩ := ent "n_samples".toList _ ((own _ (by simp [ownKeys])).trans rfl)
      cases sm
      exact e
    · obtain ⟨v', e, sm⟩ := ent "ML_pars".toList (.floats p) ((own _ (by simp [ownKeys])).trans rfl)
      cases sm
      exact e
    · obtain ⟨v', e, sm⟩ := ent "MaxLogLikelihood".toList (.float m) ((own _ (by simp [ownKeys])).trans rfl)
      cases sm
      exact e
    · intro x hx hN
      obtain ⟨v', e, sm⟩ := ent "BIC".toList (.npScalar (bicOf p.length run.nData m))
        ((own _ (by simp [ownKeys])).trans rfl)
      refine ⟨v', e, ?_⟩
      have hb : bicOf p.length run.nData m = fin (p.length * Real.log run.nData - 2 * x) := by
        subst hx
        unfold bicOf XR.log
        simp only
        have : (0:ℝ) < run.nData := by exact_mod_cast hN
        rw [if_neg (not_lt.2 this.le), if_neg this.ne']
        rw [sub_eq_add_neg]
        rfl
      cases sm with
      | same _ => rw [← hb]; rfl
      | scalar _ => rw [← hb]; rfl
    · intro d hi k v hv
      exact ent k v (info d hi k v hv)
    · intro bl hin hb idx v u hidx hl
      obtain ⟨v', e, sm⟩ := ent (blobUnitKey idx) (.text u) (units bl hin hb idx v u hidx hl)
      cases sm
      exact e

/-! ### The file -/

/-- The documented name, with the extension of the format: `ecsv` for ECSV if it can be written, otherwise
`dat`. -/
def expectedFile (hasYaml : Bool) (out : Label) (format : TableFormat) : Label :=
  if hasYaml = true ∧ format = .ecsv then out ++ "_results.ecsv".toList else out ++ "_results.dat".toList

theorem resultsFile_eq (hasYaml : Bool) (out : Label) (format : TableFormat) :
    resultsFile out (formatUsed hasYaml format) = expectedFile hasYaml out format := by
  unfold resultsFile formatUsed expectedFile
  cases hasYaml <;> cases format <;> simp <;> rfl

/-- **C87 (file).** Whatever the run and the options: either the call raises and every file is as before, or
it returns the table, which is what is now in the file of the documented name, all other files being as
before; without `overwrite=True` the latter happens only if there was no such file. -/
theorem C87_file {V : Type} (hasYaml : Bool) (out : Label) (format : TableFormat)
    (conv lastStep incl overwrite : Bool) (run : ResRun V) (files : Dict Label (ResTable V)) :
    (∃ e, saveResultsTable hasYaml out format conv lastStep incl overwrite run files = (files, .error e)) ∨
    (∃ files' t, saveResultsTable hasYaml out format conv lastStep incl overwrite run files = (files', .ok t) ∧
      files'.get? (expectedFile hasYaml out format) = some t ∧
      (∀ n, n ≠ expectedFile hasYaml out format → files'.get? n = files.get? n) ∧
      (overwrite = false → files.get? (expectedFile hasYaml out format) = none)) := by
  unfold saveResultsTable
  cases h : makeTable hasYaml format conv lastStep incl run with
  | error e => exact Or.inl ⟨e, rfl⟩
  | ok t =>
    simp only [resultsFile_eq]
    split_ifs with hc
    · exact Or.inl ⟨_, rfl⟩
    · refine Or.inr ⟨_, t, rfl, Dict.get?_set_self _ _ _, fun n hn => Dict.get?_set_other _ _ _ _ hn, ?_⟩
      intro ho
      rw [ho] at hc
      rw [Dict.get?_eq_none_iff]
      simpa using hc

/-- A value without numpy types. -/
def IsPlain {V : Type} : MetaVal V → Prop
  | .npScalar _ => False
  | .npVector _ => False
  | .npMatrix _ => False
  | _ => True

theorem plainMeta_plain {V : Type} (m m' : Dict Label (MetaVal V)) (h : plainMeta m = .ok m') (k : Label)
    (v : MetaVal V) (hv : m'.get? k = some v) : IsPlain v := by
  induction m generalizing m' with
  | nil => cases h; simp [Dict.get?] at hv
  | cons p m ih =>
    obtain ⟨k0, v0⟩ := p
    unfold plainMeta at h
    cases h0 : toPlain v0 with
    | error e => simp [h0] at h
    | ok v0' =>
      rw [h0] at h
      cases h1 : plainMeta m with
      | error e => simp [h1, Except.map] at h
      | ok m1 =>
        simp only [h1, Except.map, Except.ok.injEq] at h
        subst h
        by_cases hk : k0 = k
        · subst hk
          have : Dict.get? ((k0, v0') :: m1) k0 = some v0' := by simp [Dict.get?]
          rw [this] at hv
          cases hv
          cases v0 <;> simp only [toPlain, Except.ok.injEq] at h0 <;> try (subst h0; trivial)
          next l =>
            cases h2 : l.mapM rowItem with
            | error e => rw [h2] at h0; cases h0
            | ok a => rw [h2] at h0; cases h0; trivial
        · have e : Dict.get? ((k0, v0') :: m1) k = Dict.get? m1 k := by simp [Dict.get?, hk]
          rw [e] at hv
          exact ih m1 h1 hv

/-- **C87 (format).** The table is written in the format asked for, except that ECSV becomes IPAC if there is no
YAML package; the metadata are among the keywords for IPAC and at the top otherwise; in ECSV all of them are
plain Python values. -/
theorem C87_format {V : Type} (hasYaml : Bool) (out : Label) (format : TableFormat)
    (conv lastStep incl overwrite : Bool) (run : ResRun V) (files files' : Dict Label (ResTable V))
    (t : ResTable V)
    (ht : saveResultsTable hasYaml out format conv lastStep incl overwrite run files = (files', .ok t)) :
    (format ≠ .ecsv ∨ hasYaml = true → t.format = format) ∧
    (format = .ecsv → hasYaml = false → t.format = .ipac) ∧
    (t.format = .ipac → t.top = [] ∧ t.keywords ≠ none) ∧
    (t.format ≠ .ipac → t.keywords = none) ∧
    (t.format = .ecsv → ∀ k v, t.top.get? k = some v → IsPlain v) := by
  have hmk : makeTable hasYaml format conv lastStep incl run = .ok t := by
    unfold saveResultsTable at ht
    cases h : makeTable hasYaml format conv lastStep incl run with
    | error e => rw [h] at ht; cases ht
    | ok t' =>
      rw [h] at ht
      simp only at ht
      split_ifs at ht
      all_goals first | (cases ht; rfl) | cases ht
  have hm : ∃ rows m, metaTable (formatUsed hasYaml format) rows m = .ok t := by
    unfold makeTable at hmk
    repeat' split at hmk
    all_goals first | exact ⟨_, _, hmk⟩ | cases hmk
  obtain ⟨rows, m, hm⟩ := hm
  have key : ∀ f : TableFormat, metaTable f rows m = .ok t → t.format = f ∧ (f = .ipac → t.top = [] ∧ t.keywords ≠ none) ∧
      (f ≠ .ipac → t.keywords = none) ∧ (f = .ecsv → ∀ k v, t.top.get? k = some v → IsPlain v) := by
    intro f hf
    cases f with
    | ipac => cases hf; simp
    | ecsv =>
      simp only [metaTable] at hf
      cases h1 : plainMeta m with
      | error e => rw [h1] at hf; cases hf
      | ok m' =>
        rw [h1] at hf
        cases hf
        exact ⟨rfl, by simp, by simp, fun _ k v hv => plainMeta_plain m m' h1 k v hv⟩
    | other n => cases hf; simp
  obtain ⟨h1, h2, h3, h4⟩ := key _ hm
  rw [h1]
  refine ⟨?_, ?_, h2, h3, h4⟩
  · intro h
    unfold formatUsed
    rcases h with h | h <;> simp [h]
  · rintro rfl rfl
    rfl

/-- **C87 (no overwriting).** A file of that name is never replaced without `overwrite=True`. -/
theorem C87_no_overwrite {V : Type} (hasYaml : Bool) (out : Label) (format : TableFormat)
    (conv lastStep incl : Bool) (run : ResRun V) (files : Dict Label (ResTable V)) (old : ResTable V)
    (h : files.get? (expectedFile hasYaml out format) = some old) :
    ∃ e, saveResultsTable hasYaml out format conv lastStep incl false run files = (files, .error e) := by
  rcases C87_file hasYaml out format conv lastStep incl false run files with h' | ⟨_, _, _, _, _, h'⟩
  · exact h'
  · rw [h' rfl] at h; cases h

/-! ### When a table is returned -/

/-- no matrix in the run information -/
def NoMatrix {V : Type} (d : Dict Label (MetaVal V)) : Prop := ∀ kv ∈ d, ∀ l, kv.2 ≠ .npMatrix l

theorem plainMeta_ok {V : Type} (m : Dict Label (MetaVal V)) (h : NoMatrix m) :
    ∃ m', plainMeta m = .ok m' := by
  induction m with
  | nil => exact ⟨[], rfl⟩
  | cons p m ih =>
    obtain ⟨k, v⟩ := p
    obtain ⟨m', hm'⟩ := ih (fun kv hkv => h kv (List.mem_cons_of_mem _ hkv))
    have h0 := h (k, v) List.mem_cons_self
    unfold plainMeta
    cases v with
    | npMatrix l => exact absurd rfl (h0 l)
    | _ => simp only [toPlain, hm', Except.map]; exact ⟨_, rfl⟩

theorem set_noMatrix {V : Type} (m : Dict Label (MetaVal V)) (k : Label) (v : MetaVal V) (h : NoMatrix m)
    (hv : ∀ l, v ≠ .npMatrix l) : NoMatrix (m.set k v) := by
  intro kv hkv l
  unfold Dict.set at hkv
  split at hkv
  · obtain ⟨p, hp, rfl⟩ := List.mem_map.1 hkv
    split
    · exact hv l
    · exact h p hp l
  · rcases List.mem_append.1 hkv with h' | h'
    · exact h kv h' l
    · rw [List.mem_singleton] at h'
      subst h'
      exact hv l

theorem dictUpdate_noMatrix {V : Type} (d m : Dict Label (MetaVal V)) (hd : NoMatrix d) (hm : NoMatrix m) :
    NoMatrix (dictUpdate m d) := by
  induction d generalizing m with
  | nil => exact hm
  | cons p d ih =>
    unfold dictUpdate at ih ⊢
    rw [List.foldl_cons]
    exact ih _ (fun kv hkv => hd kv (List.mem_cons_of_mem _ hkv))
      (set_noMatrix m p.1 p.2 hm (hd p List.mem_cons_self))

theorem tableMeta_noMatrix {V : Type} (incl : Bool) (n : ℕ) (ml : XR) (mlp : List ℝ) (run : ResRun V)
    (hr : ∀ d, run.runInfo = some d → NoMatrix d) : NoMatrix (tableMeta incl n ml mlp run) := by
  have h0 : NoMatrix (baseMeta (V := V) n run.nData ml mlp) := by
    intro kv hkv l
    simp only [baseMeta, List.mem_cons, List.not_mem_nil, or_false] at hkv
    rcases hkv with rfl | rfl | rfl | rfl <;> exact fun h => by cases h
  have h1 : NoMatrix (withRunInfo run (baseMeta n run.nData ml mlp)) := by
    unfold withRunInfo
    cases hi : run.runInfo with
    | none => exact h0
    | some d => exact dictUpdate_noMatrix d _ (hr d hi) h0
  unfold tableMeta withBlobUnits
  simp only
  split
  · rename_i b _ _
    unfold blobUnitEntries
    generalize List.range _ = l
    revert h1
    generalize withRunInfo run _ = m
    induction l generalizing m with
    | nil => exact fun h => h
    | cons i l ih =>
      intro h
      rw [List.foldl_cons]
      apply ih
      unfold blobUnitEntry
      split
      · exact set_noMatrix _ _ _ h (fun l h => by cases h)
      · exact h
  · exact h1

theorem returns_of_rows {V : Type} (hasYaml : Bool) (out : Label) (format : TableFormat)
    (conv incl overwrite : Bool) (run : ResRun V) (files : Dict Label (ResTable V))
    (s w : ℕ) (hs : 0 < s) (hw : 0 < w) (h1 : HasShape run.lnprob s w)
    (h2 : HasShape run.chain s w) (hn : ∀ r ∈ run.lnprob, ∀ a ∈ r, a ≠ nan)
    (hr : ∀ d, run.runInfo = some d → InfoGood d ∧ NoMatrix d)
    (ho : overwrite = true ∨ files.get? (expectedFile hasYaml out format) = none)
    (hb : incl = true → run.blobs ≠ none) (rows : List ResRow)
    (hrows : resultsTable conv false incl run.labels run.chain
      ((run.blobs.getD []).map (fun step => step.map (fun w => w.map UBlob.forget))) = .ok rows) :
    ∃ files' t, saveResultsTable hasYaml out format conv false incl overwrite run files = (files', .ok t) ∧
      t.rows = rows ∧ ResTable.entry t "n_samples".toList = some (.nat (s * w)) := by
  have hlen : run.chain.flatten.length = s * w := by
    rw [List.length_flatten, List.map_congr_left (g := fun _ => w) (fun r hr => h2.2 r hr)]
    simp [h2.1]
  obtain ⟨i, j, m, p, b, hf, hm, hpp, _, hmax⟩ :=
    C49_consistent run.lnprob run.chain run.lnprob s w hs hw h1 h2 h1 hn
  have hmk : makeTable hasYaml format conv false incl run =
      metaTable (formatUsed hasYaml format) rows (tableMeta incl run.chain.flatten.length m p run) := by
    unfold makeTable
    have e : resultSamples false run.chain = .ok run.chain.flatten := rfl
    rw [e, hf]
    simp only [hrows]
  have hok : ∃ t, metaTable (formatUsed hasYaml format) rows
      (tableMeta incl run.chain.flatten.length m p run) = .ok t := by
    unfold metaTable
    split
    · exact ⟨_, rfl⟩
    · obtain ⟨m', hm'⟩ := plainMeta_ok _ (tableMeta_noMatrix incl run.chain.flatten.length m p run
        (fun d hd => (hr d hd).2))
      rw [hm']; exact ⟨_, rfl⟩
    · exact ⟨_, rfl⟩
  obtain ⟨t, ht⟩ := hok
  have hsv : saveResultsTable hasYaml out format conv false incl overwrite run files =
      (files.set (expectedFile hasYaml out format) t, .ok t) := by
    unfold saveResultsTable
    rw [hmk, ht]
    simp only [resultsFile_eq]
    rw [if_neg]
    rcases ho with h | h
    · simp [h]
    · rw [Dict.get?_eq_none_iff] at h
      simp [h]
  refine ⟨_, t, hsv, (metaTable_format _ _ _ _ ht).2, ?_⟩
  obtain ⟨⟨dists, hd, he⟩, -⟩ := C87_metadata hasYaml out format conv false incl overwrite run files _ t s w hs hw
    h1 h2 hn (fun d hd => (hr d hd).1) hsv
  have : dists = run.chain.flatten := by
    have e : resultSamples false run.chain = .ok run.chain.flatten := rfl
    rw [e] at hd; cases hd; rfl
  rw [he, this, hlen]

/-- the rows of the parameters, as in C52 -/
noncomputable def paramRowsSpec {V : Type} (conv : Bool) (run : ResRun V) : List ResRow :=
  run.labels.zipIdx.flatMap (fun lp =>
    expectedRows conv lp.1 (run.chain.flatten.map (fun r => r.getD lp.2 0)))

/-- **C87 (rows and success).** For every run as in `C87_metadata`, with at most one label for each parameter,
each plain or a logarithm from its first character on, and a run information without matrices: with
`last_step=False` and a file that may be written, the call returns a table whose rows are those of C52 (if
blobs are asked for, and each is of one kind in all samples, followed by one for each scalar blob) and whose
number of samples is steps times walkers. -/
theorem C87_returns {V : Type} (hasYaml : Bool) (out : Label) (format : TableFormat)
    (conv overwrite : Bool) (run : ResRun V) (files : Dict Label (ResTable V))
    (s w n : ℕ) (hs : 0 < s) (hw : 0 < w) (h1 : HasShape run.lnprob s w)
    (h2 : HasShape run.chain s w) (hn : ∀ r ∈ run.lnprob, ∀ a ∈ r, a ≠ nan)
    (hp : ∀ step ∈ run.chain, ∀ p ∈ step, p.length = n) (hl : run.labels.length ≤ n)
    (hg : ∀ l ∈ run.labels, GoodLabel l)
    (hr : ∀ d, run.runInfo = some d → InfoGood d ∧ NoMatrix d)
    (ho : overwrite = true ∨ files.get? (expectedFile hasYaml out format) = none) :
    (∃ files' t, saveResultsTable hasYaml out format conv false false overwrite run files = (files', .ok t) ∧
      t.rows = paramRowsSpec conv run ∧ ResTable.entry t "n_samples".toList = some (.nat (s * w))) ∧
    (∀ (b : List (List (List UBlob))) (k : ℕ), run.blobs = some b →
      UniformBlobs (b.map (fun step => step.map (fun w => w.map UBlob.forget))) k →
      ∃ files' t, saveResultsTable hasYaml out format conv false true overwrite run files = (files', .ok t) ∧
        t.rows = paramRowsSpec conv run ++
          ((List.range k).filter (fun idx => (blobNumber ((b.flatten.headD []).getD idx .other).forget).isSome)).map
            (fun idx => describe ("blob".toList ++ (toString idx).toList)
              (b.flatten.map (fun x => (blobNumber (x.getD idx .other).forget).getD 0))) ∧
        ResTable.entry t "n_samples".toList = some (.nat (s * w))) := by
  have hlen : run.chain.flatten.length = s * w := by
    rw [List.length_flatten, List.map_congr_left (g := fun _ => w) (fun r hr => h2.2 r hr)]
    simp [h2.1]
  have hne : run.chain.flatten ≠ [] := by
    intro h; rw [h] at hlen; simp at hlen; rcases hlen with h | h <;> omega
  refine ⟨?_, ?_⟩
  · exact returns_of_rows hasYaml out format conv false overwrite run files s w hs hw h1 h2 hn hr ho
      (fun h => by cases h) _ (C52_whole_chain_partial conv run.labels run.chain _ n hp hne hl hg)
  · intro b k hb hu
    refine returns_of_rows hasYaml out format conv true overwrite run files s w hs hw h1 h2 hn hr ho
      (fun _ => by simp [hb]) _ ?_
    rw [hb, Option.getD_some, C52_blobs conv false run.labels run.chain _ k hu _ rfl,
      C52_whole_chain_partial conv run.labels run.chain _ n hp hne hl hg]
    have hfl : (b.map (fun step => step.map (fun w => w.map UBlob.forget))).flatten =
        b.flatten.map (fun w => w.map UBlob.forget) := by rw [List.map_flatten]
    have hgf : ∀ (x : List UBlob) (idx : ℕ),
        (x.map UBlob.forget).getD idx .other = (x.getD idx .other).forget := by
      intro x idx
      rw [List.getD_eq_getElem?_getD, List.getD_eq_getElem?_getD, List.getElem?_map]
      cases x[idx]? <;> rfl
    have hh : (b.flatten.map (fun w => w.map UBlob.forget)).headD [] =
        (b.flatten.headD []).map UBlob.forget := by
      cases b.flatten <;> rfl
    simp only [Except.map, Bool.false_eq_true, if_false, hfl, hh, List.map_map, Function.comp_def, hgf]
    try rfl

/-- The run information of `get_sampler` and `run_sampler` (core.py:468-474, 489-491, 524) uses none of the
function's own names. -/
theorem C87_runInfo_good (a b c d e f : MetaVal Unit) :
    InfoGood [("n_walkers".toList, a), ("n_burn".toList, b), ("p0".toList, c), ("guess".toList, d),
      ("p0_burn_median".toList, e), ("n_run".toList, f)] := by
  refine ⟨by simp [Dict.keys], ?_, ?_⟩
  · intro k hk
    simp only [Dict.keys, List.map_cons, List.map_nil, List.mem_cons, List.not_mem_nil, or_false] at hk
    rcases hk with rfl | rfl | rfl | rfl | rfl | rfl <;> simp [ownKeys]
  · intro k hk idx
    simp only [Dict.keys, List.map_cons, List.map_nil, List.mem_cons, List.not_mem_nil, or_false] at hk
    rcases hk with rfl | rfl | rfl | rfl | rfl | rfl <;> simp [unitName]

/-! ### What is not true -/

/-- **C87 is false** for `last_step=True`: the number of samples recorded is the number of steps, whatever
the number of walkers there are in the last step (the samples are those of the last walker, see C52). -/
theorem C87_false_last_step_count {V : Type} (hasYaml : Bool) (out : Label) (format : TableFormat)
    (conv incl overwrite : Bool) (run : ResRun V) (files files' : Dict Label (ResTable V))
    (t : ResTable V) (s w : ℕ) (hs : 0 < s) (hw : 0 < w) (h1 : HasShape run.lnprob s w)
    (h2 : HasShape run.chain s w) (hn : ∀ r ∈ run.lnprob, ∀ a ∈ r, a ≠ nan)
    (hr : ∀ d, run.runInfo = some d → InfoGood d)
    (ht : saveResultsTable hasYaml out format conv true incl overwrite run files = (files', .ok t)) :
    ResTable.entry t "n_samples".toList = some (.nat s) := by
  obtain ⟨⟨dists, hd, he⟩, -⟩ := C87_metadata hasYaml out format conv true incl overwrite run files files' t s w
    hs hw h1 h2 hn hr ht
  rw [he]
  rw [(C52_false_last_step run.chain (by
    intro st hst e
    have := h2.2 st hst
    rw [e] at this
    simp at this
    omega)).1] at hd
  cases hd
  simp [h2.1]

/-! ### Units of the blobs -/

theorem percentile_scale (l : List ℝ) (c : ℝ) (hc : 0 < c) (q : ℝ) :
    percentile (l.map (fun x => x * c)) q = percentile l q * c := by
  have hsort : (l.map (fun x => x * c)).mergeSort (fun a b => decide (a ≤ b)) =
      (l.mergeSort (fun a b => decide (a ≤ b))).map (fun x => x * c) := by
    rw [List.map_mergeSort]
    intro a _ b _
    exact decide_eq_decide.2 (mul_le_mul_iff_left₀ hc).symm
  have hget : ∀ (m : List ℝ) (i : ℕ), (m.map (fun x => x * c)).getD i 0 = m.getD i 0 * c := by
    intro m i
    rw [List.getD_eq_getElem?_getD, List.getD_eq_getElem?_getD, List.getElem?_map]
    cases m[i]? <;> simp
  unfold percentile
  simp only [List.length_map, hsort, hget]
  ring

/-- The physical value of a blob, given the sizes of the units. -/
def physBlob (size : Label → ℝ) : UBlob → ℝ
  | .qty v u => v * size u
  | .num v => v
  | .other => 0

/-- **C87 (units of blobs).** If blob `idx` is in all samples a Quantity in the same unit, then (for all the
other blobs of fixed kinds) the table has a row for it whose numbers, in the unit recorded for it, are the
median and percentiles of its physical values. Missing: blobs whose unit differs between samples, see
`C87_false_mixed_units`. -/
theorem C87_blob_units_partial {V : Type} (hasYaml : Bool) (out : Label) (format : TableFormat)
    (conv overwrite : Bool) (run : ResRun V) (files files' : Dict Label (ResTable V))
    (t : ResTable V) (s w : ℕ) (hs : 0 < s) (hw : 0 < w) (h1 : HasShape run.lnprob s w)
    (h2 : HasShape run.chain s w) (hn : ∀ r ∈ run.lnprob, ∀ a ∈ r, a ≠ nan)
    (hr : ∀ d, run.runInfo = some d → InfoGood d)
    (ht : saveResultsTable hasYaml out format conv false true overwrite run files = (files', .ok t))
    (b : List (List (List UBlob))) (hb : run.blobs = some b) (n : ℕ)
    (hu : UniformBlobs (b.map (fun step => step.map (fun w => w.map UBlob.forget))) n)
    (idx : ℕ) (hidx : idx < n) (u : Label)
    (hunit : ∀ x ∈ b.flatten, ∃ v, x.getD idx .other = .qty v u)
    (size : Label → ℝ) (hsize : 0 < size u) :
    ∃ row ∈ t.rows, row.label = "blob".toList ++ (toString idx).toList ∧
      ResTable.entry t ("blob".toList ++ (toString idx).toList ++ "_unit".toList) = some (.text u) ∧
      row.median * size u = percentile (b.flatten.map (fun x => physBlob size (x.getD idx .other))) 50 ∧
      (row.median - row.lo) * size u =
        percentile (b.flatten.map (fun x => physBlob size (x.getD idx .other))) 16 ∧
      (row.median + row.hi) * size u =
        percentile (b.flatten.map (fun x => physBlob size (x.getD idx .other))) 84 := by
  set b' := b.map (fun step => step.map (fun w => w.map UBlob.forget)) with hb'
  have hfl : b'.flatten = b.flatten.map (fun w => w.map UBlob.forget) := by
    rw [hb', List.map_flatten]
  have hgf : ∀ x : List UBlob, (x.map UBlob.forget).getD idx .other = (x.getD idx .other).forget := by
    intro x
    rw [List.getD_eq_getElem?_getD, List.getD_eq_getElem?_getD, List.getElem?_map]
    cases x[idx]? <;> rfl
  -- the last step
  have hbne : b ≠ [] := by
    intro h; apply hu.steps.1; rw [hb', h]; rfl
  have hlm : b.getLastD [] ∈ b := by
    rw [List.getLastD_eq_getLast?, List.getLast?_eq_getLast_of_ne_nil hbne]
    exact List.getLast_mem hbne
  have hlne : b.getLastD [] ≠ [] := by
    intro h
    apply hu.steps.2 ((b.getLastD []).map (fun w => w.map UBlob.forget)) (List.mem_map_of_mem hlm)
    rw [h]; rfl
  have hw0 : (b.getLastD []).headD [] ∈ b.flatten := by
    refine List.mem_flatten.2 ⟨_, hlm, ?_⟩
    cases hh : b.getLastD [] with
    | nil => exact absurd hh hlne
    | cons a l => simp
  have hlenw : ∀ x ∈ b.flatten, x.length = n := by
    intro x hx
    have := hu.len (x.map UBlob.forget) (by rw [hfl]; exact List.mem_map_of_mem hx)
    simpa using this
  obtain ⟨v0, hv0⟩ := hunit _ hw0
  obtain ⟨-, -, -, hun⟩ := C87_metadata hasYaml out format conv false true overwrite run files files' t s w
    hs hw h1 h2 hn hr ht
  have hent := hun b rfl hb idx v0 u (by rw [hlenw _ hw0]; exact hidx) hv0
  -- the rows
  have hmk : makeTable hasYaml format conv false true run = .ok t := by
    unfold saveResultsTable at ht
    cases h : makeTable hasYaml format conv false true run with
    | error e => rw [h] at ht; cases ht
    | ok t' =>
      rw [h] at ht
      simp only at ht
      split_ifs at ht
      · cases ht
      · cases ht; rfl
  have hrows : resultsTable conv false true run.labels run.chain b' = .ok t.rows := by
    unfold makeTable at hmk
    split at hmk
    · cases hmk
    · split at hmk
      · cases hmk
      · rw [hb] at hmk
        simp only [Option.getD_some] at hmk
        split at hmk
        · cases hmk
        · rename_i rows hrows
          rw [hrows, (metaTable_format _ _ _ _ hmk).2]
  rw [C52_blobs conv false run.labels run.chain b' n hu b'.flatten rfl] at hrows
  cases hp : resultsTable conv false false run.labels run.chain b' with
  | error e => rw [hp] at hrows; cases hrows
  | ok rows0 =>
    rw [hp] at hrows
    simp only [Except.map, Except.ok.injEq] at hrows
    have hvals : b'.flatten.map (fun w => (blobNumber (w.getD idx .other)).getD 0) =
        b.flatten.map (fun x => physBlob size (x.getD idx .other) / size u) := by
      rw [hfl, List.map_map]
      apply List.map_congr_left
      intro x hx
      obtain ⟨v, hv⟩ := hunit x hx
      simp only [Function.comp, hgf, hv, UBlob.forget, blobNumber, Option.getD_some, physBlob]
      field_simp
    have hscale : ∀ q, percentile (b'.flatten.map (fun w => (blobNumber (w.getD idx .other)).getD 0)) q * size u =
        percentile (b.flatten.map (fun x => physBlob size (x.getD idx .other))) q := by
      intro q
      rw [hvals, ← percentile_scale _ _ hsize, List.map_map]
      congr 1
      apply List.map_congr_left
      intro x _
      simp only [Function.comp]
      field_simp
    refine ⟨describe (blobLabel idx) (b'.flatten.map (fun w : List BlobVal => (blobNumber (w.getD idx .other)).getD 0)), ?_, rfl,
      hent, hscale 50, ?_, ?_⟩
    · rw [← hrows]
      refine List.mem_append_right _ (List.mem_map.2 ⟨idx, List.mem_filter.2 ⟨List.mem_range.2 hidx, ?_⟩, rfl⟩)
      have hh : b'.flatten.headD [] ∈ b'.flatten := by
        have : b'.flatten ≠ [] := by
          rw [hfl]; intro h
          rw [List.map_eq_nil_iff] at h
          rw [h] at hw0; simp at hw0
        cases hh : b'.flatten with
        | nil => exact absurd hh this
        | cons a l => simp
      rw [hfl] at hh
      obtain ⟨x, hx, e⟩ := List.mem_map.1 hh
      obtain ⟨v, hv⟩ := hunit x hx
      rw [hfl, ← e, hgf, hv]
      rfl
    · rw [← hscale 16]; simp only [describe]; ring
    · rw [← hscale 84]; simp only [describe]; ring

theorem percentile_two (a b : ℝ) : percentile [a, b] 50 = (a + b) / 2 := by
  have main : ∀ a b : ℝ, a ≤ b → percentile [a, b] 50 = (a + b) / 2 := by
    intro a b h
    have hs : ([a, b] : List ℝ).mergeSort (fun a b => decide (a ≤ b)) = [a, b] :=
      List.mergeSort_of_pairwise (by simpa using h)
    have hf : ⌊(((([a, b] : List ℝ).length : ℝ) - 1) * (50 / 100) : ℝ)⌋₊ = 0 := by
      rw [Nat.floor_eq_zero]; norm_num
    unfold percentile
    simp only [hs]
    rw [hf]
    norm_num
    ring
  rcases le_total a b with h | h
  · exact main a b h
  · rw [percentile_perm [a, b] [b, a] (List.Perm.swap _ _ _), main b a h, add_comm]

/-- a run with one step of two walkers whose blob has the value 1 in two different units -/
def mixedRun : ResRun Unit where
  labels := ["a".toList]
  chain := [[[1], [1]]]
  lnprob := [[fin 0, fin 0]]
  blobs := some [[[.qty 1 "erg".toList], [.qty 1 "eV".toList]]]
  nData := 1
  runInfo := none

/-- **C87 is false** for blobs whose unit differs between samples: with one sample of 1 erg and one of 1 eV
the table says that the median is 1 erg. -/
theorem C87_false_mixed_units (size : Label → ℝ) (h : size "eV".toList ≠ size "erg".toList) :
    ∃ files' t row, saveResultsTable true [] .ecsv true false true false mixedRun [] = (files', .ok t) ∧
      row ∈ t.rows ∧ row.label = "blob0".toList ∧
      ResTable.entry t "blob0_unit".toList = some (.text "erg".toList) ∧
      row.median * size "erg".toList ≠
        percentile [physBlob size (.qty 1 "erg".toList), physBlob size (.qty 1 "eV".toList)] 50 := by
  have sh1 : HasShape mixedRun.lnprob 1 2 := ⟨rfl, by simp [mixedRun]⟩
  have sh2 : HasShape mixedRun.chain 1 2 := ⟨rfl, by simp [mixedRun]⟩
  have hn : ∀ r ∈ mixedRun.lnprob, ∀ a ∈ r, a ≠ nan := by simp [mixedRun]
  have hu : UniformBlobs (([[[.qty 1 "erg".toList], [.qty 1 "eV".toList]]] : List (List (List UBlob))).map
      (fun step => step.map (fun w => w.map UBlob.forget))) 1 := by
    refine ⟨by simp, by simp, ?_⟩
    intro idx hidx
    left
    obtain rfl : idx = 0 := by omega
    simp [UBlob.forget]
  obtain ⟨files', t, ht, hrows, -⟩ := (C87_returns true [] .ecsv true false mixedRun [] 1 2 1 (by norm_num)
    (by norm_num) sh1 sh2 hn (by simp [mixedRun]) (by simp [mixedRun]) (by
      intro l hl
      left
      simp only [mixedRun, List.mem_singleton] at hl
      subst hl
      constructor <;> decide) (fun d hd => by simp [mixedRun] at hd) (Or.inr rfl)).2 _ 1 rfl hu
  obtain ⟨-, -, -, hun⟩ := C87_metadata true [] .ecsv true false true false mixedRun [] files' t 1 2 (by norm_num)
    (by norm_num) sh1 sh2 hn (fun d hd => by simp [mixedRun] at hd) ht
  refine ⟨files', t, describe "blob0".toList [1, 1], ht, ?_, rfl,
    hun _ rfl rfl 0 1 "erg".toList (by simp) rfl, ?_⟩
  · rw [hrows]
    refine List.mem_append_right _ ?_
    simp [UBlob.forget, blobNumber]
  · show percentile [1, 1] 50 * _ ≠ _
    rw [percentile_two, percentile_two]
    simp only [physBlob]
    intro e
    apply h
    linarith

/-! ### The hypotheses are met -/

/-- A run with two steps of two walkers, a parameter stored as a logarithm, an energy in erg as blob and
the information `get_sampler` stores. -/
def exResRun : ResRun Unit where
  labels := ["log10(norm)".toList, "index".toList]
  chain := [[[33, 2], [33.1, 2.2]], [[32.9, 1.9], [33, 2.1]]]
  lnprob := [[fin (-3), fin (-4)], [fin (-2), ninf]]
  blobs := some [[[.qty 1 "erg".toList], [.qty 3 "erg".toList]], [[.qty 2 "erg".toList], [.qty 5 "erg".toList]]]
  nData := 12
  runInfo := some [("n_walkers".toList, .nat 2), ("n_burn".toList, .nat 10), ("p0".toList, .npVector [33, 2]),
    ("guess".toList, .nat 1), ("p0_burn_median".toList, .npVector [33, 2]), ("n_run".toList, .nat 2)]

theorem exResRun_shape : HasShape exResRun.lnprob 2 2 ∧ HasShape exResRun.chain 2 2 ∧
    (∀ r ∈ exResRun.lnprob, ∀ a ∈ r, a ≠ nan) ∧ (∀ step ∈ exResRun.chain, ∀ p ∈ step, p.length = 2) ∧
    (∀ d, exResRun.runInfo = some d → InfoGood d ∧ NoMatrix d) := by
  refine ⟨⟨rfl, by simp [exResRun]⟩, ⟨rfl, by simp [exResRun]⟩, by simp [exResRun], by simp [exResRun], ?_⟩
  intro d hd
  simp only [exResRun, Option.some.injEq] at hd
  subst hd
  refine ⟨C87_runInfo_good _ _ _ _ _ _, ?_⟩
  intro kv hkv l
  simp only [List.mem_cons, List.not_mem_nil, or_false] at hkv
  rcases hkv with rfl | rfl | rfl | rfl | rfl | rfl <;> simp

theorem exResRun_labels : ∀ l ∈ exResRun.labels, GoodLabel l := by
  intro l hl
  simp only [exResRun, List.mem_cons, List.not_mem_nil, or_false] at hl
  rcases hl with rfl | rfl
  · right; right; decide
  · left; constructor <;> decide

theorem exResRun_blobs : UniformBlobs (([[[.qty 1 "erg".toList], [.qty 3 "erg".toList]], [[.qty 2 "erg".toList],
    [.qty 5 "erg".toList]]] : List (List (List UBlob))).map (fun step => step.map (fun w => w.map UBlob.forget))) 1 := by
  refine ⟨by simp, by simp, ?_⟩
  intro idx hidx
  left
  obtain rfl : idx = 0 := by omega
  simp [UBlob.forget]

/-- The table of this run is written, with and without blobs, and what the other theorems say of a table
written holds of it. -/
example (hasYaml : Bool) (format : TableFormat) (size : Label → ℝ) (h : 0 < size "erg".toList) :
    ∃ files' t, saveResultsTable hasYaml "crab".toList format true false true false exResRun [] = (files', .ok t) ∧
      ResTable.entry t "n_samples".toList = some (.nat 4) ∧
      (format ≠ .ecsv ∨ hasYaml = true → t.format = format) ∧
      (∃ row ∈ t.rows, row.label = "blob0".toList ∧ row.median * size "erg".toList =
        percentile [1 * size "erg".toList, 3 * size "erg".toList, 2 * size "erg".toList, 5 * size "erg".toList] 50) ∧
      ∃ (m : XR) (p : List ℝ), ResTable.entry t "ML_pars".toList = some (.floats p) ∧
        ResTable.entry t "MaxLogLikelihood".toList = some (.float m) := by
  obtain ⟨h1, h2, h3, h4, h5⟩ := exResRun_shape
  obtain ⟨files', t, ht, -, hn⟩ := (C87_returns hasYaml "crab".toList format true false exResRun [] 2 2 2 (by norm_num)
    (by norm_num) h1 h2 h3 h4 (by simp [exResRun]) exResRun_labels h5 (Or.inr rfl)).2 _ 1 rfl exResRun_blobs
  obtain ⟨-, ⟨i, j, m, p, -, -, -, e1, e2, -⟩, -⟩ := C87_metadata hasYaml "crab".toList format true false true false
    exResRun [] files' t 2 2 (by norm_num) (by norm_num) h1 h2 h3 (fun d hd => (h5 d hd).1) ht
  obtain ⟨row, r1, r2, -, r3, -⟩ := C87_blob_units_partial hasYaml "crab".toList format true false exResRun [] files' t
    2 2 (by norm_num) (by norm_num) h1 h2 h3 (fun d hd => (h5 d hd).1) ht _ rfl 1 exResRun_blobs 0 (by norm_num)
    "erg".toList (by simp) size h
  exact ⟨files', t, ht, hn, (C87_format hasYaml _ format true false true false exResRun [] files' t ht).1,
    ⟨row, r1, r2, r3⟩, m, p, e1, e2⟩

/-- A second table under the same name is refused. -/
example (hasYaml : Bool) (format : TableFormat) (old : ResTable Unit) :=
  C87_no_overwrite hasYaml "crab".toList format true false true exResRun
    [(expectedFile hasYaml "crab".toList format, old)] old (by simp [Dict.get?])

example := C87_false_mixed_units (fun l => if l = "erg".toList then 1 else 1.6e-12) (by
  rw [if_neg (by decide), if_pos rfl]; norm_num)

end Naima.Props
