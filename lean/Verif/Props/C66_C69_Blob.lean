import Verif.Model.Blob
import Verif.Proof.SaveRun
import Verif.Props.C49_C52_Results

/-! # C66–C69: model samples taken from the sampler, and confidence bands -/

namespace Naima.Props

open Naima XR Classical

/-! ## C66: samples from blobs -/

/-- The spectrum or number a blob stands for: itself, or the second element of an (energy, value) pair. -/
def valueOf : MBlob → Option BQty
  | .qty q => some q
  | .num x => some ⟨true, [x], ⟨1, Dim.one⟩⟩
  | .pair _ m => some m
  | .other => none

/-- The same physical values: number for number, value times size of the unit. -/
def SamePhysical (row : List XR) (u : PhysUnit) (q : BQty) : Prop :=
  u.dim = q.unit.dim ∧ row.map (fun v => v * fin u.scale) = q.vals.map (fun v => v * fin q.unit.scale)

theorem mul_scale_assoc (v : XR) (a b : ℝ) (ha : 0 < a) (hb : 0 < b) :
    v * fin (a / b) * fin b = v * fin a := by
  have hab : 0 < a / b := div_pos ha hb
  cases v with
  | nan => rfl
  | fin x => simp; field_simp
  | pinf => simp [XR.mul_def, XR.mul, XR.infMul, hab, ha, hb]
  | ninf =>
    have h1 : ¬ (a / b < 0) := not_lt.2 hab.le
    have h2 : ¬ (a < 0) := not_lt.2 ha.le
    have h3 : ¬ (b < 0) := not_lt.2 hb.le
    simp [XR.mul_def, XR.mul, XR.infMul, hab, ha, hb, h1, h2, h3]

theorem stackQty_ok {l : List BQty} {m : Samples} (h : stackQty l = .ok m)
    (hs : ∀ q ∈ l, 0 < q.unit.scale) :
    m.rows.length = l.length ∧
    ∀ k (hk : k < l.length), ∃ row, m.rows[k]? = some row ∧ SamePhysical row m.unit l[k] := by
  cases l with
  | nil => simp only [stackQty, Except.ok.injEq] at h; subst h; simp
  | cons q0 qs =>
    simp only [stackQty] at h
    split_ifs at h with h1 h2
    simp only [Except.ok.injEq] at h
    subst h
    refine ⟨by simp, ?_⟩
    intro k hk
    refine ⟨_, by rw [List.getElem?_map, List.getElem?_eq_getElem hk]; rfl, ?_, ?_⟩
    · cases k with
      | zero => rfl
      | succ k => exact (h1 _ (by simp)).symm
    · rw [List.map_map]
      apply List.map_congr_left
      intro v _
      exact mul_scale_assoc v _ _ (hs _ (List.getElem_mem hk)) (hs _ (by simp))

/-- what is common to the three kinds -/
theorem gather_ok {blobs : List (List (List MBlob))} {idx : Nat} {ls : Bool}
    {conv : MBlob → Except PyErr BQty} (hconv : ∀ b q, conv b = .ok q → valueOf b = some q) {m : Samples}
    (h : (gatherBlobs blobs idx ls).bind (fun l => (l.mapM conv).bind stackQty) = .ok m)
    (hs : ∀ step ∈ blobs, ∀ w ∈ step, ∀ b ∈ w, ∀ q, valueOf b = some q → 0 < q.unit.scale) :
    let samples := if ls then blobs.getLastD [] else blobs.flatten
    m.rows.length = samples.length ∧
    ∀ k (hk : k < samples.length), ∃ b q row, samples[k][idx]? = some b ∧ conv b = .ok q ∧ valueOf b = some q ∧
      m.rows[k]? = some row ∧ SamePhysical row m.unit q := by
  intro samples
  unfold gatherBlobs at h
  cases hg : samples.mapM (blobAt idx) with
  | error e => rw [show (if ls = true then blobs.getLastD [] else blobs.flatten) = samples from rfl, hg] at h; simp [Except.bind] at h
  | ok bs =>
    rw [show (if ls = true then blobs.getLastD [] else blobs.flatten) = samples from rfl, hg] at h
    simp only [Except.bind] at h
    cases hq : bs.mapM conv with
    | error e => simp [hq] at h
    | ok qs =>
      simp only [hq] at h
      obtain ⟨l1, g1⟩ := mapM_ok_iff_get _ _ _ hg
      obtain ⟨l2, g2⟩ := mapM_ok_iff_get _ _ _ hq
      have hmem : ∀ w ∈ samples, ∃ step ∈ blobs, w ∈ step := by
        intro w hw
        simp only [samples] at hw
        split_ifs at hw
        · refine ⟨blobs.getLastD [], ?_, hw⟩
          cases hb : blobs with
          | nil => rw [hb] at hw; simp at hw
          | cons a l => rw [List.getLastD_cons]; exact List.getLastD_mem_cons
        · exact List.mem_flatten.1 hw
      have hat : ∀ (w : List MBlob) (b : MBlob), blobAt idx w = .ok b → w[idx]? = some b := by
        intro w b hb
        unfold blobAt at hb
        split at hb
        · rename_i b' hb'; cases hb; exact hb'
        · cases hb
      have hpos : ∀ q ∈ qs, 0 < q.unit.scale := by
        intro q hq'
        obtain ⟨k, hk, rfl⟩ := List.mem_iff_getElem.1 hq'
        have hkb : k < bs.length := by omega
        have hks : k < samples.length := by omega
        obtain ⟨step, hstep, hw⟩ := hmem _ (List.getElem_mem hks)
        have hb := hat _ _ (g1 k hks hkb)
        exact hs step hstep _ hw _ (List.mem_of_getElem? hb) _ (hconv _ _ (g2 k hkb hk))
      obtain ⟨r1, r2⟩ := stackQty_ok h hpos
      refine ⟨by omega, ?_⟩
      intro k hk
      have hkb : k < bs.length := by omega
      have hkq : k < qs.length := by omega
      obtain ⟨row, e1, e2⟩ := r2 k hkq
      exact ⟨bs[k], qs[k], row, hat _ _ (g1 k hk hkb), g2 k hkb hkq, hconv _ _ (g2 k hkb hkq), e1, e2⟩

theorem asQty_value (b : MBlob) (q : BQty) (h : asQty b = .ok q) : valueOf b = some q := by
  cases b <;> simp_all [asQty, valueOf]
theorem asNum_value (b : MBlob) (q : BQty) (h : asNum b = .ok q) : valueOf b = some q := by
  cases b <;> simp_all [asNum, valueOf]
theorem asPair_value (b : MBlob) (q : BQty) (h : asPair b = .ok q) : valueOf b = some q := by
  cases b <;> simp_all [asPair, valueOf]

/-- **C66 (the samples).** Whenever the samples of blob `idx` are read from a sampler, there is exactly
one row per sample (walkers of the last step, or all steps and walkers in the order of the flattened
chain), and row `k` holds the same physical values as the blob of sample `k`. -/
theorem C66_samples (blobs : List (List (List MBlob))) (energy : BQty) (idx : Nat) (ls : Bool)
    (x : Option BQty) (m : Samples) (h : processBlob blobs energy idx ls = .ok (x, m))
    (hs : ∀ step ∈ blobs, ∀ w ∈ step, ∀ b ∈ w, ∀ q, valueOf b = some q → 0 < q.unit.scale) :
    let samples := if ls then blobs.getLastD [] else blobs.flatten
    m.rows.length = samples.length ∧
    ∀ k (hk : k < samples.length), ∃ b q row, samples[k][idx]? = some b ∧ valueOf b = some q ∧
      m.rows[k]? = some row ∧ SamePhysical row m.unit q := by
  intro samples
  have fin' : ∀ (conv : MBlob → Except PyErr BQty) (hconv : ∀ b q, conv b = .ok q → valueOf b = some q)
      (h : (gatherBlobs blobs idx ls).bind (fun l => (l.mapM conv).bind stackQty) = .ok m),
      m.rows.length = samples.length ∧
      ∀ k (hk : k < samples.length), ∃ b q row, samples[k][idx]? = some b ∧ valueOf b = some q ∧
        m.rows[k]? = some row ∧ SamePhysical row m.unit q := by
    intro conv hconv h
    obtain ⟨a, b⟩ := gather_ok hconv h hs
    refine ⟨a, fun k hk => ?_⟩
    obtain ⟨b, q, row, h1, h2, h3, h4, h5⟩ := b k hk
    exact ⟨b, q, row, h1, h3, h4, h5⟩
  unfold processBlob at h
  split at h
  · cases h
  · split at h
    · cases h
    · split at h
      · cases h
      · split at h
        · cases h
        · rename_i hg
          split_ifs at h <;> cases h <;> exact fin' _ asQty_value hg
      · split at h
        · cases h
        · rename_i hg; cases h; exact fin' _ asNum_value hg
      · split at h
        · cases h
        · rename_i hg; cases h; exact fin' _ asPair_value hg
      · cases h

/-- **C66 (the energies).** If the blob of the first walker of the last step is a spectrum as long as
the data energies, `modelx` is the data energies; if it is a single number or length-one Quantity it is
None; for an (energy, spectrum) pair it is the energy array of that pair. -/
theorem C66_energies (blobs : List (List (List MBlob))) (energy : BQty) (idx : Nat) (ls : Bool)
    (x : Option BQty) (m : Samples) (h : processBlob blobs energy idx ls = .ok (x, m)) :
    ∃ w b, (blobs.getLastD []).head? = some w ∧ w[idx]? = some b ∧
      (∀ q, b = .qty q → (q.vals.length = energy.vals.length → x = some energy) ∧
        (q.vals.length ≠ energy.vals.length → q.vals.length = 1 ∧ x = none)) ∧
      (∀ v, b = .num v → x = none) ∧ (∀ e s, b = .pair e s → x = some e) ∧ b ≠ .other := by
  unfold processBlob at h
  split at h
  · cases h
  · rename_i last hlast
    have hl : blobs.getLastD [] = last := by
      rw [List.getLastD_eq_getLast?, hlast]; rfl
    rw [hl]
    split at h
    · cases h
    · rename_i w0 ws
      refine ⟨w0, ?_⟩
      have hat : ∀ b, blobAt idx w0 = .ok b → w0[idx]? = some b := by
        intro b hb
        unfold blobAt at hb
        split at hb
        · rename_i b' hb'; cases hb; exact hb'
        · cases hb
      split at h
      · cases h
      · rename_i q0 hq
        refine ⟨_, rfl, hat _ hq, ?_⟩
        split at h
        · cases h
        · split_ifs at h with h1 h2
          · cases h
            refine ⟨?_, by simp, by simp, by simp⟩
            intro q e; cases e
            exact ⟨fun _ => rfl, fun n => absurd h1 n⟩
          · cases h
            refine ⟨?_, by simp, by simp, by simp⟩
            intro q e; cases e
            exact ⟨fun n => absurd n h1, fun _ => ⟨h2, rfl⟩⟩
      · rename_i v hq
        refine ⟨_, rfl, hat _ hq, ?_⟩
        split at h
        · cases h
        · cases h; simp
      · rename_i e0 m0 hq
        refine ⟨_, rfl, hat _ hq, ?_⟩
        split at h
        · cases h
        · cases h; simp
      · cases h

/-- **C66 (each sample at its own energies), partial.** If all pairs in the chain carry the same energy
array, the samples are returned with that array.  Missing: pairs whose energies differ from sample to
sample (false, below). -/
theorem C66_pair_energies_partial (blobs : List (List (List MBlob))) (energy E : BQty) (idx : Nat) (ls : Bool)
    (x : Option BQty) (m : Samples) (h : processBlob blobs energy idx ls = .ok (x, m))
    (hp : ∀ step ∈ blobs, ∀ w ∈ step, ∀ b, w[idx]? = some b → ∃ s, b = .pair E s) :
    x = some E := by
  obtain ⟨w, b, h1, h2, -, -, h3, -⟩ := C66_energies blobs energy idx ls x m h
  have hw : w ∈ blobs.getLastD [] := List.mem_of_head? h1
  have hmem : blobs.getLastD [] ∈ blobs := by
    cases hb : blobs with
    | nil => rw [hb] at hw; simp at hw
    | cons a l => rw [List.getLastD_cons]; exact List.getLastD_mem_cons
  obtain ⟨s, rfl⟩ := hp _ hmem w hw b h2
  exact h3 _ _ rfl

/-- **C66 is false of the code for sample-dependent energies**: two walkers return the spectrum `[5]`
at energy 1 and `[7]` at energy 2 (any energy unit); both samples are returned with energy 1. -/
theorem C66_false_energies (energy : BQty) (u v : PhysUnit) (hv : v.scale ≠ 0) :
    processBlob [[[.pair ⟨false, [fin 1], u⟩ ⟨false, [fin 5], v⟩],
      [.pair ⟨false, [fin 2], u⟩ ⟨false, [fin 7], v⟩]]] energy 0 true =
    .ok (some ⟨false, [fin 1], u⟩, ⟨[[fin 5], [fin 7]], v⟩) := by
  simp only [processBlob, List.getLast?_singleton, blobAt, gatherBlobs, List.getElem?_cons_zero,
    List.getLastD_cons, List.getLastD_nil, if_true]
  simp only [List.mapM_cons, List.mapM_nil, blobAt, List.getElem?_cons_zero]
  simp [Except.bind, bind, asPair, stackQty, pure, Except.pure, div_self hv]

/-- **C66 is false of the code for spectra of another length**: a model that returns as metadata a
Quantity array that is neither as long as the data nor of length one (such as a particle distribution
on its own grid) cannot be read back: UnboundLocalError rather than the announced TypeError. -/
theorem C66_false_unbound (energy : BQty) (vals : List XR) (v : PhysUnit) (b : Bool)
    (h1 : vals.length ≠ energy.vals.length) (h2 : vals.length ≠ 1) :
    processBlob [[[.qty ⟨b, vals, v⟩]]] energy 0 true = .error .unboundLocalError := by
  simp only [processBlob, List.getLast?_singleton, blobAt, gatherBlobs, List.getElem?_cons_zero,
    List.getLastD_cons, List.getLastD_nil, if_true]
  simp only [List.mapM_cons, List.mapM_nil, blobAt, List.getElem?_cons_zero]
  simp [Except.bind, bind, asQty, stackQty, pure, Except.pure, h1, h2]

/-- **C66 (missing output).** Asking for an output that the first walker of the last step does not have (the model
returns fewer things) raises IndexError, whatever else is stored. -/
theorem C66_missing (blobs : List (List (List MBlob))) (energy : BQty) (idx : ℕ) (ls : Bool) (w0 : List MBlob)
    (rest : List (List MBlob)) (h : blobs.getLast? = some (w0 :: rest)) (hidx : w0.length ≤ idx) :
    processBlob blobs energy idx ls = .error .indexError := by
  have h1 : w0[idx]? = none := List.getElem?_eq_none hidx
  simp [processBlob, h, blobAt, h1]

/-- Such a case: one walker with a single output, of which the second is asked for. -/
example (energy : BQty) (x : XR) : processBlob [[[.num x]]] energy 1 false = .error .indexError :=
  C66_missing _ _ _ _ [.num x] [] rfl (by simp)

/-- **C66 (wrong formats).** A blob of any other form raises TypeError. -/
theorem C66_wrong_format (blobs : List (List (List MBlob))) (energy : BQty) (idx : Nat) (ls : Bool)
    (w : List MBlob) (h1 : (blobs.getLastD []).head? = some w) (h2 : w[idx]? = some .other) :
    processBlob blobs energy idx ls = .error .typeError := by
  unfold processBlob
  cases hl : blobs.getLast? with
  | none =>
    rw [List.getLastD_eq_getLast?, hl] at h1; simp at h1
  | some last =>
    rw [List.getLastD_eq_getLast?, hl] at h1
    simp only [Option.getD_some] at h1
    cases last with
    | nil => simp at h1
    | cons w0 ws =>
      simp only [List.head?_cons, Option.some.injEq] at h1
      subst h1
      simp [blobAt, h2]

/-- Non-vacuity: two steps of two walkers, spectra in two different units. -/
example : ∃ m, processBlob
    [[[.qty ⟨false, [fin 1, fin 2], ⟨1, Dim.flux⟩⟩], [.qty ⟨false, [fin 3, fin 4], ⟨1, Dim.flux⟩⟩]],
     [[.qty ⟨false, [fin 5, fin 6], ⟨10, Dim.flux⟩⟩], [.qty ⟨false, [fin 7, fin 8], ⟨1, Dim.flux⟩⟩]]]
    ⟨false, [fin 1, fin 10], PhysUnit.TeV⟩ 0 false =
      .ok (some ⟨false, [fin 1, fin 10], PhysUnit.TeV⟩, m) ∧ m.rows[2]? = some [fin 50, fin 60] := by
  refine ⟨⟨[[fin 1, fin 2], [fin 3, fin 4], [fin 50, fin 60], [fin 7, fin 8]], ⟨1, Dim.flux⟩⟩, ?_, rfl⟩
  simp only [processBlob, List.getLast?_cons_cons, List.getLast?_singleton, blobAt, gatherBlobs,
    List.getElem?_cons_zero, if_false, Bool.false_eq_true, List.flatten_cons, List.flatten_nil,
    List.append_nil, List.cons_append, List.nil_append]
  simp only [List.mapM_cons, List.mapM_nil, blobAt, List.getElem?_cons_zero]
  simp [Except.bind, bind, asQty, stackQty, pure, Except.pure]
  norm_num

/-! ## C67: samples recomputed for an energy range -/

/-- **C67 (grid).** For `e_range = [e0, e1]` with positive limits and at least two points, the model is
evaluated on `n` energies of which the first is `e0` and the last `e1`, equally spaced in the logarithm:
the ratio of successive energies is constant. -/
theorem C67_grid (e0 e1 : ℝ) (rest : List ℝ) (n : Nat) (h0 : 0 < e0) (h1 : 0 < e1) (hn : 2 ≤ n) :
    ∃ g, eRangeGrid (e0 :: e1 :: rest) n = .ok g ∧ g.length = n ∧ g[0]? = some e0 ∧ g[n - 1]? = some e1 ∧
      (∀ e ∈ g, 0 < e) ∧
      ∀ i, i + 1 < n → g.getD (i + 1) 0 = g.getD i 0 * (e1 / e0) ^ (1 / ((n : ℝ) - 1)) := by
  have hn1 : (n : ℝ) - 1 ≠ 0 := by
    have : (2 : ℝ) ≤ n := by exact_mod_cast hn
    linarith
  have hget : ∀ i, i < n → (logspace (Real.logb 10 e0) (Real.logb 10 e1) n)[i]? =
      some ((10 : ℝ) ^ (Real.logb 10 e0 + i * ((Real.logb 10 e1 - Real.logb 10 e0) / ((n : ℝ) - 1)))) := by
    intro i hi
    simp [logspace, List.getElem?_range, hi]
  have h10 : ∀ x : ℝ, 0 < x → (10 : ℝ) ^ Real.logb 10 x = x := fun x hx =>
    Real.rpow_logb (by norm_num) (by norm_num) hx
  refine ⟨_, rfl, by simp [logspace], ?_, ?_, ?_, ?_⟩
  · rw [hget 0 (by omega)]; simp [h10 e0 h0]
  · rw [hget (n - 1) (by omega)]
    have : ((n - 1 : ℕ) : ℝ) = (n : ℝ) - 1 := by push_cast [Nat.cast_sub (by omega : 1 ≤ n)]; ring
    rw [this, mul_div_cancel₀ _ hn1]
    simp [h10 e1 h1]
  · intro e he
    simp only [logspace, List.mem_map] at he
    obtain ⟨i, -, rfl⟩ := he
    positivity
  · intro i hi
    rw [List.getD_eq_getElem?_getD, List.getD_eq_getElem?_getD, hget _ hi, hget i (by omega)]
    simp only [Option.getD_some]
    have hr : (e1 / e0) ^ (1 / ((n : ℝ) - 1)) =
        (10 : ℝ) ^ ((Real.logb 10 e1 - Real.logb 10 e0) / ((n : ℝ) - 1)) := by
      rw [div_eq_mul_inv (Real.logb 10 e1 - _), Real.rpow_mul (by norm_num), Real.rpow_sub (by norm_num),
        h10 e0 h0, h10 e1 h1, one_div]
    rw [hr, ← Real.rpow_add (by norm_num)]
    congr 1
    push_cast
    ring

/-- **C67 (the grid stays in the range).** For `e0 < e1` the energies increase strictly, from `e0` to `e1`. -/
theorem C67_grid_increasing (e0 e1 : ℝ) (n : Nat) (h0 : 0 < e0) (h1 : e0 < e1) (hn : 2 ≤ n) :
    ∃ g, eRangeGrid [e0, e1] n = .ok g ∧ g.Pairwise (· < ·) ∧ ∀ e ∈ g, e0 ≤ e ∧ e ≤ e1 := by
  obtain ⟨g, a, b, c, d, -⟩ := C67_grid e0 e1 [] n h0 (h0.trans h1) hn
  have hsorted : g.Pairwise (· < ·) := by
    simp only [eRangeGrid, Except.ok.injEq] at a
    subst a
    unfold logspace
    rw [List.pairwise_map]
    refine List.pairwise_lt_range.imp ?_
    intro i j hij
    have h10 : (1 : ℝ) < 10 := by norm_num
    rw [Real.rpow_lt_rpow_left_iff h10]
    have hl : Real.logb 10 e0 < Real.logb 10 e1 := Real.logb_lt_logb h10 h0 h1
    have hn' : (0 : ℝ) < (n : ℝ) - 1 := by
      have : (2 : ℝ) ≤ n := by exact_mod_cast hn
      linarith
    have : (0 : ℝ) < (Real.logb 10 e1 - Real.logb 10 e0) / ((n : ℝ) - 1) := div_pos (by linarith) hn'
    have hij' : (i : ℝ) < j := by exact_mod_cast hij
    nlinarith
  refine ⟨g, a, hsorted, ?_⟩
  intro e he
  obtain ⟨i, hi, rfl⟩ := List.mem_iff_getElem.1 he
  have hle : g.Pairwise (· ≤ ·) := hsorted.imp (fun h => h.le)
  rw [List.getElem?_eq_getElem (by omega)] at c d
  constructor
  · have := sorted_get (R := fun a b : ℝ => a ≤ b) (fun a => le_refl a) g hle 0 i (by omega) hi
    rw [Option.some.inj c] at this
    exact this
  · have := sorted_get (R := fun a b : ℝ => a ≤ b) (fun a => le_refl a) g hle i (n - 1) (by omega) (by omega)
    rw [Option.some.inj d] at this
    exact this

/-- **C67 (the samples).** The recomputed samples are one per draw, and each holds the physical values
of the model output at a parameter vector of the chain (of the last step, if so requested), evaluated at
the energies of the range. -/
theorem C67_samples {P : Type} (modelfn : P → BQty → Except PyErr (List MBlob)) (chain : List (List P))
    (ls : Bool) (draws : List Nat) (energy : BQty) (idx : Nat) (x : Option BQty) (m : Samples)
    (h : calcSamples modelfn chain ls draws energy idx = .ok (x, m))
    (hs : ∀ p out, modelfn p energy = .ok out → ∀ b ∈ out, ∀ q, valueOf b = some q → 0 < q.unit.scale) :
    m.rows.length = draws.length ∧
    ∀ k (hk : k < draws.length), ∃ p out b q row,
      (if ls then chain.getLastD [] else chain.flatten)[draws[k]]? = some p ∧
      modelfn p energy = .ok out ∧ out[idx]? = some b ∧ valueOf b = some q ∧
      m.rows[k]? = some row ∧ SamePhysical row m.unit q := by
  unfold calcSamples at h
  simp only at h
  split at h
  · cases h
  · rename_i pars hpars
    split at h
    · cases h
    · rename_i outs houts
      obtain ⟨l1, g1⟩ := mapM_ok_iff_get _ _ _ hpars
      obtain ⟨l2, g2⟩ := mapM_ok_iff_get _ _ _ houts
      have hpos : ∀ step ∈ [outs], ∀ w ∈ step, ∀ b ∈ w, ∀ q, valueOf b = some q → 0 < q.unit.scale := by
        intro step hstep w hw b hb q hq
        rw [List.mem_singleton] at hstep
        subst hstep
        obtain ⟨k, hk, rfl⟩ := List.mem_iff_getElem.1 hw
        exact hs _ _ (g2 k (by omega) hk) b hb q hq
      obtain ⟨a, c⟩ := C66_samples [outs] energy idx true x m h hpos
      simp only [if_true, List.getLastD_cons, List.getLastD_nil] at a c
      refine ⟨by omega, ?_⟩
      intro k hk
      obtain ⟨b, q, row, c1, c2, c3, c4⟩ := c k (by omega)
      have hp := g1 k hk (by omega)
      unfold pickPars at hp
      split at hp
      · rename_i p hp'
        cases hp
        exact ⟨_, outs[k]'(by omega), b, q, row, hp', g2 k (by omega) (by omega), c1, c2, c3, c4⟩
      · cases hp

/-! ## C68: coverage of the confidence bands -/

/-- **C68 (coverage).** For any non-empty set of samples the band at level `c` contains, between its
edges, at least `(Φ(c) - Φ(-c)) (n - 1)` of the `n` samples; at most `Φ(-c) (n - 1)` lie below it, and
at most `(1 - Φ(c)) (n - 1) + 1` above. -/
theorem C68_coverage (cdf : ℝ → ℝ) (hcdf : IsCdf cdf) (samples : List XR) (hne : samples ≠ []) (c : ℝ)
    (h0 : 0 ≤ c) :
    ∃ lo hi, bandAt cdf samples c = .ok (lo, hi) ∧
      (cdf c - cdf (-c)) * ((samples.length : ℝ) - 1) ≤
        (samples.countP (fun s => decide (npLe lo s ∧ npLe s hi)) : ℝ) ∧
      (samples.countP (fun s => decide (¬ npLe lo s)) : ℝ) ≤ cdf (-c) * ((samples.length : ℝ) - 1) ∧
      (samples.countP (fun s => decide (¬ npLe s hi)) : ℝ) ≤
        (1 - cdf c) * ((samples.length : ℝ) - 1) + 1 := by
  obtain ⟨hi', ei⟩ := bandEdge_ok samples hne (cdf (-c)) (hcdf.nonneg _) (hcdf.le_one _)
  obtain ⟨hj', ej⟩ := bandEdge_ok samples hne (cdf c) (hcdf.nonneg _) (hcdf.le_one _)
  have hpos : (1 : ℝ) ≤ samples.length := by
    have : 0 < samples.length := List.length_pos_iff.2 hne
    exact_mod_cast this
  have hn0 : 0 ≤ (samples.length : ℝ) - 1 := by linarith
  set i := ⌊cdf (-c) * ((samples.length : ℝ) - 1)⌋₊ with hi
  set j := ⌊cdf c * ((samples.length : ℝ) - 1)⌋₊ with hj
  have hij : i ≤ j := Nat.floor_le_floor (mul_le_mul_of_nonneg_right (hcdf.mono _ _ (by linarith)) hn0)
  have hif : (i : ℝ) ≤ cdf (-c) * ((samples.length : ℝ) - 1) := Nat.floor_le (mul_nonneg (hcdf.nonneg _) hn0)
  have hjf : cdf c * ((samples.length : ℝ) - 1) < j + 1 := Nat.lt_floor_add_one _
  have hlen := (npSort_perm samples).length_eq
  have hsorted := npSort_sorted samples
  set S := npSort samples with hS
  refine ⟨S[i], S[j], by unfold bandAt; rw [ei, ej]; rfl, ?_, ?_, ?_⟩
  · rw [← (npSort_perm samples).countP_eq]
    have hsub : ((S.drop i).take (j - i + 1)).Sublist S := (List.take_sublist _ _).trans (List.drop_sublist _ _)
    have h1 := hsub.countP_le (p := fun s => decide (npLe S[i] s ∧ npLe s S[j]))
    have h2 : ((S.drop i).take (j - i + 1)).countP (fun s => decide (npLe S[i] s ∧ npLe s S[j])) =
        j - i + 1 := by
      rw [List.countP_eq_length.2]
      · rw [List.length_take, List.length_drop]; omega
      · intro s hs
        obtain ⟨k, hk, rfl⟩ := List.mem_iff_getElem.1 hs
        simp only [List.length_take, List.length_drop] at hk
        have e : ((S.drop i).take (j - i + 1))[k]'(by simp; omega) = S[i + k]'(by omega) := by
          rw [List.getElem_take, List.getElem_drop]
        rw [e]
        simp only [decide_eq_true_eq]
        exact ⟨sorted_get npLe_refl S hsorted i (i + k) (by omega) (by omega),
          sorted_get npLe_refl S hsorted (i + k) j (by omega) (by omega)⟩
    rw [h2] at h1
    have h3 : ((j - i + 1 : ℕ) : ℝ) ≤ (S.countP (fun s => decide (npLe S[i] s ∧ npLe s S[j])) : ℝ) := by
      exact_mod_cast h1
    rw [Nat.cast_add, Nat.cast_sub hij] at h3
    push_cast at h3
    nlinarith
  · rw [← (npSort_perm samples).countP_eq]
    have : S.countP (fun s => decide (¬ npLe S[i] s)) ≤ i := by
      have hsplit : S.countP (fun s => decide (¬ npLe S[i] s)) =
          (S.take i).countP (fun s => decide (¬ npLe S[i] s)) +
          (S.drop i).countP (fun s => decide (¬ npLe S[i] s)) := by
        rw [← List.countP_append, List.take_append_drop]
      have z : (S.drop i).countP (fun s => decide (¬ npLe S[i] s)) = 0 := by
        rw [List.countP_eq_zero]
        intro s hs
        obtain ⟨k, hk, rfl⟩ := List.mem_iff_getElem.1 hs
        rw [List.getElem_drop]
        simp only [List.length_drop] at hk
        simp only [decide_eq_true_eq, not_not]
        exact sorted_get npLe_refl S hsorted i (i + k) (by omega) (by omega)
      have := List.countP_le_length (p := fun s => decide (¬ npLe S[i] s)) (l := S.take i)
      rw [List.length_take] at this
      omega
    have h3 : ((S.countP (fun s => decide (¬ npLe S[i] s)) : ℕ) : ℝ) ≤ i := by exact_mod_cast this
    linarith
  · rw [← (npSort_perm samples).countP_eq]
    have : S.countP (fun s => decide (¬ npLe s S[j])) + (j + 1) ≤ S.length := by
      have hsplit : S.countP (fun s => decide (¬ npLe s S[j])) =
          (S.take (j + 1)).countP (fun s => decide (¬ npLe s S[j])) +
          (S.drop (j + 1)).countP (fun s => decide (¬ npLe s S[j])) := by
        rw [← List.countP_append, List.take_append_drop]
      have z : (S.take (j + 1)).countP (fun s => decide (¬ npLe s S[j])) = 0 := by
        rw [List.countP_eq_zero]
        intro s hs
        obtain ⟨k, hk, rfl⟩ := List.mem_iff_getElem.1 hs
        rw [List.getElem_take]
        simp only [List.length_take] at hk
        simp only [decide_eq_true_eq, not_not]
        exact sorted_get npLe_refl S hsorted k j (by omega) (by omega)
      have := List.countP_le_length (p := fun s => decide (¬ npLe s S[j])) (l := S.drop (j + 1))
      rw [List.length_drop] at this
      omega
    have h3 : ((S.countP (fun s => decide (¬ npLe s S[j])) : ℕ) : ℝ) + (j + 1) ≤ samples.length := by
      rw [← hlen]; exact_mod_cast this
    nlinarith

/-- **C68 is false of the code as a statement of symmetry**: mirroring the samples does not mirror the
band, since both indices are rounded down.  With the two samples 0 and 1 the band is (0, 0) at every
level short of certainty: both edges at the *smaller* sample, while the mirrored samples 0 and -1 give
(-1, -1). -/
theorem C68_false_symmetric (cdf : ℝ → ℝ) (hcdf : IsCdf cdf) (c : ℝ) (h1 : cdf c < 1) (h2 : cdf (-c) < 1) :
    bandAt cdf [fin 0, fin 1] c = .ok (fin 0, fin 0) ∧
    bandAt cdf [-fin 0, -fin 1] c = .ok (fin (-1), fin (-1)) := by
  have hf : ∀ f : ℝ, 0 ≤ f → f < 1 → ⌊f * (((2 : ℕ) : ℝ) - 1)⌋₊ = 0 := by
    intro f h0 h1
    rw [Nat.floor_eq_zero]; push_cast; linarith
  have s1 : npSort [fin 0, fin 1] = [fin 0, fin 1] := by
    have : npLe (fin 0) (fin 1) := Or.inr (by simp)
    simp [npSort, List.mergeSort, this]
  have s2 : npSort [-fin 0, -fin 1] = [fin (-1), fin 0] := by
    have : ¬ npLe (fin 0) (fin (-1)) := by simp [npLe]
    simp [npSort, List.mergeSort, this]
  have a1 : ∀ (a b : XR), [a, b].length = 2 := fun a b => rfl
  constructor
  · simp only [bandAt, bandEdge, s1, a1, hf _ (hcdf.nonneg _) h1, hf _ (hcdf.nonneg _) h2]
    rfl
  · simp only [bandAt, bandEdge, s2, a1, hf _ (hcdf.nonneg _) h1, hf _ (hcdf.nonneg _) h2]
    rfl

/-! ## C69: enough samples for the requested confidence -/

/-- **C69 (number of samples), partial.** For confidence levels whose tail probability is above 1/100
(about 2.3 sigma) at least the reciprocal of that probability samples are computed: one sample is
expected beyond the band. Never are there more than 100.  Missing: higher levels (false, below). -/
theorem C69_enough_partial (cdf : ℝ → ℝ) (hcdf : IsCdf cdf) (confs : List ℝ) (hne : confs ≠ [])
    (h : ∀ c ∈ confs, 1 / 99 ≤ cdf (-c)) :
    ∃ n, ciSampleCount cdf confs = .ok (n, false) ∧ n ≤ 100 ∧ ∀ c ∈ confs, 1 ≤ cdf (-c) * n := by
  cases confs with
  | nil => exact absurd rfl hne
  | cons c cs =>
    have hmax : cs.foldl max c ∈ c :: cs ∧ ∀ x ∈ c :: cs, x ≤ cs.foldl max c := by
      clear h hne
      induction cs generalizing c with
      | nil => simp
      | cons d ds ih =>
        obtain ⟨i1, i2⟩ := ih (max c d)
        simp only [List.foldl_cons]
        constructor
        · rw [List.mem_cons] at i1
          rcases i1 with i1 | i1
          · rw [i1]
            rcases max_cases c d with ⟨e, -⟩ | ⟨e, -⟩ <;> rw [e] <;> simp
          · simp [i1]
        · intro x hx
          simp only [List.mem_cons] at hx
          rcases hx with rfl | rfl | hx
          · exact (le_max_left x d).trans (i2 (max x d) (by simp))
          · exact (le_max_right c x).trans (i2 (max c x) (by simp))
          · exact i2 x (by simp [hx])
    obtain ⟨hm, hle⟩ := hmax
    set M := cs.foldl max c with hM
    have hp := h M hm
    have hpos : 0 < cdf (-M) := lt_of_lt_of_le (by norm_num) hp
    have hinv : 1 / cdf (-M) ≤ 99 := by
      rw [div_le_iff₀ hpos]; linarith
    have hfl : ⌊1 / cdf (-M) + 1⌋₊ ≤ 100 := by
      have := Nat.floor_le_floor (show 1 / cdf (-M) + 1 ≤ ((100 : ℕ) : ℝ) by push_cast; linarith)
      rwa [Nat.floor_natCast] at this
    refine ⟨⌊1 / cdf (-M) + 1⌋₊, ?_, hfl, ?_⟩
    · simp only [ciSampleCount, ← hM, hpos.ne', if_false, Nat.min_eq_right hfl]
      rw [if_neg (by omega)]
    · intro x hx
      have hxM := hcdf.mono (-M) (-x) (by linarith [hle x hx])
      have hfl2 : 1 / cdf (-M) < (⌊1 / cdf (-M) + 1⌋₊ : ℝ) := by
        have := Nat.lt_floor_add_one (1 / cdf (-M))
        rw [Nat.floor_add_one (by positivity)]
        push_cast; linarith
      have : 1 = cdf (-M) * (1 / cdf (-M)) := by field_simp
      calc (1 : ℝ) = cdf (-M) * (1 / cdf (-M)) := this
        _ ≤ cdf (-x) * ⌊1 / cdf (-M) + 1⌋₊ :=
          mul_le_mul hxM hfl2.le (by positivity) (hcdf.nonneg _)

/-- **C69 is false of the code for high confidence levels**: the number of samples is capped at 100, not
at the announced 1000, so at 3 sigma (tail probability 0.00135, 740 samples needed) only 100 are
computed and less than one sample is expected beyond the band. -/
theorem C69_false_capped (cdf : ℝ → ℝ) (c : ℝ) (h0 : 0 < cdf (-c)) (h : cdf (-c) < 1 / 100) :
    ciSampleCount cdf [c] = .ok (100, false) ∧ cdf (-c) * 100 < 1 := by
  have hfl : 100 ≤ ⌊1 / cdf (-c) + 1⌋₊ := by
    apply Nat.le_floor
    have : 100 < 1 / cdf (-c) := by rw [lt_div_iff₀ h0]; linarith
    push_cast; linarith
  constructor
  · simp only [ciSampleCount, List.foldl_nil, h0.ne', if_false, Nat.min_eq_left hfl]
    rw [if_neg (by omega)]
  · linarith

/-- **C69 is false of the code: no warning.** The announced warning about too few samples is never
given, whatever the confidence levels. -/
theorem C69_false_never_warns (cdf : ℝ → ℝ) (confs : List ℝ) (n : Nat) (w : Bool)
    (h : ciSampleCount cdf confs = .ok (n, w)) : w = false ∧ n ≤ 100 := by
  unfold ciSampleCount at h
  split at h
  · cases h
  · simp only at h
    split_ifs at h with h1 h2
    · omega
    · cases h
      exact ⟨rfl, by omega⟩

end Naima.Props
