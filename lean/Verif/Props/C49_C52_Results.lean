import Verif.Proof.Results

/-! # C49 – C52: maximum-likelihood sample, confidence bands, results table -/

namespace Naima.Props

open Naima XR Classical

/-- an array `[step][walker]` with `s` steps and `w` walkers -/
def HasShape {α : Type} (L : List (List α)) (s w : Nat) : Prop := L.length = s ∧ ∀ r ∈ L, r.length = w

/-- **C49.** For every chain with at least one step and walker and without NaN log-probabilities,
`find_ML` returns the log-probability, the parameter vector and the blob of one and the same step and
walker, and no sample has a larger log-probability. -/
theorem C49_consistent {P B : Type} (lnprob : List (List XR)) (chain : List (List P))
    (blobs : List (List B)) (s w : Nat) (hs : 0 < s) (hw : 0 < w) (h1 : HasShape lnprob s w)
    (h2 : HasShape chain s w) (h3 : HasShape blobs s w) (hn : ∀ r ∈ lnprob, ∀ a ∈ r, a ≠ nan) :
    ∃ (i j : Nat) (m : XR) (p : P) (b : B), findML lnprob chain blobs = .ok (m, p, b) ∧
      (lnprob[i]?.bind (·[j]?)) = some m ∧ (chain[i]?.bind (·[j]?)) = some p ∧
      (blobs[i]?.bind (·[j]?)) = some b ∧ ∀ r ∈ lnprob, ∀ a ∈ r, a ≤ m := by
  have hlen : lnprob.flatten.length = s * w := by
    rw [List.length_flatten, List.map_congr_left (g := fun _ => w) (fun r hr => h1.2 r hr)]
    simp [h1.1]
  have hne : lnprob.flatten ≠ [] := by
    intro h; rw [h] at hlen; simp at hlen; rcases hlen with h | h <;> omega
  obtain ⟨n, hn1, hn2, hn3⟩ := npArgmax_spec lnprob.flatten hne (by
    intro a ha
    obtain ⟨r, hr, har⟩ := List.mem_flatten.1 ha
    exact hn r hr a har)
  have hhead : (lnprob.headD []).length = w := by
    obtain ⟨ha, hb⟩ := h1
    cases lnprob with
    | nil => simp at ha; omega
    | cons r l => exact hb r (by simp)
  have hi : n / w < s := by
    rw [hlen] at hn2
    exact Nat.div_lt_of_lt_mul (by rw [Nat.mul_comm]; exact hn2)
  have hj : n % w < w := Nat.mod_lt _ hw
  have get : ∀ {α : Type} (L : List (List α)), HasShape L s w →
      ∃ x, (L[n / w]?.bind (·[n % w]?)) = some x := by
    intro α L hL
    have hi' : n / w < L.length := by rw [hL.1]; exact hi
    refine ⟨(L[n / w])[n % w]'(by rw [hL.2 _ (List.getElem_mem hi')]; exact hj), ?_⟩
    rw [List.getElem?_eq_getElem hi', Option.bind_some, List.getElem?_eq_getElem]
  obtain ⟨m, hm⟩ := get lnprob h1
  obtain ⟨p, hp⟩ := get chain h2
  obtain ⟨b, hb⟩ := get blobs h3
  refine ⟨n / w, n % w, m, p, b, ?_, hm, hp, hb, ?_⟩
  · unfold findML
    rw [hn1]
    show (match (lnprob[(unravel n (lnprob.headD []).length).1]?.bind (·[(unravel n (lnprob.headD []).length).2]?)),
      (chain[(unravel n (lnprob.headD []).length).1]?.bind (·[(unravel n (lnprob.headD []).length).2]?)),
      (blobs[(unravel n (lnprob.headD []).length).1]?.bind (·[(unravel n (lnprob.headD []).length).2]?)) with
      | some m, some p, some b => Except.ok (m, p, b)
      | _, _, _ => Except.error PyErr.indexError) = _
    rw [hhead]
    simp only [unravel, hm, hp, hb]
  · intro r hr a ha
    have hf := flatten_index w hw lnprob h1.2 n
    rw [hm, List.getElem?_eq_getElem hn2] at hf
    have := hn3 a (List.mem_flatten.2 ⟨r, hr, ha⟩)
    rw [Option.some.inj hf] at this
    exact this

/-- Non-vacuity: two steps, two walkers. -/
example : HasShape [[fin 1, fin 2], [fin 5, ninf]] 2 2 ∧
    ∀ r ∈ [[fin 1, fin 2], [fin 5, ninf]], ∀ a ∈ r, a ≠ nan := by
  refine ⟨⟨rfl, by simp⟩, by simp⟩

/-! ## C50 -/

/-- what is used of `scipy.stats.norm.cdf` -/
structure IsCdf (cdf : ℝ → ℝ) : Prop where
  mono : ∀ a b, a ≤ b → cdf a ≤ cdf b
  nonneg : ∀ a, 0 ≤ cdf a
  le_one : ∀ a, cdf a ≤ 1

theorem bandEdge_ok (samples : List XR) (hne : samples ≠ []) (fr : ℝ) (h0 : 0 ≤ fr) (h1 : fr ≤ 1) :
    ∃ (h : ⌊fr * ((samples.length : ℝ) - 1)⌋₊ < (npSort samples).length),
      bandEdge samples fr = .ok ((npSort samples)[⌊fr * ((samples.length : ℝ) - 1)⌋₊]) := by
  have hpos : 0 < samples.length := List.length_pos_iff.2 hne
  have hc : (1 : ℝ) ≤ samples.length := by exact_mod_cast hpos
  have hlt : ⌊fr * ((samples.length : ℝ) - 1)⌋₊ < (npSort samples).length := by
    rw [(npSort_perm samples).length_eq, Nat.floor_lt (mul_nonneg h0 (by linarith))]
    nlinarith
  refine ⟨hlt, ?_⟩
  unfold bandEdge
  rw [List.getElem?_eq_getElem hlt]

theorem bandEdge_mono (samples : List XR) (hne : samples ≠ []) (f g : ℝ) (h0 : 0 ≤ f) (hfg : f ≤ g)
    (h1 : g ≤ 1) : ∃ a b, bandEdge samples f = .ok a ∧ bandEdge samples g = .ok b ∧ npLe a b ∧
      a ∈ samples ∧ b ∈ samples := by
  obtain ⟨ha, ea⟩ := bandEdge_ok samples hne f h0 (hfg.trans h1)
  obtain ⟨hb, eb⟩ := bandEdge_ok samples hne g (h0.trans hfg) h1
  refine ⟨_, _, ea, eb, ?_, (npSort_perm samples).mem_iff.1 (List.getElem_mem _),
    (npSort_perm samples).mem_iff.1 (List.getElem_mem _)⟩
  refine sorted_get npLe_refl _ (npSort_sorted samples) _ _ (Nat.floor_le_floor ?_) hb
  have : (1 : ℝ) ≤ samples.length := by
    have : 0 < samples.length := List.length_pos_iff.2 hne
    exact_mod_cast this
  exact mul_le_mul_of_nonneg_right hfg (by linarith)

/-- **C50 (one energy).** For any non-empty set of samples and confidence levels `0 ≤ c ≤ c'` both
bands exist, consist of sampled values, and are ordered and nested:
`lo(c') ≤ lo(c) ≤ hi(c) ≤ hi(c')` (in numpy's order, which for samples without NaN is the usual one). -/
theorem C50_nested (cdf : ℝ → ℝ) (hcdf : IsCdf cdf) (samples : List XR) (hne : samples ≠ []) (c c' : ℝ)
    (h0 : 0 ≤ c) (hcc : c ≤ c') :
    ∃ lo hi lo' hi', bandAt cdf samples c = .ok (lo, hi) ∧ bandAt cdf samples c' = .ok (lo', hi') ∧
      npLe lo' lo ∧ npLe lo hi ∧ npLe hi hi' ∧
      lo ∈ samples ∧ hi ∈ samples ∧ lo' ∈ samples ∧ hi' ∈ samples := by
  obtain ⟨a, b, e1, e2, h1, m1, m2⟩ := bandEdge_mono samples hne (cdf (-c')) (cdf (-c)) (hcdf.nonneg _)
    (hcdf.mono _ _ (by linarith)) (hcdf.le_one _)
  obtain ⟨b', d, e3, e4, h2, m3, m4⟩ := bandEdge_mono samples hne (cdf (-c)) (cdf c) (hcdf.nonneg _)
    (hcdf.mono _ _ (by linarith)) (hcdf.le_one _)
  obtain ⟨d', g, e5, e6, h3, m5, m6⟩ := bandEdge_mono samples hne (cdf c) (cdf c') (hcdf.nonneg _)
    (hcdf.mono _ _ (by linarith)) (hcdf.le_one _)
  rw [e2] at e3; cases e3
  rw [e4] at e5; cases e5
  refine ⟨b, d, a, g, ?_, ?_, h1, h2, h3, m2, m4, m1, m6⟩
  · unfold bandAt; rw [e2, e4]; rfl
  · unfold bandAt; rw [e1, e6]; rfl

theorem mapM_ok_map {α β : Type} (f : α → Except PyErr β) (g : α → β) : ∀ (l : List α),
    (∀ a ∈ l, f a = .ok (g a)) → l.mapM f = .ok (l.map g)
  | [], _ => rfl
  | a :: l, h => by
    rw [List.mapM_cons, h a (by simp), mapM_ok_map f g l (fun b hb => h b (by simp [hb]))]
    rfl

/-- **C50 (whole calculation).** With at least one sample, `_calc_CI` succeeds for every list of
non-negative confidence levels and every number of energies, and its entry for level `k` and energy `i`
is the band of that level computed from the samples at that energy alone. -/
theorem C50_all (cdf : ℝ → ℝ) (hcdf : IsCdf cdf) (model : List (List XR)) (hne : model ≠ []) (n : Nat)
    (confs : List ℝ) (hc : ∀ c ∈ confs, 0 ≤ c) :
    ∃ out, calcCI cdf model n confs = .ok out ∧ out.length = confs.length ∧
      ∀ (k : Nat) (hk : k < confs.length), ∃ band, out[k]? = some band ∧ band.length = n ∧
        ∀ i, i < n → ∃ p, band[i]? = some p ∧
          bandAt cdf (model.map (fun m => m.getD i nan)) confs[k] = .ok p := by
  have hcol : ∀ i, sampleColumn model i ≠ [] := by
    intro i h
    unfold sampleColumn at h
    simp at h
    exact hne h
  have hex : ∀ c ∈ confs, ∀ i, ∃ p, bandAt cdf (sampleColumn model i) c = .ok p := by
    intro c hcm i
    obtain ⟨lo, hi, _, _, h, _⟩ := C50_nested cdf hcdf _ (hcol i) c c (hc c hcm) le_rfl
    exact ⟨_, h⟩
  let g : ℝ → Nat → XR × XR := fun c i =>
    match bandAt cdf (sampleColumn model i) c with
    | .ok p => p
    | .error _ => (nan, nan)
  have hg : ∀ c ∈ confs, ∀ i, bandAt cdf (sampleColumn model i) c = .ok (g c i) := by
    intro c hcm i
    obtain ⟨p, hp⟩ := hex c hcm i
    simp only [g, hp]
  refine ⟨confs.map (fun c => (List.range n).map (g c)), ?_, by simp, ?_⟩
  · unfold calcCI
    apply mapM_ok_map
    intro c hcm
    exact mapM_ok_map _ _ _ (fun i _ => hg c hcm i)
  · intro k hk
    refine ⟨(List.range n).map (g confs[k]), by simp [hk], by simp, ?_⟩
    intro i hi
    exact ⟨g confs[k] i, by simp [hi], hg _ (List.getElem_mem hk) i⟩

/-! ## C51 -/

/-- **C51 (percentiles).** Percentiles of any non-empty set of samples are monotone in the quantile,
lie between the smallest and the largest sample (both attained), and do not depend on the order of the
samples. -/
theorem C51_percentiles (l : List ℝ) (hl : l ≠ []) :
    (∀ q q', 0 ≤ q → q ≤ q' → q' ≤ 100 → percentile l q ≤ percentile l q') ∧
    (∀ q, 0 ≤ q → q ≤ 100 → ∃ a ∈ l, ∃ b ∈ l, a ≤ percentile l q ∧ percentile l q ≤ b) ∧
    (∀ m q, l.Perm m → percentile l q = percentile m q) := by
  refine ⟨percentile_mono l hl, ?_, fun m q h => percentile_perm l m h q⟩
  intro q h0 h1
  exact ⟨_, (percentile_zero l hl).1, _, (percentile_hundred l hl).1,
    percentile_mono l hl 0 q le_rfl h0 h1, percentile_mono l hl q 100 h0 h1 le_rfl⟩

theorem mkRow_unc (label : Label) (dist : List ℝ) (r : ResRow) (h : mkRow label dist = .ok r) :
    0 ≤ r.lo ∧ 0 ≤ r.hi := by
  unfold mkRow at h
  split_ifs at h with hd
  cases h
  have a := percentile_mono dist hd 16 50 (by norm_num) (by norm_num) (by norm_num)
  have b := percentile_mono dist hd 50 84 (by norm_num) (by norm_num) (by norm_num)
  exact ⟨by simp only; linarith, by simp only; linarith⟩

theorem paramRows_unc (conv : Bool) (dists : List (List ℝ)) : ∀ (ls : List Label) (p : Nat)
    (stale : Option (List ℝ)) (rows : List ResRow), paramRows conv dists p ls stale = .ok rows →
    ∀ r ∈ rows, 0 ≤ r.lo ∧ 0 ≤ r.hi
  | [], p, stale, rows, h => by
    simp [paramRows] at h; subst h; simp
  | l :: ls, p, stale, rows, h => by
    unfold paramRows at h
    cases hd : distColumn dists p with
    | error e => simp [hd] at h
    | ok dist =>
      simp only [hd] at h
      cases hm : mkRow l dist with
      | error e => simp [hm] at h
      | ok r0 =>
        simp only [hm] at h
        split_ifs at h with hc
        · cases hn : newDist l dist stale with
          | none => simp [hn] at h
          | some nd =>
            simp only [hn] at h
            cases hm' : mkRow (labelInner l) nd with
            | error e => simp [hm'] at h
            | ok r1 =>
              simp only [hm'] at h
              cases hr : paramRows conv dists (p + 1) ls (some nd) with
              | error e => simp [hr, Except.map] at h
              | ok rs =>
                simp only [hr, Except.map, Except.ok.injEq] at h
                subst h
                intro r hr'
                rcases List.mem_cons.1 hr' with rfl | hr'
                · exact mkRow_unc _ _ _ hm
                · rcases List.mem_cons.1 hr' with rfl | hr'
                  · exact mkRow_unc _ _ _ hm'
                  · exact paramRows_unc conv dists ls _ _ _ hr r hr'
        · cases hr : paramRows conv dists (p + 1) ls stale with
          | error e => simp [hr, Except.map] at h
          | ok rs =>
            simp only [hr, Except.map, Except.ok.injEq] at h
            subst h
            intro r hr'
            rcases List.mem_cons.1 hr' with rfl | hr'
            · exact mkRow_unc _ _ _ hm
            · exact paramRows_unc conv dists ls _ _ _ hr r hr'

theorem blobRow_unc (lastStep : Bool) (blobs : List (List (List BlobVal))) (idx : Nat) (name : Label)
    (rows : List ResRow) (h : blobRow lastStep blobs idx name = .ok rows) : ∀ r ∈ rows, 0 ≤ r.lo ∧ 0 ≤ r.hi := by
  have aux : ∀ b, (do
      let dist ← (blobSamples lastStep blobs idx).mapM (blobValue b)
      let r ← mkRow name dist
      pure [r] : Except PyErr (List ResRow)) = .ok rows → ∀ r ∈ rows, 0 ≤ r.lo ∧ 0 ≤ r.hi := by
    intro b h
    cases hd : (blobSamples lastStep blobs idx).mapM (blobValue b) with
    | error e => rw [hd] at h; cases h
    | ok dist =>
      rw [hd] at h
      cases hm : mkRow name dist with
      | error e => 
        have : (do let r ← mkRow name dist; pure [r] : Except PyErr (List ResRow)) = .ok rows := h
        rw [hm] at this; cases this
      | ok r0 =>
        have : (do let r ← mkRow name dist; pure [r] : Except PyErr (List ResRow)) = .ok rows := h
        rw [hm] at this
        have : [r0] = rows := Except.ok.inj this
        subst this
        intro r hr
        simp at hr; subst hr
        exact mkRow_unc _ _ _ hm
  unfold blobRow at h
  split at h
  · cases h; simp
  · exact aux _ h
  · exact aux _ h

theorem mapM_mem {α β : Type} (f : α → Except PyErr β) : ∀ (l : List α) (out : List β),
    l.mapM f = .ok out → ∀ b ∈ out, ∃ a ∈ l, f a = .ok b
  | [], out, h => by
    rw [List.mapM_nil] at h
    cases h; simp
  | a :: l, out, h => by
    rw [List.mapM_cons] at h
    cases ha : f a with
    | error e => rw [ha] at h; cases h
    | ok b0 =>
      rw [ha] at h
      cases hl : l.mapM f with
      | error e =>
        have h' : (do let bs ← l.mapM f; pure (b0 :: bs) : Except PyErr (List β)) = .ok out := h
        rw [hl] at h'; cases h'
      | ok bs =>
        have h' : (do let bs ← l.mapM f; pure (b0 :: bs) : Except PyErr (List β)) = .ok out := h
        rw [hl] at h'
        have : b0 :: bs = out := Except.ok.inj h'
        subst this
        intro b hb
        rcases List.mem_cons.1 hb with rfl | hb
        · exact ⟨a, by simp, ha⟩
        · obtain ⟨a', h1, h2⟩ := mapM_mem f l bs hl b hb
          exact ⟨a', by simp [h1], h2⟩

/-- **C51 (uncertainties).** Whatever the chain, blobs, labels and options, every row of the results
table has non-negative lower and upper uncertainties. -/
theorem C51_uncertainties_nonneg (conv lastStep incl : Bool) (labels : List Label)
    (chain : List (List (List ℝ))) (blobs : List (List (List BlobVal))) (rows : List ResRow)
    (h : resultsTable conv lastStep incl labels chain blobs = .ok rows) :
    ∀ r ∈ rows, 0 ≤ r.lo ∧ 0 ≤ r.hi := by
  unfold resultsTable at h
  cases hs : resultSamples lastStep chain with
  | error e => simp [hs] at h
  | ok dists =>
    simp only [hs] at h
    cases hp : paramRows conv dists 0 labels none with
    | error e => simp [hp] at h
    | ok rows0 =>
      simp only [hp] at h
      have h0 := paramRows_unc conv dists labels 0 none rows0 hp
      split_ifs at h with hi
      · cases hb : (List.range ((blobs.getLastD []).headD []).length).mapM
          (fun idx => blobRow lastStep blobs idx (blobLabel idx)) with
        | error e => simp only [hb, Except.map] at h; cases h
        | ok rs =>
          simp only [hb, Except.map, Except.ok.injEq] at h
          subst h
          intro r hr
          rcases List.mem_append.1 hr with hr | hr
          · exact h0 r hr
          · obtain ⟨l, hl, hr⟩ := List.mem_flatten.1 hr
            obtain ⟨idx, -, hidx⟩ := mapM_mem _ _ _ hb l hl
            exact blobRow_unc _ _ _ _ _ hidx r hr
      · cases h; exact h0

/-! ## C52 -/

/-- the row that should describe a set of samples -/
noncomputable def describe (label : Label) (samples : List ℝ) : ResRow where
  label := label
  median := percentile samples 50
  lo := percentile samples 50 - percentile samples 16
  hi := percentile samples 84 - percentile samples 50

/-- A label is plain, or of the form `log(...)` / `log10(...)` from its first character on. -/
def GoodLabel (l : Label) : Prop :=
  (¬ ("log(".toList <:+: l) ∧ ¬ ("log10(".toList <:+: l)) ∨ ("log(".toList <+: l) ∨ ("log10(".toList <+: l)

/-- rows that a parameter should get: its own, and for a logarithm one for the converted samples under
the label inside the parentheses -/
noncomputable def expectedRows (conv : Bool) (l : Label) (samples : List ℝ) : List ResRow :=
  describe l samples ::
    (if conv = true ∧ "log10(".toList <+: l then [describe (labelInner l) (samples.map (fun x => (10:ℝ) ^ x))]
     else if conv = true ∧ "log(".toList <+: l then [describe (labelInner l) (samples.map Real.exp)]
     else [])

theorem head_of_log10 (l : Label) (h : "log10(".toList <+: l) :
    labelHead l = ['l', 'o', 'g', '1', '0'] ∧ isLogLabel l = true := by
  obtain ⟨t, rfl⟩ := h
  refine ⟨rfl, ?_⟩
  unfold isLogLabel
  rw [decide_eq_true (show log10Pre <:+: "log10(".toList ++ t from (List.prefix_append _ _).isInfix)]
  rfl

theorem head_of_log (l : Label) (h : "log(".toList <+: l) :
    labelHead l = ['l', 'o', 'g'] ∧ isLogLabel l = true := by
  obtain ⟨t, rfl⟩ := h
  refine ⟨rfl, ?_⟩
  unfold isLogLabel
  rw [decide_eq_true (show logPre <:+: "log(".toList ++ t from (List.prefix_append _ _).isInfix), Bool.or_true]

theorem mkRow_describe (label : Label) (dist : List ℝ) (h : dist ≠ []) :
    mkRow label dist = .ok (describe label dist) := by
  unfold mkRow; rw [if_neg h]; rfl

theorem distColumn_ok (dists : List (List ℝ)) (p n : Nat) (hn : ∀ r ∈ dists, r.length = n) (hp : p < n) :
    distColumn dists p = .ok (dists.map (fun r => r.getD p 0)) := by
  unfold distColumn
  apply mapM_ok_map
  intro r hr
  have : p < r.length := by rw [hn r hr]; exact hp
  rw [List.getElem?_eq_getElem this, getD_get _ _ this]

theorem paramRows_expected (conv : Bool) (dists : List (List ℝ)) (hne : dists ≠ []) (n : Nat)
    (hn : ∀ r ∈ dists, r.length = n) : ∀ (ls : List Label) (p : Nat) (stale : Option (List ℝ)),
    (∀ l ∈ ls, GoodLabel l) → p + ls.length ≤ n →
    paramRows conv dists p ls stale =
      .ok ((ls.zipIdx p).flatMap (fun lp => expectedRows conv lp.1 (dists.map (fun r => r.getD lp.2 0))))
  | [], p, stale, _, _ => by simp [paramRows]
  | l :: ls, p, stale, hl, hp => by
    have ih := fun st => paramRows_expected conv dists hne n hn ls (p + 1) st
      (fun l h => hl l (by simp [h])) (by simp at hp; omega)
    unfold paramRows
    have hd : dists.map (fun r => r.getD p 0) ≠ [] := by simpa using hne
    rw [distColumn_ok dists p n hn (by simp at hp; omega)]
    simp only
    rw [mkRow_describe _ _ hd]
    simp only [List.zipIdx_cons, List.flatMap_cons]
    have no1 : ∀ t : Label, ¬ ("log10(".toList <+: ("log(".toList ++ t)) := by
      intro t h
      have := List.IsPrefix.getElem h (i := 3) (by decide)
      revert this
      show ¬ ('1' = '(')
      decide
    cases conv with
    | false =>
      simp only [Bool.false_and, Bool.false_eq_true, if_false]
      rw [ih stale]
      simp [expectedRows, Except.map]
    | true =>
      rcases hl l (by simp) with ⟨h1, h2⟩ | h | h
      · have hlog : isLogLabel l = false := by
          unfold isLogLabel
          rw [decide_eq_false (show ¬ log10Pre <:+: l from h2), decide_eq_false (show ¬ logPre <:+: l from h1)]
          rfl
        have a1 : ¬ "log10(".toList <+: l := fun h => h2 h.isInfix
        have a2 : ¬ "log(".toList <+: l := fun h => h1 h.isInfix
        rw [hlog]
        simp only [Bool.and_false, Bool.false_eq_true, if_false]
        rw [ih stale]
        simp only [expectedRows, a1, a2, and_false, if_false, Except.map, List.cons_append, List.nil_append]
      · obtain ⟨hh, hlog⟩ := head_of_log l h
        have a1 : ¬ "log10(".toList <+: l := by
          obtain ⟨t, rfl⟩ := h; exact no1 t
        have hnd : newDist l (dists.map (fun r => r.getD p 0)) stale =
            some ((dists.map (fun r => r.getD p 0)).map Real.exp) := by
          unfold newDist
          rw [hh, if_neg (by decide), if_pos rfl]
        rw [hlog, hnd]
        simp only [Bool.and_true, if_true]
        rw [mkRow_describe _ _ (by simpa using hne)]
        simp only
        rw [ih]
        simp only [expectedRows, a1, h, and_false, if_false, and_true, if_true, Except.map, List.cons_append,
          List.nil_append]
      · obtain ⟨hh, hlog⟩ := head_of_log10 l h
        have hnd : newDist l (dists.map (fun r => r.getD p 0)) stale =
            some ((dists.map (fun r => r.getD p 0)).map (fun x => (10:ℝ) ^ x)) := by
          unfold newDist
          rw [hh, if_pos rfl]
        rw [hlog, hnd]
        simp only [Bool.and_true, if_true]
        rw [mkRow_describe _ _ (by simpa using hne)]
        simp only
        rw [ih]
        simp only [expectedRows, h, and_true, if_true, Except.map, List.cons_append,
          List.nil_append]

/-- **C52 (whole chain), partial.** With `last_step=False`, as many labels as parameters (or fewer) and
every logarithmic label of the form `log(...)` or `log10(...)`, the parameter rows are, in order, for
each label the median and uncertainties of all samples of that parameter, followed for a logarithmic
label by those of the converted samples.  Missing: `last_step=True` and other labels containing
`log(`, for which the claim is false (below). -/
theorem C52_whole_chain_partial (conv : Bool) (labels : List Label) (chain : List (List (List ℝ)))
    (blobs : List (List (List BlobVal))) (n : Nat) (hn : ∀ step ∈ chain, ∀ w ∈ step, w.length = n)
    (hne : chain.flatten ≠ []) (hl : labels.length ≤ n) (hgood : ∀ l ∈ labels, GoodLabel l) :
    resultsTable conv false false labels chain blobs = .ok (labels.zipIdx.flatMap (fun lp =>
      expectedRows conv lp.1 (chain.flatten.map (fun r => r.getD lp.2 0)))) := by
  unfold resultsTable resultSamples
  simp only [Bool.false_eq_true, if_false]
  rw [paramRows_expected conv chain.flatten hne n (by
    intro r hr
    obtain ⟨st, h1, h2⟩ := List.mem_flatten.1 hr
    exact hn st h1 r h2) labels 0 none hgood (by omega)]

/-- Non-vacuity: two steps of two walkers with two parameters, one of them a logarithm. -/
example : (∀ step ∈ [[[(1:ℝ), 2], [3, 4]], [[5, 6], [7, 8]]], ∀ w ∈ step, w.length = 2) ∧
    ([[[(1:ℝ), 2], [3, 4]], [[5, 6], [7, 8]]] : List (List (List ℝ))).flatten ≠ [] ∧
    GoodLabel "log10(norm)".toList ∧ GoodLabel "index".toList := by
  refine ⟨by simp, by simp, Or.inr (Or.inr (by decide)), Or.inl ⟨by decide, by decide⟩⟩

/-- **C52 is false of the code for `last_step=True`**: the samples used are those of the last
*walker* at all steps, not those of all walkers at the last step. -/
theorem C52_false_last_step (chain : List (List (List ℝ))) (hw : ∀ step ∈ chain, step ≠ []) :
    resultSamples true chain = .ok (chain.map (fun step => step.getLastD [])) ∧
    ∃ chain' : List (List (List ℝ)), (∀ step ∈ chain', step ≠ []) ∧
      resultSamples true chain' ≠ .ok (chain'.getLastD []) := by
  have h : ∀ chain : List (List (List ℝ)), (∀ step ∈ chain, step ≠ []) →
      resultSamples true chain = .ok (chain.map (fun step => step.getLastD [])) := by
    intro chain hw
    unfold resultSamples
    simp only [if_true]
    apply mapM_ok_map
    intro s hs
    have := hw s hs
    rw [List.getLastD_eq_getLast?, List.getLast?_eq_getLast_of_ne_nil this]
    rfl
  refine ⟨h chain hw, [[[0], [10]]], by simp, ?_⟩
  rw [h _ (by simp)]
  simp

/-- **C52 is false of the code for labels containing `log(` elsewhere**: the converted row of
`mylog(b)` is computed from the samples of the previous logarithmic parameter, ... -/
theorem C52_false_stale (x y : ℝ) :
    paramRows true [[x, y]] 0 ["log(a)".toList, "mylog(b)".toList] none =
      .ok [describe "log(a)".toList [x], describe "a".toList [Real.exp x],
           describe "mylog(b)".toList [y], describe "b".toList [Real.exp x]] := by
  have h1 : isLogLabel "log(a)".toList = true := by
    unfold isLogLabel; rw [decide_eq_true (show logPre <:+: "log(a)".toList by decide), Bool.or_true]
  have h2 : isLogLabel "mylog(b)".toList = true := by
    unfold isLogLabel; rw [decide_eq_true (show logPre <:+: "mylog(b)".toList by decide), Bool.or_true]
  have d0 : distColumn [[x, y]] 0 = .ok [x] := rfl
  have d1 : distColumn [[x, y]] 1 = .ok [y] := rfl
  have n1 : newDist "log(a)".toList [x] none = some [Real.exp x] := by
    unfold newDist
    rw [if_neg (by decide), if_pos (by decide)]; rfl
  have n2 : newDist "mylog(b)".toList [y] (some [Real.exp x]) = some [Real.exp x] := by
    unfold newDist
    rw [if_neg (by decide), if_neg (by decide)]
  have i1 : labelInner "log(a)".toList = "a".toList := by decide
  have i2 : labelInner "mylog(b)".toList = "b".toList := by decide
  simp only [paramRows, d0, d1, h1, h2, n1, n2, i1, i2, Bool.and_self, if_true, Nat.zero_add,
    mkRow_describe _ [x] (by simp), mkRow_describe _ [y] (by simp), mkRow_describe _ [Real.exp x] (by simp),
    Except.map]

/-- ... and without a previous one the call raises UnboundLocalError. -/
theorem C52_false_unbound (y : ℝ) :
    paramRows true [[y]] 0 ["mylog(b)".toList] none = .error .unboundLocalError := by
  have h2 : isLogLabel "mylog(b)".toList = true := by
    unfold isLogLabel; rw [decide_eq_true (show logPre <:+: "mylog(b)".toList by decide), Bool.or_true]
  have d1 : distColumn [[y]] 0 = .ok [y] := rfl
  have n2 : newDist "mylog(b)".toList [y] none = none := by
    unfold newDist
    rw [if_neg (by decide), if_neg (by decide)]
  simp only [paramRows, d1, h2, n2, Bool.and_self, if_true, mkRow_describe _ [y] (by simp)]

example := C49_consistent [[fin 1, fin 2], [fin 5, ninf]] [["a", "b"], ["c", "d"]] [[1, 2], [3, 4]] 2 2 (by norm_num)
  (by norm_num) ⟨rfl, by simp⟩ ⟨rfl, by simp⟩ ⟨rfl, by simp⟩ (by simp)

/-- A cumulative distribution: 0 below -1, 1 above 1, linear between. -/
theorem exCdf : IsCdf (fun x => max 0 (min 1 ((x + 1) / 2))) where
  mono := by
    intro a b h
    exact max_le_max le_rfl (min_le_min le_rfl (by linarith))
  nonneg := fun a => le_max_left _ _
  le_one := fun a => max_le (by norm_num) (min_le_left _ _)

example := C50_nested _ exCdf [fin 3, fin 1, fin 2, fin 7] (by simp) 0.3 0.9 (by norm_num) (by norm_num)

example := C50_all _ exCdf [[fin 3, fin 1], [fin 2, fin 7], [fin 4, fin 5]] (by simp) 2 [3, 1] (by simp)

example := C51_percentiles [3, 1, 2] (by simp)

example : ∃ rows, resultsTable true false false ["log10(norm)".toList, "index".toList]
    [[[1, 2], [3, 4]], [[5, 6], [7, 8]]] [] = .ok rows ∧ ∀ r ∈ rows, 0 ≤ r.lo ∧ 0 ≤ r.hi := by
  have h := C52_whole_chain_partial true ["log10(norm)".toList, "index".toList]
    [[[1, 2], [3, 4]], [[5, 6], [7, 8]]] [] 2 (by simp) (by simp) (by simp) (by
      intro l hl
      simp only [List.mem_cons, List.not_mem_nil, or_false] at hl
      rcases hl with rfl | rfl
      · exact Or.inr (Or.inr (by decide))
      · exact Or.inl ⟨by decide, by decide⟩)
  exact ⟨_, h, C51_uncertainties_nonneg _ _ _ _ _ _ _ h⟩

example := C52_false_last_step [[[1, 2], [3, 4]], [[5, 6], [7, 8]]] (by simp)

end Naima.Props
