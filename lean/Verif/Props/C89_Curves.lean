import Verif.Model.Curves
import Verif.Props.C80_PlotData
import Verif.Props.C66_C69_Blob

/-! # C89: curves and bands drawn from a sampler -/

namespace Naima.Props

open Naima XR Classical

/-! ### Specification -/

/-- The points `pts` are the curve of the spectrum `q` at the energies `E`: one point per energy; at a
positive energy the abscissa is that energy in the unit `eU` and the ordinate, in the documented unit for
the kind of plot, is the value of `q` as an SED or differential spectrum (NaN and infinities included). -/
structure DrawnAs (pts : List (XR × XR)) (E q : BQty) (eU : PhysUnit) (sed : Bool) : Prop where
  len : pts.length = E.vals.length
  points : ∃ fu : PhysUnit, DocumentedSedUnit q.unit.dim sed fu ∧ 0 < fu.scale ∧
    ∀ (i : ℕ) (e : ℝ) (v : XR), E.vals[i]? = some (fin e) → 0 < e → q.vals[i]? = some v →
      ∃ y, pts[i]? = some (fin (e * E.unit.scale / eU.scale), y) ∧
        y * fin fu.scale = v * fin (asPlotted sed q.unit.dim (e * E.unit.scale) q.unit.scale)

/-- A spectrum that can be drawn at the energies `E`: one value per energy, in a unit of a spectral type. -/
structure SpectrumOn (E q : BQty) (D : Dim) : Prop where
  arr : q.scalar = false
  len : q.vals.length = E.vals.length
  dim : q.unit.dim = D
  pos : 0 < q.unit.scale

/-- The blob number `idx` of a sample is such a spectrum, alone (then `E` are the energies of the data) or
paired with its energies. -/
def HoldsSpectrum (paired : Bool) (E q : BQty) (D : Dim) (idx : ℕ) (w : List MBlob) : Prop :=
  w[idx]? = some (if paired then .pair E q else .qty q) ∧ SpectrumOn E q D

/-! ### Proof -/

theorem xmul_split (v : XR) (a b : ℝ) (ha : 0 < a) (hb : 0 < b) : v * fin (a * b) = v * fin a * fin b := by
  have hab : 0 < a * b := mul_pos ha hb
  cases v with
  | nan => rfl
  | fin x => simp [mul_assoc]
  | pinf => simp [XR.mul_def, XR.mul, XR.infMul, hab, ha, hb]
  | ninf =>
    have h1 : ¬ (a * b < 0) := not_lt.2 hab.le
    have h2 : ¬ (a < 0) := not_lt.2 ha.le
    have h3 : ¬ (b < 0) := not_lt.2 hb.le
    simp [XR.mul_def, XR.mul, XR.infMul, hab, ha, hb, h1, h2, h3]

theorem asPlotted_scale (sed : Bool) (d : Dim) (E v : ℝ) :
    asPlotted sed d E v = v * asPlotted sed d E 1 := by
  unfold asPlotted
  split_ifs <;> ring

theorem sedX_fin (s : SedFactor) (E : ℝ) (hE : 0 < E) : sedX s (fin E) = fin (s.phys E) := by
  cases s with
  | ones => rfl
  | esq => show fin (E * E) = fin (E ^ 2); rw [pow_two]
  | invEsq =>
    show fin 1 / (fin E * fin E) = _
    rw [mul_fin, div_fin _ _ (by positivity)]
    show fin (1 / (E * E)) = fin (1 / E ^ 2)
    rw [pow_two]

/-- Drawing a spectrum. -/
theorem curve_drawn (E : BQty) (row : List XR) (u eU : PhysUnit) (sed : Bool) (hu : SpectralType u.dim)
    (hup : 0 < u.scale) (hE : E.unit.dim = Dim.energy) (hEp : 0 < E.unit.scale) (heU : eU.dim = Dim.energy)
    (hlen : row.length = E.vals.length) :
    ∃ pts, curve E row u eU sed = .ok pts ∧ DrawnAs pts E ⟨false, row, u⟩ eU sed := by
  obtain ⟨fu, s, h1, h2, h3, -⟩ := C33_dimensions u hu sed
  have hf := C33_factor u hu sed fu s h1
  have hd := C33_units u hu sed fu s h1
  refine ⟨(E.vals.zip row).map (fun p =>
      (p.1 * fin (E.unit.scale / eU.scale),
       p.2 * sedX s (p.1 * fin E.unit.scale) * fin (u.scale / fu.scale))), ?_, ?_, fu, hd, h3, ?_⟩
  · unfold curve
    rw [h1]
    show (if _ then _ else _) = _
    rw [if_neg (by rw [hE, heU]; simp), if_neg (by simp [hlen]), if_neg (by simp [h2])]
  · simp [hlen]
  · intro i e v hi he hv
    have hpos : 0 < e * E.unit.scale := mul_pos he hEp
    have hz : (E.vals.zip row)[i]? = some (fin e, v) := by
      rw [List.getElem?_zip_eq_some]; exact ⟨hi, hv⟩
    refine ⟨v * sedX s (fin (e * E.unit.scale)) * fin (u.scale / fu.scale), ?_, ?_⟩
    · rw [List.getElem?_map, hz]
      simp [mul_div_assoc]
    · have hph : 0 < s.phys (e * E.unit.scale) := by
        cases s <;> simp only [SedFactor.phys] <;> positivity
      rw [sedX_fin s _ hpos, mul_scale_assoc _ _ _ hup h3, ← xmul_split v _ _ hph hup, mul_comm (s.phys _),
        phys_asPlotted u hu sed fu s hf]

/-- The same physical values give the same curve. -/
theorem DrawnAs.congr {pts : List (XR × XR)} {E : BQty} {eU : PhysUnit} {sed : Bool} {row : List XR}
    {u : PhysUnit} {q : BQty} (h : DrawnAs pts E ⟨false, row, u⟩ eU sed) (hs : SamePhysical row u q)
    (hu : 0 < u.scale) (hq : 0 < q.unit.scale) (hE : 0 < E.unit.scale) : DrawnAs pts E q eU sed := by
  obtain ⟨hl, fu, hd, hf, hp⟩ := h
  obtain ⟨hdim, hv⟩ := hs
  refine ⟨hl, fu, by rw [← hdim]; exact hd, hf, ?_⟩
  intro i e v hi he hvi
  have hlen : row.length = q.vals.length := by simpa using congrArg List.length hv
  have hiq : i < q.vals.length := (List.getElem?_eq_some_iff.1 hvi).1
  have hir : i < row.length := by omega
  obtain ⟨y, h1, h2⟩ := hp i e row[i] hi he (List.getElem?_eq_getElem hir)
  refine ⟨y, h1, ?_⟩
  have := congrArg (fun l => l[i]?) hv
  simp only [List.getElem?_map, List.getElem?_eq_getElem hir, hvi, Option.map_some, Option.some.injEq] at this
  have hpos : 0 < asPlotted sed u.dim (e * E.unit.scale) 1 :=
    asPlotted_pos _ _ _ _ (mul_pos he hE) one_pos
  have h2' : y * fin fu.scale = row[i] * fin (asPlotted sed u.dim (e * E.unit.scale) u.scale) := h2
  rw [h2', asPlotted_scale, xmul_split _ _ _ hu hpos, this, ← hdim, asPlotted_scale sed _ _ q.unit.scale,
    xmul_split _ _ _ hq hpos]

theorem get_of_mem_forall {α β : Type} {R : α → β → Prop} (l : List α) (h : ∀ a ∈ l, ∃ b, R a b) :
    ∃ f : List β, List.Forall₂ R l f := by
  induction l with
  | nil => exact ⟨[], .nil⟩
  | cons a l ih =>
    obtain ⟨b, hb⟩ := h a (by simp)
    obtain ⟨f, hf⟩ := ih (fun a ha => h a (by simp [ha]))
    exact ⟨b :: f, .cons hb hf⟩

theorem mapM_total {α β : Type} (f : α → Except PyErr β) (l : List α) (h : ∀ a ∈ l, ∃ b, f a = .ok b) :
    ∃ r, l.mapM f = .ok r ∧ r.length = l.length ∧ ∀ i (hi : i < l.length), ∃ b, r[i]? = some b ∧ f l[i] = .ok b := by
  have hex : ∃ r, l.mapM f = .ok r := by
    induction l with
    | nil => exact ⟨[], rfl⟩
    | cons a l ih =>
      obtain ⟨b, hb⟩ := h a (by simp)
      obtain ⟨r, hr⟩ := ih (fun a ha => h a (by simp [ha]))
      refine ⟨b :: r, ?_⟩
      rw [List.mapM_cons, hb, hr]; rfl
  obtain ⟨r, hr⟩ := hex
  obtain ⟨h1, h2⟩ := mapM_ok_iff_get f l r hr
  exact ⟨r, hr, h1, fun i hi => ⟨r[i]'(by omega), List.getElem?_eq_getElem _, h2 i hi (by omega)⟩⟩

/-- Reading the samples of a well-formed run. -/
theorem processBlob_spectra (blobs : List (List (List MBlob))) (energy E : BQty) (idx : ℕ) (ls paired : Bool)
    (D : Dim) (hE : paired = false → E = energy) (hne : blobs ≠ []) (hne' : ∀ step ∈ blobs, step ≠ [])
    (hw : ∀ step ∈ blobs, ∀ w ∈ step, ∃ q, HoldsSpectrum paired E q D idx w) :
    ∃ m, processBlob blobs energy idx ls = .ok (some E, m) ∧ m.unit.dim = D ∧ 0 < m.unit.scale ∧
      m.rows.length = (if ls then blobs.getLastD [] else blobs.flatten).length ∧
      ∀ (k : ℕ) (w : List MBlob), (if ls then blobs.getLastD [] else blobs.flatten)[k]? = some w →
        ∃ q row, HoldsSpectrum paired E q D idx w ∧ m.rows[k]? = some row ∧
          row.length = E.vals.length ∧ SamePhysical row m.unit q := by
  obtain ⟨ini, last, rfl⟩ : ∃ ini last, blobs = ini ++ [last] :=
    ⟨blobs.dropLast, blobs.getLast hne, (List.dropLast_append_getLast hne).symm⟩
  have hlast : last ≠ [] := hne' last (by simp)
  obtain ⟨w0, rest, rfl⟩ : ∃ w0 rest, last = w0 :: rest := by
    cases last with
    | nil => exact absurd rfl hlast
    | cons a l => exact ⟨a, l, rfl⟩
  set samples := (if ls then (ini ++ [w0 :: rest]).getLastD [] else (ini ++ [w0 :: rest]).flatten) with hsam
  have hall : ∀ w ∈ samples, ∃ q, HoldsSpectrum paired E q D idx w := by
    intro w hwm
    cases ls with
    | true =>
      rw [hsam] at hwm
      simp only [if_true, List.getLastD_eq_getLast?, List.getLast?_append, List.getLast?_singleton,
        Option.some_or, Option.getD_some] at hwm
      exact hw _ (by simp) w hwm
    | false =>
      rw [hsam] at hwm
      obtain ⟨step, hstep, hw'⟩ := List.mem_flatten.1 hwm
      exact hw step hstep w hw'
  have hne0 : samples ≠ [] := by
    cases ls with
    | true => rw [hsam]; simp [List.getLastD_eq_getLast?]
    | false => rw [hsam]; simp
  obtain ⟨qs, hqs⟩ := get_of_mem_forall samples hall
  -- gathering
  let wrap : BQty → MBlob := fun q => if paired then .pair E q else .qty q
  have hgather : gatherBlobs (ini ++ [w0 :: rest]) idx ls = .ok (qs.map wrap) := by
    unfold gatherBlobs
    rw [← hsam]
    clear_value samples
    clear hall hne0 hsam
    induction hqs with
    | nil => rfl
    | cons h _ ih =>
      rw [List.mapM_cons, ih]
      unfold blobAt
      rw [h.1]
      rfl
  have hspec : ∀ q ∈ qs, SpectrumOn E q D := by
    intro q hq
    clear hgather hall hne0
    clear_value samples
    clear hsam
    induction hqs with
    | nil => simp at hq
    | cons h _ ih =>
      rcases List.mem_cons.1 hq with rfl | hq
      · exact h.2
      · exact ih hq
  have hconv : ∀ conv : MBlob → Except PyErr BQty, (∀ q, conv (wrap q) = .ok q) →
      (qs.map wrap).mapM conv = .ok qs := by
    intro conv hc
    clear hgather hqs hspec
    induction qs with
    | nil => rfl
    | cons q qs ih => rw [List.map_cons, List.mapM_cons, hc, ih]; rfl
  have hlenq : samples.length = qs.length := hqs.length_eq
  obtain ⟨q0, qs', hq0⟩ : ∃ q0 qs', qs = q0 :: qs' := by
    cases hqs' : qs with
    | nil => rw [hqs'] at hlenq; exact absurd (List.length_eq_zero_iff.1 hlenq) hne0
    | cons a l => exact ⟨a, l, rfl⟩
  obtain ⟨m, hm⟩ : ∃ m, stackQty qs = .ok m := by
    rw [hq0]
    refine ⟨⟨(q0 :: qs').map (fun q => q.vals.map (fun v => v * fin (q.unit.scale / q0.unit.scale))), q0.unit⟩, ?_⟩
    simp only [stackQty]
    rw [if_pos, if_pos]
    · intro q hq
      have a := hspec q (by rw [hq0]; simp [hq])
      have b := hspec q0 (by rw [hq0]; simp)
      exact ⟨by rw [a.arr, b.arr], by rw [a.len, b.len]⟩
    · intro q hq
      have a := hspec q (by rw [hq0]; simp [hq])
      have b := hspec q0 (by rw [hq0]; simp)
      rw [a.dim, b.dim]
  have hmu : m.unit = q0.unit := by
    rw [hq0] at hm
    simp only [stackQty] at hm
    split_ifs at hm
    cases hm
    rfl
  have hq0s := hspec q0 (by rw [hq0]; simp)
  obtain ⟨hm1, hm2⟩ := stackQty_ok hm (fun q hq => (hspec q hq).pos)
  obtain ⟨qw, hqw⟩ := hw (w0 :: rest) (by simp) w0 (by simp)
  refine ⟨m, ?_, by rw [hmu]; exact hq0s.dim, by rw [hmu]; exact hq0s.pos, by rw [hm1, hlenq], ?_⟩
  · unfold processBlob
    rw [List.getLast?_append, List.getLast?_singleton, Option.some_or]
    have hba : blobAt idx w0 = .ok (if paired then .pair E qw else .qty qw) := by
      unfold blobAt; rw [hqw.1]
    simp only [hba]
    cases hp : paired with
    | false =>
      have hb : (gatherBlobs (ini ++ [w0 :: rest]) idx ls).bind (fun l => (l.mapM asQty).bind stackQty) = .ok m := by
        rw [hgather]
        show ((qs.map wrap).mapM asQty).bind stackQty = _
        rw [hconv asQty (by intro q; simp [wrap, hp, asQty])]
        exact hm
      simp only [Bool.false_eq_true, if_false, hb]
      rw [if_pos (by rw [hqw.2.len, hE hp]), hE hp]
    | true =>
      have hb : (gatherBlobs (ini ++ [w0 :: rest]) idx ls).bind (fun l => (l.mapM asPair).bind stackQty) = .ok m := by
        rw [hgather]
        show ((qs.map wrap).mapM asPair).bind stackQty = _
        rw [hconv asPair (by intro q; simp [wrap, hp, asPair])]
        exact hm
      simp only [if_true, hb]
  · intro k w hk
    obtain ⟨hk', hkw⟩ := List.getElem?_eq_some_iff.1 hk
    have hkq : k < qs.length := by omega
    obtain ⟨row, hr1, hr2⟩ := hm2 k hkq
    have hR : HoldsSpectrum paired E qs[k] D idx w := by
      have := hqs.get hk' hkq
      simp only [List.get_eq_getElem] at this
      rw [hkw] at this
      exact this
    refine ⟨qs[k], row, hR, hr1, ?_, hr2⟩
    have := congrArg List.length hr2.2
    simp only [List.length_map] at this
    rw [this]
    exact hR.2.len

/-! ### Theorems -/

/-- The function behaves like `np.random.randint`. -/
def IsRandint (r : ℕ → ℕ → List ℕ) : Prop :=
  ∀ n k, 0 < n → (r n k).length = k ∧ ∀ d ∈ r n k, d < n

/-- A run whose blob number `idx` can be drawn: `s` steps of `w` walkers, log-probabilities without NaN, and
in every sample a spectrum at the energies `E`. -/
structure StoredRun {P : Type} (lnprob : List (List XR)) (chain : List (List P))
    (blobs : List (List (List MBlob))) (energy E : BQty) (idx : ℕ) (paired : Bool) (D : Dim) (s w : ℕ) : Prop where
  steps : 0 < s
  walkers : 0 < w
  shapeL : HasShape lnprob s w
  shapeC : HasShape chain s w
  shapeB : HasShape blobs s w
  noNaN : ∀ r ∈ lnprob, ∀ a ∈ r, a ≠ nan
  dataE : paired = false → E = energy
  spectra : ∀ step ∈ blobs, ∀ w ∈ step, ∃ q, HoldsSpectrum paired E q D idx w
  spectral : SpectralType D
  eDim : E.unit.dim = Dim.energy
  ePos : 0 < E.unit.scale

theorem blobAt_holds {paired : Bool} {E q energy : BQty} {D : Dim} {idx : ℕ} {w : List MBlob}
    (h : HoldsSpectrum paired E q D idx w) (hE : paired = false → E = energy) :
    (blobAt idx w).bind (blobModel energy) = .ok (E, q) := by
  unfold blobAt
  rw [h.1]
  cases hp : paired with
  | false => rw [hE hp]; rfl
  | true => rfl

/-- a list of stored samples, by number -/
def samplesOf (ls : Bool) (blobs : List (List (List MBlob))) : List (List MBlob) :=
  if ls then blobs.getLastD [] else blobs.flatten

theorem draw_rows (E : BQty) (m : Samples) (D : Dim) (eU : PhysUnit) (sed : Bool) (hD : SpectralType D)
    (hE : E.unit.dim = Dim.energy) (hEp : 0 < E.unit.scale) (heU : eU.dim = Dim.energy) (hmd : m.unit.dim = D)
    (hmp : 0 < m.unit.scale) (R : ℕ → BQty → Prop)
    (hrows : ∀ k, k < m.rows.length → ∃ q row, R k q ∧ SpectrumOn E q D ∧ m.rows[k]? = some row ∧
      row.length = E.vals.length ∧ SamePhysical row m.unit q)
    (ds : List ℕ) (hds : ∀ d ∈ ds, d < m.rows.length) :
    ∃ curves, ds.mapM (drawSample E m eU sed) = .ok curves ∧ curves.length = ds.length ∧
      ∀ (k d : ℕ), ds[k]? = some d → ∃ c q, curves[k]? = some c ∧ R d q ∧ SpectrumOn E q D ∧ DrawnAs c E q eU sed := by
  have hone : ∀ d ∈ ds, ∃ c q, drawSample E m eU sed d = .ok c ∧ R d q ∧ SpectrumOn E q D ∧ DrawnAs c E q eU sed := by
    intro d hd
    obtain ⟨q, row, h1, h2, h3, h4, h5⟩ := hrows d (hds d hd)
    obtain ⟨pts, hp1, hp2⟩ := curve_drawn E row m.unit eU sed (by rw [hmd]; exact hD) hmp hE hEp heU h4
    refine ⟨pts, q, ?_, h1, h2, hp2.congr h5 hmp h2.pos hEp⟩
    unfold drawSample
    rw [h3]
    exact hp1
  obtain ⟨curves, hc1, hc2, hc3⟩ := mapM_total (drawSample E m eU sed) ds
    (fun d hd => by obtain ⟨c, q, hc, -⟩ := hone d hd; exact ⟨c, hc⟩)
  refine ⟨curves, hc1, hc2, ?_⟩
  intro k d hk
  obtain ⟨hk', rfl⟩ := List.getElem?_eq_some_iff.1 hk
  obtain ⟨c, hcc, hcd⟩ := hc3 k hk'
  obtain ⟨c', q, hc', hR, hS, hdr⟩ := hone ds[k] (List.getElem_mem hk')
  rw [hcd] at hc'
  cases hc'
  exact ⟨c, q, hcc, hR, hS, hdr⟩

theorem drawML_stored {P : Type} (lnprob : List (List XR)) (chain : List (List P))
    (blobs : List (List (List MBlob))) (modelfn : P → BQty → Except PyErr (List MBlob)) (energy E : BQty)
    (idx : ℕ) (paired : Bool) (D : Dim) (s w : ℕ) (h : StoredRun lnprob chain blobs energy E idx paired D s w)
    (sed : Bool) (eU : PhysUnit) (heU : eU.dim = Dim.energy) :
    ∃ best, drawML lnprob chain blobs modelfn energy none idx sed eU = .ok best ∧
      ∃ (i j : ℕ) (m : XR) (smp : List MBlob) (q : BQty),
        (lnprob[i]?.bind (·[j]?)) = some m ∧ (∀ r ∈ lnprob, ∀ a ∈ r, a ≤ m) ∧
        (blobs[i]?.bind (·[j]?)) = some smp ∧ HoldsSpectrum paired E q D idx smp ∧ DrawnAs best E q eU sed := by
  obtain ⟨i, j, m, p, b, h1, h2, h3, h4, h5⟩ := C49_consistent lnprob chain blobs s w h.steps h.walkers
    h.shapeL h.shapeC h.shapeB h.noNaN
  obtain ⟨step, hst, hbm⟩ := Option.bind_eq_some_iff.1 h4
  obtain ⟨q, hq⟩ := h.spectra step (List.mem_of_getElem? hst) b (List.mem_of_getElem? hbm)
  obtain ⟨pts, hp1, hp2⟩ := curve_drawn E q.vals q.unit eU sed (by rw [hq.2.dim]; exact h.spectral) hq.2.pos
    h.eDim h.ePos heU hq.2.len
  refine ⟨pts, ?_, i, j, m, b, q, h2, h5, h4, hq, hp2.congr ⟨rfl, rfl⟩ hq.2.pos hq.2.pos h.ePos⟩
  unfold drawML calcML
  rw [h1]
  simp only [blobAt_holds hq h.dataE]
  exact hp1

theorem drawML_range {P : Type} (lnprob : List (List XR)) (chain : List (List P))
    (blobs : List (List (List MBlob))) (modelfn : P → BQty → Except PyErr (List MBlob)) (energy E g E' : BQty)
    (idx : ℕ) (paired paired' : Bool) (D D' : Dim) (s w : ℕ)
    (h : StoredRun lnprob chain blobs energy E idx paired D s w)
    (hg : paired' = false → E' = g) (hD' : SpectralType D') (hE' : E'.unit.dim = Dim.energy)
    (hEp' : 0 < E'.unit.scale)
    (hm : ∀ p ∈ chain.flatten, ∃ out q, modelfn p g = .ok out ∧ HoldsSpectrum paired' E' q D' idx out)
    (sed : Bool) (eU : PhysUnit) (heU : eU.dim = Dim.energy) :
    ∃ best, drawML lnprob chain blobs modelfn energy (some g) idx sed eU = .ok best ∧
      ∃ (i j : ℕ) (m : XR) (p : P) (out : List MBlob) (q : BQty),
        (lnprob[i]?.bind (·[j]?)) = some m ∧ (∀ r ∈ lnprob, ∀ a ∈ r, a ≤ m) ∧
        (chain[i]?.bind (·[j]?)) = some p ∧ modelfn p g = .ok out ∧ HoldsSpectrum paired' E' q D' idx out ∧
        DrawnAs best E' q eU sed := by
  obtain ⟨i, j, m, p, b, h1, h2, h3, h4, h5⟩ := C49_consistent lnprob chain blobs s w h.steps h.walkers
    h.shapeL h.shapeC h.shapeB h.noNaN
  obtain ⟨step, hst, hbm⟩ := Option.bind_eq_some_iff.1 h4
  obtain ⟨q0, hq0⟩ := h.spectra step (List.mem_of_getElem? hst) b (List.mem_of_getElem? hbm)
  obtain ⟨cs, hcs, hpm⟩ := Option.bind_eq_some_iff.1 h3
  obtain ⟨out, q, hout, hq⟩ := hm p (List.mem_flatten.2 ⟨cs, List.mem_of_getElem? hcs, List.mem_of_getElem? hpm⟩)
  obtain ⟨pts, hp1, hp2⟩ := curve_drawn E' q.vals q.unit eU sed (by rw [hq.2.dim]; exact hD') hq.2.pos
    hE' hEp' heU hq.2.len
  refine ⟨pts, ?_, i, j, m, p, out, q, h2, h5, h3, hout, hq, hp2.congr ⟨rfl, rfl⟩ hq.2.pos hq.2.pos hEp'⟩
  unfold drawML calcML
  rw [h1]
  simp only [blobAt_holds hq0 h.dataE, hout, blobAt_holds hq hg]
  exact hp1

theorem StoredRun.read {P : Type} {lnprob : List (List XR)} {chain : List (List P)}
    {blobs : List (List (List MBlob))} {energy E : BQty}
    {idx : ℕ} {paired : Bool} {D : Dim} {s w : ℕ} (h : StoredRun lnprob chain blobs energy E idx paired D s w)
    (ls : Bool) :
    ∃ m, processBlob blobs energy idx ls = .ok (some E, m) ∧ m.unit.dim = D ∧ 0 < m.unit.scale ∧
      m.rows.length = (samplesOf ls blobs).length ∧ 0 < m.rows.length ∧
      ∀ (k : ℕ) (w : List MBlob), (samplesOf ls blobs)[k]? = some w →
        ∃ q row, HoldsSpectrum paired E q D idx w ∧ m.rows[k]? = some row ∧
          row.length = E.vals.length ∧ SamePhysical row m.unit q := by
  have hne : blobs ≠ [] := by
    intro e; have := h.shapeB.1; rw [e] at this; have := h.steps; simp at *; omega
  have hne' : ∀ step ∈ blobs, step ≠ [] := by
    intro step hs e; have := h.shapeB.2 step hs; rw [e] at this; have := h.walkers; simp at *; omega
  obtain ⟨m, a, b, c, d, e⟩ := processBlob_spectra blobs energy E idx ls paired D h.dataE hne hne' h.spectra
  refine ⟨m, a, b, c, d, ?_, e⟩
  rw [d, List.length_pos_iff]
  obtain ⟨ini, last, rfl⟩ : ∃ ini last, blobs = ini ++ [last] :=
    ⟨blobs.dropLast, blobs.getLast hne, (List.dropLast_append_getLast hne).symm⟩
  have := hne' last (by simp)
  cases ls <;> simp [List.getLastD_eq_getLast?, this]

theorem range_read {P : Type} (chain : List (List P))
    (modelfn : P → BQty → Except PyErr (List MBlob)) (g E' : BQty)
    (idx : ℕ) (paired' : Bool) (D' : Dim) (s w : ℕ) (hs : 0 < s) (hw : 0 < w) (hsh : HasShape chain s w)
    (hg : paired' = false → E' = g)
    (hm : ∀ p ∈ chain.flatten, ∃ out q, modelfn p g = .ok out ∧ HoldsSpectrum paired' E' q D' idx out)
    (ls : Bool) (n : ℕ) (hn : 0 < n) (rand : ℕ → ℕ → List ℕ) (hi : IsRandint rand) :
    ∃ (m : Samples) (pars : List P),
      (∀ blobs energy, samplesFor chain blobs modelfn energy (some g) idx ls n rand = .ok (some E', m)) ∧
      m.unit.dim = D' ∧ 0 < m.unit.scale ∧ m.rows.length = n ∧ pars.length = n ∧
      (∀ p ∈ pars, p ∈ (if ls then chain.getLastD [] else chain.flatten)) ∧
      ∀ k, k < n → ∃ p out q row, pars[k]? = some p ∧ modelfn p g = .ok out ∧
        HoldsSpectrum paired' E' q D' idx out ∧ m.rows[k]? = some row ∧ row.length = E'.vals.length ∧
        SamePhysical row m.unit q := by
  set pool := (if ls then chain.getLastD [] else chain.flatten) with hpool
  have hne : chain ≠ [] := by
    intro e; have := hsh.1; rw [e] at this; simp at *; omega
  obtain ⟨ini, last, rfl⟩ : ∃ ini last, chain = ini ++ [last] :=
    ⟨chain.dropLast, chain.getLast hne, (List.dropLast_append_getLast hne).symm⟩
  have hlast : last ≠ [] := by
    intro e; have := hsh.2 last (by simp); rw [e] at this; simp at *; omega
  have hpoolne : 0 < pool.length := by
    rw [List.length_pos_iff, hpool]
    cases ls <;> simp [List.getLastD_eq_getLast?, hlast]
  have hsub : ∀ p ∈ pool, p ∈ (ini ++ [last]).flatten := by
    intro p hp
    cases ls with
    | false => exact hp
    | true =>
      rw [hpool] at hp
      simp only [if_true, List.getLastD_eq_getLast?, List.getLast?_append, List.getLast?_singleton,
        Option.some_or, Option.getD_some] at hp
      simp [hp]
  obtain ⟨hr1, hr2⟩ := hi pool.length n hpoolne
  obtain ⟨pars, hp1, hp2, hp3⟩ := mapM_total (pickPars pool) (rand pool.length n)
    (fun d hd => ⟨pool[d]'(hr2 d hd), by simp [pickPars, hr2 d hd]⟩)
  have hmem : ∀ p ∈ pars, p ∈ pool := by
    intro p hp
    obtain ⟨k, hk, rfl⟩ := List.mem_iff_getElem.1 hp
    obtain ⟨b, hb, hb'⟩ := hp3 k (by omega)
    rw [List.getElem?_eq_getElem hk] at hb
    cases hb
    unfold pickPars at hb'
    split at hb'
    · rename_i hx; cases hb'; exact List.mem_of_getElem? hx
    · cases hb'
  obtain ⟨outs, ho1, ho2, ho3⟩ := mapM_total (fun p => modelfn p g) pars
    (fun p hp => by obtain ⟨out, q, h, -⟩ := hm p (hsub p (hmem p hp)); exact ⟨out, h⟩)
  have hspec : ∀ step ∈ [outs], ∀ w ∈ step, ∃ q, HoldsSpectrum paired' E' q D' idx w := by
    intro step hst w hw
    rw [List.mem_singleton] at hst
    subst hst
    obtain ⟨k, hk, rfl⟩ := List.mem_iff_getElem.1 hw
    obtain ⟨b, hb, hb'⟩ := ho3 k (by omega)
    rw [List.getElem?_eq_getElem hk] at hb
    cases hb
    obtain ⟨out, q, h1, h2⟩ := hm _ (hsub _ (hmem _ (List.getElem_mem (by omega : k < pars.length))))
    rw [h1] at hb'
    cases hb'
    exact ⟨q, h2⟩
  obtain ⟨m, m1, m2, m3, m4, m5⟩ := processBlob_spectra [outs] g E' idx true paired' D' hg (by simp)
    (by
      intro step hst e
      rw [List.mem_singleton] at hst
      rw [hst] at e
      rw [e] at ho2
      simp at ho2
      omega) hspec
  simp only [if_true, List.getLastD_cons, List.getLastD_nil] at m4 m5
  refine ⟨m, pars, ?_, m2, m3, by omega, by omega, hmem, ?_⟩
  · intro blobs energy
    unfold samplesFor calcSamples
    simp only [← hpool, hp1, ho1, m1]
    rw [if_neg (by omega)]
  · intro k hk
    have hkp : k < pars.length := by omega
    obtain ⟨b, hb, hb'⟩ := ho3 k hkp
    obtain ⟨q, row, a1, a2, a3, a4⟩ := m5 k b hb
    exact ⟨pars[k], b, q, row, List.getElem?_eq_getElem hkp, hb', a1, a2, a3, a4⟩

/-- **C89 (samples).** For every run with drawable spectra, every number of curves and every outcome of the
random draws, `plot_samples` succeeds and draws exactly that many curves, each of them the spectrum stored
with the sample of the chain (of the last step, if so requested) that was drawn, and then the curve of the
spectrum stored with a sample of greatest log-probability. -/
theorem C89_samples {P : Type} (lnprob : List (List XR)) (chain : List (List P))
    (blobs : List (List (List MBlob))) (modelfn : P → BQty → Except PyErr (List MBlob)) (energy E : BQty)
    (idx : ℕ) (paired : Bool) (D : Dim) (s w : ℕ) (h : StoredRun lnprob chain blobs energy E idx paired D s w)
    (sed ls : Bool) (eU : PhysUnit) (heU : eU.dim = Dim.energy) (n : ℕ) (hn : 0 < n) (draws : Draws)
    (hr : IsRandint draws.outer) :
    ∃ curves best, plotSamples lnprob chain blobs modelfn energy none idx sed ls eU n draws =
        .ok (curves, best) ∧
      curves.length = n ∧
      (∀ k, k < n → ∃ d smp c q, (draws.outer (samplesOf ls blobs).length n)[k]? = some d ∧
        (samplesOf ls blobs)[d]? = some smp ∧ HoldsSpectrum paired E q D idx smp ∧
        curves[k]? = some c ∧ DrawnAs c E q eU sed) ∧
      ∃ (i j : ℕ) (m : XR) (smp : List MBlob) (q : BQty),
        (lnprob[i]?.bind (·[j]?)) = some m ∧ (∀ r ∈ lnprob, ∀ a ∈ r, a ≤ m) ∧
        (blobs[i]?.bind (·[j]?)) = some smp ∧ HoldsSpectrum paired E q D idx smp ∧ DrawnAs best E q eU sed := by
  obtain ⟨m, hm1, hm2, hm3, hm4, hm5, hm6⟩ := h.read ls
  obtain ⟨best, hb1, hb2⟩ := drawML_stored lnprob chain blobs modelfn energy E idx paired D s w h sed eU heU
  obtain ⟨hr1, hr2⟩ := hr m.rows.length n hm5
  obtain ⟨curves, hc1, hc2, hc3⟩ := draw_rows E m D eU sed h.spectral h.eDim h.ePos heU hm2 hm3
    (fun k q => ∃ smp, (samplesOf ls blobs)[k]? = some smp ∧ HoldsSpectrum paired E q D idx smp)
    (fun k hk => by
      obtain ⟨q, row, a, b, c, d⟩ := hm6 k _ (List.getElem?_eq_getElem (hm4 ▸ hk))
      exact ⟨q, row, ⟨_, List.getElem?_eq_getElem (hm4 ▸ hk), a⟩, a.2, b, c, d⟩)
    (draws.outer m.rows.length n) hr2
  refine ⟨curves, best, ?_, by rw [hc2, hr1], ?_, hb2⟩
  · unfold plotSamples samplesFor
    simp only [hm1]
    rw [if_neg (by omega), if_neg (by omega)]
    simp only [hc1, hb1]
  · intro k hk
    have hk' : k < (draws.outer m.rows.length n).length := by rw [hr1]; exact hk
    obtain ⟨c, q, h1, ⟨smp, h2, h3⟩, -, h4⟩ := hc3 k _ (List.getElem?_eq_getElem hk')
    refine ⟨_, smp, c, q, ?_, h2, h3, h1, h4⟩
    rw [← hm4, List.getElem?_eq_getElem hk']

/-- **C89 (samples, with an energy range).** With `e_range` the curves are those of the model evaluated on the
grid of energies `g` at parameter vectors of the chain (of the last step, if so requested), and the last one
is that of the model at a parameter vector of greatest log-probability. All of them come from the same hundred
evaluations of the model, whatever the number of curves. -/
theorem C89_range {P : Type} (lnprob : List (List XR)) (chain : List (List P))
    (blobs : List (List (List MBlob))) (modelfn : P → BQty → Except PyErr (List MBlob)) (energy E g E' : BQty)
    (idx : ℕ) (paired paired' : Bool) (D D' : Dim) (s w : ℕ)
    (h : StoredRun lnprob chain blobs energy E idx paired D s w)
    (hg : paired' = false → E' = g) (hD' : SpectralType D') (hE' : E'.unit.dim = Dim.energy)
    (hEp' : 0 < E'.unit.scale)
    (hm : ∀ p ∈ chain.flatten, ∃ out q, modelfn p g = .ok out ∧ HoldsSpectrum paired' E' q D' idx out)
    (sed ls : Bool) (eU : PhysUnit) (heU : eU.dim = Dim.energy) (n : ℕ) (hn : 0 < n) (draws : Draws)
    (hr : IsRandint draws.outer) (hi : IsRandint draws.inner) :
    ∃ curves best, plotSamples lnprob chain blobs modelfn energy (some g) idx sed ls eU n draws =
        .ok (curves, best) ∧
      curves.length = n ∧
      (∃ pars : List P, pars.length = 100 ∧
        (∀ p ∈ pars, p ∈ (if ls then chain.getLastD [] else chain.flatten)) ∧
        ∀ k, k < n → ∃ d p out c q, (draws.outer 100 n)[k]? = some d ∧ pars[d]? = some p ∧
          modelfn p g = .ok out ∧ HoldsSpectrum paired' E' q D' idx out ∧
          curves[k]? = some c ∧ DrawnAs c E' q eU sed) ∧
      ∃ (i j : ℕ) (m : XR) (p : P) (out : List MBlob) (q : BQty),
        (lnprob[i]?.bind (·[j]?)) = some m ∧ (∀ r ∈ lnprob, ∀ a ∈ r, a ≤ m) ∧
        (chain[i]?.bind (·[j]?)) = some p ∧ modelfn p g = .ok out ∧ HoldsSpectrum paired' E' q D' idx out ∧
        DrawnAs best E' q eU sed := by
  obtain ⟨best, hb1, hb2⟩ := drawML_range lnprob chain blobs modelfn energy E g E' idx paired paired' D D' s w h
    hg hD' hE' hEp' hm sed eU heU
  obtain ⟨m, pars, hm1, hm2, hm3, hm4, hm5, hm6, hm7⟩ := range_read chain modelfn g E' idx paired' D' s w
    h.steps h.walkers h.shapeC hg hm ls 100 (by norm_num) draws.inner hi
  obtain ⟨hr1, hr2⟩ := hr m.rows.length n (by omega)
  obtain ⟨curves, hc1, hc2, hc3⟩ := draw_rows E' m D' eU sed hD' hE' hEp' heU hm2 hm3
    (fun k q => ∃ p out, pars[k]? = some p ∧ modelfn p g = .ok out ∧ HoldsSpectrum paired' E' q D' idx out)
    (fun k hk => by
      obtain ⟨p, out, q, row, h1, h2, h3, h4, h5, h6⟩ := hm7 k (by omega)
      exact ⟨q, row, ⟨p, out, h1, h2, h3⟩, h3.2, h4, h5, h6⟩)
    (draws.outer m.rows.length n) hr2
  refine ⟨curves, best, ?_, by rw [hc2, hr1], ⟨pars, hm5, hm6, ?_⟩, hb2⟩
  · unfold plotSamples
    simp only [hm1]
    rw [if_neg (by omega), if_neg (by omega)]
    simp only [hc1, hb1]
  · intro k hk
    have hk' : k < (draws.outer m.rows.length n).length := by rw [hr1]; exact hk
    obtain ⟨c, q, h1, ⟨p, out, h2, h3, h4⟩, -, h5⟩ := hc3 k _ (List.getElem?_eq_getElem hk')
    refine ⟨_, p, out, c, q, ?_, h2, h3, h4, h1, h5⟩
    rw [← hm4, List.getElem?_eq_getElem hk']

/-! ### Bands -/

theorem documented_scale {d : Dim} {sed : Bool} {a b : PhysUnit} (ha : DocumentedSedUnit d sed a)
    (hb : DocumentedSedUnit d sed b) : a.scale = b.scale := by
  unfold DocumentedSedUnit at ha hb
  cases sed with
  | true => simp only [if_true] at ha hb; rw [ha.1, hb.1]
  | false =>
    simp only [Bool.false_eq_true, if_false] at ha hb
    have : a.scale * 1.602176634 = b.scale * 1.602176634 := by rw [ha.1, hb.1]
    have h0 : (1.602176634 : ℝ) ≠ 0 := by norm_num
    exact mul_right_cancel₀ h0 this

theorem fin_of_mul_pos {v : XR} {a r : ℝ} (ha : 0 < a) (h : v * fin a = fin r) : v = fin (r / a) := by
  cases v with
  | nan => cases h
  | fin x =>
    have : x * a = r := by simpa using h
    rw [← this]
    simp [ha.ne']
  | pinf => simp [XR.mul_def, XR.mul, XR.infMul, ha] at h
  | ninf => simp [XR.mul_def, XR.mul, XR.infMul, ha, not_lt.2 ha.le] at h

/-- Two finite values of spectra in the same unit keep their order on the plot. -/
theorem drawn_values {E : BQty} {U eU : PhysUnit} {sed : Bool} {D : Dim} (hU : U.dim = D)
    (hEp : 0 < E.unit.scale) (hUp : 0 < U.scale) :
    ∃ k : ℕ → ℝ → ℝ, (∀ i e, 0 < e → 0 < k i e) ∧
      ∀ (row : List XR) (pts : List (XR × XR)), DrawnAs pts E ⟨false, row, U⟩ eU sed →
      ∀ (i : ℕ) (e v : ℝ), E.vals[i]? = some (fin e) → 0 < e → row[i]? = some (fin v) →
        pts[i]? = some (fin (e * E.unit.scale / eU.scale), fin (v * k i e)) := by
  by_cases hex : ∃ fu : PhysUnit, DocumentedSedUnit U.dim sed fu ∧ 0 < fu.scale
  · obtain ⟨fu, hfu, hfp⟩ := hex
    refine ⟨fun _ e => asPlotted sed U.dim (e * E.unit.scale) U.scale / fu.scale, ?_, ?_⟩
    · intro i e he
      exact div_pos (asPlotted_pos _ _ _ _ (mul_pos he hEp) hUp) hfp
    · intro row pts h i e v hi he hv
      obtain ⟨-, fu', hd, hf, hp⟩ := h
      obtain ⟨y, h1, h2⟩ := hp i e (fin v) hi he hv
      have hs : fu'.scale = fu.scale := documented_scale hd hfu
      rw [hs, mul_fin] at h2
      rw [h1, fin_of_mul_pos hfp h2]
      show some (_, fin (v * asPlotted sed U.dim (e * E.unit.scale) U.scale / fu.scale)) = _
      simp only [mul_div_assoc]
  · refine ⟨fun _ _ => 1, fun _ _ _ => one_pos, ?_⟩
    intro row pts h
    obtain ⟨-, fu', hd, hf, -⟩ := h
    exact absurd ⟨fu', hd, hf⟩ hex

theorem draw_bands (cdf : ℝ → ℝ) (hcdf : IsCdf cdf) (E : BQty) (m : Samples) (D : Dim) (eU : PhysUnit) (sed : Bool)
    (hD : SpectralType D) (hE : E.unit.dim = Dim.energy) (hEp : 0 < E.unit.scale) (heU : eU.dim = Dim.energy)
    (hmd : m.unit.dim = D) (hmp : 0 < m.unit.scale) (hne : 0 < m.rows.length) (cs : List ℝ)
    (hcs : ∀ c ∈ cs, 0 ≤ c) :
    ∃ bands drawn, calcCI cdf m.rows E.vals.length cs = .ok bands ∧ bands.length = cs.length ∧
      bands.mapM (drawBand E m.unit eU sed) = .ok drawn ∧ drawn.length = cs.length ∧
      ∀ (k : ℕ) (c : ℝ), cs[k]? = some c → ∃ lo hi bl bh, drawn[k]? = some (lo, hi) ∧
        DrawnAs lo E ⟨false, bl, m.unit⟩ eU sed ∧ DrawnAs hi E ⟨false, bh, m.unit⟩ eU sed ∧
        ∀ i, i < E.vals.length → ∃ a b, bl[i]? = some a ∧ bh[i]? = some b ∧
          bandAt cdf (m.rows.map (fun r => r.getD i nan)) c = .ok (a, b) := by
  obtain ⟨bands, hb1, hb2, hb3⟩ := C50_all cdf hcdf m.rows (List.length_pos_iff.1 hne) E.vals.length cs hcs
  have hone : ∀ band ∈ bands, ∃ r, drawBand E m.unit eU sed band = .ok r ∧
      DrawnAs r.1 E ⟨false, band.map (·.1), m.unit⟩ eU sed ∧
      DrawnAs r.2 E ⟨false, band.map (·.2), m.unit⟩ eU sed := by
    intro band hband
    obtain ⟨k, hk, rfl⟩ := List.mem_iff_getElem.1 hband
    obtain ⟨band, h1, h2, -⟩ := hb3 k (by omega)
    rw [List.getElem?_eq_getElem hk] at h1
    cases h1
    obtain ⟨p1, a1, a2⟩ := curve_drawn E (bands[k].map (·.1)) m.unit eU sed (by rw [hmd]; exact hD) hmp hE hEp heU
      (by rw [List.length_map, h2])
    obtain ⟨p2, c1, c2⟩ := curve_drawn E (bands[k].map (·.2)) m.unit eU sed (by rw [hmd]; exact hD) hmp hE hEp heU
      (by rw [List.length_map, h2])
    refine ⟨(p1, p2), ?_, a2, c2⟩
    unfold drawBand
    simp only [a1, c1]
  obtain ⟨drawn, hd1, hd2, hd3⟩ := mapM_total (drawBand E m.unit eU sed) bands
    (fun b hb => by obtain ⟨r, hr, -⟩ := hone b hb; exact ⟨r, hr⟩)
  refine ⟨bands, drawn, hb1, hb2, hd1, by omega, ?_⟩
  intro k c hk
  obtain ⟨hk', rfl⟩ := List.getElem?_eq_some_iff.1 hk
  obtain ⟨band, h1, h2, h3⟩ := hb3 k hk'
  obtain ⟨r, hr1, hr2⟩ := hd3 k (by omega)
  obtain ⟨r', hr3, hr4, hr5⟩ := hone _ (List.getElem_mem (by omega : k < bands.length))
  rw [hr2] at hr3
  cases hr3
  have hbk : bands[k]'(by omega) = band := by
    rw [List.getElem?_eq_getElem (by omega)] at h1; exact Option.some.inj h1
  rw [hbk] at hr4 hr5
  refine ⟨r.1, r.2, _, _, hr1, hr4, hr5, ?_⟩
  intro i hi
  obtain ⟨p, hp1, hp2⟩ := h3 i hi
  exact ⟨p.1, p.2, by rw [List.getElem?_map, hp1]; rfl, by rw [List.getElem?_map, hp1]; rfl, hp2⟩

/-- What the bands drawn from the samples `qs` (spectra at the energies `E`) have to satisfy: one band for
each level, from the widest to the narrowest; both edges are curves of spectra whose values at each energy are
those of the band of that level of the samples at that energy; and where all samples are finite the bands lie
within one another, each with its lower edge below its upper. -/
def BandsOf (cdf : ℝ → ℝ) (confs : List ℝ) (E : BQty) (qs : List BQty) (eU : PhysUnit) (sed : Bool)
    (drawn : List (List (XR × XR) × List (XR × XR))) : Prop :=
  drawn.length = confs.length ∧
  ∃ (cs : List ℝ) (U : PhysUnit) (rows : List (List XR)),
    cs.Perm confs ∧ cs.Pairwise (fun a b => b ≤ a) ∧
    List.Forall₂ (fun row q => SamePhysical row U q) rows qs ∧
    (∀ (k : ℕ) (c : ℝ), cs[k]? = some c → ∃ lo hi bl bh, drawn[k]? = some (lo, hi) ∧
        DrawnAs lo E ⟨false, bl, U⟩ eU sed ∧ DrawnAs hi E ⟨false, bh, U⟩ eU sed ∧
        ∀ i, i < E.vals.length → ∃ a b, bl[i]? = some a ∧ bh[i]? = some b ∧
          bandAt cdf (rows.map (fun r => r.getD i nan)) c = .ok (a, b)) ∧
    ∀ (i : ℕ) (e : ℝ), E.vals[i]? = some (fin e) → 0 < e → (∀ q ∈ qs, ∃ v, q.vals[i]? = some (fin v)) →
      ∀ (k k' : ℕ) (c c' : ℝ), cs[k]? = some c → cs[k']? = some c' → c ≤ c' →
        ∃ (lo hi lo' hi' : List (XR × XR)) (x y₁ y₂ y₃ y₄ : ℝ),
          drawn[k]? = some (lo, hi) ∧ drawn[k']? = some (lo', hi') ∧
          lo'[i]? = some (fin x, fin y₁) ∧ lo[i]? = some (fin x, fin y₂) ∧
          hi[i]? = some (fin x, fin y₃) ∧ hi'[i]? = some (fin x, fin y₄) ∧ y₁ ≤ y₂ ∧ y₂ ≤ y₃ ∧ y₃ ≤ y₄

theorem bandsOf_of_rows (cdf : ℝ → ℝ) (hcdf : IsCdf cdf) (E : BQty) (m : Samples) (D : Dim) (eU : PhysUnit)
    (sed : Bool) (hD : SpectralType D) (hE : E.unit.dim = Dim.energy) (hEp : 0 < E.unit.scale)
    (heU : eU.dim = Dim.energy) (hmd : m.unit.dim = D) (hmp : 0 < m.unit.scale) (hne : 0 < m.rows.length)
    (confs : List ℝ) (hcs : ∀ c ∈ confs, 0 ≤ c) (hcne : confs ≠ []) (qs : List BQty)
    (hq : List.Forall₂ (fun row q => SamePhysical row m.unit q) m.rows qs) :
    ∃ bands drawn, calcCI cdf m.rows E.vals.length (confs.mergeSort (fun a b => decide (b ≤ a))) = .ok bands ∧
      bands.length ≠ 0 ∧ bands.mapM (drawBand E m.unit eU sed) = .ok drawn ∧
      BandsOf cdf confs E qs eU sed drawn := by
  set cs := confs.mergeSort (fun a b => decide (b ≤ a)) with hcsd
  have hperm : cs.Perm confs := List.mergeSort_perm _ _
  have hsort : cs.Pairwise (fun a b => b ≤ a) := by
    have := List.pairwise_mergeSort (le := fun a b : ℝ => decide (b ≤ a))
      (by intro a b c h1 h2; simp only [decide_eq_true_eq] at *; exact h2.trans h1)
      (by intro a b; simp only [Bool.or_eq_true, decide_eq_true_eq]; exact le_total _ _) confs
    exact this.imp (by intro a b h; simpa using h)
  have hlen : cs.length = confs.length := hperm.length_eq
  have hcs0 : ∀ c ∈ cs, 0 ≤ c := fun c hc => hcs c (hperm.mem_iff.1 hc)
  obtain ⟨bands, drawn, h1, h2, h3, h4, h5⟩ := draw_bands cdf hcdf E m D eU sed hD hE hEp heU hmd hmp hne cs hcs0
  have hc0 : 0 < confs.length := List.length_pos_iff.2 hcne
  refine ⟨bands, drawn, h1, by omega, h3, by omega, cs, m.unit, m.rows, hperm, hsort, hq, h5, ?_⟩
  intro i e hi he hfin k k' c c' hk hk' hcc
  have hiE : i < E.vals.length := (List.getElem?_eq_some_iff.1 hi).1
  obtain ⟨lo, hi', bl, bh, a1, a2, a3, a4⟩ := h5 k c hk
  obtain ⟨lo', hi'', bl', bh', b1, b2, b3, b4⟩ := h5 k' c' hk'
  obtain ⟨x, y, a5, a6, a7⟩ := a4 i hiE
  obtain ⟨x', y', b5, b6, b7⟩ := b4 i hiE
  obtain ⟨l, h, l', h', g1, g2, g3, g4, g5, g6, g7, g8, g9⟩ := C50_nested cdf hcdf
    (m.rows.map (fun r => r.getD i nan)) (by simpa using List.length_pos_iff.1 hne) c c'
    (hcs0 c (List.mem_of_getElem? hk)) hcc
  rw [a7] at g1; cases g1
  rw [b7] at g2; cases g2
  have hfinite : ∀ z ∈ m.rows.map (fun r => r.getD i nan), ∃ v, z = fin v := by
    intro z hz
    obtain ⟨row, hrow, rfl⟩ := List.mem_map.1 hz
    obtain ⟨n, hn, rfl⟩ := List.mem_iff_getElem.1 hrow
    have hn' : n < qs.length := by rw [← hq.length_eq]; exact hn
    have hs := hq.get hn hn'
    simp only [List.get_eq_getElem] at hs
    obtain ⟨v, hv⟩ := hfin qs[n] (List.getElem_mem hn')
    have hl : m.rows[n].length = qs[n].vals.length := by simpa using congrArg List.length hs.2
    have hir : i < m.rows[n].length := by
      rw [hl]; exact (List.getElem?_eq_some_iff.1 hv).1
    have := congrArg (fun l => l[i]?) hs.2
    simp only [List.getElem?_map, List.getElem?_eq_getElem hir, hv, Option.map_some, Option.some.injEq, mul_fin] at this
    refine ⟨v * qs[n].unit.scale / m.unit.scale, ?_⟩
    rw [List.getD_eq_getElem?_getD, List.getElem?_eq_getElem hir]
    exact fin_of_mul_pos hmp this
  obtain ⟨v1, rfl⟩ := hfinite _ g6
  obtain ⟨v2, rfl⟩ := hfinite _ g7
  obtain ⟨v3, rfl⟩ := hfinite _ g8
  obtain ⟨v4, rfl⟩ := hfinite _ g9
  obtain ⟨K, hK, hdr⟩ := drawn_values (E := E) (U := m.unit) (eU := eU) (sed := sed) hmd hEp hmp
  have c1 := hdr _ _ a2 i e v1 hi he a5
  have c2 := hdr _ _ a3 i e v2 hi he a6
  have c3 := hdr _ _ b2 i e v3 hi he b5
  have c4 := hdr _ _ b3 i e v4 hi he b6
  have hKp := (hK i e he).le
  have le_of : ∀ {p q : ℝ}, npLe (fin p) (fin q) → p * K i e ≤ q * K i e := by
    intro p q hpq
    rcases hpq with hpq | hpq
    · cases hpq
    · exact mul_le_mul_of_nonneg_right ((le_fin p q).1 hpq) hKp
  exact ⟨lo, hi', lo', hi'', _, _, _, _, _, a1, b1, c3, c1, c2, c4, le_of g3, le_of g4, le_of g5⟩

theorem two_forall {α β γ : Type} {A : α → γ → Prop} {B : β → γ → Prop} : ∀ (l : List α) (r : List β),
    l.length = r.length →
    (∀ (k : ℕ) (a : α) (b : β), l[k]? = some a → r[k]? = some b → ∃ c, A a c ∧ B b c) →
    ∃ cs, List.Forall₂ A l cs ∧ List.Forall₂ B r cs
  | [], [], _, _ => ⟨[], .nil, .nil⟩
  | [], _ :: _, h, _ => by simp at h
  | _ :: _, [], h, _ => by simp at h
  | a :: l, b :: r, h, hk => by
    obtain ⟨c, h1, h2⟩ := hk 0 a b rfl rfl
    obtain ⟨cs, h3, h4⟩ := two_forall l r (by simpa using h) (fun k a' b' ha hb => hk (k + 1) a' b' ha hb)
    exact ⟨c :: cs, .cons h1 h3, .cons h2 h4⟩

/-- **C89 (bands).** For every run with drawable spectra and every non-empty list of non-negative levels
`plot_CI` succeeds; it draws the bands of the spectra stored with the samples of the chain (of the last step,
if so requested), and the curve of the spectrum stored with a sample of greatest log-probability. -/
theorem C89_bands {P : Type} (cdf : ℝ → ℝ) (hcdf : IsCdf cdf) (lnprob : List (List XR)) (chain : List (List P))
    (blobs : List (List (List MBlob))) (modelfn : P → BQty → Except PyErr (List MBlob)) (energy E : BQty)
    (idx : ℕ) (paired : Bool) (D : Dim) (s w : ℕ) (h : StoredRun lnprob chain blobs energy E idx paired D s w)
    (sed ls : Bool) (eU : PhysUnit) (heU : eU.dim = Dim.energy) (rand : ℕ → ℕ → List ℕ) (confs : List ℝ)
    (hcs : ∀ c ∈ confs, 0 ≤ c) (hcne : confs ≠ []) :
    ∃ drawn best qs, plotCI cdf lnprob chain blobs modelfn energy none idx sed ls eU rand confs =
        .ok (drawn, best) ∧
      List.Forall₂ (fun smp q => HoldsSpectrum paired E q D idx smp) (samplesOf ls blobs) qs ∧
      BandsOf cdf confs E qs eU sed drawn ∧
      ∃ (i j : ℕ) (m : XR) (smp : List MBlob) (q : BQty),
        (lnprob[i]?.bind (·[j]?)) = some m ∧ (∀ r ∈ lnprob, ∀ a ∈ r, a ≤ m) ∧
        (blobs[i]?.bind (·[j]?)) = some smp ∧ HoldsSpectrum paired E q D idx smp ∧ DrawnAs best E q eU sed := by
  obtain ⟨m, hm1, hm2, hm3, hm4, hm5, hm6⟩ := h.read ls
  obtain ⟨best, hb1, hb2⟩ := drawML_stored lnprob chain blobs modelfn energy E idx paired D s w h sed eU heU
  have hqs : ∃ qs : List BQty, List.Forall₂ (fun smp q => HoldsSpectrum paired E q D idx smp) (samplesOf ls blobs) qs ∧
      List.Forall₂ (fun row q => SamePhysical row m.unit q) m.rows qs := by
    refine two_forall _ _ hm4.symm ?_
    intro k smp row hk hr
    obtain ⟨q, row', q1, q2, -, q4⟩ := hm6 k smp hk
    rw [hr] at q2
    cases q2
    exact ⟨q, q1, q4⟩
  obtain ⟨qs, hqs1, hqs2⟩ := hqs
  obtain ⟨bands, drawn, c1, c2, c3, c4⟩ := bandsOf_of_rows cdf hcdf E m D eU sed h.spectral h.eDim h.ePos heU hm2 hm3
    hm5 confs hcs hcne qs hqs2
  refine ⟨drawn, best, qs, ?_, hqs1, c4, hb2⟩
  unfold plotCI ciCount samplesFor
  simp only [hm1, c1]
  rw [if_neg c2]
  simp only [c3, hb1]

/-- **C89 (bands, with an energy range).** With `e_range` the bands are those of the model evaluated on the
grid at `n` parameter vectors of the chain (of the last step, if so requested), `n` being the number of C69. -/
theorem C89_bands_range {P : Type} (cdf : ℝ → ℝ) (hcdf : IsCdf cdf) (lnprob : List (List XR)) (chain : List (List P))
    (blobs : List (List (List MBlob))) (modelfn : P → BQty → Except PyErr (List MBlob)) (energy E g E' : BQty)
    (idx : ℕ) (paired paired' : Bool) (D D' : Dim) (s w : ℕ)
    (h : StoredRun lnprob chain blobs energy E idx paired D s w)
    (hg : paired' = false → E' = g) (hD' : SpectralType D') (hE' : E'.unit.dim = Dim.energy)
    (hEp' : 0 < E'.unit.scale)
    (hm : ∀ p ∈ chain.flatten, ∃ out q, modelfn p g = .ok out ∧ HoldsSpectrum paired' E' q D' idx out)
    (sed ls : Bool) (eU : PhysUnit) (heU : eU.dim = Dim.energy) (rand : ℕ → ℕ → List ℕ) (hi : IsRandint rand)
    (confs : List ℝ) (hcs : ∀ c ∈ confs, 0 ≤ c) (hcne : confs ≠ []) (n : ℕ) (hn : 0 < n) (warn : Bool)
    (hcount : ciSampleCount cdf confs = .ok (n, warn)) :
    ∃ drawn best qs pars, plotCI cdf lnprob chain blobs modelfn energy (some g) idx sed ls eU rand confs =
        .ok (drawn, best) ∧
      pars.length = n ∧ (∀ p ∈ pars, p ∈ (if ls then chain.getLastD [] else chain.flatten)) ∧
      List.Forall₂ (fun p q => ∃ out, modelfn p g = .ok out ∧ HoldsSpectrum paired' E' q D' idx out) pars qs ∧
      BandsOf cdf confs E' qs eU sed drawn ∧
      ∃ (i j : ℕ) (m : XR) (p : P) (out : List MBlob) (q : BQty),
        (lnprob[i]?.bind (·[j]?)) = some m ∧ (∀ r ∈ lnprob, ∀ a ∈ r, a ≤ m) ∧
        (chain[i]?.bind (·[j]?)) = some p ∧ modelfn p g = .ok out ∧ HoldsSpectrum paired' E' q D' idx out ∧
        DrawnAs best E' q eU sed := by
  obtain ⟨best, hb1, hb2⟩ := drawML_range lnprob chain blobs modelfn energy E g E' idx paired paired' D D' s w h
    hg hD' hE' hEp' hm sed eU heU
  obtain ⟨m, pars, hm1, hm2, hm3, hm4, hm5, hm6, hm7⟩ := range_read chain modelfn g E' idx paired' D' s w
    h.steps h.walkers h.shapeC hg hm ls n hn rand hi
  obtain ⟨qs, hqs1, hqs2⟩ := two_forall
    (A := fun p q => ∃ out, modelfn p g = .ok out ∧ HoldsSpectrum paired' E' q D' idx out)
    (B := fun row q => SamePhysical row m.unit q) pars m.rows (by omega) (by
      intro k p row hk hr
      have hkn : k < n := by rw [← hm5]; exact (List.getElem?_eq_some_iff.1 hk).1
      obtain ⟨p', out, q, row', a1, a2, a3, a4, -, a6⟩ := hm7 k hkn
      rw [hk] at a1; cases a1
      rw [hr] at a4; cases a4
      exact ⟨q, ⟨out, a2, a3⟩, a6⟩)
  obtain ⟨bands, drawn, c1, c2, c3, c4⟩ := bandsOf_of_rows cdf hcdf E' m D' eU sed hD' hE' hEp' heU hm2 hm3
    (by omega) confs hcs hcne qs hqs2
  refine ⟨drawn, best, qs, pars, ?_, hm5, hm6, hqs1, c4, hb2⟩
  unfold plotCI ciCount
  simp only [hcount, hm1, c1]
  rw [if_neg c2]
  simp only [c3, hb1]

theorem processBlob_rows (blobs : List (List (List MBlob))) (energy : BQty) (idx : Nat) (ls : Bool)
    (x : Option BQty) (m : Samples) (h : processBlob blobs energy idx ls = .ok (x, m)) :
    m.rows.length = (if ls then blobs.getLastD [] else blobs.flatten).length := by
  have key : ∀ conv : MBlob → Except PyErr BQty,
      (gatherBlobs blobs idx ls).bind (fun l => (l.mapM conv).bind stackQty) = .ok m →
      m.rows.length = (if ls then blobs.getLastD [] else blobs.flatten).length := by
    intro conv hb
    cases hg : gatherBlobs blobs idx ls with
    | error e => rw [hg] at hb; cases hb
    | ok l =>
      rw [hg] at hb
      have hb' : (l.mapM conv).bind stackQty = .ok m := hb
      cases hc : l.mapM conv with
      | error e => rw [hc] at hb'; cases hb'
      | ok qs =>
        rw [hc] at hb'
        have hb2 : stackQty qs = .ok m := hb'
        have hlen : m.rows.length = qs.length := by
          cases qs with
          | nil => simp only [stackQty, Except.ok.injEq] at hb2; subst hb2; rfl
          | cons q0 qs =>
            simp only [stackQty] at hb2
            split_ifs at hb2
            cases hb2
            simp
        rw [hlen, (mapM_ok_iff_get _ _ _ hc).1]
        exact (mapM_ok_iff_get _ _ _ hg).1
  unfold processBlob at h
  split at h
  · cases h
  · split at h
    · cases h
    · split at h
      · cases h
      · split at h
        · cases h
        · rename_i hg
          split_ifs at h <;> cases h <;> exact key _ hg
      · split at h
        · cases h
        · rename_i hg; cases h; exact key _ hg
      · split at h
        · cases h
        · rename_i hg; cases h; exact key _ hg
      · cases h

/-! ### Deviations -/

/-- **C89 (a hundred samples).** `n_samples` is documented as the number of samples to plot, but with
`e_range` all the curves are among a hundred, for every model, chain and `n_samples`: the requested number
never reaches the calculation. -/
theorem C89_false_hundred {P : Type} (lnprob : List (List XR)) (chain : List (List P))
    (blobs : List (List (List MBlob))) (modelfn : P → BQty → Except PyErr (List MBlob)) (energy g : BQty)
    (idx : ℕ) (sed ls : Bool) (eU : PhysUnit) (n : ℕ) (draws : Draws) (hi : IsRandint draws.inner)
    (curves : List (List (XR × XR))) (best : List (XR × XR))
    (h : plotSamples lnprob chain blobs modelfn energy (some g) idx sed ls eU n draws = .ok (curves, best)) :
    ∃ hundred : List (List (XR × XR)), hundred.length ≤ 100 ∧ ∀ c ∈ curves, c ∈ hundred := by
  unfold plotSamples at h
  split at h
  · cases h
  · cases h
  · rename_i x m hread
    have hrows : m.rows.length = 100 := by
      unfold samplesFor at hread
      simp only at hread
      by_cases h0 : (if ls = true then chain.getLastD [] else chain.flatten).length = 0
      · rw [if_pos h0] at hread; cases hread
      rw [if_neg h0] at hread
      unfold calcSamples at hread
      simp only at hread
      split at hread
      · cases hread
      · rename_i pars hp
        split at hread
        · cases hread
        · rename_i outs ho
          obtain ⟨l1, -⟩ := mapM_ok_iff_get _ _ _ hp
          obtain ⟨l2, -⟩ := mapM_ok_iff_get _ _ _ ho
          have := processBlob_rows _ _ _ _ _ _ hread
          simp only [if_true, List.getLastD_cons, List.getLastD_nil] at this
          rw [this, l2, l1]
          exact (hi _ _ (Nat.pos_of_ne_zero h0)).1
    split_ifs at h
    split at h
    · cases h
    · rename_i cs hcs
      split at h
      · cases h
      · cases h
        obtain ⟨l1, l2⟩ := mapM_ok_iff_get _ _ _ hcs
        refine ⟨m.rows.filterMap (fun row => (curve x row m.unit eU sed).toOption), ?_, ?_⟩
        · exact (List.length_filterMap_le _ _).trans hrows.le
        · intro c hc
          obtain ⟨k, hk, rfl⟩ := List.mem_iff_getElem.1 hc
          have := l2 k (by omega) hk
          unfold drawSample at this
          split at this
          · rename_i row hrow
            rw [List.mem_filterMap]
            exact ⟨row, List.mem_of_getElem? hrow, by rw [this]; rfl⟩
          · cases this

/-- **C89 (`sed=None`).** Documented as "the units of the observed spectrum will be used"; but an observed SED
is drawn as a differential spectrum: the curve is in 1/(s TeV cm²), whatever the spectrum. -/
theorem C89_false_sed_none (E q : BQty) (eU : PhysUnit) (heU : eU.dim = Dim.energy) (hE : E.unit.dim = Dim.energy)
    (hEp : 0 < E.unit.scale) (hq : SpectrumOn E q Dim.flux) :
    ∃ pts, curve E q.vals q.unit eU (sedArg none) = .ok pts ∧ DrawnAs pts E q eU false ∧
      ∀ fu, DocumentedSedUnit q.unit.dim (sedArg none) fu → fu.dim = Dim.diffFlux := by
  obtain ⟨pts, h1, h2⟩ := curve_drawn E q.vals q.unit eU false (by rw [hq.dim]; decide) hq.pos hE hEp heU hq.len
  refine ⟨pts, h1, h2.congr ⟨rfl, rfl⟩ hq.pos hq.pos hEp, ?_⟩
  intro fu hfu
  rw [hq.dim] at hfu
  unfold DocumentedSedUnit sedArg at hfu
  simp only [Bool.false_eq_true, if_false] at hfu
  rw [hfu.2]
  simp

/-- Non-vacuity: two steps of one walker, spectra in different units of the same type, energies in TeV. -/
noncomputable def exEnergy : BQty := ⟨false, [fin 1, fin 10], ⟨1.602176634, Dim.energy⟩⟩
/-- see above -/
noncomputable def exSpectrum (k : ℝ) : BQty := ⟨false, [fin k, fin (k / 100)], ⟨k, Dim.diffFlux⟩⟩

theorem exStoredRun : StoredRun (P := ℝ) [[fin (-3)], [fin (-1)]] [[1], [2]]
    [[[.qty (exSpectrum 1)]], [[.qty (exSpectrum 2)]]] exEnergy exEnergy 0 false Dim.diffFlux 2 1 where
  steps := by norm_num
  walkers := by norm_num
  shapeL := ⟨rfl, by simp⟩
  shapeC := ⟨rfl, by simp⟩
  shapeB := ⟨rfl, by simp⟩
  noNaN := by simp
  dataE := fun _ => rfl
  spectra := by
    intro step hs w hw
    simp only [List.mem_cons, List.not_mem_nil, or_false] at hs
    rcases hs with rfl | rfl <;> simp only [List.mem_cons, List.not_mem_nil, or_false] at hw <;> subst hw
    · exact ⟨exSpectrum 1, rfl, rfl, rfl, rfl, by norm_num [exSpectrum]⟩
    · exact ⟨exSpectrum 2, rfl, rfl, rfl, rfl, by norm_num [exSpectrum]⟩
  spectral := by decide
  eDim := rfl
  ePos := by norm_num [exEnergy]

example : IsRandint (fun n k => List.replicate k (n - 1)) := by
  intro n k hn
  refine ⟨by simp, ?_⟩
  intro d hd
  rw [List.eq_of_mem_replicate hd]
  omega

example (modelfn : ℝ → BQty → Except PyErr (List MBlob)) (rand : ℕ → ℕ → List ℕ) :=
  C89_bands _ exCdf _ _ _ modelfn _ _ _ _ _ _ _ exStoredRun true false PhysUnit.TeV rfl rand [3, 1] (by simp) (by simp)

theorem exRandint : IsRandint (fun n k => List.replicate k (n - 1)) := by
  intro n k hn
  refine ⟨by simp, ?_⟩
  intro d hd
  rw [List.eq_of_mem_replicate hd]
  omega

/-- A model evaluated at other energies. -/
example : ∃ curves best, plotSamples [[fin (-3)], [fin (-1)]] [[(1:ℝ)], [2]]
    [[[.qty (exSpectrum 1)]], [[.qty (exSpectrum 2)]]] (fun p _ => .ok [.qty (exSpectrum p)]) exEnergy (some exEnergy) 0 true
    false PhysUnit.TeV 5 ⟨fun n k => List.replicate k (n - 1), fun n k => List.replicate k (n - 1)⟩ = .ok (curves, best) ∧
    curves.length = 5 ∧ ∃ hundred : List (List (XR × XR)), hundred.length ≤ 100 ∧ ∀ c ∈ curves, c ∈ hundred := by
  obtain ⟨curves, best, h1, h2, -⟩ := C89_range _ _ _ (fun p _ => .ok [.qty (exSpectrum p)]) _ _ exEnergy exEnergy _ _ false _
    Dim.diffFlux _ _ exStoredRun (fun _ => rfl) (by decide) rfl (by norm_num [exEnergy])
    (by
      intro p hp
      refine ⟨_, exSpectrum p, rfl, rfl, rfl, rfl, rfl, ?_⟩
      simp at hp
      rcases hp with rfl | rfl <;> norm_num [exSpectrum]) true false PhysUnit.TeV rfl 5 (by norm_num)
    ⟨fun n k => List.replicate k (n - 1), fun n k => List.replicate k (n - 1)⟩ exRandint exRandint
  exact ⟨curves, best, h1, h2, C89_false_hundred _ _ _ _ _ _ _ _ _ _ _ _ exRandint _ _ h1⟩

end Naima.Props
