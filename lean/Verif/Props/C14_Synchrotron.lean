import Verif.Proof.Examples
import Verif.Proof.Synchrotron

/-! # C08, C12, C14 for Synchrotron and the energy content -/

namespace Naima.Props

open Naima XR Classical

/-- `pd'` is the distribution `pd` with its normalisation multiplied by `c`. -/
def Renormalised (c : ℝ) (pd pd' : PDist) : Prop :=
  pd'.unit = pd.unit ∧ ∀ e, pd'.f e = fin c * pd.f e

theorem Renormalised.eq {c : ℝ} {pd pd' : PDist} (h : Renormalised c pd pd') : pd' = pd.scale c := by
  obtain ⟨u, f⟩ := pd'
  obtain ⟨h1, h2⟩ := h
  simp only at h1 h2
  rw [h1, funext h2]
  rfl

/-- `r'` is the outcome `r` with every number multiplied by `c` (the same exception if `r` is one). -/
def ScaledOutcome (c : ℝ) (r r' : Except PyErr (List XR)) : Prop :=
  r' = r.map (List.map (fun a => fin c * a))

/-- **C08 (energy content).** Multiplying the distribution by any `c > 0` multiplies `compute_We` and
`compute_Wp`, for any limits, by exactly `c`. -/
theorem C08_energy_content (c : ℝ) (hc : 0 < c) (pd pd' : PDist) (h : Renormalised c pd pd')
    (m : ElModel) (n : PrModel) (lo hi : Option (Qty ℝ)) :
    m.computeWe pd' lo hi = (m.computeWe pd lo hi).map (fun a => fin c * a) ∧
    n.computeWp pd' lo hi = (n.computeWp pd lo hi).map (fun a => fin c * a) := by
  rw [h.eq]
  exact ⟨computeWe_scale m pd c hc lo hi, computeWp_scale n pd c hc lo hi⟩

/-- **C08 (Synchrotron).** Multiplying the electron distribution by any `c > 0` multiplies every value
of the spectrum by exactly `c`, for all fields, energies and grids. -/
theorem C08_synchrotron (m : SyncModel) (c : ℝ) (hc : 0 < c) (pd pd' : PDist)
    (h : Renormalised c pd pd') (es : List ℝ) :
    ScaledOutcome c (m.spectrum pd es) (m.spectrum pd' es) := by
  rw [h.eq]
  exact sync_spectrum_scale m pd c hc es

/-- **C12 (Synchrotron).** Whatever array of photon energies is requested, the value at each position
is the one returned for a request of that energy alone; and the result has one value per energy. -/
theorem C12_synchrotron (m : SyncModel) (pd : PDist) (es : List ℝ) (out : List XR)
    (h : m.spectrum pd es = .ok out) :
    out.length = es.length ∧
    ∀ (i : ℕ) e v, es[i]? = some e → out[i]? = some v → m.spectrum pd [e] = .ok [v] := by
  rw [m.spectrum_eq] at h
  simp only [m.spectrum_eq]
  cases hb : m.B.toReal gauss with
  | error x => rw [hb] at h; cases h
  | ok b =>
    cases hg : m.toElModel.gam with
    | error x => rw [hb, hg] at h; cases h
    | ok gam =>
      cases hn : m.toElModel.nelec pd with
      | error x => rw [hb, hg, hn] at h; cases h
      | ok n =>
        rw [hb, hg, hn] at h
        have h' : es.map (syncAt b (gam.zip n)) = out := by injection h
        subst h'
        refine ⟨by simp, ?_⟩
        intro i e v he hv
        rw [List.getElem?_map, he] at hv
        simp at hv
        simp [bind, Except.bind, pure, Except.pure, hv]

/-- A finite, non-negative number. -/
def FiniteNonneg (a : XR) : Prop := ∃ r : ℝ, 0 ≤ r ∧ a = fin r

/-- **C14 (partial).** For every electron distribution that is finite and non-negative, every field
`B > 0`, every electron range and all photon energies `> 0`, the synchrotron spectrum is computed and
all its values are finite and non-negative; so is the flux at any distance. Missing from the full
property: `B = 0`, see `C14_false_zero_field`. -/
theorem C14_nonneg_partial (m : SyncModel) (pd : PDist) (hu : pd.unit.dim = Dim.diffEnergy)
    (hus : 0 < pd.unit.scale) (hpd : ∀ e, 0 < e → FiniteNonneg (pd.f e))
    (hlo : m.Eemin.PosEnergy) (hhi : m.Eemax.PosEnergy) (hle : m.Eemin.phys ≤ m.Eemax.phys)
    (hB : m.B.unit.dim = Dim.magFluxDensity) (hBp : 0 < m.B.phys) (es : List ℝ)
    (hes : ∀ e ∈ es, 0 < e) :
    ∃ out, m.spectrum pd es = .ok out ∧ out.length = es.length ∧ (∀ a ∈ out, FiniteNonneg a) ∧
      ∀ (q : Qty (List ℝ)) (d : Qty ℝ), q.unit.dim = Dim.energy →
        q.value.map (· * q.unit.scale) = es → d.unit.dim = Dim.length → d.phys ≠ 0 →
        ∃ F, fluxOf (m.spectrum pd) q (.qty d) = .ok F ∧ ∀ a ∈ F.value, FiniteNonneg a := by
  obtain ⟨gam, n, hg, hn, hlen, hgp, hgs, hnn⟩ := gam_zip_facts m.toElModel pd hu hus hpd hlo hhi hle
  have hb : m.B.toReal gauss = .ok (m.B.phys / 0.1) := by
    unfold Qty.toReal
    rw [if_pos (by rw [hB]; rfl), phys_ratio]; rfl
  have hb0 : 0 < m.B.phys / 0.1 := by positivity
  have hspec : m.spectrum pd es = .ok (es.map (syncAt (m.B.phys / 0.1) (gam.zip n))) := by
    rw [m.spectrum_eq, hb, hg, hn]; rfl
  have hout : ∀ a ∈ es.map (syncAt (m.B.phys / 0.1) (gam.zip n)), FiniteNonneg a := by
    intro a ha
    obtain ⟨e, he, rfl⟩ := List.mem_map.1 ha
    unfold syncAt
    apply NN.mul _ (NN.fin cEV_pos.le)
    apply trapzLL_NN (gam.zip n) (fun p => p.1) (fun p => p.2 * syncKernel (m.B.phys / 0.1) p.1 e)
    · intro p hp; exact hgp _ (List.of_mem_zip hp).1
    · rw [List.map_fst_zip (by omega)]; exact hgs
    · intro p hp
      have := List.of_mem_zip hp
      exact NN.mul (hnn _ this.2) (syncKernel_NN _ _ _ hb0 (hgp _ this.1) (hes e he))
  refine ⟨_, hspec, by simp, hout, ?_⟩
  intro q d hq hqe hd hd0
  have hdv : d.value ≠ 0 := by intro h; apply hd0; rw [Qty.phys, h]; simp
  refine ⟨⟨(es.map (syncAt (m.B.phys / 0.1) (gam.zip n))).map
    (fun s => s / fin (4 * Real.pi * d.phys ^ 2)), uFlux⟩, ?_, ?_⟩
  · unfold fluxOf energiesErg
    rw [if_pos hq, hqe]
    simp only [bind, Except.bind]
    rw [hspec]
    simp [DistArg.isZero, hdv, DistArg.cm, hd, pure, Except.pure, Qty.phys]
  · intro a ha
    obtain ⟨s, hs, rfl⟩ := List.mem_map.1 ha
    apply NN.div (hout s hs)
    positivity

theorem Gtilde_pinf : Gtilde pinf = nan := by
  have h34 : (0:ℝ) < 3.4 := by norm_num
  have h1808 : (0:ℝ) < 1.808 := by norm_num
  have hpow : pow pinf (fin 2) = pinf := by simp [XR.pow]
  unfold Gtilde
  simp only [cbrt, sq, hpow, scale_pinf _ h34, scale_pinf _ h1808]
  have h1 : (fin 1 + pinf : XR) = pinf := rfl
  have h2 : XR.sqrt pinf = pinf := rfl
  have h3 : (pinf / pinf : XR) = nan := rfl
  rw [h1, h2, h3]
  rfl

theorem mul_nan' (a : XR) : a * nan = nan := by cases a <;> rfl

theorem trapzBin_nan (x1 x2 : ℝ) (h : x1 ≠ x2) : trapzBin (fin x1) (fin x2) nan nan = nan := by
  unfold trapzBin
  rw [if_neg (by simp [eqv, h])]
  unfold trapzRaw trapzIndex
  have h1 : (nan / nan : XR) = nan := rfl
  have h2 : log10 nan = nan := rfl
  have h3 : ∀ a : XR, (nan / a : XR) = nan := fun a => by cases a <;> rfl
  simp only [h1, h2, h3, nan_add]
  rw [if_neg (by rintro h; exact h), mul_nan', mul_comm', mul_nan']

/-- **C14 fails at `B = 0`.** With zero magnetic field and any electrons, over any range
`Eemin < Eemax`, the spectrum is NaN at every photon energy (not 0). -/
theorem C14_false_zero_field (m : SyncModel) (pd : PDist) (hu : pd.unit.dim = Dim.diffEnergy)
    (hlo : m.Eemin.PosEnergy) (hhi : m.Eemax.PosEnergy) (hlt : m.Eemin.phys < m.Eemax.phys)
    (hB : m.B.unit.dim = Dim.magFluxDensity) (hB0 : m.B.value = 0) (es : List ℝ)
    (hes : ∀ e ∈ es, 0 < e) : m.spectrum pd es = .ok (es.map (fun _ => nan)) := by
  obtain ⟨gam, hg, hgrid⟩ := gamGrid_logGrid m.nEed m.Eemin m.Eemax hlo hhi hlt
  have hb : m.B.toReal gauss = .ok 0 := by
    unfold Qty.toReal
    rw [if_pos (by rw [hB]; rfl), hB0]; simp
  have hg' : m.toElModel.gam = .ok gam := hg
  have hn := nelec_eq m.toElModel pd hu gam hg'
  rw [m.spectrum_eq, hb, hg', hn]
  simp only [bind, Except.bind, pure, Except.pure]
  congr 1
  apply List.map_congr_left
  intro e he
  have hk : ∀ g, syncKernel 0 g e = nan := by
    intro g
    unfold syncKernel
    have : syncEc 0 g = 0 := by simp [syncEc]
    have h2 : (fin e / fin 0 : XR) = pinf := by
      show XR.div _ _ = _
      simp [XR.div, infMul, hes e he]
    rw [this, h2, Gtilde_pinf, mul_nan']
  unfold syncAt
  obtain ⟨ten, _, _, hinc, _⟩ := hgrid
  match gam, ten, hinc with
  | a :: b :: rest, _, hinc =>
    have hab : a < b := (List.pairwise_cons.1 hinc).1 b (by simp)
    simp only [List.map_cons, List.zip_cons_cons, trapzLL, trapzIntervals, sum_cons, hk, mul_nan']
    rw [trapzBin_nan _ _ hab.ne, nan_add]
    rfl

/-- The hypotheses of both theorems are met, e.g. by the default range, `E^-2` electrons and
B = 3.24e-6 G, or 0 G. -/
example : ∃ (m m0 : SyncModel) (pd : PDist), pd.unit.dim = Dim.diffEnergy ∧ 0 < pd.unit.scale ∧
    (∀ e, 0 < e → FiniteNonneg (pd.f e)) ∧ m.Eemin.PosEnergy ∧ m.Eemax.PosEnergy ∧
    m.Eemin.phys < m.Eemax.phys ∧ m.B.unit.dim = Dim.magFluxDensity ∧ 0 < m.B.phys ∧
    m0.toElModel = m.toElModel ∧ m0.B.value = 0 := by
  refine ⟨⟨⟨⟨1, PhysUnit.GeV⟩, ⟨510, PhysUnit.TeV⟩, 100⟩, ⟨3.24e-6, gauss⟩⟩,
    ⟨⟨⟨1, PhysUnit.GeV⟩, ⟨510, PhysUnit.TeV⟩, 100⟩, ⟨0, gauss⟩⟩,
    ⟨⟨1, Dim.diffEnergy⟩, fun e => pow (fin e) (fin (-2))⟩, rfl, by norm_num, ?_,
    ⟨rfl, GeV_pos, by norm_num⟩, ⟨rfl, by simp only [PhysUnit.TeV]; norm_num, by norm_num⟩, ?_, rfl,
    ?_, rfl, rfl⟩
  · intro e he
    exact ⟨e ^ (-2 : ℝ), by positivity, pow_fin _ _ he⟩
  · simp only [Qty.phys, PhysUnit.GeV, PhysUnit.TeV]; norm_num
  · simp only [Qty.phys, gauss]; norm_num

/-! ### The other hypotheses are met -/

/-- Three times as many electrons. -/
theorem exPd_renorm : Renormalised 3 exPd exPd3 :=
  ⟨rfl, fun e => by simp only [exPd, exPd3, mul_fin]⟩

example := C08_energy_content 3 (by norm_num) exPd exPd3 exPd_renorm exEl exPr (some exEl.Eemin) none

example := C08_synchrotron ⟨exEl, ⟨3.24e-6, gauss⟩⟩ 3 (by norm_num) exPd exPd3 exPd_renorm exEs

example : ∃ out, SyncModel.spectrum ⟨exEl, ⟨3.24e-6, gauss⟩⟩ exPd exEs = .ok out ∧ out.length = 3 := by
  obtain ⟨out, h, hl, -⟩ := C14_nonneg_partial ⟨exEl, ⟨3.24e-6, gauss⟩⟩ exPd rfl one_pos
    (fun e he => by obtain ⟨r, hr, h⟩ := exPd_f e he; exact ⟨r, hr.le, h⟩) exEl_lo exEl_hi exEl_lt.le rfl
    (by simp only [Qty.phys, gauss]; norm_num) exEs exEs_pos
  exact ⟨out, h, hl.trans (by simp [exEs])⟩

end Naima.Props
