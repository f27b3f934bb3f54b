import Verif.Model.Populations
import Verif.Props.C84_C85_Order
import Verif.Props.C113_NormFit
import Verif.Props.C103_SyncShape

/-! # C133: small changes of the particles or parameters change spectra, energy contents and likelihood little -/

namespace Naima.Props

open Naima Spec XR Classical Topology
open Filter (Tendsto)

/-! ### Specification -/

/-- At every energy between `lo` and `hi` the numbers of particles `N'` and `N` differ by at most the fraction `ε`
of `N`. -/
def Nearby (ε : ℝ) (N N' : ℝ → ℝ) (lo hi : ℝ) : Prop := ∀ E ∈ Set.Icc lo hi, |N' E - N E| ≤ ε * N E

/-- The relative change allowed for particles changed by the fraction `ε`: `ε`, and the relative rounding
`(hi/lo)^(2·10⁻¹⁰) - 1` that the rule for slopes near -1 introduces: together `(1 + ε) (hi/lo)^(2·10⁻¹⁰) - 1`. -/
noncomputable def allowed (ε lo hi : ℝ) : ℝ := (1 + ε) * (hi / lo) ^ (2e-10 : ℝ) - 1

/-! ### Sums over the grid -/

theorem allowed_low (ε lo hi : ℝ) (h0 : 0 < lo) (h : lo ≤ hi) (he : 0 ≤ ε) :
    1 ≤ (hi / lo) ^ (2e-10 : ℝ) ∧ 1 - allowed ε lo hi ≤ (1 - ε) / (hi / lo) ^ (2e-10 : ℝ) := by
  have h1 : 1 ≤ (hi / lo) ^ (2e-10 : ℝ) :=
    Real.one_le_rpow ((one_le_div h0).2 h) (by norm_num)
  refine ⟨h1, ?_⟩
  unfold allowed
  generalize (hi / lo) ^ (2e-10 : ℝ) = t at h1
  rw [le_div_iff₀ (by linarith)]
  nlinarith [sq_nonneg (t - 1), mul_nonneg he (sub_nonneg.2 h1)]

/-- from the two bounds to the relative difference -/
theorem near_of_bounds (ε lo hi S S' : ℝ) (h0 : 0 < lo) (h : lo ≤ hi) (he : 0 ≤ ε) (hS : 0 ≤ S)
    (h1 : (1 - ε) * S ≤ (hi / lo) ^ (2e-10 : ℝ) * S') (h2 : S' ≤ (hi / lo) ^ (2e-10 : ℝ) * ((1 + ε) * S)) :
    |S' - S| ≤ allowed ε lo hi * S := by
  obtain ⟨t1, t2⟩ := allowed_low ε lo hi h0 h he
  rw [abs_le]
  constructor
  · have : (1 - ε) / (hi / lo) ^ (2e-10 : ℝ) * S ≤ S' := by
      rw [div_mul_eq_mul_div, div_le_iff₀ (by linarith)]; linarith
    have := mul_le_mul_of_nonneg_right t2 hS
    linarith
  · unfold allowed
    linarith

/-- log-log sums over one grid of values that differ by the fraction `ε` -/
theorem binSum_near (ε lo hi : ℝ) (hlo : 0 < lo) (hle : lo ≤ hi) (he : 0 ≤ ε) (h1 : ε < 1) (l : List ℝ)
    (hl : ∀ x ∈ l, x ∈ Set.Icc lo hi) (hs : l.Pairwise (· ≤ ·)) (y z : ℝ → ℝ) (h0 : ∀ x ∈ l, 0 ≤ y x)
    (h : ∀ x ∈ l, |z x - y x| ≤ ε * y x) :
    |binSum rbin (l.map (fun x => (x, z x))) - binSum rbin (l.map (fun x => (x, y x)))| ≤
      allowed ε lo hi * binSum rbin (l.map (fun x => (x, y x))) := by
  have hx : ∀ x ∈ l, 0 < x := fun x hm => hlo.trans_le (hl x hm).1
  have hz0 : ∀ x ∈ l, 0 ≤ z x := by
    intro x hm
    have a := (abs_le.1 (h x hm)).1
    nlinarith [h0 x hm]
  have b1 := binSum_mono lo hi hlo l hl hs (fun x => (1 - ε) * y x) z
    (fun x hm => mul_nonneg (by linarith) (h0 x hm)) (fun x hm => by have := (abs_le.1 (h x hm)).1; linarith)
  have b2 := binSum_mono lo hi hlo l hl hs z (fun x => (1 + ε) * y x) hz0
    (fun x hm => by have := (abs_le.1 (h x hm)).2; linarith)
  rw [binSum_rbin_scale (1 - ε) (by linarith) l y hx hs h0] at b1
  rw [binSum_rbin_scale (1 + ε) (by linarith) l y hx hs h0] at b2
  exact near_of_bounds ε lo hi _ _ hlo hle he (binSum_nonneg lo hi hlo l hl hs y h0) b1 b2

theorem Rep.near {R : PDist → Except PyErr (List XR)} {lo hi : ℝ} {es : List ℝ} (h : Rep R lo hi es)
    (hlo : 0 < lo) (hlh : lo ≤ hi) (ε : ℝ) (he : 0 ≤ ε) (he1 : ε < 1) (pd pd' : PDist) (N N' : ℝ → ℝ)
    (hN : Population pd N lo hi) (hN' : Population pd' N' lo hi) (hn : Nearby ε N N' lo hi) :
    ∃ S S' : ℝ → ℝ, R pd = .ok (es.map (fun e => fin (S e))) ∧ R pd' = .ok (es.map (fun e => fin (S' e))) ∧
      ∀ e ∈ es, 0 ≤ S e ∧ |S' e - S e| ≤ allowed ε lo hi * S e := by
  obtain ⟨l, hl, hs, J, hJ, hR⟩ := h
  have hp : ∀ E ∈ Set.Icc lo hi, pd.f E = fin (reOf (pd.f E)) ∧ 0 ≤ reOf (pd.f E) :=
    fun E hE => ⟨(hN.re E hE).1, (hN.re E hE).2.1⟩
  have hp' : ∀ E ∈ Set.Icc lo hi, pd'.f E = fin (reOf (pd'.f E)) ∧ 0 ≤ reOf (pd'.f E) :=
    fun E hE => ⟨(hN'.re E hE).1, (hN'.re E hE).2.1⟩
  refine ⟨_, _, hR pd (fun E => reOf (pd.f E)) hN.dim hN.scale hp,
    hR pd' (fun E => reOf (pd'.f E)) hN'.dim hN'.scale hp', ?_⟩
  intro e hee
  have hJe := hJ e hee
  generalize J e = q at hJe
  induction q with
  | nil => simp
  | cons a q ih =>
    obtain ⟨i1, i2⟩ := ih (fun b hb => hJe b (by simp [hb]))
    obtain ⟨a1, a2⟩ := hJe a (by simp)
    simp only [List.map_cons, List.sum_cons]
    have y0 : ∀ x ∈ l, 0 ≤ reOf (pd.f x) * pd.unit.scale * a.2 x := fun x hx =>
      mul_nonneg (mul_nonneg (hp x (hl x hx)).2 hN.scale.le) (a2 x hx)
    have n := binSum_nonneg lo hi hlo l hl hs _ y0
    have m := binSum_near ε lo hi hlo hlh he he1 l hl hs
      (fun x => reOf (pd.f x) * pd.unit.scale * a.2 x) (fun x => reOf (pd'.f x) * pd'.unit.scale * a.2 x) y0
      (by
        intro x hx
        rw [(hN.re x (hl x hx)).2.2, (hN'.re x (hl x hx)).2.2, ← sub_mul, abs_mul, abs_of_nonneg (a2 x hx), ← mul_assoc]
        exact mul_le_mul_of_nonneg_right (hn x (hl x hx)) (a2 x hx))
    refine ⟨add_nonneg (mul_nonneg a1 n) i1, ?_⟩
    generalize (List.map (fun q => q.1 * binSum rbin (l.map (fun x => (x, reOf (pd.f x) * pd.unit.scale * q.2 x)))) q).sum = T at *
    generalize (List.map (fun q => q.1 * binSum rbin (l.map (fun x => (x, reOf (pd'.f x) * pd'.unit.scale * q.2 x)))) q).sum = T' at *
    generalize binSum rbin (l.map (fun x => (x, reOf (pd.f x) * pd.unit.scale * a.2 x))) = U at *
    generalize binSum rbin (l.map (fun x => (x, reOf (pd'.f x) * pd'.unit.scale * a.2 x))) = U' at *
    calc |a.1 * U' + T' - (a.1 * U + T)| = |a.1 * (U' - U) + (T' - T)| := by ring_nf
      _ ≤ |a.1 * (U' - U)| + |T' - T| := abs_add_le _ _
      _ ≤ a.1 * (allowed ε lo hi * U) + allowed ε lo hi * T := by
        rw [abs_mul, abs_of_nonneg a1]
        exact add_le_add (mul_le_mul_of_nonneg_left m a1) i2
      _ = _ := by ring

/-! ### Particles -/

/-- **C133 (synchrotron).** If at every energy of the range the numbers of electrons differ by at most the fraction
`ε`, the spectra differ by at most that fraction (and the rounding) at every photon energy. -/
theorem C133_synchrotron (m : SyncModel) (hlo : m.Eemin.PosEnergy) (hhi : m.Eemax.PosEnergy)
    (hle : m.Eemin.phys ≤ m.Eemax.phys) (hB : m.B.unit.dim = Dim.magFluxDensity) (hBp : 0 < m.B.phys)
    (es : List ℝ) (hes : ∀ e ∈ es, 0 < e) (ε : ℝ) (he : 0 ≤ ε) (he1 : ε < 1)
    (pd pd' : PDist) (N N' : ℝ → ℝ) (hN : Population pd N m.Eemin.phys m.Eemax.phys)
    (hN' : Population pd' N' m.Eemin.phys m.Eemax.phys) (hn : Nearby ε N N' m.Eemin.phys m.Eemax.phys) :
    ∃ S S' : ℝ → ℝ, m.spectrum pd es = .ok (es.map (fun e => fin (S e))) ∧
      m.spectrum pd' es = .ok (es.map (fun e => fin (S' e))) ∧
      ∀ e ∈ es, 0 ≤ S e ∧ |S' e - S e| ≤ allowed ε m.Eemin.phys m.Eemax.phys * S e :=
  (rep_sync m hlo hhi hle hB hBp es hes).near hlo.phys_pos hle ε he he1 pd pd' N N' hN hN' hn

/-- **C133 (inverse Compton).** The same for inverse Compton emission on any seed fields. -/
theorem C133_inverse_compton (m : ElModel) (hlo : m.Eemin.PosEnergy) (hhi : m.Eemax.PosEnergy)
    (hle : m.Eemin.phys ≤ m.Eemax.phys) (seeds : List SeedNum) (hne : seeds ≠ [])
    (hv : ∀ s ∈ seeds, ValidSeed s) (es : List ℝ) (hes : ∀ e ∈ es, 0 < e) (ε : ℝ) (he : 0 ≤ ε) (he1 : ε < 1)
    (pd pd' : PDist) (N N' : ℝ → ℝ) (hN : Population pd N m.Eemin.phys m.Eemax.phys)
    (hN' : Population pd' N' m.Eemin.phys m.Eemax.phys) (hn : Nearby ε N N' m.Eemin.phys m.Eemax.phys) :
    ∃ S S' : ℝ → ℝ, icSpectrum m seeds pd es = .ok (es.map (fun e => fin (S e))) ∧
      icSpectrum m seeds pd' es = .ok (es.map (fun e => fin (S' e))) ∧
      ∀ e ∈ es, 0 ≤ S e ∧ |S' e - S e| ≤ allowed ε m.Eemin.phys m.Eemax.phys * S e :=
  (rep_ic' m hlo hhi hle seeds hne hv es hes).near hlo.phys_pos hle ε he he1 pd pd' N N' hN hN' hn

/-- **C133 (pion decay).** The same for pion decay: any high-energy model, any history. -/
theorem C133_pion (m : PionModel) (hlo : m.Epmin.PosEnergy) (hhi : m.Epmax.PosEnergy)
    (hle : m.Epmin.phys ≤ m.Epmax.phys) (hth : Kafexhiu.Tth < m.Epmin.phys / (1e9 * cEV) - mProton)
    (hn : m.nh.unit.dim = Dim.numDensity) (hnh : 0 ≤ m.nh.phys) (tbl : FTable) (hr : Reachable tbl)
    (es : List ℝ) (hne : es ≠ []) (hes : ∀ e ∈ es, 0 < e) (ε : ℝ) (he : 0 ≤ ε) (he1 : ε < 1)
    (pd pd' : PDist) (N N' : ℝ → ℝ) (hN : Population pd N m.Epmin.phys m.Epmax.phys)
    (hN' : Population pd' N' m.Epmin.phys m.Epmax.phys) (hnear : Nearby ε N N' m.Epmin.phys m.Epmax.phys) :
    ∃ S S' : ℝ → ℝ, (m.spectrum pd tbl es).map Prod.snd = .ok (es.map (fun e => fin (S e))) ∧
      (m.spectrum pd' tbl es).map Prod.snd = .ok (es.map (fun e => fin (S' e))) ∧
      ∀ e ∈ es, 0 ≤ S e ∧ |S' e - S e| ≤ allowed ε m.Epmin.phys m.Epmax.phys * S e :=
  (rep_pion m hlo hhi hle hth hn hnh tbl hr es hne hes).near hlo.phys_pos hle ε he he1 pd pd' N N' hN hN' hnear

/-- **C133 (energy in electrons).** The same for the energy content. -/
theorem C133_compute_We (m : ElModel) (lo hi : Qty ℝ) (hlo : lo.PosEnergy) (hhi : hi.PosEnergy)
    (hle : lo.phys ≤ hi.phys) (ε : ℝ) (he : 0 ≤ ε) (he1 : ε < 1) (pd pd' : PDist) (N N' : ℝ → ℝ)
    (hN : Population pd N lo.phys hi.phys) (hN' : Population pd' N' lo.phys hi.phys)
    (hn : Nearby ε N N' lo.phys hi.phys) :
    ∃ W W' : ℝ, m.computeWe pd (some lo) (some hi) = .ok (fin W) ∧
      m.computeWe pd' (some lo) (some hi) = .ok (fin W') ∧
      0 ≤ W ∧ |W' - W| ≤ allowed ε lo.phys hi.phys * W := by
  obtain ⟨S, S', h1, h2, h3⟩ := (rep_We m lo hi hlo hhi hle).near hlo.phys_pos hle ε he he1 pd pd' N N' hN hN' hn
  exact ⟨S 0, S' 0, of_singleton h1, of_singleton h2, h3 0 (by simp)⟩

/-- **C133 (energy in protons).** -/
theorem C133_compute_Wp (m : PrModel) (lo hi : Qty ℝ) (hlo : lo.PosEnergy) (hhi : hi.PosEnergy)
    (hle : lo.phys ≤ hi.phys) (ε : ℝ) (he : 0 ≤ ε) (he1 : ε < 1) (pd pd' : PDist) (N N' : ℝ → ℝ)
    (hN : Population pd N lo.phys hi.phys) (hN' : Population pd' N' lo.phys hi.phys)
    (hn : Nearby ε N N' lo.phys hi.phys) :
    ∃ W W' : ℝ, m.computeWp pd (some lo) (some hi) = .ok (fin W) ∧
      m.computeWp pd' (some lo) (some hi) = .ok (fin W') ∧
      0 ≤ W ∧ |W' - W| ≤ allowed ε lo.phys hi.phys * W := by
  obtain ⟨S, S', h1, h2, h3⟩ := (rep_Wp m lo hi hlo hhi hle).near hlo.phys_pos hle ε he he1 pd pd' N N' hN hN' hn
  exact ⟨S 0, S' 0, of_singleton h1, of_singleton h2, h3 0 (by simp)⟩

/-! ### Parameters of the particle distribution -/

/-- values that depend jointly continuously on parameters and energy, positive at the parameters `x₀`, differ
little for parameters near `x₀`, uniformly on a range of energies -/
theorem nearby_of_continuous {X : Type} [TopologicalSpace X] (F : X → ℝ → ℝ) (x₀ : X) (lo hi : ℝ)
    (hc : ∀ E ∈ Set.Icc lo hi, ContinuousAt (fun p : X × ℝ => F p.1 p.2) (x₀, E))
    (hpos : ∀ E ∈ Set.Icc lo hi, 0 < F x₀ E) (ε : ℝ) (he : 0 < ε) :
    ∀ᶠ x in 𝓝 x₀, Nearby ε (F x₀) (F x) lo hi := by
  apply isCompact_Icc.eventually_forall_of_forall_eventually
  intro E hE
  have c1 := hc E hE
  have c2 : ContinuousAt (fun p : X × ℝ => F x₀ p.2) (x₀, E) := by
    have : ContinuousAt (fun p : X × ℝ => ((x₀, p.2) : X × ℝ)) (x₀, E) := by fun_prop
    exact ContinuousAt.comp (g := fun p : X × ℝ => F p.1 p.2) (f := fun p : X × ℝ => ((x₀, p.2) : X × ℝ)) c1 this
  have c3 : ContinuousAt (fun p : X × ℝ => ε * F x₀ p.2 - |F p.1 p.2 - F x₀ p.2|) (x₀, E) :=
    (continuousAt_const.mul c2).sub (c1.sub c2).abs
  have : 0 < ε * F x₀ E - |F x₀ E - F x₀ E| := by
    rw [sub_self, abs_zero, sub_zero]; exact mul_pos he (hpos E hE)
  filter_upwards [c3.eventually (lt_mem_nhds this)] with p hp
  linarith

/-- the broken power law without cases -/
theorem bpl_minmax (A α₁ α₂ r rb : ℝ) (hr : 0 < r) (hb : 0 < rb) :
    Spec.bpl A α₁ α₂ r rb = A * (min r rb) ^ (-α₁) * (max r rb) ^ (-α₂) * rb ^ α₂ := by
  unfold Spec.bpl
  split_ifs with h
  · rw [min_eq_left h.le, max_eq_right h.le, mul_assoc (A * _), ← Real.rpow_add hb]
    simp
  · push Not at h
    rw [min_eq_right h, max_eq_left h, show α₂ - α₁ = -α₁ + α₂ by ring, Real.rpow_add hb]
    ring

theorem Population.smul_unit {u : PhysUnit} (hu : u.dim = Dim.diffEnergy) (hus : 0 < u.scale) (f : ℝ → XR) (F : ℝ → ℝ)
    (lo hi : ℝ) (h : ∀ E ∈ Set.Icc lo hi, f E = fin (F E)) (h0 : ∀ E ∈ Set.Icc lo hi, 0 ≤ F E) :
    Population ⟨u, f⟩ (fun E => F E * u.scale) lo hi :=
  ⟨hu, hus, fun E hE => ⟨F E, h E hE, h0 E hE, rfl⟩⟩

theorem Nearby.smul {ε c lo hi : ℝ} {F G : ℝ → ℝ} (hc : 0 ≤ c) (h : Nearby ε F G lo hi) :
    Nearby ε (fun E => F E * c) (fun E => G E * c) lo hi := by
  intro E hE
  rw [← sub_mul, abs_mul, abs_of_nonneg hc, ← mul_assoc]
  exact mul_le_mul_of_nonneg_right (h E hE) hc

/-- Two distributions hold nearby numbers of particles. -/
def NearbyParticles (ε : ℝ) (pd pd' : PDist) (lo hi : ℝ) : Prop :=
  ∃ N N' : ℝ → ℝ, Population pd N lo hi ∧ Population pd' N' lo hi ∧ Nearby ε N N' lo hi

/-- from values to particles -/
theorem nearbyParticles {ι : Type} {l : Filter ι} {X : Type} [TopologicalSpace X] (F : X → ℝ → ℝ) (x₀ : X)
    (x : ι → X) (hx : Tendsto x l (𝓝 x₀)) (lo hi : ℝ) (hlo : 0 < lo) (u : PhysUnit) (hu : u.dim = Dim.diffEnergy)
    (hus : 0 < u.scale) (f₀ : ℝ → XR) (f : ι → ℝ → XR)
    (h0 : ∀ E > 0, f₀ E = fin (F x₀ E)) (hf : ∀ i, ∀ E > 0, f i E = fin (F (x i) E))
    (hc : ∀ E > 0, ContinuousAt (fun p : X × ℝ => F p.1 p.2) (x₀, E))
    (hpos : ∀ E > 0, 0 < F x₀ E) (ε : ℝ) (he : 0 < ε) (he1 : ε < 1) :
    ∀ᶠ i in l, NearbyParticles ε ⟨u, f₀⟩ ⟨u, f i⟩ lo hi := by
  have key := hx.eventually (nearby_of_continuous F x₀ lo hi (fun E hE => hc E (hlo.trans_le hE.1))
    (fun E hE => hpos E (hlo.trans_le hE.1)) ε he)
  filter_upwards [key] with i hi'
  refine ⟨_, _, Population.smul_unit hu hus f₀ (F x₀) lo hi (fun E hE => h0 E (hlo.trans_le hE.1))
      (fun E hE => (hpos E (hlo.trans_le hE.1)).le),
    Population.smul_unit hu hus (f i) (F (x i)) lo hi (fun E hE => hf i E (hlo.trans_le hE.1)) ?_, hi'.smul hus.le⟩
  intro E hE
  have a := (abs_le.1 (hi' E hE)).1
  have b := hpos E (hlo.trans_le hE.1)
  nlinarith

theorem inErg (E : ℝ) (hE : 0 < E) : (⟨E, PhysUnit.erg⟩ : Qty ℝ).PosEnergy ∧ (⟨E, PhysUnit.erg⟩ : Qty ℝ).phys = E :=
  ⟨⟨rfl, by simp [PhysUnit.erg], hE⟩, by simp [Qty.phys, PhysUnit.erg]⟩

/-- **C133 (power law).** When amplitude, reference energy and index tend to values `A > 0`, `E₀`, `α`, the numbers of
particles eventually differ from those of the limit by less than any given fraction, at all energies of the range. -/
theorem C133_power_law {ι : Type} {l : Filter ι} (A α : ι → ℝ) (e0 : ι → Qty ℝ) (A₀ α₀ : ℝ) (e00 : Qty ℝ)
    (hA : Tendsto A l (𝓝 A₀)) (hα : Tendsto α l (𝓝 α₀)) (he0 : Tendsto (fun i => (e0 i).phys) l (𝓝 e00.phys))
    (hA0 : 0 < A₀) (h0 : ∀ i, (e0 i).PosEnergy) (h00 : e00.PosEnergy) (u : PhysUnit) (hu : u.dim = Dim.diffEnergy)
    (hus : 0 < u.scale) (lo hi : ℝ) (hlo : 0 < lo) (ε : ℝ) (he : 0 < ε) (he1 : ε < 1) :
    ∀ᶠ i in l, NearbyParticles ε (PowerLaw.toPDist ⟨fin A₀, e00.lift, fin α₀⟩ u)
      (PowerLaw.toPDist ⟨fin (A i), (e0 i).lift, fin (α i)⟩ u) lo hi := by
  have val : ∀ (a b : ℝ) (q : Qty ℝ), q.PosEnergy → ∀ E > 0, (PowerLaw.toPDist ⟨fin a, q.lift, fin b⟩ u).f E =
      fin (Spec.powerLaw a b (E / q.phys)) := fun a b q hq E hE => powerLaw_pdist a b q hq u E hE
  refine nearbyParticles (fun (p : ℝ × ℝ × ℝ) E => Spec.powerLaw p.1 p.2.1 (E / p.2.2)) (A₀, α₀, e00.phys)
    (fun i => (A i, α i, (e0 i).phys)) (hA.prodMk_nhds (hα.prodMk_nhds he0)) lo hi hlo u hu hus _ _
    (val A₀ α₀ e00 h00) (fun i => val (A i) (α i) (e0 i) (h0 i)) ?_ ?_ ε he he1
  · intro E hE
    have := h00.phys_pos
    unfold Spec.powerLaw
    apply ContinuousAt.mul (by fun_prop)
    apply ContinuousAt.rpow
    · exact ContinuousAt.div (by fun_prop) (by fun_prop) this.ne'
    · fun_prop
    · exact Or.inl (div_pos hE this).ne'
  · intro E hE
    exact mul_pos hA0 (Real.rpow_pos_of_pos (div_pos hE h00.phys_pos) _)

theorem ecpl_pdist (A α β : ℝ) (e0 ec : Qty ℝ) (h0 : e0.PosEnergy) (hc : ec.PosEnergy) (u : PhysUnit) (E : ℝ)
    (hE : 0 < E) : (ECPL.toPDist ⟨fin A, e0.lift, fin α, ec.lift, fin β⟩ u).f E =
      fin (Spec.ecpl A α β (E / e0.phys) (E / ec.phys)) := by
  have e1 := C22_exponential_cutoff_power_law A α β ⟨E, PhysUnit.erg⟩ e0 ec (inErg E hE).1 h0 hc
  rw [(inErg E hE).2] at e1
  show (match ECPL.call _ (⟨E, PhysUnit.erg⟩ : Qty ℝ).lift with
    | .ok v => v
    | .error _ => nan) = _
  rw [e1]

theorem bpl_pdist (A α₁ α₂ : ℝ) (e0 eb : Qty ℝ) (h0 : e0.PosEnergy) (hb : eb.PosEnergy) (u : PhysUnit) (E : ℝ)
    (hE : 0 < E) : (BPL.toPDist ⟨fin A, e0.lift, eb.lift, fin α₁, fin α₂⟩ u).f E =
      fin (Spec.bpl A α₁ α₂ (E / e0.phys) (eb.phys / e0.phys)) := by
  have e1 := C22_broken_power_law A α₁ α₂ ⟨E, PhysUnit.erg⟩ e0 eb (inErg E hE).1 h0 hb
  rw [(inErg E hE).2] at e1
  show (match BPL.call _ (⟨E, PhysUnit.erg⟩ : Qty ℝ).lift with
    | .ok v => v
    | .error _ => nan) = _
  rw [e1]

theorem ecbpl_pdist (A α₁ α₂ β : ℝ) (e0 eb ec : Qty ℝ) (h0 : e0.PosEnergy) (hb : eb.PosEnergy) (hc : ec.PosEnergy)
    (u : PhysUnit) (E : ℝ) (hE : 0 < E) :
    (ECBPL.toPDist ⟨fin A, e0.lift, eb.lift, fin α₁, fin α₂, ec.lift, fin β⟩ u).f E =
      fin (Spec.ecbpl A α₁ α₂ β (E / e0.phys) (eb.phys / e0.phys) (E / ec.phys)) := by
  have e1 := C22_exponential_cutoff_broken_power_law A α₁ α₂ β ⟨E, PhysUnit.erg⟩ e0 eb ec (inErg E hE).1 h0 hb hc
  rw [(inErg E hE).2] at e1
  show (match ECBPL.call _ (⟨E, PhysUnit.erg⟩ : Qty ℝ).lift with
    | .ok v => v
    | .error _ => nan) = _
  rw [e1]

theorem lp_pdist (A α β : ℝ) (e0 : Qty ℝ) (h0 : e0.PosEnergy) (u : PhysUnit) (E : ℝ) (hE : 0 < E) :
    (LogParabola.toPDist ⟨fin A, e0.lift, fin α, fin β⟩ u).f E = fin (Spec.logParabola A α β (E / e0.phys)) := by
  have e1 := C22_log_parabola A α β ⟨E, PhysUnit.erg⟩ e0 (inErg E hE).1 h0
  rw [(inErg E hE).2] at e1
  show (match LogParabola.call _ (⟨E, PhysUnit.erg⟩ : Qty ℝ).lift with
    | .ok v => v
    | .error _ => nan) = _
  rw [e1]

/-- the cutoff factor depends continuously on energy, cutoff energy and exponent -/
theorem cutoff_continuousAt {Y : Type} [TopologicalSpace Y] (f g h : Y → ℝ) (y : Y) (hf : ContinuousAt f y)
    (hg : ContinuousAt g y) (hh : ContinuousAt h y) (pf : 0 < f y) (pg : 0 < g y) :
    ContinuousAt (fun y => Real.exp (-((f y / g y) ^ h y))) y :=
  Real.continuous_exp.continuousAt.comp
    ((hf.div hg pg.ne').rpow hh (Or.inl (div_pos pf pg).ne')).neg

theorem bpl_continuousAt {Y : Type} [TopologicalSpace Y] (A a₁ a₂ f g h : Y → ℝ) (y : Y) (hA : ContinuousAt A y)
    (h₁ : ContinuousAt a₁ y) (h₂ : ContinuousAt a₂ y) (hf : ContinuousAt f y) (hg : ContinuousAt g y)
    (hh : ContinuousAt h y) (pf : 0 < f y) (pg : 0 < g y) (ph : 0 < h y) :
    ContinuousAt (fun y => Spec.bpl (A y) (a₁ y) (a₂ y) (f y / g y) (h y / g y)) y := by
  have cr : ContinuousAt (fun y => f y / g y) y := hf.div hg pg.ne'
  have cb : ContinuousAt (fun y => h y / g y) y := hh.div hg pg.ne'
  have r0 : 0 < f y / g y := div_pos pf pg
  have b0 : 0 < h y / g y := div_pos ph pg
  have key : ContinuousAt (fun y => A y * (min (f y / g y) (h y / g y)) ^ (-a₁ y) *
      (max (f y / g y) (h y / g y)) ^ (-a₂ y) * (h y / g y) ^ a₂ y) y :=
    ((hA.mul ((cr.min cb).rpow h₁.neg (Or.inl (lt_min r0 b0).ne'))).mul
      ((cr.max cb).rpow h₂.neg (Or.inl (lt_max_of_lt_left r0).ne'))).mul (cb.rpow h₂ (Or.inl b0.ne'))
  refine key.congr ?_
  filter_upwards [cr.eventually (lt_mem_nhds r0), cb.eventually (lt_mem_nhds b0)] with z z1 z2
  exact (bpl_minmax _ _ _ _ _ z1 z2).symm

theorem bpl_pos (A α₁ α₂ r rb : ℝ) (hA : 0 < A) (hr : 0 < r) (hb : 0 < rb) : 0 < Spec.bpl A α₁ α₂ r rb := by
  rw [bpl_minmax _ _ _ _ _ hr hb]
  have := lt_min hr hb
  have : 0 < max r rb := lt_max_of_lt_left hr
  positivity

/-- **C133 (power law with exponential cutoff).** -/
theorem C133_exponential_cutoff_power_law {ι : Type} {l : Filter ι} (A α β : ι → ℝ) (e0 ec : ι → Qty ℝ)
    (A₀ α₀ β₀ : ℝ) (e00 ec0 : Qty ℝ) (hA : Tendsto A l (𝓝 A₀)) (hα : Tendsto α l (𝓝 α₀)) (hβ : Tendsto β l (𝓝 β₀))
    (he0 : Tendsto (fun i => (e0 i).phys) l (𝓝 e00.phys)) (hec : Tendsto (fun i => (ec i).phys) l (𝓝 ec0.phys))
    (hA0 : 0 < A₀) (h0 : ∀ i, (e0 i).PosEnergy) (h00 : e00.PosEnergy) (hc : ∀ i, (ec i).PosEnergy)
    (hc0 : ec0.PosEnergy) (u : PhysUnit) (hu : u.dim = Dim.diffEnergy)
    (hus : 0 < u.scale) (lo hi : ℝ) (hlo : 0 < lo) (ε : ℝ) (he : 0 < ε) (he1 : ε < 1) :
    ∀ᶠ i in l, NearbyParticles ε (ECPL.toPDist ⟨fin A₀, e00.lift, fin α₀, ec0.lift, fin β₀⟩ u)
      (ECPL.toPDist ⟨fin (A i), (e0 i).lift, fin (α i), (ec i).lift, fin (β i)⟩ u) lo hi := by
  refine nearbyParticles (fun (p : ℝ × ℝ × ℝ × ℝ × ℝ) E => Spec.ecpl p.1 p.2.1 p.2.2.1 (E / p.2.2.2.1) (E / p.2.2.2.2))
    (A₀, α₀, β₀, e00.phys, ec0.phys) (fun i => (A i, α i, β i, (e0 i).phys, (ec i).phys))
    (hA.prodMk_nhds (hα.prodMk_nhds (hβ.prodMk_nhds (he0.prodMk_nhds hec)))) lo hi hlo u hu hus _ _
    (ecpl_pdist A₀ α₀ β₀ e00 ec0 h00 hc0 u) (fun i => ecpl_pdist (A i) (α i) (β i) (e0 i) (ec i) (h0 i) (hc i) u)
    ?_ ?_ ε he he1
  · intro E hE
    have p0 := h00.phys_pos
    have pc := hc0.phys_pos
    unfold Spec.ecpl
    apply ContinuousAt.mul
    · apply ContinuousAt.mul (by fun_prop)
      apply ContinuousAt.rpow
      · exact ContinuousAt.div (by fun_prop) (by fun_prop) p0.ne'
      · fun_prop
      · exact Or.inl (div_pos hE p0).ne'
    · exact cutoff_continuousAt (fun p : (ℝ × ℝ × ℝ × ℝ × ℝ) × ℝ => p.2) (fun p => p.1.2.2.2.2) (fun p => p.1.2.2.1) _
        (by fun_prop) (by fun_prop) (by fun_prop) hE pc
  · intro E hE
    exact mul_pos (mul_pos hA0 (Real.rpow_pos_of_pos (div_pos hE h00.phys_pos) _)) (Real.exp_pos _)

/-- **C133 (broken power law).** -/
theorem C133_broken_power_law {ι : Type} {l : Filter ι} (A α₁ α₂ : ι → ℝ) (e0 eb : ι → Qty ℝ)
    (A₀ α₁₀ α₂₀ : ℝ) (e00 eb0 : Qty ℝ) (hA : Tendsto A l (𝓝 A₀)) (hα₁ : Tendsto α₁ l (𝓝 α₁₀))
    (hα₂ : Tendsto α₂ l (𝓝 α₂₀)) (he0 : Tendsto (fun i => (e0 i).phys) l (𝓝 e00.phys))
    (heb : Tendsto (fun i => (eb i).phys) l (𝓝 eb0.phys))
    (hA0 : 0 < A₀) (h0 : ∀ i, (e0 i).PosEnergy) (h00 : e00.PosEnergy) (hb : ∀ i, (eb i).PosEnergy)
    (hb0 : eb0.PosEnergy) (u : PhysUnit) (hu : u.dim = Dim.diffEnergy)
    (hus : 0 < u.scale) (lo hi : ℝ) (hlo : 0 < lo) (ε : ℝ) (he : 0 < ε) (he1 : ε < 1) :
    ∀ᶠ i in l, NearbyParticles ε (BPL.toPDist ⟨fin A₀, e00.lift, eb0.lift, fin α₁₀, fin α₂₀⟩ u)
      (BPL.toPDist ⟨fin (A i), (e0 i).lift, (eb i).lift, fin (α₁ i), fin (α₂ i)⟩ u) lo hi := by
  refine nearbyParticles (fun (p : ℝ × ℝ × ℝ × ℝ × ℝ) E => Spec.bpl p.1 p.2.1 p.2.2.1 (E / p.2.2.2.1)
      (p.2.2.2.2 / p.2.2.2.1))
    (A₀, α₁₀, α₂₀, e00.phys, eb0.phys) (fun i => (A i, α₁ i, α₂ i, (e0 i).phys, (eb i).phys))
    (hA.prodMk_nhds (hα₁.prodMk_nhds (hα₂.prodMk_nhds (he0.prodMk_nhds heb)))) lo hi hlo u hu hus _ _
    (bpl_pdist A₀ α₁₀ α₂₀ e00 eb0 h00 hb0 u) (fun i => bpl_pdist (A i) (α₁ i) (α₂ i) (e0 i) (eb i) (h0 i) (hb i) u)
    ?_ ?_ ε he he1
  · intro E hE
    exact bpl_continuousAt (fun p : (ℝ × ℝ × ℝ × ℝ × ℝ) × ℝ => p.1.1) (fun p => p.1.2.1) (fun p => p.1.2.2.1) (fun p => p.2)
      (fun p => p.1.2.2.2.1) (fun p => p.1.2.2.2.2) _ (by fun_prop) (by fun_prop) (by fun_prop) (by fun_prop)
      (by fun_prop) (by fun_prop) hE h00.phys_pos hb0.phys_pos
  · intro E hE
    exact bpl_pos _ _ _ _ _ hA0 (div_pos hE h00.phys_pos) (div_pos hb0.phys_pos h00.phys_pos)

/-- **C133 (broken power law with exponential cutoff).** -/
theorem C133_exponential_cutoff_broken_power_law {ι : Type} {l : Filter ι} (A α₁ α₂ β : ι → ℝ)
    (e0 eb ec : ι → Qty ℝ) (A₀ α₁₀ α₂₀ β₀ : ℝ) (e00 eb0 ec0 : Qty ℝ) (hA : Tendsto A l (𝓝 A₀))
    (hα₁ : Tendsto α₁ l (𝓝 α₁₀)) (hα₂ : Tendsto α₂ l (𝓝 α₂₀)) (hβ : Tendsto β l (𝓝 β₀))
    (he0 : Tendsto (fun i => (e0 i).phys) l (𝓝 e00.phys)) (heb : Tendsto (fun i => (eb i).phys) l (𝓝 eb0.phys))
    (hec : Tendsto (fun i => (ec i).phys) l (𝓝 ec0.phys))
    (hA0 : 0 < A₀) (h0 : ∀ i, (e0 i).PosEnergy) (h00 : e00.PosEnergy) (hb : ∀ i, (eb i).PosEnergy)
    (hb0 : eb0.PosEnergy) (hc : ∀ i, (ec i).PosEnergy) (hc0 : ec0.PosEnergy) (u : PhysUnit)
    (hu : u.dim = Dim.diffEnergy) (hus : 0 < u.scale) (lo hi : ℝ) (hlo : 0 < lo) (ε : ℝ) (he : 0 < ε) (he1 : ε < 1) :
    ∀ᶠ i in l, NearbyParticles ε
      (ECBPL.toPDist ⟨fin A₀, e00.lift, eb0.lift, fin α₁₀, fin α₂₀, ec0.lift, fin β₀⟩ u)
      (ECBPL.toPDist ⟨fin (A i), (e0 i).lift, (eb i).lift, fin (α₁ i), fin (α₂ i), (ec i).lift, fin (β i)⟩ u) lo hi := by
  refine nearbyParticles (fun (p : ℝ × ℝ × ℝ × ℝ × ℝ × ℝ × ℝ) E => Spec.ecbpl p.1 p.2.1 p.2.2.1 p.2.2.2.1
      (E / p.2.2.2.2.1) (p.2.2.2.2.2.1 / p.2.2.2.2.1) (E / p.2.2.2.2.2.2))
    (A₀, α₁₀, α₂₀, β₀, e00.phys, eb0.phys, ec0.phys)
    (fun i => (A i, α₁ i, α₂ i, β i, (e0 i).phys, (eb i).phys, (ec i).phys))
    (hA.prodMk_nhds (hα₁.prodMk_nhds (hα₂.prodMk_nhds (hβ.prodMk_nhds (he0.prodMk_nhds (heb.prodMk_nhds hec))))))
    lo hi hlo u hu hus _ _ (ecbpl_pdist A₀ α₁₀ α₂₀ β₀ e00 eb0 ec0 h00 hb0 hc0 u)
    (fun i => ecbpl_pdist (A i) (α₁ i) (α₂ i) (β i) (e0 i) (eb i) (ec i) (h0 i) (hb i) (hc i) u)
    ?_ ?_ ε he he1
  · intro E hE
    unfold Spec.ecbpl
    apply ContinuousAt.mul
    · exact cutoff_continuousAt (fun p : (ℝ × ℝ × ℝ × ℝ × ℝ × ℝ × ℝ) × ℝ => p.2) (fun p => p.1.2.2.2.2.2.2)
        (fun p => p.1.2.2.2.1) _ (by fun_prop) (by fun_prop) (by fun_prop) hE hc0.phys_pos
    · exact bpl_continuousAt (fun p : (ℝ × ℝ × ℝ × ℝ × ℝ × ℝ × ℝ) × ℝ => p.1.1) (fun p => p.1.2.1) (fun p => p.1.2.2.1)
        (fun p => p.2) (fun p => p.1.2.2.2.2.1) (fun p => p.1.2.2.2.2.2.1) _ (by fun_prop) (by fun_prop) (by fun_prop)
        (by fun_prop) (by fun_prop) (by fun_prop) hE h00.phys_pos hb0.phys_pos
  · intro E hE
    exact mul_pos (Real.exp_pos _) (bpl_pos _ _ _ _ _ hA0 (div_pos hE h00.phys_pos) (div_pos hb0.phys_pos h00.phys_pos))

/-- **C133 (log parabola).** -/
theorem C133_log_parabola {ι : Type} {l : Filter ι} (A α β : ι → ℝ) (e0 : ι → Qty ℝ) (A₀ α₀ β₀ : ℝ) (e00 : Qty ℝ)
    (hA : Tendsto A l (𝓝 A₀)) (hα : Tendsto α l (𝓝 α₀)) (hβ : Tendsto β l (𝓝 β₀))
    (he0 : Tendsto (fun i => (e0 i).phys) l (𝓝 e00.phys))
    (hA0 : 0 < A₀) (h0 : ∀ i, (e0 i).PosEnergy) (h00 : e00.PosEnergy) (u : PhysUnit) (hu : u.dim = Dim.diffEnergy)
    (hus : 0 < u.scale) (lo hi : ℝ) (hlo : 0 < lo) (ε : ℝ) (he : 0 < ε) (he1 : ε < 1) :
    ∀ᶠ i in l, NearbyParticles ε (LogParabola.toPDist ⟨fin A₀, e00.lift, fin α₀, fin β₀⟩ u)
      (LogParabola.toPDist ⟨fin (A i), (e0 i).lift, fin (α i), fin (β i)⟩ u) lo hi := by
  refine nearbyParticles (fun (p : ℝ × ℝ × ℝ × ℝ) E => Spec.logParabola p.1 p.2.1 p.2.2.1 (E / p.2.2.2))
    (A₀, α₀, β₀, e00.phys) (fun i => (A i, α i, β i, (e0 i).phys))
    (hA.prodMk_nhds (hα.prodMk_nhds (hβ.prodMk_nhds he0))) lo hi hlo u hu hus _ _
    (lp_pdist A₀ α₀ β₀ e00 h00 u) (fun i => lp_pdist (A i) (α i) (β i) (e0 i) (h0 i) u) ?_ ?_ ε he he1
  · intro E hE
    have p0 := h00.phys_pos
    have cr : ContinuousAt (fun p : (ℝ × ℝ × ℝ × ℝ) × ℝ => p.2 / p.1.2.2.2) ((A₀, α₀, β₀, e00.phys), E) :=
      ContinuousAt.div (by fun_prop) (by fun_prop) p0.ne'
    unfold Spec.logParabola
    apply ContinuousAt.mul (by fun_prop)
    apply ContinuousAt.rpow cr
    · apply ContinuousAt.sub (by fun_prop)
      apply ContinuousAt.mul (by fun_prop)
      exact cr.log (div_pos hE p0).ne'
    · exact Or.inl (div_pos hE p0).ne'
  · intro E hE
    exact mul_pos hA0 (Real.rpow_pos_of_pos (div_pos hE h00.phys_pos) _)

/-! ### The magnetic field -/

theorem mul_near (n n' k k' ε : ℝ) (hn : 0 ≤ n) (hk : 0 ≤ k) (he : 0 ≤ ε) (he1 : ε ≤ 1) (h1 : |n' - n| ≤ ε / 3 * n)
    (h2 : |k' - k| ≤ ε / 3 * k) : |n' * k' - n * k| ≤ ε * (n * k) := by
  have e : n' * k' - n * k = (n' - n) * (k' - k) + n * (k' - k) + (n' - n) * k := by ring
  rw [e]
  have a := abs_nonneg (n' - n)
  have b := abs_nonneg (k' - k)
  calc |(n' - n) * (k' - k) + n * (k' - k) + (n' - n) * k|
      ≤ |n' - n| * |k' - k| + n * |k' - k| + |n' - n| * k := by
        refine (abs_add_le _ _).trans (add_le_add ((abs_add_le _ _).trans (le_of_eq ?_)) (le_of_eq ?_))
        · rw [abs_mul, abs_mul, abs_of_nonneg hn]
        · rw [abs_mul, abs_of_nonneg hk]
    _ ≤ (ε / 3 * n) * (ε / 3 * k) + n * (ε / 3 * k) + (ε / 3 * n) * k := by gcongr
    _ ≤ ε * (n * k) := by
        have := mul_nonneg hn hk
        nlinarith [mul_nonneg this he, mul_nonneg (mul_nonneg this he) (sub_nonneg.2 he1)]

theorem syncEmission_pos (B γ e : ℝ) (hB : 0 < B) (hγ : 0 < γ) (he : 0 < e) :
    0 < syncEmission cE cMe cC cHbar B γ e := by
  have := cE_pos; have := cHbar_pos; have := cMe_pos; have := cC_pos
  have hcrit : 0 < critEnergy cE cMe cC cHbar B γ := by
    unfold critEnergy; positivity
  have := gAKP_pos _ (div_pos he hcrit)
  unfold syncEmission
  positivity

/-- the synchrotron spectrum as a sum over a grid that does not depend on the field -/
theorem sync_nearSum (m : SyncModel) (hlo : m.Eemin.PosEnergy) (hhi : m.Eemax.PosEnergy)
    (hle : m.Eemin.phys ≤ m.Eemax.phys) (es : List ℝ) (hes : ∀ e ∈ es, 0 < e) :
    ∃ l : List ℝ, (∀ x ∈ l, x ∈ Set.Icc m.Eemin.phys m.Eemax.phys) ∧ l.Pairwise (· ≤ ·) ∧
      ∀ B : Qty ℝ, B.unit.dim = Dim.magFluxDensity → 0 < B.phys → ∀ (pd : PDist) (N : ℝ → ℝ),
        Population pd N m.Eemin.phys m.Eemax.phys →
        SyncModel.spectrum { m with B := B } pd es = .ok (es.map (fun e => fin (cEV * binSum rbin (l.map (fun x =>
          (x, N x * syncEmission cE cMe cC cHbar (B.phys / 0.1) (x / (cMe * cC ^ 2)) e)))))) := by
  have hm := cMec2_pos
  obtain ⟨gam, hg, hgp, hgs⟩ := gamGrid_facts m.nEed m.Eemin m.Eemax hlo hhi hle
  have hmem := gam_mem m.nEed m.Eemin m.Eemax hlo hhi hle gam hg
  obtain ⟨g1, g2⟩ := grid_scaled _ _ _ hm gam hgs hmem
  refine ⟨gam.map (· * cMec2), g1, g2, ?_⟩
  intro B hB hBp pd N hN
  obtain ⟨gam', hg', -, h⟩ := C70_documented { m with B := B } pd hN.dim hlo hhi hle hB hBp es hes
  have : gam' = gam := by
    have h1 : m.toElModel.gam = .ok gam := hg
    have h2 : m.toElModel.gam = .ok gam' := hg'
    rw [h1] at h2; injection h2 with h'; exact h'.symm
  subst this
  rw [h]
  congr 1
  apply List.map_congr_left
  intro e he
  rw [mul_comm cEV]
  conv_rhs => rw [← mul_fin]
  have e4 : ∀ x ∈ gam'.map (· * cMec2), N x = reOf (pd.f x) * pd.unit.scale := fun x hx =>
    ((hN.re x (g1 x hx)).2.2).symm
  have e5 : (gam'.map (· * cMec2)).map (fun x =>
        (x, N x * syncEmission cE cMe cC cHbar (B.phys / 0.1) (x / (cMe * cC ^ 2)) e)) =
      (gam'.map (· * cMec2)).map (fun x => (x, reOf (pd.f x) * pd.unit.scale *
        syncEmission cE cMe cC cHbar (B.phys / 0.1) (x / (cMe * cC ^ 2)) e)) := by
    apply List.map_congr_left
    intro x hx
    rw [e4 x hx]
  rw [e5]
  congr 1
  rw [← trapz_binSum cMec2 hm gam' hgp hgs (fun x => reOf (pd.f x) * pd.unit.scale *
    syncEmission cE cMe cC cHbar (B.phys / 0.1) (x / (cMe * cC ^ 2)) e)]
  · congr 1
    apply List.map_congr_left
    intro g hgm
    have e2 : g * cMec2 / (cMe * cC ^ 2) = g := by
      show g * cMec2 / cMec2 = g; field_simp
    rw [e2]
    show (fin g, pd.f (g * cMec2) * fin (pd.unit.scale * cMec2) * _) = _
    rw [(hN.re _ (hmem g hgm)).1, mul_fin, mul_fin]
    congr 2
    simp only [reOf]
    ring
  · intro g hgm
    refine mul_nonneg (mul_nonneg (hN.re _ (hmem g hgm)).2.1 hN.scale.le) ?_
    exact (sync_kernel_spectrum m.Eemin.phys m.Eemax.phys (B.phys / 0.1) e hlo.phys_pos (by positivity)
      (hes e he)).nonneg _ (hmem g hgm)

theorem syncEmission_continuousAt (e : ℝ) (he : 0 < e) (B E : ℝ) (hB : 0 < B) (hE : 0 < E) :
    ContinuousAt (fun p : ℝ × ℝ => syncEmission cE cMe cC cHbar (p.1 / 0.1) (p.2 / (cMe * cC ^ 2)) e) (B, E) := by
  have := cE_pos; have := cHbar_pos; have := cMe_pos; have := cC_pos
  have hcrit : 0 < critEnergy cE cMe cC cHbar (B / 0.1) (E / (cMe * cC ^ 2)) := by
    unfold critEnergy; positivity
  unfold syncEmission
  apply ContinuousAt.mul (by fun_prop)
  have c0 : ContinuousAt (fun p : ℝ × ℝ => critEnergy cE cMe cC cHbar (p.1 / 0.1) (p.2 / (cMe * cC ^ 2))) (B, E) := by
    unfold critEnergy
    fun_prop
  have c1 : ContinuousAt (fun p : ℝ × ℝ => e / critEnergy cE cMe cC cHbar (p.1 / 0.1) (p.2 / (cMe * cC ^ 2))) (B, E) :=
    ContinuousAt.div continuousAt_const c0 hcrit.ne'
  have c2 : ContinuousAt gAKP (e / critEnergy cE cMe cC cHbar (B / 0.1) (E / (cMe * cC ^ 2))) :=
    gAKP_continuousOn.continuousAt (Ioi_mem_nhds (div_pos he hcrit))
  exact ContinuousAt.comp (g := gAKP) (f := fun p : ℝ × ℝ => e / critEnergy cE cMe cC cHbar (p.1 / 0.1)
    (p.2 / (cMe * cC ^ 2))) c2 c1

/-- **C133 (magnetic field and electrons).** When the field tends to `B₀ > 0` and the electrons to those of `pd₀` (as in
C133_power_law and the other models), the synchrotron spectrum eventually differs from that of the limit by less than
any given fraction, and the rounding. -/
theorem C133_synchrotron_parameters {ι : Type} {l : Filter ι} (m : SyncModel) (hlo : m.Eemin.PosEnergy)
    (hhi : m.Eemax.PosEnergy) (hle : m.Eemin.phys ≤ m.Eemax.phys) (B : ι → Qty ℝ)
    (hd : ∀ i, (B i).unit.dim = Dim.magFluxDensity) (hp : ∀ i, 0 < (B i).phys)
    (hB : m.B.unit.dim = Dim.magFluxDensity) (hBp : 0 < m.B.phys)
    (hBt : Tendsto (fun i => (B i).phys) l (𝓝 m.B.phys)) (pd₀ : PDist) (pd : ι → PDist)
    (hpd : ∀ ε, 0 < ε → ε < 1 → ∀ᶠ i in l, NearbyParticles ε pd₀ (pd i) m.Eemin.phys m.Eemax.phys)
    (es : List ℝ) (hes : ∀ e ∈ es, 0 < e) (ε : ℝ) (he : 0 < ε) (he1 : ε < 1) :
    ∀ᶠ i in l, ∃ S S' : ℝ → ℝ, m.spectrum pd₀ es = .ok (es.map (fun e => fin (S e))) ∧
      SyncModel.spectrum { m with B := B i } (pd i) es = .ok (es.map (fun e => fin (S' e))) ∧
      ∀ e ∈ es, 0 ≤ S e ∧ |S' e - S e| ≤ allowed ε m.Eemin.phys m.Eemax.phys * S e := by
  obtain ⟨g, g1, g2, hsum⟩ := sync_nearSum m hlo hhi hle es hes
  have hK : ∀ e ∈ es, ∀ᶠ i in l, Nearby (ε / 3)
      (fun E => syncEmission cE cMe cC cHbar (m.B.phys / 0.1) (E / (cMe * cC ^ 2)) e)
      (fun E => syncEmission cE cMe cC cHbar ((B i).phys / 0.1) (E / (cMe * cC ^ 2)) e) m.Eemin.phys m.Eemax.phys := by
    intro e hee
    refine hBt.eventually (nearby_of_continuous
      (fun b E => syncEmission cE cMe cC cHbar (b / 0.1) (E / (cMe * cC ^ 2)) e) m.B.phys m.Eemin.phys m.Eemax.phys
      (fun E hE => syncEmission_continuousAt e (hes e hee) m.B.phys E hBp (hlo.phys_pos.trans_le hE.1)) ?_ (ε / 3)
      (by linarith))
    intro E hE
    have hE0 := hlo.phys_pos.trans_le hE.1
    exact syncEmission_pos _ _ _ (by positivity) (div_pos hE0 cMec2_pos) (hes e hee)
  have hK' : ∀ᶠ i in l, ∀ e ∈ es, Nearby (ε / 3)
      (fun E => syncEmission cE cMe cC cHbar (m.B.phys / 0.1) (E / (cMe * cC ^ 2)) e)
      (fun E => syncEmission cE cMe cC cHbar ((B i).phys / 0.1) (E / (cMe * cC ^ 2)) e) m.Eemin.phys m.Eemax.phys := by
    clear hsum hes
    induction es with
    | nil => simp
    | cons a es ih =>
      have h1 := hK a (by simp)
      have h2 := ih (fun e he => hK e (by simp [he]))
      filter_upwards [h1, h2] with i i1 i2
      intro e hee
      rcases List.mem_cons.1 hee with rfl | h
      · exact i1
      · exact i2 e h
  filter_upwards [hK', hpd (ε / 3) (by linarith) (by linarith)] with i k ⟨N, N', hN, hN', hn⟩
  refine ⟨_, _, hsum m.B hB hBp pd₀ N hN, hsum (B i) (hd i) (hp i) (pd i) N' hN', ?_⟩
  intro e hee
  have hker : ∀ x ∈ g, 0 ≤ syncEmission cE cMe cC cHbar (m.B.phys / 0.1) (x / (cMe * cC ^ 2)) e := fun x hx =>
    (sync_kernel_spectrum m.Eemin.phys m.Eemax.phys (m.B.phys / 0.1) e hlo.phys_pos (by positivity)
      (hes e hee)).nonneg x (g1 x hx)
  have hN0 : ∀ x ∈ g, 0 ≤ N x := by
    intro x hx
    obtain ⟨r, -, r0, r1⟩ := hN.value x (g1 x hx)
    rw [← r1]; exact mul_nonneg r0 hN.scale.le
  have y0 : ∀ x ∈ g, 0 ≤ N x * syncEmission cE cMe cC cHbar (m.B.phys / 0.1) (x / (cMe * cC ^ 2)) e := fun x hx =>
    mul_nonneg (hN0 x hx) (hker x hx)
  have hce := cEV_pos
  have near := binSum_near ε m.Eemin.phys m.Eemax.phys hlo.phys_pos hle he.le he1 g g1 g2
    (fun x => N x * syncEmission cE cMe cC cHbar (m.B.phys / 0.1) (x / (cMe * cC ^ 2)) e)
    (fun x => N' x * syncEmission cE cMe cC cHbar ((B i).phys / 0.1) (x / (cMe * cC ^ 2)) e) y0
    (by
      intro x hx
      have a1 := hn x (g1 x hx)
      have a2 := k e hee x (g1 x hx)
      simp only at a2
      have n0 := hN0 x hx
      have k0 := hker x hx
      generalize syncEmission cE cMe cC cHbar (m.B.phys / 0.1) (x / (cMe * cC ^ 2)) e = K at *
      generalize syncEmission cE cMe cC cHbar ((B i).phys / 0.1) (x / (cMe * cC ^ 2)) e = K' at *
      exact mul_near (N x) (N' x) K K' ε n0 k0 he.le he1.le a1 a2)
  have nn := binSum_nonneg _ _ hlo.phys_pos g g1 g2 _ y0
  refine ⟨mul_nonneg hce.le nn, ?_⟩
  rw [← mul_sub, abs_mul, abs_of_pos hce]
  calc _ ≤ cEV * (allowed ε m.Eemin.phys m.Eemax.phys * _) := mul_le_mul_of_nonneg_left near hce.le
    _ = _ := by ring

/-! ### The likelihood -/

theorem chi2_near (m m' : ℝ) (r : Row) (h1 : 0 < r.fluxErrorLo) (h2 : 0 < r.fluxErrorHi) :
    |chi2 m' r - chi2 m r| ≤ |m' - m| * (|m' - r.flux| + |m - r.flux|) / (min r.fluxErrorLo r.fluxErrorHi) ^ 2 := by
  unfold chi2
  have hs : 0 < min r.fluxErrorLo r.fluxErrorHi := lt_min h1 h2
  have l1 : min r.fluxErrorLo r.fluxErrorHi ≤ r.fluxErrorLo := min_le_left _ _
  have l2 : min r.fluxErrorLo r.fluxErrorHi ≤ r.fluxErrorHi := min_le_right _ _
  have e : m' - m = (m' - r.flux) - (m - r.flux) := by ring
  rw [e]
  have c1 : m > r.flux ↔ 0 < m - r.flux := by constructor <;> intro h <;> linarith
  have c2 : m' > r.flux ↔ 0 < m' - r.flux := by constructor <;> intro h <;> linarith
  have c1' : r.flux < m ↔ 0 < m - r.flux := c1
  have c2' : r.flux < m' ↔ 0 < m' - r.flux := c2
  simp only [c1, c2, c1', c2']
  generalize r.fluxErrorLo = a at *
  generalize r.fluxErrorHi = b at *
  generalize m' - r.flux = y
  generalize m - r.flux = x
  generalize min a b = s at *
  have key : ∀ t σ : ℝ, s ≤ σ → (t / σ) ^ 2 ≤ t ^ 2 / s ^ 2 := by
    intro t σ h
    rw [div_pow]
    exact div_le_div_of_nonneg_left (sq_nonneg t) (by positivity) (by gcongr)
  have same : ∀ σ : ℝ, s ≤ σ → |(y / σ) ^ 2 - (x / σ) ^ 2| ≤ |y - x| * (|y| + |x|) / s ^ 2 := by
    intro σ h
    have hσ : 0 < σ := hs.trans_le h
    rw [show (y / σ) ^ 2 - (x / σ) ^ 2 = (y - x) * (y + x) / σ ^ 2 by field_simp; ring, abs_div, abs_mul,
      abs_of_pos (by positivity : 0 < σ ^ 2)]
    apply div_le_div₀ (by positivity) _ (by positivity) (by gcongr)
    exact mul_le_mul_of_nonneg_left (abs_add_le _ _) (abs_nonneg _)
  have mixed : ∀ σ τ : ℝ, s ≤ σ → s ≤ τ → x * y ≤ 0 → |(y / σ) ^ 2 - (x / τ) ^ 2| ≤ |y - x| * (|y| + |x|) / s ^ 2 := by
    intro σ τ h h' hxy
    have hd : |y - x| = |y| + |x| := by
      rcases le_total 0 x with hx | hx <;> rcases le_total 0 y with hy | hy
      · have : x * y = 0 := le_antisymm hxy (mul_nonneg hx hy)
        rcases mul_eq_zero.1 this with h | h <;> simp [h]
      · rw [abs_of_nonpos hy, abs_of_nonneg hx, abs_of_nonpos (by linarith)]; ring
      · rw [abs_of_nonneg hy, abs_of_nonpos hx, abs_of_nonneg (by linarith)]; ring
      · have : x * y = 0 := le_antisymm hxy (mul_nonneg_of_nonpos_of_nonpos hx hy)
        rcases mul_eq_zero.1 this with h | h <;> simp [h]
    rw [hd]
    have k1 := key y σ h
    have k2 := key x τ h'
    have p1 : 0 ≤ (y / σ) ^ 2 := sq_nonneg _
    have p2 : 0 ≤ (x / τ) ^ 2 := sq_nonneg _
    have q1 : y ^ 2 / s ^ 2 ≤ (|y| + |x|) * (|y| + |x|) / s ^ 2 := by
      apply div_le_div_of_nonneg_right _ (by positivity)
      nlinarith [abs_nonneg x, abs_nonneg y, sq_abs y]
    have q2 : x ^ 2 / s ^ 2 ≤ (|y| + |x|) * (|y| + |x|) / s ^ 2 := by
      apply div_le_div_of_nonneg_right _ (by positivity)
      nlinarith [abs_nonneg x, abs_nonneg y, sq_abs x]
    rw [abs_le]
    constructor <;> linarith
  split_ifs with i1 i2 i2
  · exact same b l2
  · exact mixed b a l2 l1 (mul_nonpos_of_nonpos_of_nonneg (not_lt.1 i2) i1.le)
  · exact mixed a b l1 l2 (mul_nonpos_of_nonneg_of_nonpos i2.le (not_lt.1 i1))
  · exact same a l1

/-- The largest change of the log-likelihood when each predicted value `M` changes by at most the fraction `η`:
half the sum of `η M (2 |M - f| + η M) / σ²`, with `f` the measured value and `σ` the smaller of its two errors. -/
noncomputable def lnLChange (η : ℝ) (Ms : List ℝ) (rows : List Row) : ℝ :=
  1 / 2 * ((Ms.zip rows).map (fun p => η * p.1 * (2 * |p.1 - p.2.flux| + η * p.1) /
    (min p.2.fluxErrorLo p.2.fluxErrorHi) ^ 2)).sum

theorem gaussLnL_near (η : ℝ) (hη : 0 ≤ η) (rows : List Row) (h1 : ∀ r ∈ rows, 0 < r.fluxErrorLo)
    (h2 : ∀ r ∈ rows, 0 < r.fluxErrorHi) (Ms Ms' : List ℝ) (hl : Ms.length = rows.length)
    (hn : List.Forall₂ (fun M M' => 0 ≤ M ∧ |M' - M| ≤ η * M) Ms Ms') :
    |gaussLnL Ms' rows - gaussLnL Ms rows| ≤ lnLChange η Ms rows := by
  unfold gaussLnL lnLChange
  rw [← mul_sub, abs_mul, show |(-(1 / 2) : ℝ)| = 1 / 2 by norm_num]
  apply mul_le_mul_of_nonneg_left _ (by norm_num)
  induction hn generalizing rows with
  | nil => simp
  | @cons M M' Ms Ms' h _ ih =>
    cases rows with
    | nil => simp at hl
    | cons r rows =>
      have i := ih rows (fun r hr => h1 r (by simp [hr])) (fun r hr => h2 r (by simp [hr])) (by simpa using hl)
      simp only [List.zip_cons_cons, List.map_cons, List.sum_cons]
      have c := chi2_near M M' r (h1 r (by simp)) (h2 r (by simp))
      have hs : 0 < min r.fluxErrorLo r.fluxErrorHi := lt_min (h1 r (by simp)) (h2 r (by simp))
      have b : |M' - r.flux| ≤ |M - r.flux| + η * M := by
        have : M' - r.flux = (M - r.flux) + (M' - M) := by ring
        rw [this]
        exact (abs_add_le _ _).trans (by linarith [h.2])
      have c' : |chi2 M' r - chi2 M r| ≤ η * M * (2 * |M - r.flux| + η * M) / (min r.fluxErrorLo r.fluxErrorHi) ^ 2 := by
        refine c.trans (div_le_div_of_nonneg_right ?_ (by positivity))
        exact mul_le_mul h.2 (by linarith) (by positivity) (mul_nonneg hη h.1)
      rw [add_sub_add_comm]
      exact (abs_add_le _ _).trans (add_le_add c' i)

theorem rowModel_near (η : ℝ) (S S' : ℝ → ℝ) (d : Qty ℝ) (data : VTable) (h0 : d.phys ≠ 0)
    (hE : ∀ r ∈ data.rows, 0 < r.energy)
    (hn : ∀ x ∈ data.rows.map (·.energy), 0 ≤ S x ∧ |S' x - S x| ≤ η * S x) :
    List.Forall₂ (fun M M' => 0 ≤ M ∧ |M' - M| ≤ η * M) (rowModel ((data.rows.map (·.energy)).map S) d data)
      (rowModel ((data.rows.map (·.energy)).map S') d data) := by
  unfold rowModel
  generalize unitIsSed data.fluxU.dim = b
  have hk : 0 < 4 * Real.pi * d.phys ^ 2 := by positivity
  have hev := cEV_pos
  generalize data.rows = rows at *
  induction rows with
  | nil => simp
  | cons r rows ih =>
    simp only [List.map_cons, List.zipWith_cons_cons]
    refine List.Forall₂.cons ?_ (ih (fun r hr => hE r (by simp [hr]))
      (fun x hx => hn x (by simp only [List.map_cons, List.mem_cons]; exact Or.inr hx)))
    obtain ⟨n1, n2⟩ := hn r.energy (by simp)
    have hp := eFac_pos b r.energy (hE r (by simp))
    generalize eFac b r.energy = q at hp
    refine ⟨by positivity, ?_⟩
    have : ∀ t : ℝ, t / (4 * Real.pi * d.phys ^ 2) / cEV * q = t * (q / (4 * Real.pi * d.phys ^ 2) / cEV) := by
      intro t; field_simp
    rw [this, this, ← sub_mul, abs_mul, abs_of_pos (by positivity : 0 < q / (4 * Real.pi * d.phys ^ 2) / cEV), ← mul_assoc]
    exact mul_le_mul_of_nonneg_right n2 (by positivity)

/-- **C133 (likelihood).** Data without upper limits, any radiative model, `flux` or `sed`, any distance: if the
luminosities predicted for two particle distributions differ by at most the fraction `η` at every energy of the data, the
log-likelihoods differ by at most `lnLChange`. -/
theorem C133_likelihood (em : Emitter) (sed : Bool) (pd pd' : PDist) (e : Qty (List ℝ)) (d : Qty ℝ) (data : VTable)
    (he : EnergiesOf e data) (hd : d.unit.dim = Dim.length) (h0 : d.phys ≠ 0) (hg : GoodData data)
    (hf : FluxLike data.fluxU.dim) (hul : ∀ r ∈ data.rows, r.ul = false) (S S' : ℝ → ℝ) (η : ℝ) (hη : 0 ≤ η)
    (hS : em.luminosity pd (data.rows.map (·.energy)) = .ok ((data.rows.map (·.energy)).map (fun x => fin (S x))))
    (hS' : em.luminosity pd' (data.rows.map (·.energy)) = .ok ((data.rows.map (·.energy)).map (fun x => fin (S' x))))
    (hn : ∀ x ∈ data.rows.map (·.energy), 0 ≤ S x ∧ |S' x - S x| ≤ η * S x) :
    ∃ v v' : ℝ, em.likelihood sed pd e d data = .ok (fin v) ∧ em.likelihood sed pd' e d data = .ok (fin v') ∧
      |v' - v| ≤ lnLChange η (rowModel ((data.rows.map (·.energy)).map S) d data) data.rows := by
  have hM : ∀ T : ℝ → ℝ, (rowModel ((data.rows.map (·.energy)).map T) d data).length = data.rows.length := by
    intro T; simp [rowModel]
  have hlik : ∀ (p : PDist) (T : ℝ → ℝ),
      em.luminosity p (data.rows.map (·.energy)) = .ok ((data.rows.map (·.energy)).map (fun x => fin (T x))) →
      em.likelihood sed p e d data =
        .ok (fin (gaussLnL (rowModel ((data.rows.map (·.energy)).map T) d data) data.rows)) := by
    intro p T hT
    rw [likelihood_eq em sed p e d data he hd h0 hg hf ((data.rows.map (·.energy)).map T) (by simp)
      (by rw [hT]; simp only [List.map_map]; rfl)]
    exact C40_gaussian _ data.fluxU data hg (hM T) rfl hul
  refine ⟨_, _, hlik pd S hS, hlik pd' S' hS', ?_⟩
  apply gaussLnL_near η hη data.rows hg.errLo hg.errHi _ _ (hM S)
  exact rowModel_near η S S' d data h0 hg.energy hn

/-- The rounding in numbers: up to twelve decades of particle energy it adds less than 10⁻⁸. -/
theorem C133_allowed (ε lo hi : ℝ) (he : 0 ≤ ε) (he1 : ε ≤ 1 / 2) (hlo : 0 < lo) (hle : lo ≤ hi)
    (hd : hi ≤ 10 ^ 12 * lo) : ε ≤ allowed ε lo hi ∧ allowed ε lo hi ≤ ε + 1e-8 := by
  have h1 := (allowed_low ε lo hi hlo hle he).1
  have hr : hi / lo ≤ 10 ^ 12 := by rw [div_le_iff₀ hlo]; exact hd
  have h0 : 0 < hi / lo := div_pos (hlo.trans_le hle) hlo
  have h2 : (hi / lo) ^ (2e-10 : ℝ) ≤ 1 + 6e-9 := by
    have hlog : Real.log (hi / lo) ≤ 12 * Real.log 10 := by
      have := Real.log_le_log h0 hr
      rw [Real.log_pow] at this
      exact_mod_cast this
    have h10 : Real.log 10 < 2.4 := by
      have : Real.log 10 = Real.log 2 + Real.log 5 := by rw [← Real.log_mul (by norm_num) (by norm_num)]; norm_num
      have h5 : Real.log 5 ≤ Real.log 5.0625 := Real.log_le_log (by norm_num) (by norm_num)
      have h6 : Real.log 5.0625 = 4 * Real.log 1.5 := by
        rw [show (5.0625 : ℝ) = 1.5 ^ 4 by norm_num, Real.log_pow]; norm_num
      have h7 : Real.log 1.5 ≤ 0.41 := by
        have : (2 : ℝ) * Real.log 1.5 + Real.log (8 / 9) = Real.log 2 := by
          rw [show (2 : ℝ) * Real.log 1.5 = Real.log (1.5 ^ 2) by rw [Real.log_pow]; norm_num,
            ← Real.log_mul (by norm_num) (by norm_num)]
          norm_num
        have h8 : -Real.log (8 / 9) ≤ 9 / 8 - 1 := by
          rw [← Real.log_inv]
          exact (Real.log_le_sub_one_of_pos (by norm_num)).trans (by norm_num)
        have := Real.log_two_lt_d9
        linarith
      have := Real.log_two_lt_d9
      linarith
    rw [Real.rpow_def_of_pos h0]
    have : Real.log (hi / lo) * 2e-10 ≤ 5.8e-9 := by
      have := mul_le_mul_of_nonneg_right hlog (by norm_num : (0 : ℝ) ≤ 2e-10)
      have := mul_le_mul_of_nonneg_right h10.le (by norm_num : (0 : ℝ) ≤ 2e-10)
      linarith
    refine (Real.exp_le_exp.2 this).trans ?_
    have := Real.abs_exp_sub_one_le (x := 5.8e-9) (by rw [abs_of_pos] <;> norm_num)
    have hb := Real.abs_exp_sub_one_sub_id_le (x := 5.8e-9) (by rw [abs_of_pos] <;> norm_num)
    have := (abs_le.1 hb).2
    norm_num at this ⊢
    linarith
  unfold allowed
  generalize (hi / lo) ^ (2e-10 : ℝ) = t at *
  constructor
  · nlinarith
  · nlinarith

/-- **C133 (fit of a synchrotron model).** A fit of field, amplitude, index, reference energy of a power law and
data without upper limits: when the parameters tend to `(B₀, A₀, α₀, E₀)`, the log-likelihood eventually differs from
that at the limit by at most `lnLChange` for any given fraction (and the rounding). -/
theorem C133_fit {ι : Type} {l : Filter ι} (m : SyncModel) (hlo : m.Eemin.PosEnergy)
    (hhi : m.Eemax.PosEnergy) (hle : m.Eemin.phys ≤ m.Eemax.phys) (B : ι → Qty ℝ)
    (hdB : ∀ i, (B i).unit.dim = Dim.magFluxDensity) (hp : ∀ i, 0 < (B i).phys)
    (hB : m.B.unit.dim = Dim.magFluxDensity) (hBp : 0 < m.B.phys)
    (hBt : Tendsto (fun i => (B i).phys) l (𝓝 m.B.phys)) (A α : ι → ℝ) (e0 : ι → Qty ℝ) (A₀ α₀ : ℝ) (e00 : Qty ℝ)
    (hA : Tendsto A l (𝓝 A₀)) (hα : Tendsto α l (𝓝 α₀)) (he0 : Tendsto (fun i => (e0 i).phys) l (𝓝 e00.phys))
    (hA0 : 0 < A₀) (h0 : ∀ i, (e0 i).PosEnergy) (h00 : e00.PosEnergy) (u : PhysUnit) (hu : u.dim = Dim.diffEnergy)
    (hus : 0 < u.scale) (sed : Bool) (e : Qty (List ℝ)) (d : Qty ℝ) (data : VTable)
    (he : EnergiesOf e data) (hd : d.unit.dim = Dim.length) (hd0 : d.phys ≠ 0) (hg : GoodData data)
    (hf : FluxLike data.fluxU.dim) (hul : ∀ r ∈ data.rows, r.ul = false) (ε : ℝ) (hε : 0 < ε) (hε1 : ε < 1) :
    ∀ᶠ i in l, ∃ v v' : ℝ, ∃ S : ℝ → ℝ,
      m.spectrum (PowerLaw.toPDist ⟨fin A₀, e00.lift, fin α₀⟩ u) (data.rows.map (·.energy)) =
        .ok ((data.rows.map (·.energy)).map (fun x => fin (S x))) ∧
      (Emitter.synchrotron m).likelihood sed (PowerLaw.toPDist ⟨fin A₀, e00.lift, fin α₀⟩ u) e d data = .ok (fin v) ∧
      (Emitter.synchrotron { m with B := B i }).likelihood sed
        (PowerLaw.toPDist ⟨fin (A i), (e0 i).lift, fin (α i)⟩ u) e d data = .ok (fin v') ∧
      |v' - v| ≤ lnLChange (allowed ε m.Eemin.phys m.Eemax.phys)
        (rowModel ((data.rows.map (·.energy)).map S) d data) data.rows := by
  have key := C133_synchrotron_parameters m hlo hhi hle B hdB hp hB hBp hBt
    (PowerLaw.toPDist ⟨fin A₀, e00.lift, fin α₀⟩ u) (fun i => PowerLaw.toPDist ⟨fin (A i), (e0 i).lift, fin (α i)⟩ u)
    (fun ε he he1 => C133_power_law A α e0 A₀ α₀ e00 hA hα he0 hA0 h0 h00 u hu hus _ _ hlo.phys_pos ε he he1)
    (data.rows.map (·.energy)) (by intro x hx; obtain ⟨r, hr, rfl⟩ := List.mem_map.1 hx; exact hg.energy r hr) ε hε hε1
  filter_upwards [key] with i ⟨S, S', h1, h2, h3⟩
  have hη : 0 ≤ allowed ε m.Eemin.phys m.Eemax.phys := by
    have := (allowed_low ε _ _ hlo.phys_pos hle hε.le).1
    unfold allowed
    nlinarith
  have hM : ∀ T : ℝ → ℝ, (rowModel ((data.rows.map (·.energy)).map T) d data).length = data.rows.length := by
    intro T; simp [rowModel]
  have hlik : ∀ (em : Emitter) (p : PDist) (T : ℝ → ℝ),
      em.luminosity p (data.rows.map (·.energy)) = .ok ((data.rows.map (·.energy)).map (fun x => fin (T x))) →
      em.likelihood sed p e d data =
        .ok (fin (gaussLnL (rowModel ((data.rows.map (·.energy)).map T) d data) data.rows)) := by
    intro em p T hT
    rw [likelihood_eq em sed p e d data he hd hd0 hg hf ((data.rows.map (·.energy)).map T) (by simp)
      (by rw [hT]; simp only [List.map_map]; rfl)]
    exact C40_gaussian _ data.fluxU data hg (hM T) rfl hul
  refine ⟨_, _, S, h1, hlik (.synchrotron m) _ S h1, hlik (.synchrotron { m with B := B i }) _ S' h2, ?_⟩
  apply gaussLnL_near _ hη data.rows hg.errLo hg.errHi _ _ (hM S)
  exact rowModel_near _ S S' d data hd0 hg.energy h3

/-! ### The hypotheses are met -/

/-- Amplitude, index and field all moving (with `t → 0`): 1 + t, 2.2 + t and 3.24 + t² μG; two SED points. -/
example : ∀ᶠ t : ℝ in 𝓝 0, ∃ v v' : ℝ, ∃ S : ℝ → ℝ,
    (⟨⟨⟨1, PhysUnit.GeV⟩, ⟨510, PhysUnit.TeV⟩, 100⟩, ⟨3.24e-6, gauss⟩⟩ : SyncModel).spectrum
        (PowerLaw.toPDist ⟨fin 1, (⟨1, PhysUnit.TeV⟩ : Qty ℝ).lift, fin 2.2⟩ ⟨1 / cEV, Dim.diffEnergy⟩) [1, 2] =
      .ok ([1, 2].map (fun x => fin (S x))) ∧
    (Emitter.synchrotron ⟨⟨⟨1, PhysUnit.GeV⟩, ⟨510, PhysUnit.TeV⟩, 100⟩, ⟨3.24e-6, gauss⟩⟩).likelihood true
        (PowerLaw.toPDist ⟨fin 1, (⟨1, PhysUnit.TeV⟩ : Qty ℝ).lift, fin 2.2⟩ ⟨1 / cEV, Dim.diffEnergy⟩)
        ⟨[1, 2], PhysUnit.erg⟩ ⟨2, ⟨3.0857e21, Dim.length⟩⟩
        { ulTable [normRow 2 1 1 1 false, normRow 5 1 2 2 false] with fluxU := ⟨1, Dim.flux⟩ } = .ok (fin v) ∧
    (Emitter.synchrotron ⟨⟨⟨1, PhysUnit.GeV⟩, ⟨510, PhysUnit.TeV⟩, 100⟩, ⟨3.24e-6 + t ^ 2, gauss⟩⟩).likelihood true
        (PowerLaw.toPDist ⟨fin (1 + t), (⟨1, PhysUnit.TeV⟩ : Qty ℝ).lift, fin (2.2 + t)⟩ ⟨1 / cEV, Dim.diffEnergy⟩)
        ⟨[1, 2], PhysUnit.erg⟩ ⟨2, ⟨3.0857e21, Dim.length⟩⟩
        { ulTable [normRow 2 1 1 1 false, normRow 5 1 2 2 false] with fluxU := ⟨1, Dim.flux⟩ } = .ok (fin v') ∧
    |v' - v| ≤ lnLChange (allowed 0.001 (⟨1, PhysUnit.GeV⟩ : Qty ℝ).phys (⟨510, PhysUnit.TeV⟩ : Qty ℝ).phys)
      (rowModel ([1, 2].map S) ⟨2, ⟨3.0857e21, Dim.length⟩⟩
        { ulTable [normRow 2 1 1 1 false, normRow 5 1 2 2 false] with fluxU := ⟨1, Dim.flux⟩ })
      [normRow 2 1 1 1 false, normRow 5 1 2 2 false] := by
  have := cEV_pos
  exact C133_fit ⟨⟨⟨1, PhysUnit.GeV⟩, ⟨510, PhysUnit.TeV⟩, 100⟩, ⟨3.24e-6, gauss⟩⟩
    ⟨rfl, GeV_pos, by norm_num⟩ ⟨rfl, by simp only [PhysUnit.TeV]; norm_num, by norm_num⟩
    (by simp only [Qty.phys, PhysUnit.GeV, PhysUnit.TeV]; norm_num)
    (fun t : ℝ => (⟨3.24e-6 + t ^ 2, gauss⟩ : Qty ℝ)) (fun _ => rfl)
    (fun t => by simp only [Qty.phys, gauss]; positivity) rfl (by simp only [Qty.phys, gauss]; norm_num)
    (by
      simp only [Qty.phys, gauss]
      have : ContinuousAt (fun t : ℝ => (3.24e-6 + t ^ 2) * 0.1) 0 := by fun_prop
      have h : Tendsto (fun t : ℝ => (3.24e-6 + t ^ 2) * 0.1) (𝓝 0) (𝓝 ((3.24e-6 + (0 : ℝ) ^ 2) * 0.1)) := this
      rw [show (3.24e-6 + (0 : ℝ) ^ 2) * 0.1 = 3.24e-6 * 0.1 by norm_num] at h
      exact h)
    (fun t => 1 + t) (fun t => 2.2 + t) (fun _ => ⟨1, PhysUnit.TeV⟩) 1 2.2 ⟨1, PhysUnit.TeV⟩
    (by
      have : ContinuousAt (fun t : ℝ => 1 + t) 0 := by fun_prop
      simpa [ContinuousAt] using this)
    (by
      have : ContinuousAt (fun t : ℝ => 2.2 + t) 0 := by fun_prop
      simpa [ContinuousAt] using this)
    tendsto_const_nhds one_pos
    (fun _ => ⟨rfl, by simp [PhysUnit.TeV]; positivity, by norm_num⟩) ⟨rfl, by simp [PhysUnit.TeV]; positivity, by norm_num⟩
    ⟨1 / cEV, Dim.diffEnergy⟩ rfl (by simp only; positivity) true
    ⟨[1, 2], PhysUnit.erg⟩ ⟨2, ⟨3.0857e21, Dim.length⟩⟩
    { ulTable [normRow 2 1 1 1 false, normRow 5 1 2 2 false] with fluxU := ⟨1, Dim.flux⟩ }
    ⟨rfl, by simp [PhysUnit.erg], by simp [PhysUnit.erg, ulTable, normRow]⟩ rfl
    (by simp only [Qty.phys]; norm_num) ⟨by simp [ulTable, normRow], by simp [ulTable, normRow], by simp [ulTable, normRow]⟩
    (Or.inl rfl) (by simp [ulTable, normRow]) 0.001 (by norm_num) (by norm_num)

end Naima.Props
