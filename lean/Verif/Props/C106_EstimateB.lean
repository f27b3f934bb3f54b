import Verif.Proof.TableSampling
import Verif.Props.C105_ICPower
import Verif.Props.C39_EstimateB

/-! # C106: `estimate_B` recovers the magnetic field of the emitter -/

namespace Naima.Props

open Naima XR Classical Topology MeasureTheory
open Filter (Tendsto atTop)

/-! ### Specification -/

/-- A table (sizes in cgs) of samples of the spectrum `f`, diluted by the same factor `D` at all energies (`1/4πd²` for fluxes, 1 for luminosities),
from the energy `lo` to the energy `hi` in steps of at most `δ`. -/
structure SampleOf (f : ℝ → ℝ) (D lo hi δ : ℝ) (v : VTable) : Prop where
  flux : ∀ r ∈ v.rows, r.flux = D * f r.energy
  first : (v.rows.map (·.energy)).head? = some lo
  last : (v.rows.map (·.energy)).getLast? = some hi
  steps : ∀ (i : ℕ) (r s : Row), v.rows[i]? = some r → v.rows[i + 1]? = some s → s.energy - r.energy ≤ δ

/-! ### Proof -/

/-- grids from `lo` to `hi` in small steps -/
def GridOf (lo hi δ : ℝ) (l : List ℝ) : Prop :=
  l.head? = some lo ∧ l.getLast? = some hi ∧ (∀ x ∈ l, x ∈ Set.Icc lo hi) ∧ Adj (fun x y => x ≤ y ∧ y - x ≤ δ) l

/-- the log-log sums over all wide and fine tables of samples of `f` are between `A` and `B` -/
def TableSums (f : ℝ → ℝ) (A B : ℝ) : Prop :=
  ∃ lo₀ > 0, ∃ hi₀, lo₀ < hi₀ ∧ ∀ lo hi, 0 < lo → lo ≤ lo₀ → hi₀ ≤ hi → ∃ δ > 0, ∀ l : List ℝ, GridOf lo hi δ l →
    A ≤ binSum rbin (l.map (fun x => (x, x * f x))) ∧ binSum rbin (l.map (fun x => (x, x * f x))) ≤ B

theorem tableSums_of (f g : ℝ → ℝ) (I A B Q : ℝ) (hQ : 0 < Q) (hf : IntegrableOn (fun e => e * f e) (Set.Ioi 0))
    (h0 : ∀ e > 0, 0 ≤ e * f e) (h1 : ∀ e > 0, g e ≤ 1.00001 * (e * f e)) (h2 : ∀ e > 0, e * f e ≤ 1.00001 * g e)
    (hg : ∀ lo hi, 0 < lo → lo ≤ hi → Spectrum g lo hi) (hI : I = ∫ e in Set.Ioi 0, e * f e)
    (hA : A + 0.0005 * Q ≤ 0.9999 * I) (hB : 1.0001 * I + 0.0005 * Q ≤ B) : TableSums f A B := by
  obtain ⟨lo₀, a1, hi₀, a2, h⟩ := table_limit (fun e => e * f e) g hf h0 h1 h2 hg (0.0005 * Q) (by positivity)
  refine ⟨lo₀, a1, hi₀, a2, fun lo hi b1 b2 b3 => ?_⟩
  obtain ⟨δ, hδ, h⟩ := h lo hi b1 b2 b3
  refine ⟨δ, hδ, fun l hl => ?_⟩
  obtain ⟨c1, c2⟩ := h l hl.1 hl.2.1 hl.2.2.1 hl.2.2.2
  rw [← hI] at c1 c2
  exact ⟨by linarith, by linarith⟩

theorem sync_value_grid (m : SyncModel) (pd : PDist) (hu : pd.unit.dim = Dim.diffEnergy)
    (hus : 0 < pd.unit.scale) (hlo : m.Eemin.PosEnergy) (hhi : m.Eemax.PosEnergy)
    (hle : m.Eemin.phys ≤ m.Eemax.phys) (hB : m.B.unit.dim = Dim.magFluxDensity) (hBp : 0 < m.B.phys)
    (p : ℝ → ℝ) (hp : ∀ E ∈ Set.Icc m.Eemin.phys m.Eemax.phys, pd.f E = fin (p E))
    (h0 : ∀ E ∈ Set.Icc m.Eemin.phys m.Eemax.phys, 0 ≤ p E) (gam : List ℝ)
    (hg : gamGrid m.nEed m.Eemin m.Eemax = .ok gam) (e : ℝ) (he : 0 < e) :
    m.spectrum pd [e] = .ok [fin (binSum rbin ((gam.map (· * cMec2)).map (fun x => (x, p x * pd.unit.scale *
      syncEmission cE cMe cC cHbar (m.B.phys / 0.1) (x / (cMe * cC ^ 2)) e))) * cEV)] := by
  have hm := cMec2_pos
  obtain ⟨gam2, hg2, hgp, hgs⟩ := gamGrid_facts m.nEed m.Eemin m.Eemax hlo hhi hle
  have hmem := gam_mem m.nEed m.Eemin m.Eemax hlo hhi hle gam hg
  have e0 : gam2 = gam := by rw [hg] at hg2; injection hg2 with h; exact h.symm
  subst e0
  obtain ⟨gam', hg', -, h⟩ := C70_documented m pd hu hlo hhi hle hB hBp [e] (by simpa using he)
  have : gam' = gam2 := by
    have h1 : m.toElModel.gam = .ok gam2 := hg
    rw [h1] at hg'; injection hg' with h'; exact h'.symm
  subst this
  rw [h]
  simp only [List.map_cons, List.map_nil]
  rw [← mul_fin _ cEV, ← trapz_binSum cMec2 hm gam' hgp hgs (fun x => p x * pd.unit.scale *
      syncEmission cE cMe cC cHbar (m.B.phys / 0.1) (x / (cMe * cC ^ 2)) e)]
  · congr 4
    apply List.map_congr_left
    intro g hgm
    have e2 : g * cMec2 / (cMe * cC ^ 2) = g := by
      show g * cMec2 / cMec2 = g; field_simp
    rw [e2]
    show (fin g, pd.f (g * cMec2) * fin (pd.unit.scale * cMec2) * _) = _
    rw [hp _ (hmem g hgm), mul_fin, mul_fin]
    congr 2
    ring
  · intro g hgm
    exact mul_nonneg (mul_nonneg (h0 _ (hmem g hgm)) hus.le)
      ((sync_kernel_spectrum m.Eemin.phys m.Eemax.phys (m.B.phys / 0.1) e hlo.phys_pos (by positivity)
        he).nonneg _ (hmem g hgm))

theorem sync_in_e (B γ : ℝ) (hB : 0 < B) (hγ : 0 < γ) (lo hi : ℝ) (h0 : 0 < lo) :
    Spectrum (fun e => syncEmission cE cMe cC cHbar B γ e) lo hi := by
  have := cE_pos; have := cHbar_pos; have := cMe_pos; have := cC_pos
  have hc : 0 < critEnergy cE cMe cC cHbar B γ := by unfold critEnergy; positivity
  apply Spectrum.of_continuous
  · intro e he
    have he0 : 0 < e := h0.trans_le he.1
    have := gAKP_nonneg _ (div_pos he0 hc)
    unfold syncEmission
    positivity
  · unfold syncEmission
    refine ContinuousOn.mul ?_ (gAKP_continuousOn.comp (by fun_prop) (fun e he => div_pos (h0.trans_le he.1) hc))
    refine ContinuousOn.div continuousOn_const (by fun_prop) ?_
    intro e he
    have he0 : 0 < e := h0.trans_le he.1
    positivity

theorem thermal_in_e (T γ c : ℝ) (hT : 0 < T) (hγ : 0 < γ) (hc : 0 < c) (lo hi : ℝ) (h0 : 0 < lo) :
    Spectrum (fun e => thermalRate T none γ (e / c)) lo hi := by
  refine ⟨fun e he => thermalRate_nonneg T γ _ hT (div_pos (h0.trans_le he.1) hc), ?_, {c * γ}, ?_⟩
  · refine ⟨(Spec.thermalNorm * (1.6863699549e-10 * T) ^ 2 * (8 * (1.6863699549e-10 * T) * γ ^ 2 + 3 * γ)) / (lo / c), fun e he => ?_⟩
    have he0 : 0 < e / c := div_pos (h0.trans_le he.1) hc
    have h1 := thermalRate_bound T γ γ (e / c) hT he0 le_rfl hγ
    have hn : 0 < Spec.thermalNorm := by unfold Spec.thermalNorm; norm_num
    have h2 : e / c * thermalRate T none γ (e / c) ≤
        Spec.thermalNorm * (1.6863699549e-10 * T) ^ 2 * (8 * (1.6863699549e-10 * T) * γ ^ 2 + 3 * γ) := by
      refine h1.trans ?_
      split
      · exact le_rfl
      · positivity
    rw [le_div_iff₀ (div_pos h0 hc)]
    refine le_trans ?_ h2
    rw [mul_comm]
    exact mul_le_mul_of_nonneg_right (div_le_div_of_nonneg_right he.1 hc.le) (thermalRate_nonneg T γ _ hT he0)
  · intro e he
    have he0 : 0 < e := h0.trans_le he.1.1
    have hne : e / c ≠ γ := by
      intro h
      apply he.2
      simp only [Finset.coe_singleton, Set.mem_singleton_iff]
      rw [← h]; field_simp
    apply ContinuousAt.continuousWithinAt
    have hdiv : ContinuousAt (fun e : ℝ => e / c) e := by fun_prop
    rcases lt_or_gt_of_ne hne with h | h
    · by_cases h1 : 1 < γ
      · have hev : (fun e => thermalRate T none γ (e / c)) =ᶠ[𝓝 e] fun e => Spec.isoThermal γ (1.6863699549e-10 * T) (e / c) := by
          filter_upwards [hdiv.eventually_lt continuousAt_const h] with x hx
          unfold thermalRate
          rw [if_pos ⟨hx, h1⟩]
        rw [continuousAt_congr hev]
        have hw : e / c / γ < 1 := by rw [div_lt_one hγ]; exact h
        have hw0 : 0 < e / c / γ := by positivity
        have ht : (0:ℝ) < 1.6863699549e-10 * T := by positivity
        have hF : ∀ a b c d k : ℝ, 0 < a → 0 < b → 0 < c → 0 ≤ d → 0 < k → ∀ x > 0, ContinuousAt (fun x => Spec.F34 a b c d k x) x := by
          intro a b c d k ha hb hc hd hk x hx
          have hpi := Real.pi_pos
          have hxa : 0 < x ^ a := Real.rpow_pos_of_pos hx a
          have hxc : 0 < x ^ c := Real.rpow_pos_of_pos hx c
          unfold Spec.F34 Spec.gFactor
          have e1 : ContinuousAt (fun x : ℝ => x ^ a) x := Real.continuousAt_rpow_const _ _ (Or.inl hx.ne')
          have e2 : ContinuousAt (fun x : ℝ => x ^ c) x := Real.continuousAt_rpow_const _ _ (Or.inl hx.ne')
          have n1 : 1 + d * x ^ c ≠ 0 := by positivity
          have n2 : 1 + b * x ^ a / (1 + d * x ^ c) ≠ 0 := by positivity
          have n3 : 1 + Real.pi ^ 2 * k / 6 * x ≠ 0 := by positivity
          fun_prop (disch := assumption)
        have hden : (1 - e / c / γ) * (4 * γ * (1.6863699549e-10 * T)) ≠ 0 := by
          have : 0 < 1 - e / c / γ := by linarith
          positivity
        have hx0 : 0 < e / c / γ / ((1 - e / c / γ) * (4 * γ * (1.6863699549e-10 * T))) := by
          have : 0 < 1 - e / c / γ := by linarith
          positivity
        have hin : ContinuousAt (fun e : ℝ => e / c / γ / ((1 - e / c / γ) * (4 * γ * (1.6863699549e-10 * T)))) e := by
          fun_prop (disch := assumption)
        have c3 := (hF 0.606 0.443 1.481 0.540 0.319 (by norm_num) (by norm_num) (by norm_num) (by norm_num) (by norm_num) _ hx0).comp
          (f := fun e : ℝ => e / c / γ / ((1 - e / c / γ) * (4 * γ * (1.6863699549e-10 * T)))) hin
        have c4 := (hF 0.461 0.726 1.457 0.382 6.620 (by norm_num) (by norm_num) (by norm_num) (by norm_num) (by norm_num) _ hx0).comp
          (f := fun e : ℝ => e / c / γ / ((1 - e / c / γ) * (4 * γ * (1.6863699549e-10 * T)))) hin
        have n4 : 2 * (1 - e / c / γ) ≠ 0 := by
          have : 0 < 1 - e / c / γ := by linarith
          positivity
        unfold Spec.isoThermal
        refine ContinuousAt.mul continuousAt_const (ContinuousAt.add (ContinuousAt.mul ?_ c3) c4)
        fun_prop (disch := assumption)
      · have hev : (fun e => thermalRate T none γ (e / c)) =ᶠ[𝓝 e] fun _ => 0 := by
          filter_upwards with x
          unfold thermalRate
          rw [if_neg (fun h => h1 h.2)]
        rw [continuousAt_congr hev]; exact continuousAt_const
    · have hev : (fun e => thermalRate T none γ (e / c)) =ᶠ[𝓝 e] fun _ => 0 := by
        filter_upwards [continuousAt_const.eventually_lt hdiv h] with x hx
        unfold thermalRate
        rw [if_neg (fun h => (lt_asymm hx h.1))]
      rw [continuousAt_congr hev]; exact continuousAt_const

/-- tables of samples of the synchrotron spectrum -/
theorem sync_table (m : SyncModel) (pd : PDist) (hu : pd.unit.dim = Dim.diffEnergy)
    (hus : 0 < pd.unit.scale) (hlo : m.Eemin.PosEnergy) (hhi : m.Eemax.PosEnergy)
    (hlt : m.Eemin.phys < m.Eemax.phys) (hB : m.B.unit.dim = Dim.magFluxDensity) (hBp : 0 < m.B.phys)
    (p : ℝ → ℝ) (hp : ∀ E ∈ Set.Icc m.Eemin.phys m.Eemax.phys, pd.f E = fin (p E))
    (hs : Spectrum p m.Eemin.phys m.Eemax.phys) (h30 : 30 * (cMe * cC ^ 2) ≤ m.Eemin.phys) (Q : ℝ)
    (hQ : Q = ∫ E in m.Eemin.phys..m.Eemax.phys,
      p E * pd.unit.scale * lossRate cE cMe cC (m.B.phys / 0.1) (E / (cMe * cC ^ 2))) (hQ0 : 0 < Q) :
    ∃ n₀ : ℝ, ∀ n ≥ n₀, ∃ L : ℝ → ℝ,
      (∀ e > 0, ({ m with nEed := n } : SyncModel).spectrum pd [e] = .ok [fin (L e)]) ∧ (∀ e > 0, 0 ≤ L e) ∧
      TableSums (fun e => L e / cEV) (0.988 * Q) (1.012 * Q) := by
  have hm := cMec2_pos
  have hev := cEV_pos
  obtain ⟨L, hL, hint, T, hT, hTQ⟩ := C104_total_power m pd hu hus hlo hhi hlt hB hBp p hp hs h30
  rw [← hQ] at hTQ
  obtain ⟨n₁, hn₁⟩ := electron_steps m.Eemin m.Eemax hlo hhi hlt
  have hevn := (Metric.tendsto_nhds.1 hT) (0.0005 * Q) (by positivity)
  obtain ⟨n₂, hn₂⟩ := Filter.eventually_atTop.1 hevn
  refine ⟨max n₁ n₂, fun n hn => ⟨L n, hL n, ?_⟩⟩
  have hd := hn₂ n ((le_max_right _ _).trans hn)
  rw [Real.dist_eq] at hd
  obtain ⟨gam, hg, hgp, hgs⟩ := gamGrid_facts n m.Eemin m.Eemax hlo hhi hlt.le
  have hst := hn₁ n ((le_max_left _ _).trans hn) gam hg
  have hmem := gam_mem n m.Eemin m.Eemax hlo hhi hlt.le gam hg
  have hval : ∀ e > 0, L n e = binSum rbin ((gam.map (· * cMec2)).map (fun x => (x, p x * pd.unit.scale *
      syncEmission cE cMe cC cHbar (m.B.phys / 0.1) (x / (cMe * cC ^ 2)) e))) * cEV := by
    intro e he
    have h1 := hL n e he
    rw [sync_value_grid { m with nEed := n } pd hu hus hlo hhi hlt.le hB hBp p hp hs.nonneg gam hg e he] at h1
    injection h1 with h1
    injection h1 with h1
    injection h1 with h1
    exact h1.symm
  have hpos : ∀ x ∈ gam.map (· * cMec2), 0 < x := by
    intro x hx
    obtain ⟨g, hgm, rfl⟩ := List.mem_map.1 hx
    exact mul_pos (hgp g hgm) hm
  have hsort : (gam.map (· * cMec2)).Pairwise (· ≤ ·) :=
    List.Pairwise.map _ (fun a b h => mul_le_mul_of_nonneg_right h hm.le) hgs
  have hN : ∀ x ∈ gam.map (· * cMec2), 0 ≤ p x * pd.unit.scale := by
    intro x hx
    obtain ⟨g, hgm, rfl⟩ := List.mem_map.1 hx
    exact mul_nonneg (hs.nonneg _ (hmem g hgm)) hus.le
  obtain ⟨g, g1, g2, g3⟩ := smooth_spectrum (gam.map (· * cMec2)) hpos hsort hst 1 zero_le_one
    (fun x => p x * pd.unit.scale)
    (fun x e => syncEmission cE cMe cC cHbar (m.B.phys / 0.1) (x / (cMe * cC ^ 2)) e) hN
    (fun x hx lo hi h0 _ => sync_in_e _ _ (by positivity) (div_pos (hpos x hx) hm) lo hi h0)
  have hfe : ∀ e > 0, e * (L n e / cEV) = e * (1 * binSum rbin ((gam.map (· * cMec2)).map (fun x => (x, p x * pd.unit.scale *
      syncEmission cE cMe cC cHbar (m.B.phys / 0.1) (x / (cMe * cC ^ 2)) e)))) := by
    intro e he
    rw [hval e he, one_mul, mul_div_assoc, div_self hev.ne', mul_one]
  have h0 : ∀ e > 0, 0 ≤ e * (L n e / cEV) := by
    intro e he
    rw [hfe e he]
    by_contra hc
    push Not at hc
    have a := g1 e he
    have b := g2 e he
    have c := (g3 e e he le_rfl).nonneg e ⟨le_rfl, le_rfl⟩
    generalize e * (1 * binSum rbin _) = X at *
    linarith
  refine ⟨fun e he => ?_, ?_⟩
  · have := h0 e he
    have h2 : L n e = (e * (L n e / cEV)) * cEV / e := by field_simp
    rw [h2]; positivity
  · refine tableSums_of (fun e => L n e / cEV) g _ _ _ Q hQ0 (hint n) h0 (fun e he => ?_) (fun e he => ?_) g3 rfl ?_ ?_
    · rw [hfe e he]; exact g1 e he
    · rw [hfe e he]; exact g2 e he
    · rw [abs_le] at hTQ; rw [abs_lt] at hd
      generalize (∫ e in Set.Ioi 0, e * (L n e / cEV)) = I at *
      linarith [hTQ.1, hd.1]
    · rw [abs_le] at hTQ; rw [abs_lt] at hd
      generalize (∫ e in Set.Ioi 0, e * (L n e / cEV)) = I at *
      linarith [hTQ.2, hd.2]

/-- tables of samples of the inverse Compton spectrum -/
theorem ic_table (m : ElModel) (pd : PDist) (hu : pd.unit.dim = Dim.diffEnergy)
    (hus : 0 < pd.unit.scale) (hlo : m.Eemin.PosEnergy) (hhi : m.Eemax.PosEnergy)
    (hlt : m.Eemin.phys < m.Eemax.phys) (T dens : ℝ) (hT : 0 < T) (hd : 0 < dens)
    (p : ℝ → ℝ) (hp : ∀ E ∈ Set.Icc m.Eemin.phys m.Eemax.phys, pd.f E = fin (p E))
    (hs : Spectrum p m.Eemin.phys m.Eemax.phys) (h30 : 30 * (cMe * cC ^ 2) ≤ m.Eemin.phys) (κ Q : ℝ)
    (hκ : 60 * (m.Eemax.phys / (cMe * cC ^ 2)) * (kBoltzmann * T / (cMe * cC ^ 2)) ≤ κ)
    (hQ : Q = ∫ E in m.Eemin.phys..m.Eemax.phys,
      p E * pd.unit.scale * thomsonLoss cE cMe cC dens (E / (cMe * cC ^ 2))) (hQ0 : 0 < Q) :
    ∃ n₀ : ℝ, ∀ n ≥ n₀, ∃ L : ℝ → ℝ,
      (∀ e > 0, icSpectrum { m with nEed := n } [.thermal T dens none] pd [e] = .ok [fin (L e)]) ∧ (∀ e > 0, 0 ≤ L e) ∧
      TableSums (fun e => L e / cEV) ((0.988 - κ) * Q) (1.012 * Q) := by
  have hm := cMec2_pos
  have hm' : 0 < cMe * cC ^ 2 := cMec2_pos
  have hev := cEV_pos
  have hcS : 0 < cSigma := by unfold cSigma; norm_num
  have hcC := cC_pos
  have hk : 0 < kBoltzmann := by unfold kBoltzmann; norm_num
  obtain ⟨L, hL, hint, P, hP, hP1, hP2⟩ := C105_total_power m pd hu hus hlo hhi hlt T dens hT hd p hp hs h30
  rw [← hQ] at hP2
  have hthnn : ∀ E ∈ Set.Icc m.Eemin.phys m.Eemax.phys, 0 ≤ thomsonLoss cE cMe cC dens (E / (cMe * cC ^ 2)) := by
    intro E hE
    have h1 : 1 < E / (cMe * cC ^ 2) := by
      rw [lt_div_iff₀ hm']
      have := hE.1
      linarith
    exact (thomsonLoss_pos _ _ hd h1).le
  have hths : Spectrum (fun E => thomsonLoss cE cMe cC dens (E / (cMe * cC ^ 2))) m.Eemin.phys m.Eemax.phys := by
    apply Spectrum.of_continuous hthnn
    unfold thomsonLoss
    fun_prop
  have hN : Spectrum (fun E => p E * pd.unit.scale) m.Eemin.phys m.Eemax.phys :=
    hs.mul (Spectrum.of_continuous (fun _ _ => hus.le) continuousOn_const)
  have hPl : (0.99 - κ) * Q ≤ P := by
    refine le_trans ?_ hP1
    rw [hQ, ← intervalIntegral.integral_const_mul]
    apply intervalIntegral.integral_mono_on hlt.le
    · exact (hN.mul hths).integrable hlt.le |>.const_mul _
    · have hi1 := (hN.mul hths).integrable hlt.le
      have := hi1.mul_continuousOn (g := fun E => (0.99 - 60 * (E / (cMe * cC ^ 2)) * (kBoltzmann * T / (cMe * cC ^ 2)))) (by fun_prop)
      refine this.congr ?_
      intro E _
      simp only
      ring
    · intro E hE
      have a1 := hN.nonneg E hE
      have a2 := hthnn E hE
      have a3 : 60 * (E / (cMe * cC ^ 2)) * (kBoltzmann * T / (cMe * cC ^ 2)) ≤ κ := by
        refine le_trans ?_ hκ
        have : E / (cMe * cC ^ 2) ≤ m.Eemax.phys / (cMe * cC ^ 2) := div_le_div_of_nonneg_right hE.2 hm'.le
        gcongr
      have a4 : 0 ≤ (p E * pd.unit.scale) * thomsonLoss cE cMe cC dens (E / (cMe * cC ^ 2)) := mul_nonneg a1 a2
      generalize thomsonLoss cE cMe cC dens (E / (cMe * cC ^ 2)) = t at *
      generalize p E * pd.unit.scale = q at *
      generalize 60 * (E / (cMe * cC ^ 2)) * (kBoltzmann * T / (cMe * cC ^ 2)) = z at *
      nlinarith
  obtain ⟨n₁, hn₁⟩ := electron_steps m.Eemin m.Eemax hlo hhi hlt
  have hevn := (Metric.tendsto_nhds.1 hP) (0.0005 * Q) (by positivity)
  obtain ⟨n₂, hn₂⟩ := Filter.eventually_atTop.1 hevn
  refine ⟨max n₁ n₂, fun n hn => ⟨L n, hL n, ?_⟩⟩
  have hd' := hn₂ n ((le_max_right _ _).trans hn)
  rw [Real.dist_eq] at hd'
  obtain ⟨gam, hg, hgp, hgs⟩ := gamGrid_facts n m.Eemin m.Eemax hlo hhi hlt.le
  have hst := hn₁ n ((le_max_left _ _).trans hn) gam hg
  have hmem := gam_mem n m.Eemin m.Eemax hlo hhi hlt.le gam hg
  set c := dens / (4 * cSigma / cC * T ^ 4) / (cMe * cC ^ 2) with hc
  have hc0 : 0 ≤ c := by rw [hc]; positivity
  have hval : ∀ e > 0, L n e = c * binSum rbin ((gam.map (· * cMec2)).map (fun x => (x, p x * pd.unit.scale *
        thermalRate T none (x / (cMe * cC ^ 2)) (e / (cMe * cC ^ 2))))) * cEV := by
    intro e he
    have h1 := hL n e he
    rw [ic_value { m with nEed := n } pd hu hus hlo hhi hlt T dens hT p hp hs.nonneg gam hg e he] at h1
    injection h1 with h1
    injection h1 with h1
    injection h1 with h1
    rw [← h1, hc]
    ring
  have hpos : ∀ x ∈ gam.map (· * cMec2), 0 < x := by
    intro x hx
    obtain ⟨g, hgm, rfl⟩ := List.mem_map.1 hx
    exact mul_pos (hgp g hgm) hm
  have hsort : (gam.map (· * cMec2)).Pairwise (· ≤ ·) :=
    List.Pairwise.map _ (fun a b h => mul_le_mul_of_nonneg_right h hm.le) hgs
  have hNn : ∀ x ∈ gam.map (· * cMec2), 0 ≤ p x * pd.unit.scale := by
    intro x hx
    obtain ⟨g, hgm, rfl⟩ := List.mem_map.1 hx
    exact mul_nonneg (hs.nonneg _ (hmem g hgm)) hus.le
  obtain ⟨g, g1, g2, g3⟩ := smooth_spectrum (gam.map (· * cMec2)) hpos hsort hst c hc0
    (fun x => p x * pd.unit.scale)
    (fun x e => thermalRate T none (x / (cMe * cC ^ 2)) (e / (cMe * cC ^ 2))) hNn
    (fun x hx lo hi h0 _ => thermal_in_e T _ _ hT (div_pos (hpos x hx) hm) hm' lo hi h0)
  have hfe : ∀ e > 0, e * (L n e / cEV) = e * (c * binSum rbin ((gam.map (· * cMec2)).map (fun x => (x, p x * pd.unit.scale *
      thermalRate T none (x / (cMe * cC ^ 2)) (e / (cMe * cC ^ 2)))))) := by
    intro e he
    rw [hval e he, mul_div_assoc, div_self hev.ne', mul_one]
  have h0 : ∀ e > 0, 0 ≤ e * (L n e / cEV) := by
    intro e he
    rw [hfe e he]
    by_contra hc
    push Not at hc
    have a := g1 e he
    have b := g2 e he
    have c := (g3 e e he le_rfl).nonneg e ⟨le_rfl, le_rfl⟩
    generalize e * (_ * binSum rbin _) = X at *
    linarith
  refine ⟨fun e he => ?_, ?_⟩
  · have := h0 e he
    have h2 : L n e = (e * (L n e / cEV)) * cEV / e := by field_simp
    rw [h2]; positivity
  · refine tableSums_of (fun e => L n e / cEV) g _ _ _ Q hQ0 (hint n) h0 (fun e he => ?_) (fun e he => ?_) g3 rfl ?_ ?_
    · rw [hfe e he]; exact g1 e he
    · rw [hfe e he]; exact g2 e he
    · rw [abs_lt] at hd'
      have hκ0 : 0 ≤ κ := le_trans (by have := hhi.phys_pos; positivity) hκ
      have := mul_nonneg hκ0 hQ0.le
      generalize (∫ e in Set.Ioi 0, e * (L n e / cEV)) = I at *
      linarith [hd'.1]
    · rw [abs_lt] at hd'
      generalize (∫ e in Set.Ioi 0, e * (L n e / cEV)) = I at *
      linarith [hd'.2]

/-- the energy flux of a table of samples -/
theorem sample_sum (f : ℝ → ℝ) (hf : ∀ e > 0, 0 ≤ f e) (D lo hi δ : ℝ) (hD : 0 < D) (hlo : 0 < lo) (v : VTable)
    (h : SampleOf f D lo hi δ v) (hs : v.rows.Pairwise (fun a b => a.energy ≤ b.energy)) :
    ∃ l : List ℝ, GridOf lo hi δ l ∧ energyFlux v = fin (D * binSum rbin (l.map (fun x => (x, x * f x)))) := by
  have hsl : (v.rows.map (·.energy)).Pairwise (· ≤ ·) := by
    rw [List.pairwise_map]; exact hs
  have hlow : ∀ x ∈ v.rows.map (·.energy), lo ≤ x := by
    have h1 := h.first
    revert h1 hsl
    generalize v.rows.map (·.energy) = l
    intro hsl h1 x hx
    cases l with
    | nil => simp at hx
    | cons a l =>
      simp only [List.head?_cons, Option.some.injEq] at h1
      subst h1
      rcases List.mem_cons.1 hx with rfl | hx
      · exact le_rfl
      · exact List.rel_of_pairwise_cons hsl hx
  have hup : ∀ x ∈ v.rows.map (·.energy), x ≤ hi := by
    have h1 := h.last
    revert h1 hsl
    generalize v.rows.map (·.energy) = l
    intro hsl h1 x hx
    obtain ⟨l', rfl⟩ := List.getLast?_eq_some_iff.1 h1
    rw [List.pairwise_append] at hsl
    rcases List.mem_append.1 hx with hx | hx
    · exact hsl.2.2 x hx hi (by simp)
    · simp only [List.mem_singleton] at hx; exact hx.le
  refine ⟨v.rows.map (·.energy), ⟨h.first, h.last, fun x hx => ⟨hlow x hx, hup x hx⟩, ?_⟩, ?_⟩
  · apply Adj_of_get
    intro i a b ha hb
    rw [List.getElem?_map, Option.map_eq_some_iff] at ha hb
    obtain ⟨r, hr, rfl⟩ := ha
    obtain ⟨s, hs', rfl⟩ := hb
    refine ⟨?_, h.steps i r s hr hs'⟩
    obtain ⟨i1, e1⟩ := List.getElem?_eq_some_iff.1 hr
    obtain ⟨i2, e2⟩ := List.getElem?_eq_some_iff.1 hs'
    rw [← e1, ← e2]
    exact List.pairwise_iff_getElem.1 hs i (i + 1) i1 i2 (by omega)
  · have hpos : ∀ x ∈ v.rows.map (·.energy), 0 < x := fun x hx => hlo.trans_le (hlow x hx)
    rw [← binSum_rbin_scale D hD _ (fun x => x * f x) hpos hsl
      (fun x hx => mul_nonneg (hpos x hx).le (hf x (hpos x hx)))]
    unfold energyFlux
    have e := trapzLL_rbin ((v.rows.map (·.energy)).map (fun x => (x, D * (x * f x))))
      (by intro q hq; obtain ⟨x, hx, rfl⟩ := List.mem_map.1 hq; exact hpos x hx)
      (by
        intro q hq; obtain ⟨x, hx, rfl⟩ := List.mem_map.1 hq
        exact mul_nonneg hD.le (mul_nonneg (hpos x hx).le (hf x (hpos x hx))))
      (by simpa [List.map_map, Function.comp_def] using hsl)
    rw [← e]
    simp only [List.map_map, Function.comp_def]
    congr 1
    apply List.map_congr_left
    intro r hr
    rw [h.flux r hr]
    congr 2
    ring

theorem field_bounds (B R κ : ℝ) (hB0 : 0 < B) (hκ0 : 0 ≤ κ) (hκ1 : κ ≤ 1 / 2) (v1 : 0.988 * B ^ 2 ≤ 1.012 * R)
    (v2 : (0.988 - κ) * R ≤ 1.012 * B ^ 2) :
    |Real.sqrt R * 1000000 - 1000000 * B| ≤ (0.02 + κ) * (1000000 * B) := by
  have hB2 : 0 < B ^ 2 := by positivity
  have w1 : 0.98 * B ≤ Real.sqrt R := by
    apply Real.le_sqrt_of_sq_le
    rw [mul_pow]
    norm_num at *
    linarith
  have w2 : Real.sqrt R ≤ (1.02 + κ) * B := by
    rw [Real.sqrt_le_left (by positivity)]
    have hz : 1.012 ≤ (0.988 - κ) * (1.02 + κ) ^ 2 := by
      nlinarith [mul_nonneg hκ0 (sub_nonneg.2 hκ1), mul_nonneg hκ0 (mul_nonneg hκ0 (sub_nonneg.2 hκ1))]
    have hz2 : 0 < 0.988 - κ := by linarith
    have : (0.988 - κ) * R ≤ (0.988 - κ) * ((1.02 + κ) * B) ^ 2 := by
      refine v2.trans ?_
      rw [mul_pow, ← mul_assoc]
      exact mul_le_mul_of_nonneg_right hz hB2.le
    exact le_of_mul_le_mul_left this hz2
  have := mul_nonneg hκ0 hB0.le
  rw [abs_le]
  constructor
  · linarith
  · linarith

/-- **C106 (recovering the field).** The same electrons — any spectrum on a range starting at 30 electron rest energies or
above — radiate synchrotron emission in the field `B` and scatter an isotropic gray-body field of temperature `T` and energy
density `dens`; `κ` bounds 60 `γ kT/mc²`. If both spectra, computed on fine enough electron grids and seen from the
same distance, are given to `estimate_B` as tables that cover a wide enough range of energies in small enough steps, together
with the energy density of the photon field, then it returns (in µG) the field `B` to within 2 % and `κ`. -/
theorem C106_recovers (sort : List Row → List Row) (hsort : IsEnergySort sort) (m : SyncModel) (pd : PDist)
    (hu : pd.unit.dim = Dim.diffEnergy) (hus : 0 < pd.unit.scale) (hlo : m.Eemin.PosEnergy) (hhi : m.Eemax.PosEnergy)
    (hlt : m.Eemin.phys < m.Eemax.phys) (hB : m.B.unit.dim = Dim.magFluxDensity) (hBp : 0 < m.B.phys)
    (p : ℝ → ℝ) (hp : ∀ E ∈ Set.Icc m.Eemin.phys m.Eemax.phys, pd.f E = fin (p E))
    (hs : Spectrum p m.Eemin.phys m.Eemax.phys) (hp0 : 0 < ∫ E in m.Eemin.phys..m.Eemax.phys, p E)
    (h30 : 30 * (cMe * cC ^ 2) ≤ m.Eemin.phys) (T dens κ : ℝ) (hT : 0 < T) (hd : 0 < dens)
    (hκ : 60 * (m.Eemax.phys / (cMe * cC ^ 2)) * (kBoltzmann * T / (cMe * cC ^ 2)) ≤ κ) (hκ1 : κ ≤ 1 / 2)
    (uph : Qty ℝ) (hud : uph.unit.dim = Dim.pressure) (hup : uph.phys = dens) :
    ∃ n₀ : ℝ, ∀ n ≥ n₀, ∀ n' ≥ n₀, ∃ Lsyn Lic : ℝ → ℝ,
      (∀ e > 0, ({ m with nEed := n } : SyncModel).spectrum pd [e] = .ok [fin (Lsyn e)]) ∧
      (∀ e > 0, icSpectrum { m.toElModel with nEed := n' } [.thermal T dens none] pd [e] = .ok [fin (Lic e)]) ∧
      ∃ lo₀ > 0, ∃ hi₀ > lo₀, ∀ lo hi lo' hi', 0 < lo → lo ≤ lo₀ → hi₀ ≤ hi → 0 < lo' → lo' ≤ lo₀ → hi₀ ≤ hi' →
        ∃ δ > 0, ∀ D > 0, ∀ (xray vhe : List InTable) (x v : VTable),
          validateDataTable sort xray (some false) = .ok x → validateDataTable sort vhe (some false) = .ok v →
          SameKind x v → 0 < x.energyU.scale → 0 < v.energyU.scale →
          SampleOf (fun e => Lsyn e / cEV) D lo hi δ x → SampleOf (fun e => Lic e / cEV) D lo' hi' δ v →
          ∃ Best, estimateB sort xray vhe uph = .ok (fin Best) ∧
            |Best - 1000000 * (m.B.phys / 0.1)| ≤ (0.02 + κ) * (1000000 * (m.B.phys / 0.1)) := by
  have hm : 0 < cMe * cC ^ 2 := cMec2_pos
  have hev := cEV_pos
  have hpi := Real.pi_pos
  set B := m.B.phys / 0.1 with hBdef
  have hB0 : 0 < B := by rw [hBdef]; positivity
  set k := 4 / 3 * thomsonCgs cE cMe cC * cC with hk
  have hk0 : 0 < k := by
    have := cE_pos; have := cMe_pos; have := cC_pos
    rw [hk]; unfold thomsonCgs; positivity
  set I2 := ∫ E in m.Eemin.phys..m.Eemax.phys, p E * pd.unit.scale * ((E / (cMe * cC ^ 2)) ^ 2 - 1) with hI2
  have hI20 : 0 < I2 := by
    have h1 : 0 < ∫ E in m.Eemin.phys..m.Eemax.phys, pd.unit.scale * p E := by
      rw [intervalIntegral.integral_const_mul]; positivity
    refine h1.trans_le ?_
    apply intervalIntegral.integral_mono_on hlt.le
    · exact (hs.integrable hlt.le).const_mul _
    · exact ((hs.integrable hlt.le).mul_const _).mul_continuousOn (by fun_prop)
    · intro E hE
      have h2 : 30 ≤ E / (cMe * cC ^ 2) := by
        rw [le_div_iff₀ hm]; linarith [hE.1]
      have h3 : 0 ≤ p E * pd.unit.scale := mul_nonneg (hs.nonneg E hE) hus.le
      have h4 : 1 ≤ (E / (cMe * cC ^ 2)) ^ 2 - 1 := by nlinarith
      rw [mul_comm pd.unit.scale]
      exact le_mul_of_one_le_right h3 h4
  have hQs : k * (B ^ 2 / (8 * Real.pi)) * I2 = ∫ E in m.Eemin.phys..m.Eemax.phys,
      p E * pd.unit.scale * lossRate cE cMe cC (m.B.phys / 0.1) (E / (cMe * cC ^ 2)) := by
    rw [hI2, ← intervalIntegral.integral_const_mul]
    apply intervalIntegral.integral_congr
    intro E _
    simp only
    unfold lossRate
    rw [hk, hBdef]
    ring
  have hQi : k * dens * I2 = ∫ E in m.Eemin.phys..m.Eemax.phys,
      p E * pd.unit.scale * thomsonLoss cE cMe cC dens (E / (cMe * cC ^ 2)) := by
    rw [hI2, ← intervalIntegral.integral_const_mul]
    apply intervalIntegral.integral_congr
    intro E _
    simp only
    unfold thomsonLoss
    rw [hk]
    ring
  obtain ⟨n₁, a1⟩ := sync_table m pd hu hus hlo hhi hlt hB hBp p hp hs h30 _ hQs (by positivity)
  obtain ⟨n₂, a2⟩ := ic_table m.toElModel pd hu hus hlo hhi hlt T dens hT hd p hp hs h30 κ _ hκ hQi (by positivity)
  have hκ0 : 0 ≤ κ := le_trans (by
    have := hhi.phys_pos
    have : 0 < kBoltzmann := by unfold kBoltzmann; norm_num
    positivity) hκ
  refine ⟨max n₁ n₂, fun n hn n' hn' => ?_⟩
  obtain ⟨Ls, b1, b2, lo₁, c1, hi₁, c2, c3⟩ := a1 n ((le_max_left _ _).trans hn)
  obtain ⟨Li, d1, d2, lo₂, e1, hi₂, e2, e3⟩ := a2 n' ((le_max_right _ _).trans hn')
  refine ⟨Ls, Li, b1, d1, min lo₁ lo₂, lt_min c1 e1, max hi₁ hi₂,
    (min_le_left _ _).trans_lt (c2.trans_le (le_max_left _ _)), ?_⟩
  intro lo hi lo' hi' f1 f2 f3 f4 f5 f6
  obtain ⟨δ₁, g1, g2⟩ := c3 lo hi f1 (f2.trans (min_le_left _ _)) ((le_max_left _ _).trans f3)
  obtain ⟨δ₂, g3, g4⟩ := e3 lo' hi' f4 (f5.trans (min_le_right _ _)) ((le_max_right _ _).trans f6)
  refine ⟨min δ₁ δ₂, lt_min g1 g3, ?_⟩
  intro D hD xray vhe x v hx hv hkind hxE hvE sx sv
  obtain ⟨lx, q1, q2⟩ := sample_sum _ (fun e he => div_nonneg (b2 e he) hev.le) D lo hi δ₁ hD f1 x
    ⟨sx.flux, sx.first, sx.last, fun i r s h h' => (sx.steps i r s h h').trans (min_le_left _ _)⟩
    (C34_sorted_permutation sort hsort xray _ x hx).1
  obtain ⟨lv, q3, q4⟩ := sample_sum _ (fun e he => div_nonneg (d2 e he) hev.le) D lo' hi' δ₂ hD f4 v
    ⟨sv.flux, sv.first, sv.last, fun i r s h h' => (sv.steps i r s h h').trans (min_le_right _ _)⟩
    (C34_sorted_permutation sort hsort vhe _ v hv).1
  obtain ⟨r1, r2⟩ := g2 lx q1
  obtain ⟨r3, r4⟩ := g4 lv q3
  rw [C39_formula sort xray vhe uph x v hx hv hkind hxE hvE hud, q2, q4]
  clear g2 g4 q2 q4
  generalize binSum rbin (lx.map _) = X at *
  generalize binSum rbin (lv.map _) = V at *
  have hV0 : 0 < V := lt_of_lt_of_le (by have : 0 < 0.988 - κ := by linarith
                                         positivity) r3
  have hX0 : 0 < X := lt_of_lt_of_le (by positivity) r1
  have hDV : D * V ≠ 0 := by positivity
  rw [div_fin _ _ hDV, mul_fin, sqrt_fin _ (by rw [hup]; positivity), mul_fin]
  refine ⟨_, rfl, ?_⟩
  have hrad : D * X / (D * V) * (8 * Real.pi * uph.phys) = X / V * (8 * Real.pi * dens) := by
    rw [hup]; field_simp
  rw [hrad]
  set R := X / V * (8 * Real.pi * dens) with hR
  have hR0 : 0 < R := by rw [hR]; positivity
  -- the bounds
  have u1 : R * (1.012 * (k * dens * I2)) ≥ 0.988 * (k * (B ^ 2 / (8 * Real.pi)) * I2) * (8 * Real.pi * dens) := by
    have : R * V = X * (8 * Real.pi * dens) := by rw [hR]; field_simp
    have h1 : R * V ≤ R * (1.012 * (k * dens * I2)) := mul_le_mul_of_nonneg_left r4 hR0.le
    have h2 := mul_le_mul_of_nonneg_right r1 (show 0 ≤ 8 * Real.pi * dens by positivity)
    linarith
  have u2 : R * ((0.988 - κ) * (k * dens * I2)) ≤ 1.012 * (k * (B ^ 2 / (8 * Real.pi)) * I2) * (8 * Real.pi * dens) := by
    have : R * V = X * (8 * Real.pi * dens) := by rw [hR]; field_simp
    have h1 : R * ((0.988 - κ) * (k * dens * I2)) ≤ R * V := mul_le_mul_of_nonneg_left r3 hR0.le
    have h2 := mul_le_mul_of_nonneg_right r2 (show 0 ≤ 8 * Real.pi * dens by positivity)
    linarith
  have hw : 0 < k * dens * I2 := by positivity
  have e4 : k * (B ^ 2 / (8 * Real.pi)) * I2 * (8 * Real.pi * dens) = B ^ 2 * (k * dens * I2) := by field_simp
  have v1 : 0.988 * B ^ 2 ≤ 1.012 * R := by
    rw [mul_assoc 0.988, e4] at u1
    refine le_of_mul_le_mul_right ?_ hw
    calc _ = 0.988 * (B ^ 2 * (k * dens * I2)) := by ring
      _ ≤ _ := u1
      _ = _ := by ring
  have v2 : (0.988 - κ) * R ≤ 1.012 * B ^ 2 := by
    rw [mul_assoc 1.012, e4] at u2
    refine le_of_mul_le_mul_right ?_ hw
    calc _ = R * ((0.988 - κ) * (k * dens * I2)) := by ring
      _ ≤ _ := u2
      _ = _ := by ring
  exact field_bounds B R κ hB0 hκ0 hκ1 v1 v2

/-! ### A concrete case -/

/-- a table of samples of a spectrum, as a user would write it: evenly spaced energies in erg, fluxes in 1/(erg s cm²) -/
noncomputable def sampleTable (f : ℝ → ℝ) (D lo h : ℝ) (N : ℕ) : InTable where
  energyU := some PhysUnit.erg
  fluxU := some ⟨1, Dim.diffFlux⟩
  fluxErrorU := some ⟨1, Dim.diffFlux⟩
  energyWidthU := some PhysUnit.erg
  rows := (List.range (N + 1)).map fun i : ℕ => { energy := lo + i * h, flux := D * f (lo + i * h), fluxError := 1, energyWidth := h }

/-- `validate_data_table` accepts tables of samples, for every range and step -/
theorem samples_exist (sort : List Row → List Row) (hsort : IsEnergySort sort) (f : ℝ → ℝ) (D lo hi δ : ℝ)
    (hlo : 0 < lo) (hlt : lo < hi) (hδ : 0 < δ) :
    ∃ (ts : List InTable) (v : VTable), validateDataTable sort ts (some false) = .ok v ∧ SampleOf f D lo hi δ v ∧
      v.fluxU.dim = Dim.diffFlux ∧ 0 < v.energyU.scale := by
  obtain ⟨N, hN⟩ := exists_nat_gt ((hi - lo) / δ)
  have hN0 : (0:ℝ) < N := lt_trans (div_pos (by linarith) hδ) hN
  set h := (hi - lo) / N with hh
  have hh0 : 0 < h := div_pos (by linarith) hN0
  have hhδ : h ≤ δ := by
    rw [hh, div_le_iff₀ hN0]
    rw [div_lt_iff₀ hδ] at hN
    linarith
  set t := sampleTable f D lo h N with ht
  have hval : Spec.Valid t :=
    ⟨⟨_, rfl, rfl⟩, ⟨_, rfl, Or.inl (Or.inr rfl)⟩, Or.inl ⟨_, rfl, Or.inl (Or.inr rfl)⟩,
      Or.inl ⟨_, rfl, rfl⟩, Or.inl rfl, by simp [t, sampleTable], by simp [t, sampleTable]⟩
  obtain ⟨v, hv⟩ := C34_accepts sort [t] (some false) (by simp) (by simpa using hval)
    (by simp [ErrorsMatch, t, sampleTable]) (Or.inl (by simp [Spec.HasType, Spec.FluxLike, t, sampleTable]))
  obtain ⟨hs, b, chunks, hb, -, hdim, -, -, hperm, hlen, hch⟩ := C34_sorted_permutation sort hsort [t] (some false) v hv
  have hb := hb false rfl
  subst hb
  obtain ⟨w, hw1, hw2, hw3⟩ := hch 0 t rfl
  have hchunks : chunks = [List.zipWith (Spec.row t ((0:ℕ) : ℤ) false) t.rows w] := by
    match chunks, hlen, hw3 with
    | [c], _, hw3 => simpa using hw3
  have hwl := hw1.1 (Or.inl (by simp [t, sampleTable]))
  rw [hwl] at hchunks
  have hrow : ∀ r e, (Spec.row t ((0:ℕ) : ℤ) false r e).energy = r.energy ∧ (Spec.row t ((0:ℕ) : ℤ) false r e).flux = r.flux := by
    intro r e
    simp [Spec.row, t, sampleTable, Spec.phys, Spec.factor, Spec.flag, Spec.IsSed, PhysUnit.erg, Dim.diffFlux, Dim.flux, Dim.power]
  have hE : ((List.zipWith (Spec.row t ((0:ℕ) : ℤ) false) t.rows (t.rows.map (Spec.givenWidths t))).map (·.energy)) =
      (List.range (N + 1)).map (fun i : ℕ => lo + i * h) := by
    rw [List.zipWith_map_right, List.zipWith_self, List.map_map]
    simp only [t, sampleTable, List.map_map]
    apply List.map_congr_left
    intro i _
    simp only [Function.comp_def]
    exact (hrow _ _).1
  have hfl : ∀ r ∈ v.rows, r.flux = D * f r.energy := by
    intro r hr
    rw [hperm.mem_iff, hchunks] at hr
    simp only [List.flatten_cons, List.flatten_nil, List.append_nil] at hr
    rw [List.zipWith_map_right, List.zipWith_self] at hr
    obtain ⟨q, hq, rfl⟩ := List.mem_map.1 hr
    rw [(hrow _ _).1, (hrow _ _).2]
    simp only [t, sampleTable] at hq
    obtain ⟨i, -, rfl⟩ := List.mem_map.1 hq
    rfl
  have hEs : v.rows.map (·.energy) = (List.range (N + 1)).map (fun i : ℕ => lo + i * h) := by
    apply List.Perm.eq_of_pairwise (le := (· ≤ ·)) (fun a b _ _ h1 h2 => le_antisymm h1 h2)
    · rw [List.pairwise_map]; exact hs
    · rw [List.pairwise_map]
      refine List.pairwise_lt_range.imp ?_
      intro a b hab
      have : (a:ℝ) ≤ b := by exact_mod_cast hab.le
      nlinarith
    · rw [← hE]
      rw [hchunks] at hperm
      simpa using hperm.map (·.energy)
  refine ⟨[t], v, hv, ⟨hfl, ?_, ?_, ?_⟩, ?_, ?_⟩
  · rw [hEs, List.range_succ_eq_map]; simp
  · rw [hEs, List.range_succ]; simp [hh]; field_simp; ring
  · intro i r s hr hs'
    have h1 : (v.rows.map (·.energy))[i]? = some r.energy := by rw [List.getElem?_map, hr]; rfl
    have h2 : (v.rows.map (·.energy))[i + 1]? = some s.energy := by rw [List.getElem?_map, hs']; rfl
    rw [hEs, List.getElem?_map, Option.map_eq_some_iff] at h1 h2
    obtain ⟨j, hj, e1⟩ := h1
    obtain ⟨k, hk, e2⟩ := h2
    rw [List.getElem?_eq_some_iff] at hj hk
    obtain ⟨hj1, hj⟩ := hj
    obtain ⟨hk1, hk⟩ := hk
    rw [List.getElem_range] at hj hk
    rw [← e1, ← e2, ← hj, ← hk]
    push_cast
    linarith
  · obtain ⟨t0, rest, u0, b, cs, acc, h1, h2, h3, h4, -, -, h5, -⟩ := validate_ok sort _ _ v hv
    injection h1 with h1 _
    rw [← h1] at h2
    simp only [t, sampleTable, Option.some.injEq] at h2
    rw [← h2, h4] at h5
    have h6 : sedConversion ⟨1, Dim.diffFlux⟩ false = .ok (perSTeVCm2, .ones) := by
      simp [sedConversion, Dim.diffFlux, Dim.flux, Dim.power, Dim.energy, Dim.diffEnergy, Dim.diffPower, Dim.diffNumDensity]
    rw [Option.getD_some, h6] at h5
    injection h5 with h5
    rw [Prod.mk.injEq] at h5
    rw [← h5.1]; rfl
  · obtain ⟨t0, rest, u0, b, cs, acc, h1, -, -, -, -, -, -, -, -, h2, -⟩ := validate_ok sort _ _ v hv
    injection h1 with h1 _
    rw [← h1] at h2
    simp only [t, sampleTable, Option.some.injEq] at h2
    rw [← h2]; simp [PhysUnit.erg]

/-- A concrete case: electrons with a power law from 1 GeV to 1 TeV in any positive field,
in the cosmic microwave background: tables of both spectra with arbitrary ranges and steps exist,
and from some range and step on `estimate_B` returns the field to within 8 %. -/
example (sort : List Row → List Row) (hsort : IsEnergySort sort) (B : ℝ) (hB : 0 < B) :
    ∃ (xray vhe : List InTable) (Best : ℝ),
      estimateB sort xray vhe ⟨4.2e-13, ⟨1, Dim.pressure⟩⟩ = .ok (fin Best) ∧ |Best - 1000000 * B| ≤ 0.08 * (1000000 * B) := by
  have hev := cEV_pos
  have hm : 0 < cMe * cC ^ 2 := cMec2_pos
  have h0 : (⟨1, PhysUnit.TeV⟩ : Qty ℝ).PosEnergy := ⟨rfl, by simp [PhysUnit.TeV]; positivity, by norm_num⟩
  let m : SyncModel := ⟨⟨⟨1, PhysUnit.GeV⟩, ⟨1, PhysUnit.TeV⟩, 100⟩, ⟨B, ⟨0.1, Dim.magFluxDensity⟩⟩⟩
  have hlo : m.Eemin.PosEnergy := ⟨rfl, GeV_pos, by norm_num [m]⟩
  have hlt : m.Eemin.phys < m.Eemax.phys := by simp only [m, Qty.phys, PhysUnit.GeV, PhysUnit.TeV]; norm_num
  have h30 : 30 * (cMe * cC ^ 2) ≤ m.Eemin.phys := by
    simp only [m, Qty.phys, PhysUnit.GeV, cMe, cC]; norm_num
  have hpos : ∀ E ∈ Set.Icc m.Eemin.phys m.Eemax.phys, 0 < 1e33 * (E / (⟨1, PhysUnit.TeV⟩ : Qty ℝ).phys) ^ (-(3:ℝ)) := fun E hE => by
    have := div_pos (hlo.phys_pos.trans_le hE.1) h0.phys_pos
    positivity
  have hcont : ContinuousOn (fun E => 1e33 * (E / (⟨1, PhysUnit.TeV⟩ : Qty ℝ).phys) ^ (-(3:ℝ))) (Set.Icc m.Eemin.phys m.Eemax.phys) :=
    ContinuousOn.mul continuousOn_const (ContinuousOn.rpow_const (by fun_prop)
        (fun E hE => Or.inl (div_pos (hlo.phys_pos.trans_le hE.1) h0.phys_pos).ne'))
  have hsp : Spectrum (fun E => 1e33 * (E / (⟨1, PhysUnit.TeV⟩ : Qty ℝ).phys) ^ (-(3:ℝ))) m.Eemin.phys m.Eemax.phys :=
    Spectrum.of_continuous (fun E hE => (hpos E hE).le) hcont
  set pd := PowerLaw.toPDist ⟨fin 1e33, (⟨1, PhysUnit.TeV⟩ : Qty ℝ).lift, fin 3⟩ ⟨1 / cEV, Dim.diffEnergy⟩ with hpd
  have hus : 0 < pd.unit.scale := by simp only [hpd, PowerLaw.toPDist]; positivity
  have hBp : m.B.phys = B * 0.1 := rfl
  obtain ⟨n₀, h⟩ := C106_recovers sort hsort m pd rfl hus hlo
    ⟨rfl, by simp only [m, PhysUnit.TeV]; norm_num, by norm_num [m]⟩ hlt rfl (by rw [hBp]; positivity) _
    (fun E hE => powerLaw_pdist 1e33 3 _ h0 _ E (hlo.phys_pos.trans_le hE.1)) hsp
    (intervalIntegral.intervalIntegral_pos_of_pos_on (hsp.integrable hlt.le) (fun E hE => hpos E ⟨hE.1.le, hE.2.le⟩) hlt)
    h30 2.72 4.2e-13 0.06 (by norm_num) (by norm_num)
    (by simp only [m, Qty.phys, PhysUnit.TeV, kBoltzmann, cMe, cC]; norm_num) (by norm_num)
    ⟨4.2e-13, ⟨1, Dim.pressure⟩⟩ rfl (by simp [Qty.phys])
  obtain ⟨Ls, Li, -, -, lo₀, a1, hi₀, a2, h⟩ := h n₀ le_rfl n₀ le_rfl
  obtain ⟨δ, hδ, h⟩ := h lo₀ hi₀ lo₀ hi₀ a1 le_rfl le_rfl a1 le_rfl le_rfl
  obtain ⟨xray, x, x1, x2, x3, x4⟩ := samples_exist sort hsort (fun e => Ls e / cEV) 1 lo₀ hi₀ δ a1 a2 hδ
  obtain ⟨vhe, v, v1, v2, v3, v4⟩ := samples_exist sort hsort (fun e => Li e / cEV) 1 lo₀ hi₀ δ a1 a2 hδ
  obtain ⟨Best, b1, b2⟩ := h 1 one_pos xray vhe x v x1 v1 (x3.trans v3.symm) x4 v4 x2 v2
  refine ⟨xray, vhe, Best, b1, ?_⟩
  have e1 : m.B.phys / 0.1 = B := by rw [hBp]; field_simp
  rw [e1] at b2
  norm_num at b2 ⊢
  exact b2

end Naima.Props
