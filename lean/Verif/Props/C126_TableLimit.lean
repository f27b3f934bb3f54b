import Verif.Props.C83_Arrays
import Verif.Props.C75_Spectrum

/-!
# C126: a finer photon table

Spec: a photon field of density `n(ε₀)` per unit energy between two energies; an electron of Lorentz factor `γ` scatters
`∫ n(ε₀) R(γ, ε₀, ε) dε₀` photons to the energy `ε`, `R` the published rate.
-/

namespace Naima.Props

open Naima XR Classical MeasureTheory
open scoped Topology
open Filter (Tendsto atTop)

/-- Photons of energy `ε` scattered per unit time and energy by an electron of Lorentz factor `γ` out of a field of
`dens t` photons per unit energy and volume between `a` and `b`. -/
noncomputable def fieldRate (dens : ℝ → ℝ) (a b γ ε : ℝ) : ℝ := ∫ t in a..b, dens t * monoRate γ t ε

/-- `table` lists samples of `dens` from exactly `a` up to exactly `b`, in steps of at most `δ`. -/
structure Samples (dens : ℝ → ℝ) (a b δ : ℝ) (table : List (ℝ × ℝ)) : Prop where
  two : 2 ≤ table.length
  first : (table.map (·.1)).head? = some a
  last : (table.map (·.1)).getLast? = some b
  ascending : (table.map (·.1)).Pairwise (· < ·)
  value : ∀ q ∈ table, q.2 = dens q.1
  fine : ∀ i x y, (table.map (·.1))[i]? = some x → (table.map (·.1))[i + 1]? = some y → y - x ≤ δ

/-! ### The rate as a function of either energy -/

theorem monoRate_le (γ ε₀ ε b : ℝ) (h0 : 0 < ε₀) (hε : 0 < ε) (hγ : 0 < γ) (hb : γ ≤ b) :
    monoRate γ ε₀ ε ≤ 3 / 4 * sigmaT * cC / γ ^ 2 / ε₀ * (3 + (4 * ε₀ * b) ^ 2) := by
  have hσ : (0:ℝ) ≤ 3 / 4 * sigmaT * cC := by unfold sigmaT cC; norm_num
  unfold monoRate
  split
  · rename_i h
    exact mul_le_mul_of_nonneg_left (isoMono_step_le γ ε₀ ε b h0 hε h hb) (by positivity)
  · positivity

theorem step_comp_continuousAt {X : Type} [TopologicalSpace X] {f : X → ℝ} {t : X} (hf : ContinuousAt f t) (h : f t ≠ 0) :
    ContinuousAt (fun s => step (f s)) t :=
  ContinuousAt.comp (g := step) (step_continuousAt (f := fun x => x) continuousAt_id h) hf

theorem monoRate_contAt {X : Type} [TopologicalSpace X] (G T : X → ℝ) (x : X) (hG : ContinuousAt G x) (hT : ContinuousAt T x)
    (ε : ℝ) (hε : 0 < ε) (h0 : 0 < T x) (h : ε < G x)
    (n1 : Spec.kinQ (G x) (T x) ε ≠ 1) (n2 : Spec.kinQ (G x) (T x) ε ≠ 1 / (4 * G x ^ 2)) :
    ContinuousAt (fun y => monoRate (G y) (T y) ε) x := by
  have hγ0 : 0 < G x := hε.trans h
  have hd : 0 < G x - ε := by linarith
  have hq := kinQ_pos (G x) (T x) ε h0 hε h
  have cq : ContinuousAt (fun y => Spec.kinQ (G y) (T y) ε) x := by
    unfold Spec.kinQ
    apply ContinuousAt.div continuousAt_const (by fun_prop)
    positivity
  have cI : ContinuousAt (fun y => Spec.isoMono (G y) (T y) ε) x := by
    unfold Spec.isoMono
    simp only
    apply ContinuousAt.add
    · apply ContinuousAt.add
      · exact (continuousAt_const.mul cq).mul (cq.log hq.ne')
      · fun_prop
    · apply ContinuousAt.div
      · fun_prop
      · fun_prop
      · positivity
  have c1' : ContinuousAt (fun y => 1 - Spec.kinQ (G y) (T y) ε) x := continuousAt_const.sub cq
  have c1 := step_comp_continuousAt c1' (by intro h; exact n1 (by linarith))
  have c2' : ContinuousAt (fun y => Spec.kinQ (G y) (T y) ε - 1 / (4 * G y ^ 2)) x :=
    cq.sub (continuousAt_const.div (by fun_prop) (by positivity))
  have c2 := step_comp_continuousAt c2' (by intro h; exact n2 (by linarith))
  have c3 : ContinuousAt (fun y => 3 / 4 * sigmaT * cC / G y ^ 2 / T y) x :=
    (continuousAt_const.div (by fun_prop) (by positivity)).div hT h0.ne'
  apply (c3.mul ((cI.mul c1).mul c2)).congr
  filter_upwards [hG.eventually (Ioi_mem_nhds h)] with s hs
  unfold monoRate; rw [if_pos (show ε < G s from hs)]; rfl

/-- the target energies of the kinematic limits -/
theorem kin_photon (γ t ε : ℝ) (h0 : 0 < t) (hε : 0 < ε) (h : ε < γ)
    (n1 : t ≠ ε / (4 * γ * (γ - ε))) (n2 : t ≠ γ * ε / (γ - ε)) :
    Spec.kinQ γ t ε ≠ 1 ∧ Spec.kinQ γ t ε ≠ 1 / (4 * γ ^ 2) := by
  have hγ : 0 < γ := hε.trans h
  have hd : 0 < γ - ε := by linarith
  unfold Spec.kinQ
  constructor
  · intro e
    rw [div_eq_one_iff_eq (by positivity)] at e
    apply n1
    rw [eq_div_iff (by positivity)]
    linarith
  · intro e
    rw [div_eq_div_iff (by positivity) (by positivity)] at e
    apply n2
    rw [eq_div_iff hd.ne']
    have : 4 * γ * (t * (γ - ε)) = 4 * γ * (γ * ε) := by linarith
    exact mul_left_cancel₀ (by positivity) this

theorem monoRate_spectrum_photon (γ ε a b : ℝ) (hγ : 0 < γ) (hε : 0 < ε) (ha : 0 < a) :
    Spectrum (fun t => monoRate γ t ε) a b := by
  have hσ : (0:ℝ) ≤ 3 / 4 * sigmaT * cC := by unfold sigmaT cC; norm_num
  refine ⟨fun t ht => monoRate_nonneg t γ ε (ha.trans_le ht.1) hγ hε,
    ⟨3 / 4 * sigmaT * cC / γ ^ 2 / a * (3 + (4 * b * γ) ^ 2), fun t ht => ?_⟩, ?_⟩
  · have ht0 := ha.trans_le ht.1
    refine (monoRate_le γ t ε γ ht0 hε hγ le_rfl).trans ?_
    have := ht.1
    have := ht.2
    gcongr
  · refine ⟨{ε / (4 * γ * (γ - ε)), γ * ε / (γ - ε)}, ?_⟩
    intro t ht
    have ht0 := ha.trans_le ht.1.1
    apply ContinuousAt.continuousWithinAt
    by_cases h : ε < γ
    · obtain ⟨k1, k2⟩ := kin_photon γ t ε ht0 hε h (fun e => ht.2 (by simp [e])) (fun e => ht.2 (by simp [e]))
      exact monoRate_contAt (fun _ => γ) (fun t => t) t continuousAt_const continuousAt_id ε hε ht0 h k1 k2
    · unfold monoRate
      simp only [if_neg h]
      exact continuousAt_const

theorem fieldRate_spectrum (dens : ℝ → ℝ) (a b : ℝ) (ha : 0 < a) (hab : a ≤ b) (hd : Spectrum dens a b) (ε : ℝ) (hε : 0 < ε)
    (c d : ℝ) (hc : 0 < c) : Spectrum (fun γ => fieldRate dens a b γ ε) c d := by
  have hσ : (0:ℝ) ≤ 3 / 4 * sigmaT * cC := by unfold sigmaT cC; norm_num
  obtain ⟨M, hM⟩ := hd.bounded
  have hM0 : 0 ≤ M := (hd.nonneg a ⟨le_rfl, hab⟩).trans (hM a ⟨le_rfl, hab⟩)
  have hprod : ∀ γ > 0, Spectrum (fun t => dens t * monoRate γ t ε) a b := fun γ hγ =>
    hd.mul (monoRate_spectrum_photon γ ε a b hγ hε ha)
  have hbound : ∀ x y γ : ℝ, 0 < x → x ≤ γ → γ ≤ y → ∀ t ∈ Set.Icc a b,
      dens t * monoRate γ t ε ≤ M * (3 / 4 * sigmaT * cC / x ^ 2 / a * (3 + (4 * b * y) ^ 2)) := by
    intro x y γ hx h1 h2 t ht
    have ht0 := ha.trans_le ht.1
    have hγ := hx.trans_le h1
    refine mul_le_mul (hM t ht) ?_ (monoRate_nonneg t γ ε ht0 hγ hε) hM0
    refine (monoRate_le γ t ε y ht0 hε hγ h2).trans ?_
    have h3 := ht.1
    have h4 := ht.2
    have hy : 0 < y := hγ.trans_le h2
    gcongr
  refine ⟨fun γ hγ => ?_, ⟨(b - a) * (M * (3 / 4 * sigmaT * cC / c ^ 2 / a * (3 + (4 * b * d) ^ 2))), fun γ hγ => ?_⟩, {ε}, ?_⟩
  · apply intervalIntegral.integral_nonneg hab
    intro t ht
    exact (hprod γ (hc.trans_le hγ.1)).nonneg t ht
  · have h1 := intervalIntegral.integral_mono_on hab ((hprod γ (hc.trans_le hγ.1)).integrable hab)
      (intervalIntegrable_const (c := M * (3 / 4 * sigmaT * cC / c ^ 2 / a * (3 + (4 * b * d) ^ 2))))
      (fun t ht => hbound c d γ hc hγ.1 hγ.2 t ht)
    rw [intervalIntegral.integral_const, smul_eq_mul] at h1
    exact h1
  · intro γ hγ
    have hγ0 := hc.trans_le hγ.1.1
    have hne : γ ≠ ε := fun h => hγ.2 (by simp [h])
    apply ContinuousAt.continuousWithinAt
    rcases lt_or_gt_of_ne hne with h | h
    · apply (continuousAt_const (y := (0:ℝ))).congr
      filter_upwards [Iio_mem_nhds h] with s hs
      unfold fieldRate monoRate
      simp only [if_neg (not_lt.2 (le_of_lt (show s < ε from hs))), mul_zero, intervalIntegral.integral_zero]
    · unfold fieldRate
      have hnear : ∀ᶠ s in 𝓝 γ, γ / 2 ≤ s ∧ s ≤ 2 * γ := by
        filter_upwards [Icc_mem_nhds (show γ / 2 < γ by linarith) (show γ < 2 * γ by linarith)] with s hs
        exact hs
      apply intervalIntegral.continuousAt_of_dominated_interval
        (bound := fun _ => M * (3 / 4 * sigmaT * cC / (γ / 2) ^ 2 / a * (3 + (4 * b * (2 * γ)) ^ 2)))
      · filter_upwards [hnear] with s hs
        exact (intervalIntegrable_iff.1 ((hprod s (by linarith [hs.1])).integrable hab)).aestronglyMeasurable
      · filter_upwards [hnear] with s hs
        refine Filter.Eventually.of_forall (fun t ht => ?_)
        rw [Set.uIoc_of_le hab] at ht
        have ht' : t ∈ Set.Icc a b := ⟨ht.1.le, ht.2⟩
        rw [Real.norm_eq_abs, abs_of_nonneg ((hprod s (by linarith [hs.1])).nonneg t ht')]
        exact hbound _ _ s (by linarith) hs.1 hs.2 t ht'
      · exact intervalIntegrable_const
      · have hfin : Set.Finite ({ε / (4 * γ * (γ - ε)), γ * ε / (γ - ε)} : Set ℝ) := Set.toFinite _
        have hae := (hfin.measure_zero volume)
        have hmem := measure_eq_zero_iff_ae_notMem.1 hae
        filter_upwards [hmem] with t htn ht
        rw [Set.uIoc_of_le hab] at ht
        have ht0 : 0 < t := ha.trans ht.1
        obtain ⟨k1, k2⟩ := kin_photon γ t ε ht0 hε h (fun e => htn (by simp [e])) (fun e => htn (by simp [e]))
        exact continuousAt_const.mul
          (monoRate_contAt (fun γ => γ) (fun _ => t) γ continuousAt_id continuousAt_const ε hε ht0 h k1 k2)

theorem adj_of_steps (δ : ℝ) (l : List ℝ) (hs : l.Pairwise (· < ·))
    (hf : ∀ i x y, l[i]? = some x → l[i + 1]? = some y → y - x ≤ δ) : Adj (fun x y => x ≤ y ∧ y - x ≤ δ) l := by
  induction l with
  | nil => trivial
  | cons x l ih =>
    cases l with
    | nil => trivial
    | cons y l =>
      refine ⟨⟨?_, hf 0 x y rfl rfl⟩, ih (List.Pairwise.of_cons hs) (fun i u v hu hv => hf (i + 1) u v hu hv)⟩
      rw [List.pairwise_cons] at hs
      exact (hs.1 y (by simp)).le

/-- one mesh for finitely many electrons -/
theorem common_mesh (f : ℝ → ℝ → ℝ) (a b : ℝ) (ha : 0 < a) (hab : a ≤ b) (κ : ℝ) (hκ : 0 < κ) (gam : List ℝ)
    (hf : ∀ g ∈ gam, Spectrum (f g) a b) :
    ∃ δ > 0, ∀ l : List ℝ, l.head? = some a → l.getLast? = some b → (∀ x ∈ l, x ∈ Set.Icc a b) →
      Adj (fun x y => x ≤ y ∧ y - x ≤ δ) l → ∀ g ∈ gam,
        |binSum rbin (l.map (fun x => (x, f g x))) - ∫ t in a..b, f g t| < κ := by
  induction gam with
  | nil => exact ⟨1, one_pos, fun _ _ _ _ _ g hg => absurd hg (by simp)⟩
  | cons g gam ih =>
    obtain ⟨δ1, h1, k1⟩ := ih (fun x hx => hf x (by simp [hx]))
    obtain ⟨M, hM⟩ := (hf g (by simp)).bounded
    obtain ⟨S, hS⟩ := (hf g (by simp)).continuous
    obtain ⟨δ2, h2, k2⟩ := binSum_converges (f g) a b M ha hab S hS (hf g (by simp)).nonneg hM κ hκ
    have hmono : ∀ (l : List ℝ) (d d' : ℝ), d ≤ d' → Adj (fun x y => x ≤ y ∧ y - x ≤ d) l →
        Adj (fun x y => x ≤ y ∧ y - x ≤ d') l := by
      intro l d d' hd
      induction l with
      | nil => intro h; exact h
      | cons x l ih =>
        cases l with
        | nil => intro h; exact h
        | cons y l => intro h; exact ⟨⟨h.1.1, h.1.2.trans hd⟩, ih h.2⟩
    refine ⟨min δ1 δ2, lt_min h1 h2, fun l a1 a2 a3 a4 x hx => ?_⟩
    rcases List.mem_cons.1 hx with rfl | hx
    · exact k2 l a1 a2 a3 (hmono l _ _ (min_le_right _ _) a4)
    · exact k1 l a1 a2 a3 (hmono l _ _ (min_le_left _ _) a4) x hx

/-- a grid ascending from `a` to `b` lies between them -/
theorem sorted_mem (l : List ℝ) (a b : ℝ) (h1 : l.head? = some a) (h2 : l.getLast? = some b)
    (hs : l.Pairwise (· < ·)) : ∀ x ∈ l, x ∈ Set.Icc a b := by
  intro x hx
  constructor
  · cases l with
    | nil => simp at hx
    | cons y l =>
      simp only [List.head?_cons, Option.some.injEq] at h1
      subst h1
      rcases List.mem_cons.1 hx with rfl | hx
      · exact le_rfl
      · rw [List.pairwise_cons] at hs; exact (hs.1 x hx).le
  · obtain ⟨l', rfl⟩ := List.getLast?_eq_some_iff.1 h2
    rcases List.mem_append.1 hx with h | h
    · rw [List.pairwise_append] at hs
      exact (hs.2.2 x h b (by simp)).le
    · rw [List.mem_singleton.1 h]

/-- **C126.** For every electron distribution and range and every photon field with a density that is bounded and
continuous except at finitely many energies between `a` and `b` (in mc²): to any precision, on every sufficiently fine
electron grid, every sufficiently fine table of samples of that density gives a finite spectrum that is the
integral over electron energy of (electrons per unit energy) × (density × published rate, integrated over the *continuous*
field), up to the rounding of the local indices, a factor of at most (E_max/E_min)^(2·10⁻¹⁰) either way. -/
theorem C126_table_limit (m : ElModel) (pd : PDist) (hu : pd.unit.dim = Dim.diffEnergy)
    (hus : 0 < pd.unit.scale) (hlo : m.Eemin.PosEnergy) (hhi : m.Eemax.PosEnergy)
    (hlt : m.Eemin.phys < m.Eemax.phys) (p : ℝ → ℝ)
    (hp : ∀ E ∈ Set.Icc m.Eemin.phys m.Eemax.phys, pd.f E = fin (p E)) (hsp : Spectrum p m.Eemin.phys m.Eemax.phys)
    (dens : ℝ → ℝ) (a b : ℝ) (ha : 0 < a) (hab : a < b) (hd : Spectrum dens a b) (θ : Option ℝ) (e : ℝ) (he : 0 < e)
    (η : ℝ) (hη : 0 < η) :
    ∀ᶠ n in atTop, ∃ δ > 0, ∀ table, Samples dens a b δ table →
      ∃ L : ℝ, icSpectrum { m with nEed := n } [.array (table.map (·.1)) (table.map (fun q => fin q.2)) θ] pd [e] =
          .ok [fin L] ∧
        ((m.Eemax.phys / m.Eemin.phys) ^ (2e-10 : ℝ))⁻¹ * (cEV / (cMe * cC ^ 2) * ∫ E in m.Eemin.phys..m.Eemax.phys,
            p E * pd.unit.scale * fieldRate dens a b (E / (cMe * cC ^ 2)) (e / (cMe * cC ^ 2))) - η ≤ L ∧
        L ≤ (m.Eemax.phys / m.Eemin.phys) ^ (2e-10 : ℝ) * (cEV / (cMe * cC ^ 2) * ∫ E in m.Eemin.phys..m.Eemax.phys,
            p E * pd.unit.scale * fieldRate dens a b (E / (cMe * cC ^ 2)) (e / (cMe * cC ^ 2))) + η := by
  have hm := cMec2_pos
  have hmm : cMe * cC ^ 2 = cMec2 := rfl
  have hev := cEV_pos
  simp only [hmm]
  have hR1 : 1 ≤ (m.Eemax.phys / m.Eemin.phys) ^ (2e-10 : ℝ) :=
    Real.one_le_rpow ((one_le_div hlo.phys_pos).2 hlt.le) (by norm_num)
  set R := (m.Eemax.phys / m.Eemin.phys) ^ (2e-10 : ℝ) with hRdef
  have hR : 0 < R := by linarith
  set ε := e / cMec2 with hε
  have hε0 : 0 < ε := div_pos he hm
  have hF : Spectrum (fun E => fieldRate dens a b (E / cMec2) ε) m.Eemin.phys m.Eemax.phys :=
    Spectrum.comp_div hm (fieldRate_spectrum dens a b ha hab.le hd ε hε0 _ _ (div_pos hlo.phys_pos hm))
  have hN : Spectrum (fun E => p E * pd.unit.scale) m.Eemin.phys m.Eemax.phys :=
    hsp.mul (Spectrum.of_continuous (fun _ _ => hus.le) continuousOn_const)
  set F : ℝ → ℝ := fun E => fieldRate dens a b (E / cMec2) ε with hFdef
  set N : ℝ → ℝ := fun E => p E * pd.unit.scale with hNdef
  set I := ∫ E in m.Eemin.phys..m.Eemax.phys, N E * F E with hI
  set P := ∫ E in m.Eemin.phys..m.Eemax.phys, N E with hP
  have hP0 : 0 ≤ P := intervalIntegral.integral_nonneg hlt.le hN.nonneg
  set c := cEV / cMec2 with hc
  have hc0 : 0 < c := by positivity
  set η' := η / c with hη'
  have hη0 : 0 < η' := by positivity
  set κ := η' / (3 * R * (P + 1)) with hκdef
  have hκ : 0 < κ := by positivity
  have hκP : R * (κ * P) ≤ η' / 3 := by
    rw [hκdef]
    have : R * (η' / (3 * R * (P + 1)) * P) = η' / 3 * (P / (P + 1)) := by field_simp
    rw [this]
    exact mul_le_of_le_one_right (by positivity) ((div_le_one (by linarith)).2 (by linarith))
  have hup : Spectrum (fun E => N E * (F E + κ)) m.Eemin.phys m.Eemax.phys := by
    refine hN.mul ⟨fun t ht => add_nonneg (hF.nonneg t ht) hκ.le, ?_, ?_⟩
    · obtain ⟨M, hM⟩ := hF.bounded
      exact ⟨M + κ, fun t ht => by have := hM t ht; simp only [hFdef] at this ⊢; linarith⟩
    · obtain ⟨S, hS⟩ := hF.continuous
      exact ⟨S, hS.add continuousOn_const⟩
  have hdn : Spectrum (fun E => N E * max (F E - κ) 0) m.Eemin.phys m.Eemax.phys := by
    refine hN.mul ⟨fun t ht => le_max_right _ _, ?_, ?_⟩
    · obtain ⟨M, hM⟩ := hF.bounded
      refine ⟨max M 0, fun t ht => max_le_max ?_ le_rfl⟩
      have := hM t ht
      simp only [hFdef] at this ⊢; linarith
    · obtain ⟨S, hS⟩ := hF.continuous
      exact ⟨S, (hS.sub continuousOn_const).sup continuousOn_const⟩
  have iN := hN.integrable hlt.le
  have iNF := (hN.mul hF).integrable hlt.le
  have iup := hup.integrable hlt.le
  have idn := hdn.integrable hlt.le
  have eup : ∫ E in m.Eemin.phys..m.Eemax.phys, N E * (F E + κ) = I + κ * P := by
    rw [hI, hP, ← intervalIntegral.integral_const_mul, ← intervalIntegral.integral_add iNF (iN.const_mul κ)]
    congr 1
    funext E
    ring
  have edn : I - κ * P ≤ ∫ E in m.Eemin.phys..m.Eemax.phys, N E * max (F E - κ) 0 := by
    have : I - κ * P = ∫ E in m.Eemin.phys..m.Eemax.phys, (N E * F E - κ * N E) := by
      rw [intervalIntegral.integral_sub iNF (iN.const_mul κ), intervalIntegral.integral_const_mul]
    rw [this]
    apply intervalIntegral.integral_mono_on hlt.le (iNF.sub (iN.const_mul κ)) idn
    intro E hE
    have h1 := mul_le_mul_of_nonneg_left (le_max_left (F E - κ) 0) (hN.nonneg E hE)
    calc _ = N E * (F E - κ) := by ring
      _ ≤ _ := h1
  obtain ⟨W1, u1, u2⟩ := electron_limit m.Eemin m.Eemax hlo hhi hlt _ hdn
  obtain ⟨W2, v1, v2⟩ := electron_limit m.Eemin m.Eemax hlo hhi hlt _ hup
  have f1 := u2.eventually_const_lt (show I - κ * P - η' / 3 < _ from lt_of_lt_of_le (by linarith) edn)
  rw [eup] at v2
  have f2 := v2.eventually_lt_const (show I + κ * P < I + κ * P + η' / (3 * R) from by
    have : 0 < η' / (3 * R) := by positivity
    linarith)
  filter_upwards [f1, f2] with n k1 k2
  obtain ⟨gam, hg, hgp, hgs⟩ := gamGrid_facts n m.Eemin m.Eemax hlo hhi hlt.le
  have hmem := gam_mem n m.Eemin m.Eemax hlo hhi hlt.le gam hg
  obtain ⟨g1, g2⟩ := grid_scaled _ _ _ hm gam hgs hmem
  obtain ⟨δ, hδ, hmesh⟩ := common_mesh (fun g t => dens t * monoRate g t ε) a b ha hab.le κ hκ gam
    (fun g hgm => hd.mul (monoRate_spectrum_photon g ε a b (hgp g hgm) hε0 ha))
  refine ⟨δ, hδ, fun table ht => ?_⟩
  have htm := sorted_mem _ a b ht.first ht.last ht.ascending
  have htm' : ∀ q ∈ table, q.1 ∈ Set.Icc a b := fun q hq => htm q.1 (List.mem_map.2 ⟨q, hq, rfl⟩)
  have h0 : ∀ q ∈ table, 0 < q.1 := fun q hq => ha.trans_le (htm' q hq).1
  have hclose := hmesh (table.map (·.1)) ht.first ht.last htm (adj_of_steps δ _ ht.ascending ht.fine)
  set Y : ℝ → ℝ := fun E => binSum rbin (table.map (fun q => (q.1, q.2 * monoRate (E / cMec2) q.1 ε))) with hY
  have hYclose : ∀ g ∈ gam, |Y (g * cMec2) - F (g * cMec2)| < κ := by
    intro g hgm
    have := hclose g hgm
    have e2 : g * cMec2 / cMec2 = g := by field_simp
    simp only [hY, hFdef, e2, fieldRate]
    rw [List.map_map] at this
    have e3 : table.map (fun q => (q.1, q.2 * monoRate g q.1 ε)) =
        table.map ((fun x => (x, dens x * monoRate g x ε)) ∘ (fun q : ℝ × ℝ => q.1)) := by
      apply List.map_congr_left
      intro q hq
      simp only [Function.comp_apply]
      rw [ht.value q hq]
    rw [e3]
    exact this
  have hin : ∀ E ∈ Set.Icc m.Eemin.phys m.Eemax.phys, ∀ q ∈ table, 0 ≤ q.2 * monoRate (E / cMec2) q.1 ε := by
    intro E hE q hq
    rw [ht.value q hq]
    exact mul_nonneg (hd.nonneg _ (htm' q hq)) (monoRate_nonneg _ _ _ (h0 q hq) (div_pos (hlo.phys_pos.trans_le hE.1) hm) hε0)
  have htab : ∀ E ∈ Set.Icc m.Eemin.phys m.Eemax.phys,
      trapzLL (table.map (fun q => (fin q.1, fin (q.2 * monoRate (E / cMec2) q.1 ε)))) = fin (Y E) := by
    intro E hE
    have e3 := trapzLL_rbin (table.map (fun q => (q.1, q.2 * monoRate (E / cMec2) q.1 ε)))
      (by intro x hx; obtain ⟨q, hq, rfl⟩ := List.mem_map.1 hx; exact h0 q hq)
      (by intro x hx; obtain ⟨q, hq, rfl⟩ := List.mem_map.1 hx; exact hin E hE q hq)
      (by simpa [List.map_map, Function.comp_def] using ht.ascending.imp le_of_lt)
    rw [List.map_map] at e3
    exact e3
  have hY0 : ∀ E ∈ Set.Icc m.Eemin.phys m.Eemax.phys, 0 ≤ Y E := by
    intro E hE
    have := binSum_nonneg a b ha (table.map (·.1)) htm (ht.ascending.imp le_of_lt)
      (fun t => dens t * monoRate (E / cMec2) t ε) (fun t htt => mul_nonneg (hd.nonneg t (htm t htt))
        (monoRate_nonneg _ _ _ (ha.trans_le (htm t htt).1) (div_pos (hlo.phys_pos.trans_le hE.1) hm) hε0))
    rw [List.map_map] at this
    have e3 : table.map (fun q => (q.1, q.2 * monoRate (E / cMec2) q.1 ε)) =
        table.map ((fun x => (x, dens x * monoRate (E / cMec2) x ε)) ∘ (fun q : ℝ × ℝ => q.1)) := by
      apply List.map_congr_left
      intro q hq
      simp only [Function.comp_apply]
      rw [ht.value q hq]
    simp only [hY, e3]
    exact this
  -- the sums over the electrons
  have key : ∀ y : ℝ → ℝ, (∀ E ∈ Set.Icc m.Eemin.phys m.Eemax.phys, 0 ≤ y E) →
      trapzLL (gam.map (fun g => (fin (g * cMec2), fin (y (g * cMec2))))) =
        fin (binSum rbin ((gam.map (· * cMec2)).map (fun x => (x, y x)))) := by
    intro y hy
    have e := trapzLL_rbin ((gam.map (· * cMec2)).map (fun x => (x, y x)))
      (by intro p hp; obtain ⟨x, hx, rfl⟩ := List.mem_map.1 hp; exact hlo.phys_pos.trans_le (g1 x hx).1)
      (by intro p hp; obtain ⟨x, hx, rfl⟩ := List.mem_map.1 hp; exact hy x (g1 x hx))
      (by simpa [List.map_map, Function.comp_def] using g2)
    rw [← e]
    simp only [List.map_map, Function.comp_def]
  have hNY0 : ∀ E ∈ Set.Icc m.Eemin.phys m.Eemax.phys, 0 ≤ N E * Y E := fun E hE => mul_nonneg (hN.nonneg E hE) (hY0 E hE)
  set V := binSum rbin ((gam.map (· * cMec2)).map (fun x => (x, N x * Y x))) with hV
  have hsplit : ∀ x ∈ gam.map (· * cMec2), |Y x - F x| < κ := by
    intro x hx
    obtain ⟨g, hgm, rfl⟩ := List.mem_map.1 hx
    exact hYclose g hgm
  have hw1 : W1 n ≤ R * V := by
    have e := u1 n _ hg
    rw [key (fun E => N E * max (F E - κ) 0) hdn.nonneg, fin_inj] at e
    rw [← e]
    refine binSum_mono m.Eemin.phys m.Eemax.phys hlo.phys_pos _ g1 g2 (fun x => N x * max (F x - κ) 0) (fun x => N x * Y x)
      (fun x hx => hdn.nonneg x (g1 x hx)) (fun x hx => mul_le_mul_of_nonneg_left ?_ (hN.nonneg x (g1 x hx)))
    apply max_le _ (hY0 x (g1 x hx))
    have := (abs_lt.1 (hsplit x hx)).1
    linarith
  have hw2 : V ≤ R * W2 n := by
    have e := v1 n _ hg
    rw [key (fun E => N E * (F E + κ)) hup.nonneg, fin_inj] at e
    rw [← e]
    refine binSum_mono m.Eemin.phys m.Eemax.phys hlo.phys_pos _ g1 g2 (fun x => N x * Y x) (fun x => N x * (F x + κ))
      (fun x hx => hNY0 x (g1 x hx)) (fun x hx => mul_le_mul_of_nonneg_left ?_ (hN.nonneg x (g1 x hx)))
    have := (abs_lt.1 (hsplit x hx)).2
    linarith
  refine ⟨c * V, ?_, ?_, ?_⟩
  · obtain ⟨gam', hg', -, h⟩ := C71_spectral { m with nEed := n } pd hu hlo hhi hlt.le table ht.two h0 θ [e]
      (by simpa using he)
    have hgg : gamGrid n m.Eemin m.Eemax = .ok gam' := hg'
    rw [hg] at hgg
    injection hgg with hgg
    subst hgg
    rw [h]
    simp only [List.map_cons, List.map_nil, hmm]
    rw [← mul_fin _ V, hV, ← key (fun x => N x * Y x) hNY0, ← trapz_gamma cMec2 hm (fun E => N E * Y E)]
    congr 4
    apply List.map_congr_left
    intro g hgm
    have e2 : g * cMec2 / cMec2 = g := by field_simp
    have e3 := htab _ (hmem g hgm)
    rw [e2] at e3
    rw [e3]
    show (fin g, pd.f (g * cMec2) * fin (pd.unit.scale * cMec2) * _) = _
    rw [hp _ (hmem g hgm), mul_fin, mul_fin]
    congr 2
    simp only [hNdef]
    ring
  · have h1 : R⁻¹ * W1 n ≤ V := by rw [inv_mul_le_iff₀ hR]; exact hw1
    have hRi : R⁻¹ ≤ 1 := inv_le_one_of_one_le₀ hR1
    have h2 : R⁻¹ * (I - κ * P - η' / 3) ≤ V :=
      (mul_le_mul_of_nonneg_left k1.le (by positivity)).trans h1
    have h3 : κ * P ≤ η' / 3 := by
      have : κ * P ≤ R * (κ * P) := le_mul_of_one_le_left (by positivity) hR1
      linarith
    have h4 : R⁻¹ * (κ * P + η' / 3) ≤ κ * P + η' / 3 := mul_le_of_le_one_left (by positivity) hRi
    have h5 : R⁻¹ * I - η' ≤ V := by
      have : R⁻¹ * (I - κ * P - η' / 3) = R⁻¹ * I - R⁻¹ * (κ * P + η' / 3) := by ring
      linarith
    have h6 := mul_le_mul_of_nonneg_left h5 hc0.le
    rw [mul_sub, hη', mul_div_cancel₀ _ hc0.ne'] at h6
    refine le_trans (le_of_eq ?_) h6
    ring
  · have h1 := hw2.trans (mul_le_mul_of_nonneg_left k2.le hR.le)
    have h2 : R * (I + κ * P + η' / (3 * R)) = R * I + R * (κ * P) + η' / 3 := by field_simp
    have h5 : V ≤ R * I + η' := by linarith
    have h6 := mul_le_mul_of_nonneg_left h5 hc0.le
    rw [mul_add, hη', mul_div_cancel₀ _ hc0.ne'] at h6
    refine h6.trans (le_of_eq ?_)
    ring

/-! ### The hypotheses are met -/

/-- every field has a table of samples as fine as one likes -/
theorem C126_tables_exist (dens : ℝ → ℝ) (a b δ : ℝ) (hab : a < b) (hδ : 0 < δ) : ∃ table, Samples dens a b δ table := by
  obtain ⟨k, hk⟩ := exists_nat_gt ((b - a) / δ)
  have hba : 0 < b - a := by linarith
  have hk0 : (0:ℝ) < k := lt_trans (div_pos hba hδ) hk
  have hkn : 0 < k := by exact_mod_cast hk0
  set x : ℕ → ℝ := fun i => a + i * ((b - a) / k) with hx
  have hstep : 0 < (b - a) / k := by positivity
  have hmap : ((List.range (k + 1)).map (fun i => (x i, dens (x i)))).map (·.1) = (List.range (k + 1)).map x := by
    simp [List.map_map, Function.comp_def]
  refine ⟨(List.range (k + 1)).map (fun i => (x i, dens (x i))), ?_, ?_, ?_, ?_, ?_, ?_⟩
  · simp; omega
  · rw [hmap, List.range_succ_eq_map]; simp [hx]
  · rw [hmap, List.range_succ]
    simp only [List.map_append, List.map_cons, List.map_nil, List.getLast?_concat, hx, Option.some.injEq]
    field_simp; ring
  · rw [hmap, List.pairwise_map]
    apply List.pairwise_lt_range.imp
    intro i j hij
    have : (i:ℝ) < j := by exact_mod_cast hij
    simp only [hx]
    have := mul_lt_mul_of_pos_right this hstep
    linarith
  · intro q hq
    obtain ⟨i, -, rfl⟩ := List.mem_map.1 hq
    rfl
  · intro i u v hu hv
    rw [hmap] at hu hv
    rw [List.getElem?_map] at hu hv
    obtain ⟨i1, h1, rfl⟩ := Option.map_eq_some_iff.1 hu
    obtain ⟨i2, h2, rfl⟩ := Option.map_eq_some_iff.1 hv
    rw [List.getElem?_range (by by_contra h; rw [List.getElem?_eq_none (by simp; omega)] at h1; cases h1)] at h1
    rw [List.getElem?_range (by by_contra h; rw [List.getElem?_eq_none (by simp; omega)] at h2; cases h2)] at h2
    injection h1 with h1
    injection h2 with h2
    subst h1; subst h2
    simp only [hx]
    push_cast
    have : (b - a) / k ≤ δ := by
      rw [div_le_iff₀ hk0]; rw [div_lt_iff₀ hδ] at hk; linarith
    linarith

/-- Default electrons and a power law of photons between 10⁻⁹ and 10⁻⁷ mc². -/
example (η : ℝ) (hη : 0 < η) := C126_table_limit exEl exPd rfl one_pos exEl_lo exEl_hi exEl_lt (fun E => E ^ (-2 : ℝ))
  (fun _ _ => rfl)
  (Spectrum.of_continuous (fun E hE => Real.rpow_nonneg (exEl_lo.phys_pos.trans_le hE.1).le _)
    (fun E hE => (Real.continuousAt_rpow_const E _ (Or.inl (exEl_lo.phys_pos.trans_le hE.1).ne')).continuousWithinAt))
  (fun t => 3 / t) 1e-9 1e-7 (by norm_num) (by norm_num)
  (Spectrum.of_continuous (fun t ht => by
      have : (0:ℝ) < t := lt_of_lt_of_le (by norm_num) ht.1
      positivity)
    (ContinuousOn.div continuousOn_const continuousOn_id (fun t ht => by
      have : (0:ℝ) < t := lt_of_lt_of_le (by norm_num) ht.1
      exact this.ne')))
  none 1.6e-3 (by norm_num) η hη

end Naima.Props
