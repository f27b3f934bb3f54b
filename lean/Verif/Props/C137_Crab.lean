import Verif.Model.CrabRecipe
import Verif.Props.C102_SSC
import Verif.Props.C134_Recipe
import Verif.Props.C07_Flux

/-!
# C137: the documented model of the Crab nebula
-/

namespace Naima.Props

open Naima XR Classical Naima.Spec

noncomputable section

theorem ecbpl_renormalised (c A a1 a2 b : ℝ) (e0 eb ec : Qty XR) (u : PhysUnit) (hc : 0 < c) :
    Renormalised c (ECBPL.toPDist ⟨fin A, e0, eb, fin a1, fin a2, ec, fin b⟩ u)
      (ECBPL.toPDist ⟨fin (c * A), e0, eb, fin a1, fin a2, ec, fin b⟩ u) := by
  refine ⟨rfl, fun E => ?_⟩
  have key : ∀ e x y z, ecbplEval e (fin (c * A)) x y (fin a1) (fin a2) z (fin b) =
      fin c * ecbplEval e (fin A) x y (fin a1) (fin a2) z (fin b) := by
    intro e x y z
    simp only [ecbplEval]
    rw [← XR.mul_fin, scale_mul c hc, scale_mul c hc, scale_mul c hc]
  simp only [ECBPL.toPDist, ECBPL.call]
  cases h1 : validateEneEV ⟨fin E, PhysUnit.erg⟩ with
  | error err => simp only [bind, Except.bind]; rfl
  | ok ev =>
    cases h2 : e0.toValue PhysUnit.eV with
    | error err => simp only [bind, Except.bind]; rfl
    | ok x =>
      cases h3 : eb.toValue PhysUnit.eV with
      | error err => simp only [bind, Except.bind]; rfl
      | ok y =>
        cases h4 : ec.toValue PhysUnit.eV with
        | error err => simp only [bind, Except.bind]; rfl
        | ok z => simp only [bind, Except.bind, pure, Except.pure, key]

theorem crab_good (A : ℝ) (hA : 0 < A) : ∀ E, 0 < E → FiniteNonneg ((crabElectrons A).f E) := by
  intro E hE
  have hT : (0 : ℝ) < PhysUnit.TeV.scale := by norm_num [PhysUnit.TeV]
  have h := ecbpl_pdist A 1.5 3.233 2 ⟨1, PhysUnit.TeV⟩ ⟨0.265, PhysUnit.TeV⟩ ⟨1863, PhysUnit.TeV⟩ ⟨rfl, hT, by norm_num⟩
    ⟨rfl, hT, by norm_num⟩ ⟨rfl, hT, by norm_num⟩ perEV E hE
  refine ⟨_, ?_, h⟩
  unfold Spec.ecbpl
  have := bpl_pos A 1.5 3.233 (E / (1 * PhysUnit.TeV.scale)) (0.265 * PhysUnit.TeV.scale / (1 * PhysUnit.TeV.scale)) hA
    (by positivity) (by positivity)
  exact mul_nonneg (Real.exp_pos _).le this.le

theorem crab_lo : (crabIC.Eemin).PosEnergy := ⟨rfl, by norm_num [crabIC, PhysUnit.GeV], by norm_num [crabIC]⟩
theorem crab_hi : (crabIC.Eemax).PosEnergy :=
  ⟨rfl, by norm_num [crabIC, PhysUnit.PeV, PhysUnit.TeV], by norm_num [crabIC]⟩
theorem crab_le : crabIC.Eemin.phys ≤ crabIC.Eemax.phys := by
  simp only [crabIC, Qty.phys, PhysUnit.GeV, PhysUnit.PeV, PhysUnit.TeV]; norm_num

theorem crab_B (B : ℝ) (hB : 0 < B) : 0 < (crabSyn B).B.phys := by
  simp only [crabSyn, Qty.phys, microgauss, gauss]; positivity

/-- one thermal field -/
theorem crab_thermal (name : String) (T x : ℝ) (hT : 0 < T) (hx : 0 < x) :
    ∃ (fs : List (String × SeedField)) (ss : List SeedNum),
      processInputSeed (.list [.list3 name (.qty (fin T) kelvin) (.qty (fin x) eVcm3)]) = .ok fs ∧
      fs.mapM (fun f => f.2.toNum) = .ok ss ∧ ss ≠ [] ∧ ∀ s ∈ ss, ValidSeed s := by
  have hE := cEV_pos
  have pL : parseSeed (.list3 name (.qty (fin T) kelvin) (.qty (fin x) eVcm3)) =
      .ok (name, .thermal (.qty (fin T) kelvin) (.qty (fin x) eVcm3) none) := by
    have := (C16_thermal_density name T kelvin (by norm_num [kelvin]) rfl hT.le x hx.ne' eVcm3 hE).1
    rw [if_pos (show eVcm3.dim = Dim.pressure from rfl), if_pos hx] at this
    exact this
  have nL : SeedField.toNum (.thermal (.qty (fin T) kelvin) (.qty (fin x) eVcm3) none) =
      .ok (.thermal (T * 1) (x * cEV) none) := by
    simp [SeedField.toNum, sizeOf, scalarQty, kelvin, eVcm3, asFinite, thetaOf, bind, Except.bind, pure, Except.pure]
  refine ⟨_, [SeedNum.thermal (T * 1) (x * cEV) none], C16_in_order_partial _ _ (.cons pL .nil) (by simp), ?_, by simp, ?_⟩
  · simp only [List.mapM_cons, List.mapM_nil, nL, bind, Except.bind, pure, Except.pure]
  · intro s hs
    rw [List.mem_singleton] at hs
    subst hs
    exact ⟨by simpa using hT, by positivity⟩

theorem crab_field (A : ℝ) (hA : 0 < A) (l : SeedsArg) (es : List ℝ) (hes : ∀ e ∈ es, 0 < e)
    (h : ∃ (fs : List (String × SeedField)) (ss : List SeedNum), processInputSeed l = .ok fs ∧
      fs.mapM (fun f => f.2.toNum) = .ok ss ∧ ss ≠ [] ∧ ∀ s ∈ ss, ValidSeed s) :
    ∃ L : List ℝ, icModelSpectrum crabIC l (crabElectrons A) es = .ok (L.map fin) ∧ L.length = es.length ∧ ∀ x ∈ L, 0 ≤ x := by
  obtain ⟨fs, ss, h1, h2, h3, h4⟩ := h
  obtain ⟨out, ho, hl, hn⟩ := C15_spectrum crabIC (crabElectrons A) rfl perEV_pos (crab_good A hA) crab_lo crab_hi crab_le
    ss h3 h4 es hes
  exact good_list ⟨out, by simp only [icModelSpectrum, h1, h2, bind, Except.bind, ho], hl, hn⟩

theorem crabEsy_mono : crabEsy.value.Pairwise (· ≤ ·) := by
  simp only [crabEsy, logspace]
  rw [List.pairwise_map]
  refine List.pairwise_lt_range.imp ?_
  intro i j hij
  have : (i : ℝ) ≤ j := by exact_mod_cast hij.le
  apply Real.rpow_le_rpow_of_exponent_le (by norm_num)
  norm_num
  linarith

theorem crabEsy_pos : ∀ x ∈ crabEsy.value, 0 < x := by
  intro x hx
  simp only [crabEsy, logspace] at hx
  obtain ⟨i, -, rfl⟩ := List.mem_map.1 hx
  exact Real.rpow_pos_of_pos (by norm_num) _

theorem crab_ssc (A B : ℝ) (hA : 0 < A) (hB : 0 < B) (es : List ℝ) (hes : ∀ e ∈ es, 0 < e) :
    ∃ L : List ℝ, sscSpectrum crabIC [] (crabSyn B) (crabElectrons A) crabEsy crabR es = .ok (L.map fin) ∧
      L.length = es.length ∧ ∀ x ∈ L, 0 ≤ x :=
  good_list (C102_nonneg crabIC (crabSyn B) (crabElectrons A) rfl perEV_pos (crab_good A hA) crab_lo crab_hi crab_le
    crab_lo crab_hi crab_le rfl (crab_B B hB) crabEsy rfl (by norm_num [crabEsy, PhysUnit.eV])
    (by simp [crabEsy, logspace]) crabEsy_pos crabEsy_mono crabR rfl (by norm_num [crabR, parsec, kpc]) (by norm_num [crabR])
    es hes)

theorem crab_sync (A B : ℝ) (hA : 0 < A) (hB : 0 < B) (es : List ℝ) (hes : ∀ e ∈ es, 0 < e) :
    ∃ L : List ℝ, (crabSyn B).spectrum (crabElectrons A) es = .ok (L.map fin) ∧ L.length = es.length ∧ ∀ x ∈ L, 0 ≤ x := by
  obtain ⟨out, ho, hl, hn, -⟩ := C14_nonneg_partial (crabSyn B) (crabElectrons A) rfl perEV_pos (crab_good A hA)
    crab_lo crab_hi crab_le rfl (crab_B B hB) es hes
  exact good_list ⟨out, ho, hl, hn⟩

/-- `E²/(4πD²)` in the units of the SED, per photon energy. -/
def sedWeight (e : Qty (List ℝ)) (D : Qty ℝ) : List ℝ :=
  e.value.map (fun x => (x * e.unit.scale) ^ 2 / cEV / (4 * Real.pi * D.phys ^ 2))

theorem crab_sed (S : List ℝ → Except PyErr (List XR)) (L : List ℝ) (e : Qty (List ℝ)) (hu : e.unit.dim = Dim.energy)
    (hs : 0 < e.unit.scale) (D : Qty ℝ) (hD : D.unit.dim = Dim.length) (hDs : 0 < D.unit.scale) (hDv : 0 < D.value)
    (hL : S (e.value.map (· * e.unit.scale)) = .ok (L.map fin)) :
    sedOf S e (.qty D) = .ok ⟨(List.zipWith (· * ·) L (sedWeight e D)).map fin, uSed⟩ := by
  have hk : 0 < 4 * Real.pi * (D.value * D.unit.scale) ^ 2 := by
    have := Real.pi_pos
    positivity
  have hz : (DistArg.qty D).isZero = false := by simp [DistArg.isZero, hDv.ne']
  have hF : fluxOf S e (.qty D) = .ok ⟨(L.map fin).map (fun s => s / fin (4 * Real.pi * (D.value * D.unit.scale) ^ 2)), uFlux⟩ := by
    simp only [fluxOf, energiesErg, hu, if_true, bind, Except.bind, hL, hz, Bool.false_eq_true, if_false, DistArg.cm, hD, pure,
      Except.pure]
  rw [C07_sed S e hu hs (.qty D) _ hF, hz]
  simp only [Bool.false_eq_true, if_false, energyPhys, sedWeight]
  congr 2
  rw [List.map_map, List.zipWith_map, List.zipWith_map_right, List.map_zipWith]
  congr 1
  funext l x
  simp only [Function.comp_apply]
  rw [div_fin _ _ hk.ne', mul_fin]
  congr 1
  simp only [Qty.phys]
  ring

theorem sedWeight_nonneg (e : Qty (List ℝ)) (D : Qty ℝ) : ∀ w ∈ sedWeight e D, 0 ≤ w := by
  intro w hw
  obtain ⟨x, -, rfl⟩ := List.mem_map.1 hw
  have := cEV_pos
  have := Real.pi_pos
  positivity

theorem zip_fin (a b : List ℝ) : List.zipWith (· + ·) (a.map fin) (b.map fin) = (List.zipWith (· + ·) a b).map fin := by
  rw [List.zipWith_map, List.map_zipWith]
  congr 1

theorem zipMul_nonneg (a b : List ℝ) (ha : ∀ x ∈ a, 0 ≤ x) (hb : ∀ x ∈ b, 0 ≤ x) :
    ∀ x ∈ List.zipWith (· * ·) a b, 0 ≤ x := by
  intro x hx
  rw [List.zipWith_eq_zipWith_take_min] at hx
  obtain ⟨i, hi, rfl⟩ := List.getElem_of_mem hx
  rw [List.getElem_zipWith]
  exact mul_nonneg (ha _ (List.mem_of_mem_take (List.getElem_mem _))) (hb _ (List.mem_of_mem_take (List.getElem_mem _)))

/-- The SED of one component of the example, `L` its values in erg/(cm² s). -/
structure IsSed (S : List ℝ → Except PyErr (List XR)) (e : Qty (List ℝ)) (D : Qty ℝ) (L : List ℝ) : Prop where
  sed : sedOf S e (.qty D) = .ok ⟨L.map fin, uSed⟩
  length : L.length = e.value.length
  nonneg : ∀ x ∈ L, 0 ≤ x

/-- **C137 (the documented model of the Crab nebula).** For every amplitude `A > 0` of the electrons, field `B > 0`, distance
and list of positive photon energies, in any units: each of the five components of the example — the electrons' scattering of
the CMB alone, the FIR field alone, the NIR field alone, their own synchrotron photons alone, and the synchrotron emission —
has a finite non-negative SED; the total shown is their sum, energy by energy; and with `c` times as many electrons it is `c`
times the sum of four of them plus `c²` times the self-Compton component. -/
theorem C137_components (A B : ℝ) (hA : 0 < A) (hB : 0 < B) (e : Qty (List ℝ)) (hu : e.unit.dim = Dim.energy)
    (hs : 0 < e.unit.scale) (he : ∀ x ∈ e.value, 0 < x) (D : Qty ℝ) (hD : D.unit.dim = Dim.length)
    (hDs : 0 < D.unit.scale) (hDv : 0 < D.value) :
    ∃ C F N S Y : List ℝ,
      IsSed (icModelSpectrum crabIC (.list [.str "CMB"]) (crabElectrons A)) e D C ∧
      IsSed (icModelSpectrum crabIC (.list [crabFIR]) (crabElectrons A)) e D F ∧
      IsSed (icModelSpectrum crabIC (.list [crabNIR]) (crabElectrons A)) e D N ∧
      IsSed (sscSpectrum crabIC [] (crabSyn B) (crabElectrons A) crabEsy crabR) e D S ∧
      IsSed ((crabSyn B).spectrum (crabElectrons A)) e D Y ∧
      crabTotal A B e (.qty D) = .ok ⟨((List.range e.value.length).map
        (fun i => C.getD i 0 + F.getD i 0 + N.getD i 0 + S.getD i 0 + Y.getD i 0)).map fin, uSed⟩ ∧
      ∀ c > 0, crabTotal (c * A) B e (.qty D) = .ok ⟨((List.range e.value.length).map
        (fun i => c * (C.getD i 0 + F.getD i 0 + N.getD i 0 + Y.getD i 0) + c ^ 2 * S.getD i 0)).map fin, uSed⟩ := by
  have hes : ∀ x ∈ e.value.map (· * e.unit.scale), 0 < x := by
    intro x hx
    obtain ⟨y, hy, rfl⟩ := List.mem_map.1 hx
    exact mul_pos (he y hy) hs
  obtain ⟨C, c1, c2, c3⟩ := crab_field A hA (.list [.str "CMB"]) _ hes cmb_parse
  obtain ⟨F, f1, f2, f3⟩ := crab_field A hA (.list [crabFIR]) _ hes (crab_thermal _ _ _ (by norm_num) (by norm_num))
  obtain ⟨N, n1, n2, n3⟩ := crab_field A hA (.list [crabNIR]) _ hes (crab_thermal _ _ _ (by norm_num) (by norm_num))
  obtain ⟨S, s1, s2, s3⟩ := crab_ssc A B hA hB _ hes
  obtain ⟨Y, y1, y2, y3⟩ := crab_sync A B hA hB _ hes
  rw [List.length_map] at c2 f2 n2 s2 y2
  have hw : (sedWeight e D).length = e.value.length := by simp [sedWeight]
  have mk : ∀ (T : List ℝ → Except PyErr (List XR)) (L : List ℝ), T (e.value.map (· * e.unit.scale)) = .ok (L.map fin) →
      L.length = e.value.length → (∀ x ∈ L, 0 ≤ x) → IsSed T e D (List.zipWith (· * ·) L (sedWeight e D)) :=
    fun T L h1 h2 h3 => ⟨crab_sed T L e hu hs D hD hDs hDv h1, by simp [h2, hw], zipMul_nonneg _ _ h3 (sedWeight_nonneg e D)⟩
  have o1 : icModelSpectrum crabIC (.list ([.str "CMB"] ++ [crabFIR])) (crabElectrons A) (e.value.map (· * e.unit.scale)) = _ :=
    icModel_snoc crabIC [.str "CMB"] crabFIR "FIR" rfl (by
      intro t ht; rw [List.mem_singleton] at ht; subst ht; decide) _ _ _ _ c1 f1
  have o2 : icModelSpectrum crabIC (.list ([.str "CMB", crabFIR] ++ [crabNIR])) (crabElectrons A)
      (e.value.map (· * e.unit.scale)) = _ :=
    icModel_snoc crabIC [.str "CMB", crabFIR] crabNIR "NIR" rfl (by
      intro t ht
      simp only [List.mem_cons, List.not_mem_nil, or_false] at ht
      rcases ht with rfl | rfl
      · decide
      · simp [crabFIR, SeedName]) _ _ _ _ o1 n1
  rw [zip_fin, zip_fin] at o2
  have tot := C102_total crabIC [.str "CMB", crabFIR, crabNIR] (by
      intro t ht
      simp only [List.mem_cons, List.not_mem_nil, or_false] at ht
      rcases ht with rfl | rfl | rfl
      · decide
      · simp [crabFIR, SeedName]
      · simp [crabNIR, SeedName]) (crabSyn B) crabEsy crabR rfl (crabElectrons A) _ _ _ o2 s1
  have scaled : ∀ c > 0, crabTotal (c * A) B e (.qty D) = .ok ⟨((List.range e.value.length).map
      (fun i => c * ((List.zipWith (· * ·) C (sedWeight e D)).getD i 0 + (List.zipWith (· * ·) F (sedWeight e D)).getD i 0 +
        (List.zipWith (· * ·) N (sedWeight e D)).getD i 0 + (List.zipWith (· * ·) Y (sedWeight e D)).getD i 0) +
        c ^ 2 * (List.zipWith (· * ·) S (sedWeight e D)).getD i 0)).map fin, uSed⟩ := by
    intro c hc
    have R : Renormalised c (crabElectrons A) (crabElectrons (c * A)) := ecbpl_renormalised c A _ _ _ _ _ _ _ hc
    have t := tot.2 c _ hc R
    rw [List.zipWith_map] at t
    have t' : crabICSpectrum (c * A) B (e.value.map (· * e.unit.scale)) = .ok ((List.zipWith (fun a s => c * a + c ^ 2 * s)
        (List.zipWith (· + ·) (List.zipWith (· + ·) C F) N) S).map fin) := by
      unfold crabICSpectrum
      rw [t, List.map_zipWith]
      congr 2
    have y' := C08_synchrotron (crabSyn B) c hc _ _ R (e.value.map (· * e.unit.scale))
    unfold ScaledOutcome at y'
    rw [y1] at y'
    have y'' : (crabSyn B).spectrum (crabElectrons (c * A)) (e.value.map (· * e.unit.scale)) =
        .ok ((Y.map (fun y => c * y)).map fin) := by
      rw [y']
      simp only [Except.map, List.map_map]
      congr 1
    simp only [crabTotal, crab_sed _ _ e hu hs D hD hDs hDv t', crab_sed _ _ e hu hs D hD hDs hDv y'', bind, Except.bind, pure,
      Except.pure]
    rw [zip_fin]
    congr 3
    apply List.ext_getElem
    · simp [c2, f2, n2, s2, y2, hw]
    · intro i h1 h2
      have hi : i < e.value.length := by simpa using h2
      simp only [List.getElem_zipWith, List.getElem_map, List.getElem_range]
      simp only [List.getD_eq_getElem?_getD, List.getElem?_zipWith, List.getElem?_eq_getElem (c2 ▸ hi : i < C.length),
        List.getElem?_eq_getElem (f2 ▸ hi : i < F.length), List.getElem?_eq_getElem (n2 ▸ hi : i < N.length),
        List.getElem?_eq_getElem (s2 ▸ hi : i < S.length), List.getElem?_eq_getElem (y2 ▸ hi : i < Y.length),
        List.getElem?_eq_getElem (hw ▸ hi : i < (sedWeight e D).length), Option.getD_some]
      ring
  refine ⟨_, _, _, _, _, mk _ C c1 c2 c3, mk _ F f1 f2 f3, mk _ N n1 n2 n3, mk _ S s1 s2 s3, mk _ Y y1 y2 y3, ?_, scaled⟩
  have := scaled 1 one_pos
  rw [one_mul] at this
  rw [this]
  congr 3
  refine List.map_congr_left (fun i _ => ?_)
  ring

/-! ### The hypotheses are met -/

/-- The example itself: 125 μG, 2 kpc, 100 energies from 1e-7 to 1e15 eV. -/
example : ∃ T : List ℝ, crabTotal 3.699e36 125 ⟨logspace (-7) 15 100, PhysUnit.eV⟩ (.qty ⟨2, kpc⟩) = .ok ⟨T.map fin, uSed⟩ ∧
    T.length = 100 := by
  obtain ⟨C, F, N, S, Y, -, -, -, -, -, h, -⟩ := C137_components 3.699e36 125 (by norm_num) (by norm_num)
    ⟨logspace (-7) 15 100, PhysUnit.eV⟩ rfl (by norm_num [PhysUnit.eV]) (by
      intro x hx
      obtain ⟨i, -, rfl⟩ := List.mem_map.1 hx
      exact Real.rpow_pos_of_pos (by norm_num) _) ⟨2, kpc⟩ rfl (by norm_num [kpc]) (by norm_num)
  exact ⟨_, h, by simp [logspace]⟩

end

end Naima.Props
