import Verif.Model.Recipe
import Verif.Props.C26_Ebl
import Verif.Props.C114_SherpaPars
import Verif.Props.C133_Stability

/-!
# C134: the documented model of an absorbed extragalactic source
-/

namespace Naima.Props

open Naima XR Classical Naima.Spec

noncomputable section

/-- What the background light leaves of photons of energy `E` (erg) from redshift `z`: everything below 1 GeV; for `z < 0.01`
everything up to 100 TeV; for `z ≥ 0.01`, at the tabulated energies `exp(-τ)` with the tabulated optical depth of the
closest redshift, `τ` at most 150; a positive part at any energy. Above 100 TeV the code uses the constant `log10 6000`. -/
structure Leaves (d : EblData) (z E t : ℝ) : Prop where
  pos : 0 < t
  below : E < PhysUnit.GeV.scale → t = 1
  near : z < 0.01 → E ≤ 100 * PhysUnit.TeV.scale → t = 1
  table : 0.01 ≤ z → ∃ n, IsClosestColumn z n ∧ ∀ p ∈ d.energy.zip (d.col n), p.1 * PhysUnit.TeV.scale = E →
    t = Real.exp (-(min p.2 150))
  above : 100 * PhysUnit.TeV.scale < E → t = Real.exp (-Real.logb 10 6000)

/-! ### The components -/

theorem recipeElectrons_eq (p0 p1 a1 a2 : ℝ) :
    (recipeElectrons p0 p1 a1 a2).unit = perEV ∧ ∀ E, 0 < E →
      (recipeElectrons p0 p1 a1 a2).f E =
        fin (Spec.bpl (10 ^ p0) a1 a2 (E / PhysUnit.TeV.scale) ((10 : ℝ) ^ p1)) := by
  have hT : (0 : ℝ) < PhysUnit.TeV.scale := by norm_num [PhysUnit.TeV]
  refine ⟨rfl, fun E hE => ?_⟩
  have h := bpl_pdist (10 ^ p0) a1 a2 ⟨1, PhysUnit.TeV⟩ ⟨10 ^ p1, PhysUnit.TeV⟩ ⟨rfl, hT, by norm_num⟩
    ⟨rfl, hT, Real.rpow_pos_of_pos (by norm_num) _⟩ perEV E hE
  simp only [Qty.phys, one_mul, mul_div_cancel_right₀ _ hT.ne'] at h
  exact h

theorem recipeElectrons_good (p0 p1 a1 a2 : ℝ) : ∀ E, 0 < E →
    FiniteNonneg ((recipeElectrons p0 p1 a1 a2).f E) := by
  intro E hE
  have hT : (0 : ℝ) < PhysUnit.TeV.scale := by norm_num [PhysUnit.TeV]
  rw [(recipeElectrons_eq p0 p1 a1 a2).2 E hE]
  exact ⟨_, (bpl_pos _ _ _ _ _ (Real.rpow_pos_of_pos (by norm_num) _) (div_pos hE hT)
    (Real.rpow_pos_of_pos (by norm_num) _)).le, rfl⟩

theorem perEV_pos : 0 < perEV.scale := by
  have := cEV_pos
  unfold perEV; positivity

theorem eemax_pos : (eemaxDefault).PosEnergy :=
  ⟨rfl, by norm_num [eemaxDefault, PhysUnit.erg], by simp only [eemaxDefault]; exact mul_pos (by norm_num) cMec2_pos⟩

theorem good_list {n : ℕ} {r : Except PyErr (List XR)} (h : GoodCounts n r) :
    ∃ L : List ℝ, r = .ok (L.map fin) ∧ L.length = n ∧ ∀ l ∈ L, 0 ≤ l := by
  obtain ⟨out, h1, h2, h3⟩ := h
  choose f hf using h3
  refine ⟨out.attach.map (fun a => f a.1 a.2), ?_, by simpa using h2, ?_⟩
  · rw [h1]
    congr 1
    rw [List.map_map]
    conv_lhs => rw [← List.attach_map_subtype_val out]
    exact List.map_congr_left (fun a _ => (hf a.1 a.2).2)
  · intro l hl
    obtain ⟨a, -, rfl⟩ := List.mem_map.1 hl
    exact (hf a.1 a.2).1

/-- the flux at 1 kpc of a component that is computed -/
theorem recipe_flux (S : List ℝ → Except PyErr (List XR)) (e : Qty (List ℝ)) (hu : e.unit.dim = Dim.energy)
    (h : GoodCounts e.value.length (S (e.value.map (· * e.unit.scale)))) :
    ∃ L : List ℝ, fluxOf S e (.qty ⟨1, kpc⟩) = .ok ⟨L.map fin, uFlux⟩ ∧ L.length = e.value.length ∧ ∀ l ∈ L, 0 ≤ l := by
  obtain ⟨L, h1, h2, h3⟩ := good_list h
  have hk : 0 < 4 * Real.pi * (1 * kpc.scale) ^ 2 := by
    have := Real.pi_pos
    have : (0 : ℝ) < kpc.scale := by norm_num [kpc]
    positivity
  have hz : (DistArg.qty ⟨1, kpc⟩).isZero = false := by simp [DistArg.isZero]
  have hc : (DistArg.qty ⟨1, kpc⟩).cm = .ok (1 * kpc.scale) := by simp [DistArg.cm, kpc]
  refine ⟨L.map (fun l => l / (4 * Real.pi * (1 * kpc.scale) ^ 2)), ?_, by simpa using h2, ?_⟩
  · simp only [fluxOf, energiesErg, hu, if_true, bind, Except.bind, h1, hz, hc, pure, Except.pure, List.map_map]
    simp only [Bool.false_eq_true, if_false, List.map_map]
    congr 2
    refine List.map_congr_left (fun l _ => ?_)
    simp only [Function.comp_apply]
    rw [div_fin _ _ hk.ne']
  · intro l hl
    obtain ⟨x, hx, rfl⟩ := List.mem_map.1 hl
    exact div_nonneg (h3 x hx) hk.le

theorem cmb_parse : ∃ (fs : List (String × SeedField)) (ss : List SeedNum),
    processInputSeed (.list [.str "CMB"]) = .ok fs ∧ fs.mapM (fun f => f.2.toNum) = .ok ss ∧
      ss ≠ [] ∧ ∀ s ∈ ss, ValidSeed s := by
  have := shSeeds_parse 1 0 1 0 one_pos one_pos le_rfl le_rfl
  simpa [shSeeds] using this

theorem recipe_ic (p0 p1 a1 a2 : ℝ) (e : Qty (List ℝ)) (hu : e.unit.dim = Dim.energy) (hs : 0 < e.unit.scale)
    (he : ∀ x ∈ e.value, 0 < x) :
    ∃ F : List ℝ, recipeICFlux (recipeElectrons p0 p1 a1 a2) e = .ok ⟨F.map fin, uFlux⟩ ∧
      F.length = e.value.length ∧ ∀ f ∈ F, 0 ≤ f := by
  refine recipe_flux _ e hu ?_
  obtain ⟨fs, ss, h1, h2, h3, h4⟩ := cmb_parse
  obtain ⟨out, ho, hl, hn⟩ := C15_spectrum recipeIC (recipeElectrons p0 p1 a1 a2) rfl perEV_pos
    (recipeElectrons_good p0 p1 a1 a2) ⟨rfl, by norm_num [recipeIC, PhysUnit.GeV], by norm_num [recipeIC]⟩ eemax_pos
    (by simp only [recipeIC, Qty.phys, eemaxDefault, PhysUnit.GeV, PhysUnit.erg, cMec2, cMe, cC]; norm_num)
    ss h3 h4 (e.value.map (· * e.unit.scale)) (by
      intro x hx
      obtain ⟨y, hy, rfl⟩ := List.mem_map.1 hx
      exact mul_pos (he y hy) hs)
  refine ⟨out, ?_, by simpa using hl, hn⟩
  simp only [icModelSpectrum, h1, h2, bind, Except.bind, ho]

theorem recipe_syn (B : ℝ) (hB : 0 < B) (p0 p1 a1 a2 : ℝ) (e : Qty (List ℝ)) (hu : e.unit.dim = Dim.energy)
    (hs : 0 < e.unit.scale) (he : ∀ x ∈ e.value, 0 < x) :
    ∃ G : List ℝ, recipeSynFlux B (recipeElectrons p0 p1 a1 a2) e = .ok ⟨G.map fin, uFlux⟩ ∧
      G.length = e.value.length ∧ ∀ g ∈ G, 0 ≤ g := by
  refine recipe_flux _ e hu ?_
  obtain ⟨out, ho, hl, hn, -⟩ := C14_nonneg_partial (recipeSyn B) (recipeElectrons p0 p1 a1 a2) rfl perEV_pos
    (recipeElectrons_good p0 p1 a1 a2) ⟨rfl, by norm_num [recipeSyn, PhysUnit.GeV], by norm_num [recipeSyn]⟩ eemax_pos
    (by simp only [recipeSyn, Qty.phys, eemaxDefault, PhysUnit.GeV, PhysUnit.erg, cMec2, cMe, cC]; norm_num)
    rfl (by simp only [recipeSyn, Qty.phys, microgauss, gauss]; positivity) (e.value.map (· * e.unit.scale)) (by
      intro x hx
      obtain ⟨y, hy, rfl⟩ := List.mem_map.1 hx
      exact mul_pos (he y hy) hs)
  exact ⟨out, ho, by simpa using hl, hn⟩

theorem recipe_We (p0 p1 a1 a2 : ℝ) : ∃ W : ℝ, 0 ≤ W ∧
    recipeIC.computeWe (recipeElectrons p0 p1 a1 a2) (some ⟨1, PhysUnit.TeV⟩) none = .ok (fin W) := by
  have hT : (0 : ℝ) < PhysUnit.TeV.scale := by norm_num [PhysUnit.TeV]
  have hlo : (⟨1, PhysUnit.TeV⟩ : Qty ℝ).PosEnergy := ⟨rfl, hT, by norm_num⟩
  have hp : Population (recipeElectrons p0 p1 a1 a2)
      (fun E => Spec.bpl (10 ^ p0) a1 a2 (E / PhysUnit.TeV.scale) ((10 : ℝ) ^ p1) * perEV.scale)
      (⟨1, PhysUnit.TeV⟩ : Qty ℝ).phys eemaxDefault.phys := by
    refine ⟨rfl, perEV_pos, fun E hE => ?_⟩
    have hE' : 0 < E := hlo.phys_pos.trans_le hE.1
    exact ⟨_, (recipeElectrons_eq p0 p1 a1 a2).2 E hE', (bpl_pos _ _ _ _ _ (Real.rpow_pos_of_pos (by norm_num) _)
      (div_pos hE' hT) (Real.rpow_pos_of_pos (by norm_num) _)).le, rfl⟩
  obtain ⟨W, W', h1, -, h2, -⟩ := C133_compute_We recipeIC ⟨1, PhysUnit.TeV⟩ eemaxDefault hlo eemax_pos
    (by simp only [Qty.phys, eemaxDefault, PhysUnit.TeV, PhysUnit.erg, cMec2, cMe, cC]; norm_num) 0 le_rfl one_pos _ _ _ _
    hp hp (by intro E _; simp)
  exact ⟨W, h2, h1⟩

theorem transmission_list (I : Interp) (m : TableModel) (u : PhysUnit) (h : u.dim = Dim.energy) (P : ℝ → ℝ → Prop)
    (H : ∀ x : ℝ, ∃ t : ℝ, eblTransmission I m (.array [fin x] u) = .ok [fin t] ∧ P x t) (es : List ℝ) :
    ∃ T : List ℝ, eblTransmission I m (.array (es.map fin) u) = .ok (T.map fin) ∧ List.Forall₂ P es T := by
  induction es with
  | nil => exact ⟨[], by simp [eblTransmission, h, pure, Except.pure], .nil⟩
  | cons x es ih =>
    obtain ⟨T, h1, h2⟩ := ih
    obtain ⟨t, h3, h4⟩ := H x
    refine ⟨t :: T, ?_, .cons h4 h2⟩
    simp only [eblTransmission, h, if_true, List.map_cons, List.mapM_cons, List.map_nil, List.mapM_nil] at h1 h3 ⊢
    cases hq : eblTau I m ⟨fin x, u⟩ with
    | error err => rw [hq] at h3; simp [bind, Except.bind] at h3
    | ok τ =>
      rw [hq] at h3
      simp only [bind, Except.bind, pure, Except.pure, Except.ok.injEq, List.cons.injEq, and_true] at h3 h1 ⊢
      rw [h1, h3]

/-- The transmission is computed for every redshift `≥ 0`. -/
theorem recipe_transmission (d : EblData) (hd : EblFile d) (I : Interp) (hI : CubicSpline I) (z : ℝ) (hz : 0 ≤ z)
    (e : Qty (List ℝ)) (hu : e.unit.dim = Dim.energy) (hs : 0 < e.unit.scale) :
    ∃ T : List ℝ, recipeTransmission d I z e = .ok (T.map fin) ∧
      List.Forall₂ (fun x t => Leaves d z (x * e.unit.scale) t) e.value T := by
  have hG : PhysUnit.GeV.scale ≤ 100 * PhysUnit.TeV.scale := by norm_num [PhysUnit.GeV, PhysUnit.TeV]
  have hcode : ∀ m, eblInit d (.num (fin z)) = .ok m →
      recipeTransmission d I z e = eblTransmission I m (.array (e.value.map fin) e.unit) := by
    intro m hm
    have : eblInit d (.qty (fin z) unitOne) = .ok m := hm
    simp only [recipeTransmission, this, bind, Except.bind]
  by_cases hc : 0.01 ≤ z
  · obtain ⟨m, n, hm, hn, H⟩ := C26_transmission_partial d hd I hI z hc
    obtain ⟨T, h1, h2⟩ := H e.unit hu hs e.value
    refine ⟨T, by rw [hcode m hm, h1], h2.imp ?_⟩
    rintro x t ⟨k1, k2, k3, k4⟩
    exact ⟨k1, k2, fun h => absurd hc (not_le.2 h), fun _ => ⟨n, hn, k3⟩, k4⟩
  · have hc := not_le.1 hc
    obtain ⟨m, hm, H⟩ := C26_low_redshift_partial d hd I hI z hz hc
    have H := H e.unit hu hs
    obtain ⟨T, h1, h2⟩ := transmission_list I m e.unit hu (fun x t => Leaves d z (x * e.unit.scale) t) (fun x => by
      by_cases hx : x * e.unit.scale ≤ 100 * PhysUnit.TeV.scale
      · exact ⟨1, (H x).1 hx, one_pos, fun _ => rfl, fun _ _ => rfl, fun h => absurd h (not_le.2 hc),
          fun h => absurd hx (not_le.2 h)⟩
      · have hx := not_le.1 hx
        exact ⟨_, (H x).2 hx, Real.exp_pos _, fun h => absurd (hG.trans_lt hx) (not_lt.2 h.le),
          fun _ h => absurd hx (not_lt.2 h), fun h => absurd h (not_le.2 hc), fun _ => rfl⟩) e.value
    exact ⟨T, by rw [hcode m hm, h1], h2⟩

/-! ### The model -/

/-- the field is in microgauss -/
theorem recipeSyn_gauss (B : ℝ) (pd : PDist) (e : Qty (List ℝ)) : recipeSynFlux B pd e =
    fluxOf (SyncModel.spectrum ⟨⟨⟨1, PhysUnit.GeV⟩, eemaxDefault, 100⟩, ⟨1e-6 * B, gauss⟩⟩ pd) e (.qty ⟨1, kpc⟩) := by
  have h : (⟨B, microgauss⟩ : Qty ℝ).toReal gauss = (⟨1e-6 * B, gauss⟩ : Qty ℝ).toReal gauss := by
    simp only [Qty.toReal, microgauss, gauss, if_true]
    congr 1
    ring
  have : (recipeSyn B).spectrum pd = SyncModel.spectrum ⟨⟨⟨1, PhysUnit.GeV⟩, eemaxDefault, 100⟩, ⟨1e-6 * B, gauss⟩⟩ pd := by
    funext es
    simp only [SyncModel.spectrum, recipeSyn, h]
  unfold recipeSynFlux
  rw [this]

theorem combine_fin (T F G : List ℝ) :
    List.zipWith (fun x y : XR => x + y) (List.zipWith (fun t f : XR => t * f) (T.map fin) (F.map fin)) (G.map fin) =
      (List.zipWith (fun x y => x + y) (List.zipWith (fun t f => t * f) T F) G).map fin := by
  induction T generalizing F G with
  | nil => simp
  | cons t T ih =>
    cases F with
    | nil => simp
    | cons f F =>
      cases G with
      | nil => simp
      | cons g G => simp only [List.map_cons, List.zipWith_cons_cons, ih, XR.mul_fin, XR.add_fin]

/-- **C134.** For every vector of six or more parameters with field `B > 0` and redshift `z ≥ 0` and all photon energies
`> 0` in any unit, the documented model is computed: at each energy it is the inverse Compton flux times what the background
light leaves, plus the synchrotron flux — the fluxes the two models return when asked themselves —, finite and not negative,
and the blob is the energy in the electrons above 1 TeV. -/
theorem C134_model (d : EblData) (hd : EblFile d) (I : Interp) (hI : CubicSpline I) (p0 p1 a1 a2 B z : ℝ)
    (rest : List ℝ) (hB : 0 < B) (hz : 0 ≤ z) (e : Qty (List ℝ)) (hu : e.unit.dim = Dim.energy)
    (hs : 0 < e.unit.scale) (he : ∀ x ∈ e.value, 0 < x) :
    ∃ (M T F G : List ℝ) (W : ℝ), absorbedSynIC d I (p0 :: p1 :: a1 :: a2 :: B :: z :: rest) e = .ok (⟨M.map fin, uFlux⟩, fin W) ∧
      M.length = e.value.length ∧
      (∀ (i : ℕ) (x : ℝ), e.value[i]? = some x → ∃ t f g : ℝ, T[i]? = some t ∧ F[i]? = some f ∧ G[i]? = some g ∧ 0 ≤ f ∧ 0 ≤ g ∧
        M[i]? = some (t * f + g) ∧ 0 ≤ t * f + g ∧ Leaves d z (x * e.unit.scale) t) ∧
      recipeTransmission d I z e = .ok (T.map fin) ∧
      fluxOf (icModelSpectrum ⟨⟨10, PhysUnit.GeV⟩, eemaxDefault, 100⟩ (.list [.str "CMB"]) (recipeElectrons p0 p1 a1 a2)) e (.qty ⟨1, kpc⟩) =
        .ok ⟨F.map fin, uFlux⟩ ∧
      fluxOf (SyncModel.spectrum ⟨⟨⟨1, PhysUnit.GeV⟩, eemaxDefault, 100⟩, ⟨1e-6 * B, gauss⟩⟩ (recipeElectrons p0 p1 a1 a2)) e
        (.qty ⟨1, kpc⟩) = .ok ⟨G.map fin, uFlux⟩ ∧
      ElModel.computeWe ⟨⟨10, PhysUnit.GeV⟩, eemaxDefault, 100⟩ (recipeElectrons p0 p1 a1 a2) (some ⟨1, PhysUnit.TeV⟩) none =
        .ok (fin W) ∧ 0 ≤ W := by
  obtain ⟨T, t1, t2⟩ := recipe_transmission d hd I hI z hz e hu hs
  obtain ⟨F, f1, f2, f3⟩ := recipe_ic p0 p1 a1 a2 e hu hs he
  obtain ⟨G, g1, g2, g3⟩ := recipe_syn B hB p0 p1 a1 a2 e hu hs he
  obtain ⟨W, w1, w2⟩ := recipe_We p0 p1 a1 a2
  have t3 := t2.length_eq
  refine ⟨List.zipWith (fun x y => x + y) (List.zipWith (fun t f => t * f) T F) G, T, F, G, W, ?_, ?_, ?_, t1, f1, ?_, w2, w1⟩
  · simp only [absorbedSynIC, t1, f1, g1, w2, bind, Except.bind, pure, Except.pure]
    rw [combine_fin]
  · simp [f2, g2, ← t3]
  · intro i x hx
    obtain ⟨hi, rfl⟩ := List.getElem?_eq_some_iff.1 hx
    have iT : i < T.length := by omega
    have iF : i < F.length := by omega
    have iG : i < G.length := by omega
    have L := List.forall₂_iff_get.1 t2 |>.2 i hi iT
    have a := f3 _ (List.getElem_mem iF)
    have b := g3 _ (List.getElem_mem iG)
    have L0 := L.pos
    simp only [List.get_eq_getElem] at L L0
    exact ⟨T[i], F[i], G[i], List.getElem?_eq_getElem iT, List.getElem?_eq_getElem iF, List.getElem?_eq_getElem iG, a, b,
      by rw [List.getElem?_eq_getElem (by simp [iT, iF, iG]), List.getElem_zipWith, List.getElem_zipWith],
      add_nonneg (mul_nonneg L0.le a) b, L⟩
  · rw [← recipeSyn_gauss B _ e]; exact g1

/-- **C134 (electrons).** The six parameters mean what the labels of the example say: the number of electrons per erg at 1 TeV
is `10^norm` per eV (for a break above 1 TeV), the slopes are `-index1` below and `-index2` above `10^break` TeV, where the
two branches meet. -/
theorem C134_electrons (p0 p1 a1 a2 : ℝ) :
    (recipeElectrons p0 p1 a1 a2).unit = ⟨1 / cEV, Dim.diffEnergy⟩ ∧
    (∀ E > 0, E ≤ 10 ^ p1 → (recipeElectrons p0 p1 a1 a2).f (E * PhysUnit.TeV.scale) = fin (10 ^ p0 * E ^ (-a1))) ∧
    (∀ E > 0, 10 ^ p1 ≤ E → (recipeElectrons p0 p1 a1 a2).f (E * PhysUnit.TeV.scale) =
      fin (10 ^ p0 * (10 ^ p1) ^ (-a1) * (E / 10 ^ p1) ^ (-a2))) := by
  have hT : (0 : ℝ) < PhysUnit.TeV.scale := by norm_num [PhysUnit.TeV]
  have hb : (0 : ℝ) < 10 ^ p1 := Real.rpow_pos_of_pos (by norm_num) _
  have val : ∀ E > 0, (recipeElectrons p0 p1 a1 a2).f (E * PhysUnit.TeV.scale) =
      fin (Spec.bpl (10 ^ p0) a1 a2 E (10 ^ p1)) := by
    intro E hE
    rw [(recipeElectrons_eq p0 p1 a1 a2).2 _ (mul_pos hE hT), mul_div_cancel_right₀ _ hT.ne']
  refine ⟨rfl, fun E hE h => ?_, fun E hE h => ?_⟩
  · rw [val E hE, bpl_minmax _ _ _ _ _ hE hb, min_eq_left h, max_eq_right h]
    congr 1
    rw [mul_assoc, mul_assoc, ← Real.rpow_add hb, neg_add_cancel, Real.rpow_zero, mul_one]
  · rw [val E hE, bpl_minmax _ _ _ _ _ hE hb, min_eq_right h, max_eq_left h, Real.div_rpow hE.le hb.le, Real.rpow_neg hb.le a2]
    congr 1
    field_simp

/-! ### Normalisation -/

theorem bpl_renormalised (c A a1 a2 : ℝ) (e0 eb : Qty XR) (u : PhysUnit) (hc : 0 < c) :
    Renormalised c (BPL.toPDist ⟨fin A, e0, eb, fin a1, fin a2⟩ u) (BPL.toPDist ⟨fin (c * A), e0, eb, fin a1, fin a2⟩ u) := by
  refine ⟨rfl, fun E => ?_⟩
  have key : ∀ e x y, bplEval e (fin (c * A)) x y (fin a1) (fin a2) = fin c * bplEval e (fin A) x y (fin a1) (fin a2) := by
    intro e x y
    simp only [bplEval]
    rw [← XR.mul_fin, scale_mul c hc, scale_mul c hc]
  simp only [BPL.toPDist, BPL.call]
  cases h1 : validateEneEV ⟨fin E, PhysUnit.erg⟩ with
  | error err => simp only [bind, Except.bind]; rfl
  | ok ev =>
    cases h2 : e0.toValue PhysUnit.eV with
    | error err => simp only [bind, Except.bind]; rfl
    | ok x =>
      cases h3 : eb.toValue PhysUnit.eV with
      | error err => simp only [bind, Except.bind]; rfl
      | ok y => simp only [bind, Except.bind, pure, Except.pure, key]

theorem recipe_renormalised (p0 x p1 a1 a2 : ℝ) :
    Renormalised (10 ^ x) (recipeElectrons p0 p1 a1 a2) (recipeElectrons (p0 + x) p1 a1 a2) := by
  have := bpl_renormalised (10 ^ x) (10 ^ p0) a1 a2 ⟨fin 1, PhysUnit.TeV⟩ ⟨fin (10 ^ p1), PhysUnit.TeV⟩ perEV
    (Real.rpow_pos_of_pos (by norm_num) _)
  rwa [← Real.rpow_add (by norm_num), add_comm x p0] at this

theorem fluxOf_scale (S S' : List ℝ → Except PyErr (List XR)) (c : ℝ) (hc : 0 < c)
    (h : ∀ es, ScaledOutcome c (S es) (S' es)) (e : Qty (List ℝ)) (L : List ℝ) (u : PhysUnit)
    (ho : fluxOf S e (.qty ⟨1, kpc⟩) = .ok ⟨L.map fin, u⟩) :
    fluxOf S' e (.qty ⟨1, kpc⟩) = .ok ⟨(L.map (fun l => c * l)).map fin, u⟩ := by
  have hz : (DistArg.qty ⟨1, kpc⟩).isZero = false := by simp [DistArg.isZero]
  have hcm : (DistArg.qty ⟨1, kpc⟩).cm = .ok (1 * kpc.scale) := by simp [DistArg.cm, kpc]
  unfold fluxOf at ho ⊢
  cases h1 : energiesErg e with
  | error err => rw [h1] at ho; simp [bind, Except.bind] at ho
  | ok es =>
    rw [h1] at ho
    have h2 := h es
    unfold ScaledOutcome at h2
    cases h3 : S es with
    | error err => simp [h3, bind, Except.bind] at ho
    | ok out =>
      rw [h3] at h2
      simp only [Except.map] at h2
      simp only [h2, h3, hz, hcm, bind, Except.bind, pure, Except.pure, Bool.false_eq_true, if_false, Except.ok.injEq,
        Qty.mk.injEq] at ho ⊢
      refine ⟨?_, ho.2⟩
      have h4 : (L.map (fun l => c * l)).map fin = (L.map fin).map (fun a => fin c * a) := by
        simp [List.map_map, Function.comp_def]
      rw [h4, ← ho.1, List.map_map, List.map_map]
      refine List.map_congr_left (fun a _ => ?_)
      exact scale_div c hc a _

/-- **C134 (normalisation).** Adding `x` to the first parameter multiplies the model at every energy and the energy in the
electrons by exactly `10 ^ x`. -/
theorem C134_normalisation (d : EblData) (hd : EblFile d) (I : Interp) (hI : CubicSpline I) (p0 x p1 a1 a2 B z : ℝ)
    (rest : List ℝ) (hB : 0 < B) (hz : 0 ≤ z) (e : Qty (List ℝ)) (hu : e.unit.dim = Dim.energy)
    (hs : 0 < e.unit.scale) (he : ∀ x ∈ e.value, 0 < x) :
    ∃ (M : List ℝ) (W : ℝ), absorbedSynIC d I (p0 :: p1 :: a1 :: a2 :: B :: z :: rest) e = .ok (⟨M.map fin, uFlux⟩, fin W) ∧
      absorbedSynIC d I ((p0 + x) :: p1 :: a1 :: a2 :: B :: z :: rest) e =
        .ok (⟨(M.map (fun m => 10 ^ x * m)).map fin, uFlux⟩, fin (10 ^ x * W)) := by
  have hc : (0 : ℝ) < 10 ^ x := Real.rpow_pos_of_pos (by norm_num) _
  have R := recipe_renormalised p0 x p1 a1 a2
  obtain ⟨T, t1, -⟩ := recipe_transmission d hd I hI z hz e hu hs
  obtain ⟨F, f1, -⟩ := recipe_ic p0 p1 a1 a2 e hu hs he
  obtain ⟨G, g1, -⟩ := recipe_syn B hB p0 p1 a1 a2 e hu hs he
  obtain ⟨W, -, w2⟩ := recipe_We p0 p1 a1 a2
  have f1' : recipeICFlux (recipeElectrons (p0 + x) p1 a1 a2) e = _ :=
    fluxOf_scale _ _ _ hc (fun es => icModel_scale _ _ _ hc _ _ R es) e F uFlux f1
  have g1' : recipeSynFlux B (recipeElectrons (p0 + x) p1 a1 a2) e = _ :=
    fluxOf_scale _ _ _ hc (fun es => C08_synchrotron _ _ hc _ _ R es) e G uFlux g1
  have w2' := (C08_energy_content (10 ^ x) hc _ _ R recipeIC ⟨⟨1, PhysUnit.GeV⟩, ⟨1, PhysUnit.TeV⟩, 100⟩
    (some ⟨1, PhysUnit.TeV⟩) none).1
  rw [w2] at w2'
  refine ⟨List.zipWith (fun x y => x + y) (List.zipWith (fun t f => t * f) T F) G, W, ?_, ?_⟩
  · simp only [absorbedSynIC, t1, f1, g1, w2, bind, Except.bind, pure, Except.pure]
    rw [combine_fin]
  · simp only [absorbedSynIC, t1, f1', g1', w2', bind, Except.bind, pure, Except.pure, Except.map, XR.mul_fin]
    rw [combine_fin]
    congr 4
    clear t1 f1 g1 f1' g1'
    induction T generalizing F G with
    | nil => simp
    | cons t T ih =>
      cases F with
      | nil => simp
      | cons f F =>
        cases G with
        | nil => simp
        | cons g G =>
          simp only [List.map_cons, List.zipWith_cons_cons, List.cons.injEq]
          exact ⟨by ring, ih F G⟩

/-! ### Absorption -/

/-- There is one closest redshift. -/
theorem closest_unique (z : ℝ) (n k : ℕ) (hn : IsClosestColumn z n) (hk : IsClosestColumn z k) : n = k := by
  rcases lt_trichotomy n k with h | h | h
  · exact absurd ((hn.2 k hk.1.1 hk.1.2).1) (not_le.2 ((hk.2 n hn.1.1 hn.1.2).2 h))
  · exact h
  · exact absurd ((hk.2 n hn.1.1 hn.1.2).1) (not_le.2 ((hn.2 k hk.1.1 hk.1.2).2 h))

/-- The energy `E` (erg) is one at which the absorption is known: below 1 GeV; up to 100 TeV if `z < 0.01`; or, if `z ≥ 0.01`,
tabulated, with a non-negative optical depth for the closest redshift. `τ` is the optical depth there (at most 150). -/
def Known (d : EblData) (z E τ : ℝ) : Prop :=
  (E < PhysUnit.GeV.scale ∧ τ = 0) ∨ (z < 0.01 ∧ E ≤ 100 * PhysUnit.TeV.scale ∧ τ = 0) ∨
    (0.01 ≤ z ∧ ∃ n, IsClosestColumn z n ∧ ∃ p ∈ d.energy.zip (d.col n), p.1 * PhysUnit.TeV.scale = E ∧ 0 ≤ p.2 ∧
      τ = min p.2 150)

theorem Leaves.known {d : EblData} {z E t τ : ℝ} (h : Leaves d z E t) (k : Known d z E τ) :
    0 ≤ τ ∧ t = Real.exp (-τ) := by
  rcases k with ⟨k1, rfl⟩ | ⟨k1, k2, rfl⟩ | ⟨k1, n, k2, p, k3, k4, k5, rfl⟩
  · simp [h.below k1]
  · simp [h.near k1 k2]
  · obtain ⟨m, h1, h2⟩ := h.table k1
    obtain rfl := closest_unique z n m k2 h1
    exact ⟨le_min k5 (by norm_num), h2 p k3 k4⟩

/-- **C134 (absorption).** Where the absorption is known, the model lies between the synchrotron flux and the sum of the two
fluxes, it is `exp(-τ)` times the inverse Compton flux plus the synchrotron flux, and the same source at a redshift with at
least that optical depth is at most as bright. -/
theorem C134_absorption (d : EblData) (hd : EblFile d) (I : Interp) (hI : CubicSpline I) (p0 p1 a1 a2 B z z' : ℝ)
    (rest : List ℝ) (hB : 0 < B) (hz : 0 ≤ z) (hz' : 0 ≤ z') (e : Qty (List ℝ)) (hu : e.unit.dim = Dim.energy)
    (hs : 0 < e.unit.scale) (he : ∀ x ∈ e.value, 0 < x) :
    ∃ (M M' F G : List ℝ) (W : ℝ),
      absorbedSynIC d I (p0 :: p1 :: a1 :: a2 :: B :: z :: rest) e = .ok (⟨M.map fin, uFlux⟩, fin W) ∧
      absorbedSynIC d I (p0 :: p1 :: a1 :: a2 :: B :: z' :: rest) e = .ok (⟨M'.map fin, uFlux⟩, fin W) ∧
      recipeICFlux (recipeElectrons p0 p1 a1 a2) e = .ok ⟨F.map fin, uFlux⟩ ∧
      recipeSynFlux B (recipeElectrons p0 p1 a1 a2) e = .ok ⟨G.map fin, uFlux⟩ ∧
      ∀ (i : ℕ) (x τ : ℝ), e.value[i]? = some x → Known d z (x * e.unit.scale) τ →
        ∃ m m' f g : ℝ, M[i]? = some m ∧ M'[i]? = some m' ∧ F[i]? = some f ∧ G[i]? = some g ∧
          m = Real.exp (-τ) * f + g ∧ g ≤ m ∧ m ≤ f + g ∧
          ∀ τ', Known d z' (x * e.unit.scale) τ' → τ ≤ τ' → m' ≤ m := by
  obtain ⟨M, T, F, G, W, r1, -, r2, -, r3, r4, r5, -⟩ := C134_model d hd I hI p0 p1 a1 a2 B z rest hB hz e hu hs he
  obtain ⟨M', T', F', G', W', s1, -, s2, -, s3, s4, s5, -⟩ := C134_model d hd I hI p0 p1 a1 a2 B z' rest hB hz' e hu hs he
  have inj : ∀ {A A' : List ℝ}, (Except.ok ⟨A.map fin, uFlux⟩ : Except PyErr (Qty (List XR))) = .ok ⟨A'.map fin, uFlux⟩ →
      A = A' := by
    intro A A' h
    simp only [Except.ok.injEq, Qty.mk.injEq, and_true] at h
    exact List.map_injective_iff.2 (fun a b hab => (fin_inj a b).1 hab) h
  obtain rfl : F = F' := inj (r3.symm.trans s3)
  obtain rfl : G = G' := inj (r4.symm.trans s4)
  obtain rfl : W = W' := (fin_inj _ _).1 (Except.ok.inj (r5.symm.trans s5))
  refine ⟨M, M', F, G, W, r1, s1, r3, by rw [recipeSyn_gauss]; exact r4, fun i x τ hx hk => ?_⟩
  obtain ⟨t, f, g, -, u2, u3, f0, g0, u4, -, u5⟩ := r2 i x hx
  obtain ⟨t', f', g', -, v2, v3, -, -, v4, -, v5⟩ := s2 i x hx
  obtain rfl : f = f' := Option.some.inj (u2.symm.trans v2)
  obtain rfl : g = g' := Option.some.inj (u3.symm.trans v3)
  obtain ⟨k0, rfl⟩ := u5.known hk
  have h1 : Real.exp (-τ) ≤ 1 := Real.exp_le_one_iff.2 (by linarith)
  have h2 := (Real.exp_pos (-τ)).le
  refine ⟨_, _, f, g, u4, v4, u2, u3, rfl, by nlinarith, by nlinarith, fun τ' hk' hle => ?_⟩
  obtain ⟨-, rfl⟩ := v5.known hk'
  have h3 : Real.exp (-τ') ≤ Real.exp (-τ) := Real.exp_le_exp.2 (by linarith)
  nlinarith

/-- **C134 (errors).** A vector of fewer than six parameters raises IndexError; a negative redshift raises ValueError. -/
theorem C134_errors (d : EblData) (I : Interp) (e : Qty (List ℝ)) :
    (∀ pars : List ℝ, pars.length < 6 → absorbedSynIC d I pars e = .error .indexError) ∧
    (∀ (p0 p1 a1 a2 B z : ℝ) (rest : List ℝ), z < 0 →
      absorbedSynIC d I (p0 :: p1 :: a1 :: a2 :: B :: z :: rest) e = .error .valueError) := by
  constructor
  · intro pars h
    match pars, h with
    | [], _ => rfl
    | [_], _ => rfl
    | [_, _], _ => rfl
    | [_, _, _], _ => rfl
    | [_, _, _, _], _ => rfl
    | [_, _, _, _, _], _ => rfl
    | _ :: _ :: _ :: _ :: _ :: _ :: r, h => simp only [List.length_cons] at h; omega
  · intro p0 p1 a1 a2 B z rest h
    have : eblInit d (.qty (fin z) unitOne) = .error .valueError := (C26_errors d).1 z h
    simp only [absorbedSynIC, recipeTransmission, this, bind, Except.bind]

/-! ### The hypotheses are met -/

/-- The parameters of the example (absorbed_SynIC.py:48) at 1 keV, 0.5 GeV and 100 TeV; an interpolation exists. -/
example : ∃ (I : Interp) (M : List ℝ) (W : ℝ), CubicSpline I ∧
    absorbedSynIC overshootFile I [31, 1, 0.35, 1.5, 2.3, 0.06] ⟨[1e-9, 5e-4, 100], PhysUnit.TeV⟩ =
      .ok (⟨M.map fin, uFlux⟩, fin W) ∧ M.length = 3 ∧
    ∃ n, IsClosestColumn 0.06 n ∧ Known overshootFile 0.06 (100 * PhysUnit.TeV.scale) 6 := by
  obtain ⟨I, hI⟩ := C25_spline_exists
  have hT : (0 : ℝ) < PhysUnit.TeV.scale := by norm_num [PhysUnit.TeV]
  obtain ⟨M, T, F, G, W, h1, h2, -⟩ := C134_model overshootFile overshoot_ok I hI 31 1 0.35 1.5 2.3 0.06 [] (by norm_num)
    (by norm_num) ⟨[1e-9, 5e-4, 100], PhysUnit.TeV⟩ rfl hT (by simp; norm_num)
  have hc := C26_closest_redshift 0.06
  refine ⟨I, M, W, hI, h1, h2, _, hc, Or.inr (Or.inr ⟨by norm_num, _, hc, (100, 6), ?_, rfl, by norm_num, ?_⟩)⟩
  · simp [overshootFile]
  · norm_num

end

end Naima.Props
