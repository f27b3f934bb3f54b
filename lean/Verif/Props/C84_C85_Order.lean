import Verif.Props.C83_Convergence

/-! # C84, C85: more particles, more radiation; superposition of populations -/

namespace Naima.Props

open Naima XR Classical Topology
open Filter (Tendsto atTop)

/-! ### Specification -/

/-- The particle distribution `pd` holds `N E` particles per unit energy (SI: per joule), finite and
non-negative, at every energy `E` between `lo` and `hi`, whatever the unit it is expressed in. -/
structure Population (pd : PDist) (N : ℝ → ℝ) (lo hi : ℝ) : Prop where
  dim : pd.unit.dim = Dim.diffEnergy
  scale : 0 < pd.unit.scale
  value : ∀ E ∈ Set.Icc lo hi, ∃ r, pd.f E = fin r ∧ 0 ≤ r ∧ r * pd.unit.scale = N E

/-! ### The sums over a grid -/

/-- A quantity computed from a particle distribution is a sum, with non-negative coefficients, of log-log
integrals over one grid of (particles per unit energy) × (non-negative kernel). -/
def Rep (R : PDist → Except PyErr (List XR)) (lo hi : ℝ) (es : List ℝ) : Prop :=
  ∃ l : List ℝ, (∀ x ∈ l, x ∈ Set.Icc lo hi) ∧ l.Pairwise (· ≤ ·) ∧
    ∃ J : ℝ → List (ℝ × (ℝ → ℝ)), (∀ e ∈ es, ∀ q ∈ J e, 0 ≤ q.1 ∧ ∀ x ∈ l, 0 ≤ q.2 x) ∧
      ∀ (pd : PDist) (p : ℝ → ℝ), pd.unit.dim = Dim.diffEnergy → 0 < pd.unit.scale →
        (∀ E ∈ Set.Icc lo hi, pd.f E = fin (p E) ∧ 0 ≤ p E) →
        R pd = .ok (es.map (fun e => fin (((J e).map (fun q =>
          q.1 * binSum rbin (l.map (fun x => (x, p x * pd.unit.scale * q.2 x))))).sum)))

theorem adj_ratio (lo hi : ℝ) (hlo : 0 < lo) (l : List ℝ) (hl : ∀ x ∈ l, x ∈ Set.Icc lo hi)
    (hs : l.Pairwise (· ≤ ·)) : Adj (fun x y => 0 < x ∧ x ≤ y ∧ y / x ≤ hi / lo) l := by
  apply Adj_of_get
  intro i a b ha hb
  have ma := hl a (List.mem_of_getElem? ha)
  have mb := hl b (List.mem_of_getElem? hb)
  have ha0 : 0 < a := hlo.trans_le ma.1
  refine ⟨ha0, ?_, div_le_div₀ (by linarith [mb.1, mb.2]) mb.2 hlo ma.1⟩
  rw [List.getElem?_eq_some_iff] at ha hb
  obtain ⟨h1, e1⟩ := ha
  obtain ⟨h2, e2⟩ := hb
  have := List.pairwise_iff_getElem.1 hs i (i + 1) h1 h2 (by omega)
  rw [e1, e2] at this
  exact this

theorem binSum_mono (lo hi : ℝ) (hlo : 0 < lo) (l : List ℝ) (hl : ∀ x ∈ l, x ∈ Set.Icc lo hi)
    (hs : l.Pairwise (· ≤ ·)) (y z : ℝ → ℝ) (h0 : ∀ x ∈ l, 0 ≤ y x) (h : ∀ x ∈ l, y x ≤ z x) :
    binSum rbin (l.map (fun x => (x, y x))) ≤
      (hi / lo) ^ (2e-10 : ℝ) * binSum rbin (l.map (fun x => (x, z x))) := by
  apply binSum_le rbin rbin _ l (fun x => x) y z (fun x y => 0 < x ∧ x ≤ y ∧ y / x ≤ hi / lo)
  · simpa using adj_ratio lo hi hlo l hl hs
  · rintro a ha b hb ⟨p1, p2, p3⟩
    exact rbin_mono _ _ _ _ _ _ _ p1 p2 p3 (h0 a ha) (h0 b hb) (h a ha) (h b hb)

theorem binSum_superadd (lo hi : ℝ) (hlo : 0 < lo) (l : List ℝ) (hl : ∀ x ∈ l, x ∈ Set.Icc lo hi)
    (hs : l.Pairwise (· ≤ ·)) (y z : ℝ → ℝ) (h0 : ∀ x ∈ l, 0 ≤ y x) (h1 : ∀ x ∈ l, 0 ≤ z x) :
    binSum rbin (l.map (fun x => (x, y x))) + binSum rbin (l.map (fun x => (x, z x))) ≤
      (hi / lo) ^ (2e-10 : ℝ) * binSum rbin (l.map (fun x => (x, y x + z x))) := by
  have hadj := adj_ratio lo hi hlo l hl hs
  clear hs hl
  induction l with
  | nil => simp [binSum]
  | cons a l ih =>
    cases l with
    | nil => simp [binSum]
    | cons b l =>
      obtain ⟨⟨p1, p2, p3⟩, hadj⟩ := hadj
      have k := rbin_superadd (hi / lo) a b (y a) (y b) (z a) (z b) p1 p2 p3 (h0 a (by simp))
        (h0 b (by simp)) (h1 a (by simp)) (h1 b (by simp))
      have k2 := ih (fun x hx => h0 x (by simp [hx])) (fun x hx => h1 x (by simp [hx])) hadj
      simp only [List.map_cons, binSum] at k2 ⊢
      linarith

theorem binSum_nonneg (lo hi : ℝ) (hlo : 0 < lo) (l : List ℝ) (hl : ∀ x ∈ l, x ∈ Set.Icc lo hi)
    (hs : l.Pairwise (· ≤ ·)) (y : ℝ → ℝ) (h0 : ∀ x ∈ l, 0 ≤ y x) :
    0 ≤ binSum rbin (l.map (fun x => (x, y x))) := by
  have e := trapzLL_rbin (l.map (fun x => (x, y x)))
    (by intro p hp; obtain ⟨x, hx, rfl⟩ := List.mem_map.1 hp; exact hlo.trans_le (hl x hx).1)
    (by intro p hp; obtain ⟨x, hx, rfl⟩ := List.mem_map.1 hp; exact h0 x hx)
    (by simpa [List.map_map, Function.comp_def] using hs)
  have k := trapzLL_NN l (fun x => x) (fun x => fin (y x)) (fun x hx => hlo.trans_le (hl x hx).1)
    (by simpa using hs) (fun x hx => NN.fin (h0 x hx))
  obtain ⟨r, hr, er⟩ := k
  rw [List.map_map] at e
  have e' : fin r = fin (binSum rbin (l.map (fun x => (x, y x)))) := er.symm.trans e
  rw [fin_inj] at e'
  rw [← e']; exact hr

theorem Rep.mono {R : PDist → Except PyErr (List XR)} {lo hi : ℝ} {es : List ℝ} (h : Rep R lo hi es)
    (hlo : 0 < lo) (pd pd' : PDist) (p p' : ℝ → ℝ)
    (hu : pd.unit.dim = Dim.diffEnergy) (hus : 0 < pd.unit.scale)
    (hu' : pd'.unit.dim = Dim.diffEnergy) (hus' : 0 < pd'.unit.scale)
    (hp : ∀ E ∈ Set.Icc lo hi, pd.f E = fin (p E) ∧ 0 ≤ p E)
    (hp' : ∀ E ∈ Set.Icc lo hi, pd'.f E = fin (p' E))
    (hle : ∀ E ∈ Set.Icc lo hi, p E * pd.unit.scale ≤ p' E * pd'.unit.scale) :
    ∃ S S' : ℝ → ℝ, R pd = .ok (es.map (fun e => fin (S e))) ∧ R pd' = .ok (es.map (fun e => fin (S' e))) ∧
      ∀ e ∈ es, 0 ≤ S e ∧ S e ≤ (hi / lo) ^ (2e-10 : ℝ) * S' e := by
  obtain ⟨l, hl, hs, J, hJ, hR⟩ := h
  have hp0 : ∀ E ∈ Set.Icc lo hi, 0 ≤ p' E := by
    intro E hE
    by_contra hn
    have h1 := mul_nonneg (hp E hE).2 hus.le
    have h2 := mul_neg_of_neg_of_pos (not_le.1 hn) hus'
    linarith [hle E hE]
  refine ⟨_, _, hR pd p hu hus hp, hR pd' p' hu' hus' (fun E hE => ⟨hp' E hE, hp0 E hE⟩), ?_⟩
  intro e he
  have hJe := hJ e he
  generalize J e = q at hJe
  induction q with
  | nil => simp
  | cons a q ih =>
    obtain ⟨i1, i2⟩ := ih (fun b hb => hJe b (by simp [hb]))
    obtain ⟨a1, a2⟩ := hJe a (by simp)
    simp only [List.map_cons, List.sum_cons]
    have y0 : ∀ x ∈ l, 0 ≤ p x * pd.unit.scale * a.2 x := fun x hx =>
      mul_nonneg (mul_nonneg (hp x (hl x hx)).2 hus.le) (a2 x hx)
    have n := binSum_nonneg lo hi hlo l hl hs _ y0
    have m := binSum_mono lo hi hlo l hl hs (fun x => p x * pd.unit.scale * a.2 x)
      (fun x => p' x * pd'.unit.scale * a.2 x) y0
      (fun x hx => mul_le_mul_of_nonneg_right (hle x (hl x hx)) (a2 x hx))
    refine ⟨add_nonneg (mul_nonneg a1 n) i1, ?_⟩
    have := mul_le_mul_of_nonneg_left m a1
    nlinarith

theorem Rep.superadd {R : PDist → Except PyErr (List XR)} {lo hi : ℝ} {es : List ℝ} (h : Rep R lo hi es)
    (hlo : 0 < lo) (pd₁ pd₂ pd : PDist) (p₁ p₂ p : ℝ → ℝ)
    (hu₁ : pd₁.unit.dim = Dim.diffEnergy) (hs₁ : 0 < pd₁.unit.scale)
    (hu₂ : pd₂.unit.dim = Dim.diffEnergy) (hs₂ : 0 < pd₂.unit.scale)
    (hu : pd.unit.dim = Dim.diffEnergy) (hus : 0 < pd.unit.scale)
    (hp₁ : ∀ E ∈ Set.Icc lo hi, pd₁.f E = fin (p₁ E) ∧ 0 ≤ p₁ E)
    (hp₂ : ∀ E ∈ Set.Icc lo hi, pd₂.f E = fin (p₂ E) ∧ 0 ≤ p₂ E)
    (hp : ∀ E ∈ Set.Icc lo hi, pd.f E = fin (p E))
    (hsum : ∀ E ∈ Set.Icc lo hi, p E * pd.unit.scale = p₁ E * pd₁.unit.scale + p₂ E * pd₂.unit.scale) :
    ∃ S₁ S₂ S : ℝ → ℝ, R pd₁ = .ok (es.map (fun e => fin (S₁ e))) ∧
      R pd₂ = .ok (es.map (fun e => fin (S₂ e))) ∧ R pd = .ok (es.map (fun e => fin (S e))) ∧
      ∀ e ∈ es, S₁ e + S₂ e ≤ (hi / lo) ^ (2e-10 : ℝ) * S e := by
  obtain ⟨l, hl, hs, J, hJ, hR⟩ := h
  have hp0 : ∀ E ∈ Set.Icc lo hi, 0 ≤ p E := by
    intro E hE
    by_contra hn
    have h1 := mul_nonneg (hp₁ E hE).2 hs₁.le
    have h1' := mul_nonneg (hp₂ E hE).2 hs₂.le
    have h2 := mul_neg_of_neg_of_pos (not_le.1 hn) hus
    linarith [hsum E hE]
  refine ⟨_, _, _, hR pd₁ p₁ hu₁ hs₁ hp₁, hR pd₂ p₂ hu₂ hs₂ hp₂, hR pd p hu hus
    (fun E hE => ⟨hp E hE, hp0 E hE⟩), ?_⟩
  intro e he
  have hJe := hJ e he
  generalize J e = q at hJe
  induction q with
  | nil => simp
  | cons a q ih =>
    have i2 := ih (fun b hb => hJe b (by simp [hb]))
    obtain ⟨a1, a2⟩ := hJe a (by simp)
    simp only [List.map_cons, List.sum_cons]
    have m := binSum_superadd lo hi hlo l hl hs (fun x => p₁ x * pd₁.unit.scale * a.2 x)
      (fun x => p₂ x * pd₂.unit.scale * a.2 x)
      (fun x hx => mul_nonneg (mul_nonneg (hp₁ x (hl x hx)).2 hs₁.le) (a2 x hx))
      (fun x hx => mul_nonneg (mul_nonneg (hp₂ x (hl x hx)).2 hs₂.le) (a2 x hx))
    have e1 : l.map (fun x => (x, p₁ x * pd₁.unit.scale * a.2 x + p₂ x * pd₂.unit.scale * a.2 x)) =
        l.map (fun x => (x, p x * pd.unit.scale * a.2 x)) := by
      apply List.map_congr_left
      intro x hx
      rw [hsum x (hl x hx), add_mul]
    rw [e1] at m
    have := mul_le_mul_of_nonneg_left m a1
    nlinarith

/-! ### The quantities -/

/-- from a sum over the grid in units of `c` to one over energies -/
theorem trapz_binSum (c : ℝ) (hc : 0 < c) (gam : List ℝ) (hg : ∀ g ∈ gam, 0 < g) (hs : gam.Pairwise (· ≤ ·))
    (F : ℝ → ℝ) (hF : ∀ g ∈ gam, 0 ≤ F (g * c)) :
    trapzLL (gam.map (fun g => (fin g, fin (c * F (g * c))))) =
      fin (binSum rbin ((gam.map (· * c)).map (fun x => (x, F x)))) := by
  rw [trapz_gamma c hc, ← trapzLL_rbin]
  · simp only [List.map_map]; rfl
  · intro p hp
    simp only [List.map_map, List.mem_map, Function.comp_apply] at hp
    obtain ⟨x, hx, rfl⟩ := hp
    exact mul_pos (hg x hx) hc
  · intro p hp
    simp only [List.map_map, List.mem_map, Function.comp_apply] at hp
    obtain ⟨x, hx, rfl⟩ := hp
    exact hF x hx
  · simp only [List.map_map]
    rw [List.pairwise_map]
    exact hs.imp (fun h => mul_le_mul_of_nonneg_right h hc.le)

theorem grid_scaled (lo hi c : ℝ) (hc : 0 < c) (gam : List ℝ) (hs : gam.Pairwise (· ≤ ·))
    (hm : ∀ g ∈ gam, g * c ∈ Set.Icc lo hi) :
    (∀ x ∈ gam.map (· * c), x ∈ Set.Icc lo hi) ∧ (gam.map (· * c)).Pairwise (· ≤ ·) := by
  constructor
  · intro x hx; obtain ⟨g, hg, rfl⟩ := List.mem_map.1 hx; exact hm g hg
  · rw [List.pairwise_map]; exact hs.imp (fun h => mul_le_mul_of_nonneg_right h hc.le)

theorem rep_sync (m : SyncModel) (hlo : m.Eemin.PosEnergy) (hhi : m.Eemax.PosEnergy)
    (hle : m.Eemin.phys ≤ m.Eemax.phys) (hB : m.B.unit.dim = Dim.magFluxDensity) (hBp : 0 < m.B.phys)
    (es : List ℝ) (hes : ∀ e ∈ es, 0 < e) :
    Rep (fun pd => m.spectrum pd es) m.Eemin.phys m.Eemax.phys es := by
  have hm := cMec2_pos
  obtain ⟨gam, hg, hgp, hgs⟩ := gamGrid_facts m.nEed m.Eemin m.Eemax hlo hhi hle
  have hmem := gam_mem m.nEed m.Eemin m.Eemax hlo hhi hle gam hg
  obtain ⟨g1, g2⟩ := grid_scaled _ _ _ hm gam hgs hmem
  refine ⟨gam.map (· * cMec2), g1, g2, fun e => [(cEV, fun E =>
    syncEmission cE cMe cC cHbar (m.B.phys / 0.1) (E / (cMe * cC ^ 2)) e)], ?_, ?_⟩
  · intro e he q hq
    simp only [List.mem_singleton] at hq
    subst hq
    refine ⟨cEV_pos.le, fun x hx => ?_⟩
    exact (sync_kernel_spectrum m.Eemin.phys m.Eemax.phys (m.B.phys / 0.1) e hlo.phys_pos (by positivity)
      (hes e he)).nonneg x (g1 x hx)
  · intro pd p hu hus hp
    obtain ⟨gam', hg', -, h⟩ := C70_documented m pd hu hlo hhi hle hB hBp es hes
    have : gam' = gam := by
      have h1 : m.toElModel.gam = .ok gam := hg
      rw [h1] at hg'; injection hg' with h'; exact h'.symm
    subst this
    simp only
    rw [h]
    congr 1
    apply List.map_congr_left
    intro e he
    simp only [List.map_cons, List.map_nil, List.sum_cons, List.sum_nil, add_zero]
    rw [mul_comm cEV]
    conv_rhs => rw [← mul_fin]
    congr 1
    rw [← trapz_binSum cMec2 hm gam' hgp hgs (fun x => p x * pd.unit.scale *
      syncEmission cE cMe cC cHbar (m.B.phys / 0.1) (x / (cMe * cC ^ 2)) e)]
    · congr 1
      apply List.map_congr_left
      intro g hgm
      have e2 : g * cMec2 / (cMe * cC ^ 2) = g := by
        show g * cMec2 / cMec2 = g; field_simp
      rw [e2]
      show (fin g, pd.f (g * cMec2) * fin (pd.unit.scale * cMec2) * _) = _
      rw [(hp _ (hmem g hgm)).1, mul_fin, mul_fin]
      congr 2
      ring
    · intro g hgm
      refine mul_nonneg (mul_nonneg (hp _ (hmem g hgm)).2 hus.le) ?_
      exact (sync_kernel_spectrum m.Eemin.phys m.Eemax.phys (m.B.phys / 0.1) e hlo.phys_pos (by positivity)
        (hes e he)).nonneg _ (hmem g hgm)

/-- a real number with the given value, if there is one -/
noncomputable def reOf : XR → ℝ
  | .fin r => r
  | _ => 0

theorem NN.re {a : XR} (h : NN a) : a = fin (reOf a) ∧ 0 ≤ reOf a := by
  obtain ⟨r, hr, rfl⟩ := h; exact ⟨rfl, hr⟩

theorem rep_ic (m : ElModel) (hlo : m.Eemin.PosEnergy) (hhi : m.Eemax.PosEnergy)
    (hle : m.Eemin.phys ≤ m.Eemax.phys) (s : SeedNum) (rest : List SeedNum)
    (hv : ∀ t ∈ s :: rest, t.Valid) (es : List ℝ) (hes : ∀ e ∈ es, 0 < e) :
    Rep (fun pd => icSpectrum m (s :: rest) pd es) m.Eemin.phys m.Eemax.phys es := by
  have hm := cMec2_pos
  obtain ⟨gam, hg, hgp, hgs⟩ := gamGrid_facts m.nEed m.Eemin m.Eemax hlo hhi hle
  have hmem := gam_mem m.nEed m.Eemin m.Eemax hlo hhi hle gam hg
  obtain ⟨g1, g2⟩ := grid_scaled _ _ _ hm gam hgs hmem
  refine ⟨gam.map (· * cMec2), g1, g2, fun e => (s :: rest).map (fun t =>
    (reOf t.uf * cEV / (cMe * cC ^ 2), fun E => reOf (t.kernel (E / cMec2) (e / cMec2)))), ?_, ?_⟩
  · intro e he q hq
    obtain ⟨t, ht, rfl⟩ := List.mem_map.1 hq
    have := cEV_pos
    have h0 : 0 < cMe * cC ^ 2 := hm
    refine ⟨by have := (NN.re (uf_NN t (hv t ht))).2; positivity, fun x hx => ?_⟩
    exact (NN.re (kernel_NN t (hv t ht) _ _ (div_pos (hlo.phys_pos.trans_le (g1 x hx).1) hm)
      (div_pos (hes e he) hm))).2
  · intro pd p hu hus hp
    have hg' : m.gam = .ok gam := hg
    simp only
    rw [icSpectrum_eq, hg', nelec_eq m pd hu gam hg']
    simp only [bind, Except.bind, pure, Except.pure]
    congr 1
    apply List.map_congr_left
    intro e he
    have hN : (gam.map (· * cMec2)).map (fun e => pd.f e * XR.fin (pd.unit.scale / perMec2.scale)) =
        gam.map (electrons pd) := by
      rw [List.map_map]
      apply List.map_congr_left
      intro g _
      have : pd.unit.scale / perMec2.scale = pd.unit.scale * (cMe * cC ^ 2) := by
        simp only [perMec2, cMec2, one_div, div_inv_eq_mul]
      simp only [Function.comp_apply, electrons, this]
      rfl
    rw [hN]
    have one : ∀ t : SeedNum, t.Valid → icAt gam (gam.map (electrons pd)) t e =
        fin (reOf t.uf * cEV / (cMe * cC ^ 2) * binSum rbin ((gam.map (· * cMec2)).map (fun x => (x,
          p x * pd.unit.scale * reOf (t.kernel (x / cMec2) (e / cMec2)))))) := by
      intro t ht
      have hker : ∀ g ∈ gam, t.kernel g (e / cMec2) = fin (reOf (t.kernel g (e / cMec2))) := fun g hgm =>
        (NN.re (kernel_NN t ht _ _ (hgp g hgm) (div_pos (hes e he) hm))).1
      rw [ic_icAt gam (electrons pd) _ t e _ (hes e he) (NN.re (uf_NN t ht)).1 hker, ← mul_fin]
      congr 1
      rw [← trapz_binSum cMec2 hm gam hgp hgs (fun x => p x * pd.unit.scale *
        reOf (t.kernel (x / cMec2) (e / cMec2)))]
      · congr 1
        apply List.map_congr_left
        intro g hgm
        have e2 : g * cMec2 / cMec2 = g := by field_simp
        simp only [e2]
        show (fin g, pd.f (g * cMec2) * fin (pd.unit.scale * cMec2) * _) = _
        rw [(hp _ (hmem g hgm)).1, mul_fin, mul_fin]
        congr 2
        ring
      · intro g hgm
        refine mul_nonneg (mul_nonneg (hp _ (hmem g hgm)).2 hus.le) ?_
        have e2 : g * cMec2 / cMec2 = g := by field_simp
        rw [e2]
        exact (NN.re (kernel_NN t ht _ _ (hgp g hgm) (div_pos (hes e he) hm))).2
    unfold icTotal
    rw [one s (hv s (by simp))]
    simp only [List.map_cons, List.sum_cons]
    have hv' : ∀ t ∈ rest, t.Valid := fun t ht => hv t (by simp [ht])
    generalize (reOf s.uf * cEV / (cMe * cC ^ 2) * binSum rbin ((gam.map (· * cMec2)).map (fun x => (x,
          p x * pd.unit.scale * reOf (s.kernel (x / cMec2) (e / cMec2)))))) = acc
    clear hv
    induction rest generalizing acc with
    | nil => simp
    | cons t rest ih =>
      simp only [List.foldl_cons, List.map_cons, List.sum_cons]
      rw [one t (hv' t (by simp)), add_fin, ih (fun t ht => hv' t (by simp [ht])), ← add_assoc]

theorem rep_pion (m : PionModel) (hlo : m.Epmin.PosEnergy) (hhi : m.Epmax.PosEnergy)
    (hle : m.Epmin.phys ≤ m.Epmax.phys) (hth : Kafexhiu.Tth < m.Epmin.phys / (1e9 * cEV) - mProton)
    (hn : m.nh.unit.dim = Dim.numDensity) (hnh : 0 ≤ m.nh.phys) (tbl : FTable) (hr : Reachable tbl)
    (es : List ℝ) (hne : es ≠ []) (hes : ∀ e ∈ es, 0 < e) :
    Rep (fun pd => (m.spectrum pd tbl es).map Prod.snd) m.Epmin.phys m.Epmax.phys es := by
  have hG : PhysUnit.GeV.scale = 1e9 * cEV := by unfold PhysUnit.GeV cEV; norm_num
  have hm : 0 < 1e9 * cEV := hG ▸ GeV_pos
  obtain ⟨ep, hep, hbnd, hgs⟩ := epGrid_facts m.toPrModel hlo hhi hle
  have hep' : epGrid m.nEpd m.Epmin m.Epmax = .ok ep := (epGrid_eq_Ep m.toPrModel hlo hhi).trans hep
  have hmem : ∀ g ∈ ep, g * (1e9 * cEV) ∈ Set.Icc m.Epmin.phys m.Epmax.phys := by
    rw [← hG]; exact ep_mem m.nEpd m.Epmin m.Epmax hlo hhi hle ep hep'
  have hgp : ∀ g ∈ ep, 0 < g := by
    intro g hgm
    have h := (hmem g hgm).1
    by_contra hneg
    have := mul_nonpos_of_nonpos_of_nonneg (not_lt.1 hneg) hm.le
    linarith [hlo.phys_pos]
  obtain ⟨g1, g2⟩ := grid_scaled _ _ _ hm ep hgs hmem
  have hker : ∀ x ∈ Set.Icc m.Epmin.phys m.Epmax.phys, ∀ e, 0 < e →
      0 ≤ Kafexhiu.dσ (modelOf m.hiE) m.nuc mProton (x / (1e9 * cEV) - mProton) (e / (1e9 * cEV)) := by
    intro x hx e he
    apply dσ_nonneg _ _ _ _ (div_pos he hm)
    have : m.Epmin.phys / (1e9 * cEV) ≤ x / (1e9 * cEV) := div_le_div_of_nonneg_right hx.1 hm.le
    linarith
  refine ⟨ep.map (· * (1e9 * cEV)), g1, g2, fun e => [(m.nh.phys * cC * 1e-9, fun E =>
    Kafexhiu.dσ (modelOf m.hiE) m.nuc mProton (E / (1e9 * cEV) - mProton) (e / (1e9 * cEV)))], ?_, ?_⟩
  · intro e he q hq
    simp only [List.mem_singleton] at hq
    subst hq
    have := cC_pos
    exact ⟨by positivity, fun x hx => hker x (g1 x hx) e (hes e he)⟩
  · intro pd p hu hus hp
    obtain ⟨ep', hep2, -, h⟩ := C73_spectrum m pd hu hlo hhi hle hth hn tbl hr es hne hes
    have : ep' = ep := by rw [hep] at hep2; injection hep2 with h'; exact h'.symm
    subst this
    simp only
    rw [h]
    congr 1
    apply List.map_congr_left
    intro e he
    simp only [List.map_cons, List.map_nil, List.sum_cons, List.sum_nil, add_zero]
    have key := trapz_binSum (1e9 * cEV) hm ep' hgp hgs (fun x => p x * pd.unit.scale *
      Kafexhiu.dσ (modelOf m.hiE) m.nuc mProton (x / (1e9 * cEV) - mProton) (e / (1e9 * cEV)))
      (fun g hgm => mul_nonneg (mul_nonneg (hp _ (hmem g hgm)).2 hus.le) (hker _ (hmem g hgm) e (hes e he)))
    have e3 : ep'.map (fun e_1 => (fin e_1, fin (Kafexhiu.dσ (modelOf m.hiE) m.nuc mProton (e_1 - mProton)
        (e / (1e9 * cEV))) * protons pd e_1)) = ep'.map (fun g => (fin g, fin ((1e9 * cEV) *
          (p (g * (1e9 * cEV)) * pd.unit.scale * Kafexhiu.dσ (modelOf m.hiE) m.nuc mProton
            (g * (1e9 * cEV) / (1e9 * cEV) - mProton) (e / (1e9 * cEV)))))) := by
      apply List.map_congr_left
      intro g hgm
      have e2 : g * (1e9 * cEV) / (1e9 * cEV) = g := mul_div_cancel_right₀ _ hm.ne'
      unfold protons
      rw [e2, (hp _ (hmem g hgm)).1, mul_fin, mul_fin]
      congr 2
      ring
    rw [e3, key, mul_fin, mul_fin]
    congr 1
    ring

theorem rep_We (m : ElModel) (lo hi : Qty ℝ) (hlo : lo.PosEnergy) (hhi : hi.PosEnergy)
    (hle : lo.phys ≤ hi.phys) :
    Rep (fun pd => (m.computeWe pd (some lo) (some hi)).map (fun w => [w])) lo.phys hi.phys [0] := by
  have hm := cMec2_pos
  obtain ⟨gam, hg, hgp, hgs⟩ := gamGrid_facts m.nEed lo hi hlo hhi hle
  have hmem := gam_mem m.nEed lo hi hlo hhi hle gam hg
  obtain ⟨g1, g2⟩ := grid_scaled _ _ _ hm gam hgs hmem
  refine ⟨gam.map (· * cMec2), g1, g2, fun _ => [(1, fun E => E)], ?_, ?_⟩
  · intro e _ q hq
    simp only [List.mem_singleton] at hq
    subst hq
    exact ⟨zero_le_one, fun x hx => hlo.phys_pos.le.trans (g1 x hx).1⟩
  · intro pd p hu hus hp
    simp only
    show Except.map (fun w => [w]) (do
      let gam ← gamGrid m.nEed lo hi
      let nelec ← nelecOf pd gam
      return weOf gam nelec) = _
    rw [hg]
    unfold nelecOf PDist.valuesIn
    simp only [bind, Except.bind, hu, show perMec2.dim = Dim.diffEnergy from rfl, if_true, pure, Except.pure,
      Except.map, List.map_cons, List.map_nil, List.sum_cons, List.sum_nil, add_zero, one_mul]
    congr 2
    rw [← trapz_binSum cMec2 hm gam hgp hgs (fun x => p x * pd.unit.scale * x)
      (fun g hgm => mul_nonneg (mul_nonneg (hp _ (hmem g hgm)).2 hus.le)
        (hlo.phys_pos.le.trans (hmem g hgm).1)), trapz_gamma cMec2 hm (fun x => p x * pd.unit.scale * x)]
    unfold weOf trapz
    simp only [List.map_map]
    rw [List.zipWith_map_right, List.zipWith_self, zip_map_map]
    congr 1
    apply List.map_congr_left
    intro g hgm
    simp only [Function.comp_apply, (hp _ (hmem g hgm)).1, mul_fin]
    have : pd.unit.scale / perMec2.scale = pd.unit.scale * cMec2 := by
      simp only [perMec2, one_div, div_inv_eq_mul]
    rw [this]
    congr 2
    ring

theorem rep_Wp (m : PrModel) (lo hi : Qty ℝ) (hlo : lo.PosEnergy) (hhi : hi.PosEnergy)
    (hle : lo.phys ≤ hi.phys) :
    Rep (fun pd => (m.computeWp pd (some lo) (some hi)).map (fun w => [w])) lo.phys hi.phys [0] := by
  have hm := GeV_pos
  obtain ⟨ep, hep, -, hgs⟩ := epGrid_facts ⟨lo, hi, m.nEpd⟩ hlo hhi hle
  have hg : epGrid m.nEpd lo hi = .ok ep := (epGrid_eq_Ep ⟨lo, hi, m.nEpd⟩ hlo hhi).trans hep
  have hmem := ep_mem m.nEpd lo hi hlo hhi hle ep hg
  have hgp : ∀ g ∈ ep, 0 < g := by
    intro g hgm
    have h := (hmem g hgm).1
    by_contra hneg
    have := mul_nonpos_of_nonpos_of_nonneg (not_lt.1 hneg) hm.le
    linarith [hlo.phys_pos]
  obtain ⟨g1, g2⟩ := grid_scaled _ _ _ hm ep hgs hmem
  refine ⟨ep.map (· * PhysUnit.GeV.scale), g1, g2, fun _ => [(1, fun E => E)], ?_, ?_⟩
  · intro e _ q hq
    simp only [List.mem_singleton] at hq
    subst hq
    exact ⟨zero_le_one, fun x hx => hlo.phys_pos.le.trans (g1 x hx).1⟩
  · intro pd p hu hus hp
    simp only
    show Except.map (fun w => [w]) (do
      let ep ← epGrid m.nEpd lo hi
      wpQty ep pd) = _
    rw [hg]
    unfold wpQty
    simp only [bind, Except.bind, hu, if_true,
      Except.map, List.map_cons, List.map_nil, List.sum_cons, List.sum_nil, add_zero, one_mul]
    congr 2
    rw [← trapz_binSum _ hm ep hgp hgs (fun x => p x * pd.unit.scale * x)
      (fun g hgm => mul_nonneg (mul_nonneg (hp _ (hmem g hgm)).2 hus.le)
        (hlo.phys_pos.le.trans (hmem g hgm).1))]
    unfold trapz
    rw [zip_map_map, mul_comm', ← trapzLL_scale_y _ (by positivity)]
    congr 1
    rw [List.map_map]
    apply List.map_congr_left
    intro g hgm
    simp only [Function.comp_apply, (hp _ (hmem g hgm)).1, mul_fin]
    congr 2
    ring

/-! ### The theorems -/

theorem Population.re {pd : PDist} {N : ℝ → ℝ} {lo hi : ℝ} (h : Population pd N lo hi) (E : ℝ)
    (hE : E ∈ Set.Icc lo hi) : pd.f E = fin (reOf (pd.f E)) ∧ 0 ≤ reOf (pd.f E) ∧
      reOf (pd.f E) * pd.unit.scale = N E := by
  obtain ⟨r, h1, h2, h3⟩ := h.value E hE
  rw [h1]; exact ⟨rfl, h2, h3⟩

theorem Rep.mono' {R : PDist → Except PyErr (List XR)} {lo hi : ℝ} {es : List ℝ} (h : Rep R lo hi es)
    (hlo : 0 < lo) (pd pd' : PDist) (N N' : ℝ → ℝ) (hN : Population pd N lo hi)
    (hN' : Population pd' N' lo hi) (hle : ∀ E ∈ Set.Icc lo hi, N E ≤ N' E) :
    ∃ S S' : ℝ → ℝ, R pd = .ok (es.map (fun e => fin (S e))) ∧ R pd' = .ok (es.map (fun e => fin (S' e))) ∧
      ∀ e ∈ es, 0 ≤ S e ∧ S e ≤ (hi / lo) ^ (2e-10 : ℝ) * S' e :=
  h.mono hlo pd pd' (fun E => reOf (pd.f E)) (fun E => reOf (pd'.f E)) hN.dim hN.scale hN'.dim hN'.scale
    (fun E hE => ⟨(hN.re E hE).1, (hN.re E hE).2.1⟩) (fun E hE => (hN'.re E hE).1)
    (fun E hE => by rw [(hN.re E hE).2.2, (hN'.re E hE).2.2]; exact hle E hE)

theorem Rep.superadd' {R : PDist → Except PyErr (List XR)} {lo hi : ℝ} {es : List ℝ} (h : Rep R lo hi es)
    (hlo : 0 < lo) (pd₁ pd₂ pd : PDist) (N₁ N₂ : ℝ → ℝ) (hN₁ : Population pd₁ N₁ lo hi)
    (hN₂ : Population pd₂ N₂ lo hi) (hN : Population pd (fun E => N₁ E + N₂ E) lo hi) :
    ∃ S₁ S₂ S : ℝ → ℝ, R pd₁ = .ok (es.map (fun e => fin (S₁ e))) ∧
      R pd₂ = .ok (es.map (fun e => fin (S₂ e))) ∧ R pd = .ok (es.map (fun e => fin (S e))) ∧
      ∀ e ∈ es, S₁ e + S₂ e ≤ (hi / lo) ^ (2e-10 : ℝ) * S e :=
  h.superadd hlo pd₁ pd₂ pd (fun E => reOf (pd₁.f E)) (fun E => reOf (pd₂.f E)) (fun E => reOf (pd.f E))
    hN₁.dim hN₁.scale hN₂.dim hN₂.scale hN.dim hN.scale
    (fun E hE => ⟨(hN₁.re E hE).1, (hN₁.re E hE).2.1⟩) (fun E hE => ⟨(hN₂.re E hE).1, (hN₂.re E hE).2.1⟩)
    (fun E hE => (hN.re E hE).1)
    (fun E hE => by rw [(hN.re E hE).2.2, (hN₁.re E hE).2.2, (hN₂.re E hE).2.2])

theorem of_singleton {x : Except PyErr XR} {S : ℝ → ℝ}
    (h : x.map (fun w => [w]) = .ok (([0] : List ℝ).map (fun e => fin (S e)))) : x = .ok (fin (S 0)) := by
  cases x with
  | error e => simp [Except.map] at h
  | ok w => simp only [Except.map, List.map_cons, List.map_nil, Except.ok.injEq, List.cons.injEq,
      and_true] at h; rw [h]

theorem rep_ic' (m : ElModel) (hlo : m.Eemin.PosEnergy) (hhi : m.Eemax.PosEnergy)
    (hle : m.Eemin.phys ≤ m.Eemax.phys) (seeds : List SeedNum) (hne : seeds ≠ [])
    (hv : ∀ s ∈ seeds, ValidSeed s) (es : List ℝ) (hes : ∀ e ∈ es, 0 < e) :
    Rep (fun pd => icSpectrum m seeds pd es) m.Eemin.phys m.Eemax.phys es := by
  have hv' : ∀ s ∈ seeds, s.Valid := by
    intro s hs
    have := hv s hs
    match s, this with
    | .thermal _ _ none, h => exact h
    | .thermal _ _ (some _), h => exact h
    | .array _ _ _, h => exact h
  match seeds, hne, hv' with
  | s :: rest, _, hv' => exact rep_ic m hlo hhi hle s rest hv' es hes

/-- **C84 (synchrotron).** If at every energy of the range there are at least as many electrons in `pd'`
as in `pd`, then the synchrotron spectrum of `pd'` is not smaller than that of `pd`, up to the relative
rounding `(E_max/E_min)^(2·10⁻¹⁰) - 1` that the rule for slopes near -1 introduces. -/
theorem C84_synchrotron (m : SyncModel) (hlo : m.Eemin.PosEnergy) (hhi : m.Eemax.PosEnergy)
    (hle : m.Eemin.phys ≤ m.Eemax.phys) (hB : m.B.unit.dim = Dim.magFluxDensity) (hBp : 0 < m.B.phys)
    (es : List ℝ) (hes : ∀ e ∈ es, 0 < e)
    (pd pd' : PDist) (N N' : ℝ → ℝ) (hN : Population pd N m.Eemin.phys m.Eemax.phys)
    (hN' : Population pd' N' m.Eemin.phys m.Eemax.phys)
    (hle' : ∀ E ∈ Set.Icc m.Eemin.phys m.Eemax.phys, N E ≤ N' E) :
    ∃ S S' : ℝ → ℝ, m.spectrum pd es = .ok (es.map (fun e => fin (S e))) ∧
      m.spectrum pd' es = .ok (es.map (fun e => fin (S' e))) ∧
      ∀ e ∈ es, 0 ≤ S e ∧ S e ≤ (m.Eemax.phys / m.Eemin.phys) ^ (2e-10 : ℝ) * S' e :=
  (rep_sync m hlo hhi hle hB hBp es hes).mono' hlo.phys_pos pd pd' N N' hN hN' hle'

/-- **C84 (inverse Compton).** If at every energy of the range there are at least as many electrons in
`pd'` as in `pd`, then the inverse Compton spectrum (any valid seed fields) of `pd'` is not smaller than
that of `pd`, up to the relative rounding `(E_max/E_min)^(2·10⁻¹⁰) - 1` that the rule for slopes near -1
introduces. -/
theorem C84_inverse_compton (m : ElModel) (hlo : m.Eemin.PosEnergy) (hhi : m.Eemax.PosEnergy)
    (hle : m.Eemin.phys ≤ m.Eemax.phys) (seeds : List SeedNum) (hne : seeds ≠ [])
    (hv : ∀ s ∈ seeds, ValidSeed s) (es : List ℝ) (hes : ∀ e ∈ es, 0 < e)
    (pd pd' : PDist) (N N' : ℝ → ℝ) (hN : Population pd N m.Eemin.phys m.Eemax.phys)
    (hN' : Population pd' N' m.Eemin.phys m.Eemax.phys)
    (hle' : ∀ E ∈ Set.Icc m.Eemin.phys m.Eemax.phys, N E ≤ N' E) :
    ∃ S S' : ℝ → ℝ, icSpectrum m seeds pd es = .ok (es.map (fun e => fin (S e))) ∧
      icSpectrum m seeds pd' es = .ok (es.map (fun e => fin (S' e))) ∧
      ∀ e ∈ es, 0 ≤ S e ∧ S e ≤ (m.Eemax.phys / m.Eemin.phys) ^ (2e-10 : ℝ) * S' e :=
  (rep_ic' m hlo hhi hle seeds hne hv es hes).mono' hlo.phys_pos pd pd' N N' hN hN' hle'

/-- **C84 (pion decay).** If at every energy of the range there are at least as many protons in `pd'` as
in `pd`, then the pion-decay spectrum (any model, any history) of `pd'` is not smaller than that of `pd`,
up to the relative rounding `(E_max/E_min)^(2·10⁻¹⁰) - 1` that the rule for slopes near -1 introduces. -/
theorem C84_pion (m : PionModel) (hlo : m.Epmin.PosEnergy) (hhi : m.Epmax.PosEnergy)
    (hle : m.Epmin.phys ≤ m.Epmax.phys) (hth : Kafexhiu.Tth < m.Epmin.phys / (1e9 * cEV) - mProton)
    (hn : m.nh.unit.dim = Dim.numDensity) (hnh : 0 ≤ m.nh.phys) (tbl : FTable) (hr : Reachable tbl)
    (es : List ℝ) (hne : es ≠ []) (hes : ∀ e ∈ es, 0 < e)
    (pd pd' : PDist) (N N' : ℝ → ℝ) (hN : Population pd N m.Epmin.phys m.Epmax.phys)
    (hN' : Population pd' N' m.Epmin.phys m.Epmax.phys)
    (hle' : ∀ E ∈ Set.Icc m.Epmin.phys m.Epmax.phys, N E ≤ N' E) :
    ∃ S S' : ℝ → ℝ, (m.spectrum pd tbl es).map Prod.snd = .ok (es.map (fun e => fin (S e))) ∧
      (m.spectrum pd' tbl es).map Prod.snd = .ok (es.map (fun e => fin (S' e))) ∧
      ∀ e ∈ es, 0 ≤ S e ∧ S e ≤ (m.Epmax.phys / m.Epmin.phys) ^ (2e-10 : ℝ) * S' e :=
  (rep_pion m hlo hhi hle hth hn hnh tbl hr es hne hes).mono' hlo.phys_pos pd pd' N N' hN hN' hle'

/-- **C84 (energy in electrons).** If at every energy of the range there are at least as many electrons
in `pd'` as in `pd`, then the energy of `pd'` is not smaller than that of `pd`, up to the relative
rounding `(E_max/E_min)^(2·10⁻¹⁰) - 1` that the rule for slopes near -1 introduces. -/
theorem C84_compute_We (m : ElModel) (lo hi : Qty ℝ) (hlo : lo.PosEnergy) (hhi : hi.PosEnergy)
    (hle : lo.phys ≤ hi.phys)
    (pd pd' : PDist) (N N' : ℝ → ℝ) (hN : Population pd N lo.phys hi.phys)
    (hN' : Population pd' N' lo.phys hi.phys)
    (hle' : ∀ E ∈ Set.Icc lo.phys hi.phys, N E ≤ N' E) :
    ∃ W W' : ℝ, m.computeWe pd (some lo) (some hi) = .ok (fin W) ∧
      m.computeWe pd' (some lo) (some hi) = .ok (fin W') ∧
      0 ≤ W ∧ W ≤ (hi.phys / lo.phys) ^ (2e-10 : ℝ) * W' := by
  obtain ⟨S, S', h1, h2, h3⟩ := (rep_We m lo hi hlo hhi hle).mono' hlo.phys_pos pd pd' N N' hN hN' hle'
  exact ⟨S 0, S' 0, of_singleton h1, of_singleton h2, h3 0 (by simp)⟩

/-- **C84 (energy in protons).** If at every energy of the range there are at least as many protons in
`pd'` as in `pd`, then the energy of `pd'` is not smaller than that of `pd`, up to the relative rounding
`(E_max/E_min)^(2·10⁻¹⁰) - 1` that the rule for slopes near -1 introduces. -/
theorem C84_compute_Wp (m : PrModel) (lo hi : Qty ℝ) (hlo : lo.PosEnergy) (hhi : hi.PosEnergy)
    (hle : lo.phys ≤ hi.phys)
    (pd pd' : PDist) (N N' : ℝ → ℝ) (hN : Population pd N lo.phys hi.phys)
    (hN' : Population pd' N' lo.phys hi.phys)
    (hle' : ∀ E ∈ Set.Icc lo.phys hi.phys, N E ≤ N' E) :
    ∃ W W' : ℝ, m.computeWp pd (some lo) (some hi) = .ok (fin W) ∧
      m.computeWp pd' (some lo) (some hi) = .ok (fin W') ∧
      0 ≤ W ∧ W ≤ (hi.phys / lo.phys) ^ (2e-10 : ℝ) * W' := by
  obtain ⟨S, S', h1, h2, h3⟩ := (rep_Wp m lo hi hlo hhi hle).mono' hlo.phys_pos pd pd' N N' hN hN' hle'
  exact ⟨S 0, S' 0, of_singleton h1, of_singleton h2, h3 0 (by simp)⟩

/-- **C85 (synchrotron).** The synchrotron spectrum of two populations together is at least the sum of
those of each, up to the relative rounding `(E_max/E_min)^(2·10⁻¹⁰) - 1`. Missing: equality, which is
false for every finite grid (`C85_false_exact`) and holds in the limit (`C85_limit_synchrotron`). -/
theorem C85_synchrotron_partial (m : SyncModel) (hlo : m.Eemin.PosEnergy) (hhi : m.Eemax.PosEnergy)
    (hle : m.Eemin.phys ≤ m.Eemax.phys) (hB : m.B.unit.dim = Dim.magFluxDensity) (hBp : 0 < m.B.phys)
    (es : List ℝ) (hes : ∀ e ∈ es, 0 < e)
    (pd₁ pd₂ pd : PDist) (N₁ N₂ : ℝ → ℝ) (hN₁ : Population pd₁ N₁ m.Eemin.phys m.Eemax.phys)
    (hN₂ : Population pd₂ N₂ m.Eemin.phys m.Eemax.phys)
    (hN : Population pd (fun E => N₁ E + N₂ E) m.Eemin.phys m.Eemax.phys) :
    ∃ S₁ S₂ S : ℝ → ℝ, m.spectrum pd₁ es = .ok (es.map (fun e => fin (S₁ e))) ∧
      m.spectrum pd₂ es = .ok (es.map (fun e => fin (S₂ e))) ∧
      m.spectrum pd es = .ok (es.map (fun e => fin (S e))) ∧
      ∀ e ∈ es, S₁ e + S₂ e ≤ (m.Eemax.phys / m.Eemin.phys) ^ (2e-10 : ℝ) * S e :=
  (rep_sync m hlo hhi hle hB hBp es hes).superadd' hlo.phys_pos pd₁ pd₂ pd N₁ N₂ hN₁ hN₂ hN

/-- **C85 (inverse Compton).** The inverse Compton spectrum (any valid seed fields) of two populations
together is at least the sum of those of each, up to the relative rounding `(E_max/E_min)^(2·10⁻¹⁰) - 1`.
Missing: equality, which is false for every finite grid (`C85_false_exact`) and holds in the limit
(`C85_limit_inverse_compton`). -/
theorem C85_inverse_compton_partial (m : ElModel) (hlo : m.Eemin.PosEnergy) (hhi : m.Eemax.PosEnergy)
    (hle : m.Eemin.phys ≤ m.Eemax.phys) (seeds : List SeedNum) (hne : seeds ≠ [])
    (hv : ∀ s ∈ seeds, ValidSeed s) (es : List ℝ) (hes : ∀ e ∈ es, 0 < e)
    (pd₁ pd₂ pd : PDist) (N₁ N₂ : ℝ → ℝ) (hN₁ : Population pd₁ N₁ m.Eemin.phys m.Eemax.phys)
    (hN₂ : Population pd₂ N₂ m.Eemin.phys m.Eemax.phys)
    (hN : Population pd (fun E => N₁ E + N₂ E) m.Eemin.phys m.Eemax.phys) :
    ∃ S₁ S₂ S : ℝ → ℝ, icSpectrum m seeds pd₁ es = .ok (es.map (fun e => fin (S₁ e))) ∧
      icSpectrum m seeds pd₂ es = .ok (es.map (fun e => fin (S₂ e))) ∧
      icSpectrum m seeds pd es = .ok (es.map (fun e => fin (S e))) ∧
      ∀ e ∈ es, S₁ e + S₂ e ≤ (m.Eemax.phys / m.Eemin.phys) ^ (2e-10 : ℝ) * S e :=
  (rep_ic' m hlo hhi hle seeds hne hv es hes).superadd' hlo.phys_pos pd₁ pd₂ pd N₁ N₂ hN₁ hN₂ hN

/-- **C85 (pion decay).** The pion-decay spectrum (any model, any history) of two populations together is
at least the sum of those of each, up to the relative rounding `(E_max/E_min)^(2·10⁻¹⁰) - 1`. Missing:
equality, which is false for every finite grid (`C85_false_exact`) and holds in the limit
(`C85_limit_pion`). -/
theorem C85_pion_partial (m : PionModel) (hlo : m.Epmin.PosEnergy) (hhi : m.Epmax.PosEnergy)
    (hle : m.Epmin.phys ≤ m.Epmax.phys) (hth : Kafexhiu.Tth < m.Epmin.phys / (1e9 * cEV) - mProton)
    (hn : m.nh.unit.dim = Dim.numDensity) (hnh : 0 ≤ m.nh.phys) (tbl : FTable) (hr : Reachable tbl)
    (es : List ℝ) (hne : es ≠ []) (hes : ∀ e ∈ es, 0 < e)
    (pd₁ pd₂ pd : PDist) (N₁ N₂ : ℝ → ℝ) (hN₁ : Population pd₁ N₁ m.Epmin.phys m.Epmax.phys)
    (hN₂ : Population pd₂ N₂ m.Epmin.phys m.Epmax.phys)
    (hN : Population pd (fun E => N₁ E + N₂ E) m.Epmin.phys m.Epmax.phys) :
    ∃ S₁ S₂ S : ℝ → ℝ, (m.spectrum pd₁ tbl es).map Prod.snd = .ok (es.map (fun e => fin (S₁ e))) ∧
      (m.spectrum pd₂ tbl es).map Prod.snd = .ok (es.map (fun e => fin (S₂ e))) ∧
      (m.spectrum pd tbl es).map Prod.snd = .ok (es.map (fun e => fin (S e))) ∧
      ∀ e ∈ es, S₁ e + S₂ e ≤ (m.Epmax.phys / m.Epmin.phys) ^ (2e-10 : ℝ) * S e :=
  (rep_pion m hlo hhi hle hth hn hnh tbl hr es hne hes).superadd' hlo.phys_pos pd₁ pd₂ pd N₁ N₂ hN₁ hN₂ hN

/-- **C85 (energy in electrons).** The energy of two populations together is at least the sum of those of
each, up to the relative rounding `(E_max/E_min)^(2·10⁻¹⁰) - 1`. Missing: equality, which is false for
every finite grid (`C85_false_exact`) and holds in the limit (`C85_limit_compute_We`). -/
theorem C85_compute_We_partial (m : ElModel) (lo hi : Qty ℝ) (hlo : lo.PosEnergy) (hhi : hi.PosEnergy)
    (hle : lo.phys ≤ hi.phys)
    (pd₁ pd₂ pd : PDist) (N₁ N₂ : ℝ → ℝ) (hN₁ : Population pd₁ N₁ lo.phys hi.phys)
    (hN₂ : Population pd₂ N₂ lo.phys hi.phys)
    (hN : Population pd (fun E => N₁ E + N₂ E) lo.phys hi.phys) :
    ∃ W₁ W₂ W : ℝ, m.computeWe pd₁ (some lo) (some hi) = .ok (fin W₁) ∧
      m.computeWe pd₂ (some lo) (some hi) = .ok (fin W₂) ∧
      m.computeWe pd (some lo) (some hi) = .ok (fin W) ∧
      W₁ + W₂ ≤ (hi.phys / lo.phys) ^ (2e-10 : ℝ) * W := by
  obtain ⟨S₁, S₂, S, h1, h2, h3, h4⟩ :=
    (rep_We m lo hi hlo hhi hle).superadd' hlo.phys_pos pd₁ pd₂ pd N₁ N₂ hN₁ hN₂ hN
  exact ⟨S₁ 0, S₂ 0, S 0, of_singleton h1, of_singleton h2, of_singleton h3, h4 0 (by simp)⟩

/-- **C85 (energy in protons).** The energy of two populations together is at least the sum of those of
each, up to the relative rounding `(E_max/E_min)^(2·10⁻¹⁰) - 1`. Missing: equality, which is false for
every finite grid (`C85_false_exact`) and holds in the limit (`C85_limit_compute_Wp`). -/
theorem C85_compute_Wp_partial (m : PrModel) (lo hi : Qty ℝ) (hlo : lo.PosEnergy) (hhi : hi.PosEnergy)
    (hle : lo.phys ≤ hi.phys)
    (pd₁ pd₂ pd : PDist) (N₁ N₂ : ℝ → ℝ) (hN₁ : Population pd₁ N₁ lo.phys hi.phys)
    (hN₂ : Population pd₂ N₂ lo.phys hi.phys)
    (hN : Population pd (fun E => N₁ E + N₂ E) lo.phys hi.phys) :
    ∃ W₁ W₂ W : ℝ, m.computeWp pd₁ (some lo) (some hi) = .ok (fin W₁) ∧
      m.computeWp pd₂ (some lo) (some hi) = .ok (fin W₂) ∧
      m.computeWp pd (some lo) (some hi) = .ok (fin W) ∧
      W₁ + W₂ ≤ (hi.phys / lo.phys) ^ (2e-10 : ℝ) * W := by
  obtain ⟨S₁, S₂, S, h1, h2, h3, h4⟩ :=
    (rep_Wp m lo hi hlo hhi hle).superadd' hlo.phys_pos pd₁ pd₂ pd N₁ N₂ hN₁ hN₂ hN
  exact ⟨S₁ 0, S₂ 0, S 0, of_singleton h1, of_singleton h2, of_singleton h3, h4 0 (by simp)⟩

/-! ### In the limit of a fine grid the populations add up -/

/-- limits add up if the integrands do -/
theorem add_limit {f₁ f₂ f : ℝ → ℝ} {a b c : ℝ} {F₁ F₂ F : ℝ → ℝ} (hab : a ≤ b)
    (h₁ : IntervalIntegrable f₁ MeasureTheory.volume a b)
    (h₂ : IntervalIntegrable f₂ MeasureTheory.volume a b)
    (hs : ∀ t ∈ Set.Icc a b, f t = f₁ t + f₂ t)
    (t₁ : Tendsto F₁ atTop (𝓝 (c * ∫ E in a..b, f₁ E))) (t₂ : Tendsto F₂ atTop (𝓝 (c * ∫ E in a..b, f₂ E)))
    (t : Tendsto F atTop (𝓝 (c * ∫ E in a..b, f E))) :
    Tendsto (fun n => F n - (F₁ n + F₂ n)) atTop (𝓝 0) := by
  have e : (∫ E in a..b, f E) = (∫ E in a..b, f₁ E) + ∫ E in a..b, f₂ E := by
    rw [← intervalIntegral.integral_add h₁ h₂]
    apply intervalIntegral.integral_congr
    intro x hx
    rw [Set.uIcc_of_le hab] at hx
    exact hs x hx
  have := t.sub (t₁.add t₂)
  rw [e] at this
  rwa [mul_add, sub_self] at this

theorem Population.spectrum {pd : PDist} {N : ℝ → ℝ} {a b : ℝ} (h : Population pd N a b)
    (hs : Spectrum N a b) : Spectrum (fun E => reOf (pd.f E)) a b := by
  have e : ∀ E ∈ Set.Icc a b, reOf (pd.f E) = N E * pd.unit.scale⁻¹ := by
    intro E hE
    rw [← (h.re E hE).2.2, mul_assoc, mul_inv_cancel₀ h.scale.ne', mul_one]
  have hc : Spectrum (fun _ => pd.unit.scale⁻¹) a b :=
    Spectrum.of_continuous (fun _ _ => (inv_pos.2 h.scale).le) continuousOn_const
  have k := hs.mul hc
  refine ⟨fun t ht => (h.re t ht).2.1, ?_, ?_⟩
  · obtain ⟨M, hM⟩ := k.bounded
    exact ⟨M, fun t ht => by rw [e t ht]; exact hM t ht⟩
  · obtain ⟨S, hS⟩ := k.continuous
    exact ⟨S, hS.congr (fun t ht => e t ht.1)⟩

/-- the integrand `p · unit · K` with the numbers the distribution returns -/
theorem Population.integrable {pd : PDist} {N K : ℝ → ℝ} {a b : ℝ} (hab : a ≤ b) (h : Population pd N a b)
    (hs : Spectrum N a b) (hK : Spectrum K a b) :
    IntervalIntegrable (fun E => reOf (pd.f E) * pd.unit.scale * K E) MeasureTheory.volume a b := by
  have hc : Spectrum (fun _ => pd.unit.scale) a b :=
    Spectrum.of_continuous (fun _ _ => h.scale.le) continuousOn_const
  exact (((h.spectrum hs).mul hc).mul hK).integrable hab

theorem Spectrum.add {p q : ℝ → ℝ} {a b : ℝ} (hp : Spectrum p a b) (hq : Spectrum q a b) :
    Spectrum (fun t => p t + q t) a b := by
  obtain ⟨M, hM⟩ := hp.bounded
  obtain ⟨N, hN⟩ := hq.bounded
  obtain ⟨S, hS⟩ := hp.continuous
  obtain ⟨T, hT⟩ := hq.continuous
  refine ⟨fun t ht => add_nonneg (hp.nonneg t ht) (hq.nonneg t ht),
    ⟨M + N, fun t ht => add_le_add (hM t ht) (hN t ht)⟩, ⟨S ∪ T, ?_⟩⟩
  apply ContinuousOn.add
  · apply hS.mono; intro t ht; exact ⟨ht.1, fun h => ht.2 (by simp [show t ∈ S from h])⟩
  · apply hT.mono; intro t ht; exact ⟨ht.1, fun h => ht.2 (by simp [show t ∈ T from h])⟩

/-- **C85 (synchrotron, limit).** As the number of grid points per decade grows, the synchrotron spectrum
of two populations together tends to the sum of their spectra, at every photon energy. -/
theorem C85_limit_synchrotron (m : SyncModel) (hlo : m.Eemin.PosEnergy) (hhi : m.Eemax.PosEnergy)
    (hlt : m.Eemin.phys < m.Eemax.phys) (hB : m.B.unit.dim = Dim.magFluxDensity) (hBp : 0 < m.B.phys)
    (es : List ℝ) (hes : ∀ e ∈ es, 0 < e) (pd₁ pd₂ pd : PDist) (N₁ N₂ : ℝ → ℝ)
    (hN₁ : Population pd₁ N₁ m.Eemin.phys m.Eemax.phys) (hN₂ : Population pd₂ N₂ m.Eemin.phys m.Eemax.phys)
    (hN : Population pd (fun E => N₁ E + N₂ E) m.Eemin.phys m.Eemax.phys)
    (hs₁ : Spectrum N₁ m.Eemin.phys m.Eemax.phys) (hs₂ : Spectrum N₂ m.Eemin.phys m.Eemax.phys) :
    ∃ S₁ S₂ S : ℝ → ℝ → ℝ,
      (∀ n, ({ m with nEed := n } : SyncModel).spectrum pd₁ es = .ok (es.map (fun e => fin (S₁ n e))) ∧
        ({ m with nEed := n } : SyncModel).spectrum pd₂ es = .ok (es.map (fun e => fin (S₂ n e))) ∧
        ({ m with nEed := n } : SyncModel).spectrum pd es = .ok (es.map (fun e => fin (S n e)))) ∧
      ∀ e ∈ es, Tendsto (fun n => S n e - (S₁ n e + S₂ n e)) atTop (𝓝 0) := by
  obtain ⟨S₁, a₁, b₁⟩ := C83_synchrotron m pd₁ hN₁.dim hN₁.scale hlo hhi hlt hB hBp _
    (fun E hE => (hN₁.re E hE).1) (hN₁.spectrum hs₁) es hes
  obtain ⟨S₂, a₂, b₂⟩ := C83_synchrotron m pd₂ hN₂.dim hN₂.scale hlo hhi hlt hB hBp _
    (fun E hE => (hN₂.re E hE).1) (hN₂.spectrum hs₂) es hes
  obtain ⟨S, a, b⟩ := C83_synchrotron m pd hN.dim hN.scale hlo hhi hlt hB hBp _
    (fun E hE => (hN.re E hE).1) (hN.spectrum (hs₁.add hs₂)) es hes
  refine ⟨S₁, S₂, S, fun n => ⟨a₁ n, a₂ n, a n⟩, fun e he => ?_⟩
  have hK := sync_kernel_spectrum m.Eemin.phys m.Eemax.phys (m.B.phys / 0.1) e hlo.phys_pos
    (by positivity) (hes e he)
  have t₁ := b₁ e he; have t₂ := b₂ e he; have t := b e he
  rw [mul_comm] at t₁ t₂ t
  refine add_limit hlt.le (hN₁.integrable hlt.le hs₁ hK) (hN₂.integrable hlt.le hs₂ hK) ?_ t₁ t₂ t
  intro E hE
  rw [(hN.re E hE).2.2, (hN₁.re E hE).2.2, (hN₂.re E hE).2.2, add_mul]

/-- **C85 (inverse Compton, limit).** The same for inverse Compton emission on a thermal photon field. -/
theorem C85_limit_inverse_compton (m : ElModel) (hlo : m.Eemin.PosEnergy) (hhi : m.Eemax.PosEnergy)
    (hlt : m.Eemin.phys < m.Eemax.phys) (T dens : ℝ) (θ : Option ℝ) (hT : 0 < T)
    (hθ : ∀ x, θ = some x → Real.cos x ≠ 1)
    (es : List ℝ) (hes : ∀ e ∈ es, 0 < e) (pd₁ pd₂ pd : PDist) (N₁ N₂ : ℝ → ℝ)
    (hN₁ : Population pd₁ N₁ m.Eemin.phys m.Eemax.phys) (hN₂ : Population pd₂ N₂ m.Eemin.phys m.Eemax.phys)
    (hN : Population pd (fun E => N₁ E + N₂ E) m.Eemin.phys m.Eemax.phys)
    (hs₁ : Spectrum N₁ m.Eemin.phys m.Eemax.phys) (hs₂ : Spectrum N₂ m.Eemin.phys m.Eemax.phys) :
    ∃ S₁ S₂ S : ℝ → ℝ → ℝ,
      (∀ n, icSpectrum { m with nEed := n } [.thermal T dens θ] pd₁ es =
          .ok (es.map (fun e => fin (S₁ n e))) ∧
        icSpectrum { m with nEed := n } [.thermal T dens θ] pd₂ es = .ok (es.map (fun e => fin (S₂ n e))) ∧
        icSpectrum { m with nEed := n } [.thermal T dens θ] pd es = .ok (es.map (fun e => fin (S n e)))) ∧
      ∀ e ∈ es, Tendsto (fun n => S n e - (S₁ n e + S₂ n e)) atTop (𝓝 0) := by
  obtain ⟨S₁, a₁, b₁⟩ := C83_inverse_compton m pd₁ hN₁.dim hN₁.scale hlo hhi hlt T dens θ hT hθ _
    (fun E hE => (hN₁.re E hE).1) (hN₁.spectrum hs₁) es hes
  obtain ⟨S₂, a₂, b₂⟩ := C83_inverse_compton m pd₂ hN₂.dim hN₂.scale hlo hhi hlt T dens θ hT hθ _
    (fun E hE => (hN₂.re E hE).1) (hN₂.spectrum hs₂) es hes
  obtain ⟨S, a, b⟩ := C83_inverse_compton m pd hN.dim hN.scale hlo hhi hlt T dens θ hT hθ _
    (fun E hE => (hN.re E hE).1) (hN.spectrum (hs₁.add hs₂)) es hes
  refine ⟨S₁, S₂, S, fun n => ⟨a₁ n, a₂ n, a n⟩, fun e he => ?_⟩
  have hm : 0 < cMe * cC ^ 2 := cMec2_pos
  have hK : Spectrum (fun E => thermalRate T θ (E / (cMe * cC ^ 2)) (e / (cMe * cC ^ 2)))
      m.Eemin.phys m.Eemax.phys := Spectrum.comp_div (c := cMe * cC ^ 2) hm
    (thermalRate_spectrum T θ hT hθ (e / (cMe * cC ^ 2)) _ _ (div_pos (hes e he) hm))
  refine add_limit hlt.le (hN₁.integrable hlt.le hs₁ hK) (hN₂.integrable hlt.le hs₂ hK) ?_
    (b₁ e he) (b₂ e he) (b e he)
  intro E hE
  rw [(hN.re E hE).2.2, (hN₁.re E hE).2.2, (hN₂.re E hE).2.2, add_mul]

/-- **C85 (pion decay, limit).** The same for pion decay, above threshold. -/
theorem C85_limit_pion (m : PionModel) (hlo : m.Epmin.PosEnergy) (hhi : m.Epmax.PosEnergy)
    (hlt : m.Epmin.phys < m.Epmax.phys) (hth : Kafexhiu.Tth < m.Epmin.phys / (1e9 * cEV) - mProton)
    (hn : m.nh.unit.dim = Dim.numDensity) (tbl : FTable) (hr : Reachable tbl)
    (es : List ℝ) (hne : es ≠ []) (hes : ∀ e ∈ es, 0 < e) (pd₁ pd₂ pd : PDist) (N₁ N₂ : ℝ → ℝ)
    (hN₁ : Population pd₁ N₁ m.Epmin.phys m.Epmax.phys) (hN₂ : Population pd₂ N₂ m.Epmin.phys m.Epmax.phys)
    (hN : Population pd (fun E => N₁ E + N₂ E) m.Epmin.phys m.Epmax.phys)
    (hs₁ : Spectrum N₁ m.Epmin.phys m.Epmax.phys) (hs₂ : Spectrum N₂ m.Epmin.phys m.Epmax.phys) :
    ∃ S₁ S₂ S : ℝ → ℝ → ℝ,
      (∀ n, (({ m with nEpd := n } : PionModel).spectrum pd₁ tbl es).map Prod.snd =
          .ok (es.map (fun e => fin (S₁ n e))) ∧
        (({ m with nEpd := n } : PionModel).spectrum pd₂ tbl es).map Prod.snd =
          .ok (es.map (fun e => fin (S₂ n e))) ∧
        (({ m with nEpd := n } : PionModel).spectrum pd tbl es).map Prod.snd =
          .ok (es.map (fun e => fin (S n e)))) ∧
      ∀ e ∈ es, Tendsto (fun n => S n e - (S₁ n e + S₂ n e)) atTop (𝓝 0) := by
  obtain ⟨S₁, a₁, b₁⟩ := C83_pion m pd₁ hN₁.dim hN₁.scale hlo hhi hlt hth hn tbl hr _
    (fun E hE => (hN₁.re E hE).1) (hN₁.spectrum hs₁) es hne hes
  obtain ⟨S₂, a₂, b₂⟩ := C83_pion m pd₂ hN₂.dim hN₂.scale hlo hhi hlt hth hn tbl hr _
    (fun E hE => (hN₂.re E hE).1) (hN₂.spectrum hs₂) es hne hes
  obtain ⟨S, a, b⟩ := C83_pion m pd hN.dim hN.scale hlo hhi hlt hth hn tbl hr _
    (fun E hE => (hN.re E hE).1) (hN.spectrum (hs₁.add hs₂)) es hne hes
  refine ⟨S₁, S₂, S, fun n => ⟨a₁ n, a₂ n, a n⟩, fun e he => ?_⟩
  have hG : PhysUnit.GeV.scale = 1e9 * cEV := by unfold PhysUnit.GeV cEV; norm_num
  have hm : 0 < 1e9 * cEV := hG ▸ GeV_pos
  have he' : 0 < e / (1e9 * cEV) := div_pos (hes e he) hm
  have hK : Spectrum (fun E => Kafexhiu.dσ (modelOf m.hiE) m.nuc mProton (E / (1e9 * cEV) - mProton)
      (e / (1e9 * cEV))) m.Epmin.phys m.Epmax.phys := by
    apply Spectrum.comp_div (q := fun E => Kafexhiu.dσ (modelOf m.hiE) m.nuc mProton (E - mProton)
      (e / (1e9 * cEV))) hm
    apply Spectrum.comp_sub (q := fun T => Kafexhiu.dσ (modelOf m.hiE) m.nuc mProton T (e / (1e9 * cEV)))
    apply Spectrum.of_bpc (dσ_bpc _ _ _ he' hth)
    intro t ht
    exact dσ_nonneg _ _ _ _ he' (lt_of_lt_of_le hth ht.1)
  have t₁ := b₁ e he; have t₂ := b₂ e he; have t := b e he
  rw [mul_assoc, mul_comm] at t₁ t₂ t
  refine add_limit hlt.le (hN₁.integrable hlt.le hs₁ hK) (hN₂.integrable hlt.le hs₂ hK) ?_ t₁ t₂ t
  intro E hE
  rw [(hN.re E hE).2.2, (hN₁.re E hE).2.2, (hN₂.re E hE).2.2, add_mul]

/-- **C85 (energy in electrons, limit).** -/
theorem C85_limit_compute_We (m : ElModel) (lo hi : Qty ℝ) (hlo : lo.PosEnergy) (hhi : hi.PosEnergy)
    (hlt : lo.phys < hi.phys) (pd₁ pd₂ pd : PDist) (N₁ N₂ : ℝ → ℝ)
    (hN₁ : Population pd₁ N₁ lo.phys hi.phys) (hN₂ : Population pd₂ N₂ lo.phys hi.phys)
    (hN : Population pd (fun E => N₁ E + N₂ E) lo.phys hi.phys)
    (hs₁ : Spectrum N₁ lo.phys hi.phys) (hs₂ : Spectrum N₂ lo.phys hi.phys) :
    ∃ W₁ W₂ W : ℝ → ℝ,
      (∀ n, ({ m with nEed := n } : ElModel).computeWe pd₁ (some lo) (some hi) = .ok (fin (W₁ n)) ∧
        ({ m with nEed := n } : ElModel).computeWe pd₂ (some lo) (some hi) = .ok (fin (W₂ n)) ∧
        ({ m with nEed := n } : ElModel).computeWe pd (some lo) (some hi) = .ok (fin (W n))) ∧
      Tendsto (fun n => W n - (W₁ n + W₂ n)) atTop (𝓝 0) := by
  obtain ⟨S₁, a₁, b₁⟩ := C83_compute_We m pd₁ hN₁.dim hN₁.scale lo hi hlo hhi hlt _
    (fun E hE => (hN₁.re E hE).1) (hN₁.spectrum hs₁)
  obtain ⟨S₂, a₂, b₂⟩ := C83_compute_We m pd₂ hN₂.dim hN₂.scale lo hi hlo hhi hlt _
    (fun E hE => (hN₂.re E hE).1) (hN₂.spectrum hs₂)
  obtain ⟨S, a, b⟩ := C83_compute_We m pd hN.dim hN.scale lo hi hlo hhi hlt _
    (fun E hE => (hN.re E hE).1) (hN.spectrum (hs₁.add hs₂))
  refine ⟨S₁, S₂, S, fun n => ⟨a₁ n, a₂ n, a n⟩, ?_⟩
  have hK : Spectrum (fun E => E) lo.phys hi.phys :=
    Spectrum.of_continuous (fun t ht => hlo.phys_pos.le.trans ht.1) continuousOn_id
  simp only [mul_comm (_ : ℝ) (reOf _ * _)] at b₁ b₂ b
  refine add_limit (c := 1) hlt.le (hN₁.integrable hlt.le hs₁ hK) (hN₂.integrable hlt.le hs₂ hK) ?_
    (by rw [one_mul]; exact b₁) (by rw [one_mul]; exact b₂) (by rw [one_mul]; exact b)
  intro E hE
  rw [(hN.re E hE).2.2, (hN₁.re E hE).2.2, (hN₂.re E hE).2.2, add_mul]

/-- **C85 (energy in protons, limit).** -/
theorem C85_limit_compute_Wp (m : PrModel) (lo hi : Qty ℝ) (hlo : lo.PosEnergy) (hhi : hi.PosEnergy)
    (hlt : lo.phys < hi.phys) (pd₁ pd₂ pd : PDist) (N₁ N₂ : ℝ → ℝ)
    (hN₁ : Population pd₁ N₁ lo.phys hi.phys) (hN₂ : Population pd₂ N₂ lo.phys hi.phys)
    (hN : Population pd (fun E => N₁ E + N₂ E) lo.phys hi.phys)
    (hs₁ : Spectrum N₁ lo.phys hi.phys) (hs₂ : Spectrum N₂ lo.phys hi.phys) :
    ∃ W₁ W₂ W : ℝ → ℝ,
      (∀ n, ({ m with nEpd := n } : PrModel).computeWp pd₁ (some lo) (some hi) = .ok (fin (W₁ n)) ∧
        ({ m with nEpd := n } : PrModel).computeWp pd₂ (some lo) (some hi) = .ok (fin (W₂ n)) ∧
        ({ m with nEpd := n } : PrModel).computeWp pd (some lo) (some hi) = .ok (fin (W n))) ∧
      Tendsto (fun n => W n - (W₁ n + W₂ n)) atTop (𝓝 0) := by
  obtain ⟨S₁, a₁, b₁⟩ := C83_compute_Wp m pd₁ hN₁.dim hN₁.scale lo hi hlo hhi hlt _
    (fun E hE => (hN₁.re E hE).1) (hN₁.spectrum hs₁)
  obtain ⟨S₂, a₂, b₂⟩ := C83_compute_Wp m pd₂ hN₂.dim hN₂.scale lo hi hlo hhi hlt _
    (fun E hE => (hN₂.re E hE).1) (hN₂.spectrum hs₂)
  obtain ⟨S, a, b⟩ := C83_compute_Wp m pd hN.dim hN.scale lo hi hlo hhi hlt _
    (fun E hE => (hN.re E hE).1) (hN.spectrum (hs₁.add hs₂))
  refine ⟨S₁, S₂, S, fun n => ⟨a₁ n, a₂ n, a n⟩, ?_⟩
  have hK : Spectrum (fun E => E) lo.phys hi.phys :=
    Spectrum.of_continuous (fun t ht => hlo.phys_pos.le.trans ht.1) continuousOn_id
  simp only [mul_comm (_ : ℝ) (reOf _ * _)] at b₁ b₂ b
  refine add_limit (c := 1) hlt.le (hN₁.integrable hlt.le hs₁ hK) (hN₂.integrable hlt.le hs₂ hK) ?_
    (by rw [one_mul]; exact b₁) (by rw [one_mul]; exact b₂) (by rw [one_mul]; exact b)
  intro E hE
  rw [(hN.re E hE).2.2, (hN₁.re E hE).2.2, (hN₂.re E hE).2.2, add_mul]

/-! ### Exactly, on a finite grid, neither holds -/

/-- **C84, exact monotonicity is false** of `trapz_loglog`: on the abscissae `1, e` there are ordinates
`(y₁, 1)` above `(y₁', 1)` with the smaller integral (the slope passes the switch at -1 + 10⁻¹⁰). -/
theorem C84_tolerance_needed : ∃ y y' a a' : ℝ, 0 < y' ∧ y' < y ∧
    trapz [fin y, fin 1] [fin 1, fin (Real.exp 1)] = fin a ∧
    trapz [fin y', fin 1] [fin 1, fin (Real.exp 1)] = fin a' ∧ a < a' := by
  have bin : ∀ c : ℝ, trapz [fin (Real.exp (1 - c)), fin 1] [fin 1, fin (Real.exp 1)] =
      fin (realBin 1 (Real.exp 1) (Real.exp (1 - c)) 1) := by
    intro c
    unfold trapz trapzLL trapzIntervals
    have h1 : (1:ℝ) < Real.exp 1 := by have := Real.add_one_lt_exp (one_ne_zero (α := ℝ)); linarith
    simp only [List.zip_cons_cons, List.zip_nil_right]
    rw [trapzBin_fin _ _ _ _ one_pos (Real.exp_pos 1) h1.ne (Real.exp_pos _).ne'
      (by positivity)]
    simp [trapzIntervals, XR.sum]
  have slope : ∀ c : ℝ, Real.logb 10 (1 / Real.exp (1 - c)) / Real.logb 10 (Real.exp 1 / 1) + 1 = c := by
    intro c
    have h10 : Real.log 10 ≠ 0 := (Real.log_pos (by norm_num)).ne'
    rw [one_div, ← Real.exp_neg, div_one]
    simp only [Real.logb, Real.log_exp]
    field_simp
    ring
  have ex : ∀ x : ℝ, 0 ≤ x → x ≤ 1 → Real.exp (-x) ≤ 1 - x + x ^ 2 := by
    intro x h0 h1
    have := Real.abs_exp_sub_one_sub_id_le (x := -x) (by rw [abs_neg, abs_of_nonneg h0]; exact h1)
    have := (abs_le.1 this).2
    nlinarith
  refine ⟨Real.exp (1 - 9e-11), Real.exp (1 - 1.5e-10), _, _, Real.exp_pos _,
    Real.exp_lt_exp.2 (by norm_num), bin _, bin _, ?_⟩
  have k1 : realBin 1 (Real.exp 1) (Real.exp (1 - 9e-11)) 1 = Real.exp 1 * Real.exp (-9e-11) := by
    unfold realBin
    rw [slope, if_neg (by rw [abs_of_pos] <;> norm_num), one_mul, div_one, Real.log_exp, mul_one,
      ← Real.exp_add]
    congr 1
  have k2 : realBin 1 (Real.exp 1) (Real.exp (1 - 1.5e-10)) 1 =
      Real.exp 1 * ((1 - Real.exp (-1.5e-10)) / 1.5e-10) := by
    unfold realBin
    rw [slope, if_pos (by rw [abs_of_pos] <;> norm_num)]
    have hs : Real.logb 10 (1 / Real.exp (1 - 1.5e-10)) / Real.logb 10 (Real.exp 1 / 1) = 1.5e-10 - 1 := by
      have := slope 1.5e-10; linarith
    rw [hs, div_one, ← Real.exp_mul, one_mul, ← Real.exp_add, mul_sub, ← Real.exp_add]
    rw [show (1 - 1.5e-10 + (1 + (1.5e-10 - 1)) : ℝ) = 1 by ring, mul_one,
      show (1 - 1.5e-10 : ℝ) = 1 + -1.5e-10 by ring, Real.exp_add]
    ring
  rw [k1, k2]
  apply mul_lt_mul_of_pos_left _ (Real.exp_pos 1)
  have e1 := ex 9e-11 (by norm_num) (by norm_num)
  rw [lt_div_iff₀ (by norm_num)]
  have q : Real.exp (-1.5e-10) ≤ 1 - 1.5e-10 + (1.5e-10) ^ 2 / 2 * 1.1 := by
    have := Real.exp_bound' (x := 1) (by norm_num) (by norm_num) (n := 1) (by norm_num)
    have h3 := Real.abs_exp_sub_one_sub_id_le (x := (-1.5e-10 : ℝ)) (by rw [abs_neg]; norm_num [abs_of_pos])
    have b := Real.exp_bound (x := (-1.5e-10 : ℝ)) (by rw [abs_neg, abs_of_pos] <;> norm_num) (n := 3) (by norm_num)
    rw [abs_neg, abs_of_pos (by norm_num : (0:ℝ) < 1.5e-10)] at b
    have b := (abs_le.1 b).2
    norm_num [Finset.sum_range_succ, Nat.factorial] at b ⊢
    linarith
  norm_num at e1 q ⊢
  linarith

/-- **C85, exact superposition is false** of `trapz_loglog`: with particles at the first grid energy only in
one population and at the second only in the other, each alone integrates to 0 and both together to 1. -/
theorem C85_false_exact : trapz [fin 1, fin 0] [fin 1, fin 2] = fin 0 ∧
    trapz [fin 0, fin 1] [fin 1, fin 2] = fin 0 ∧ trapz [fin 1, fin 1] [fin 1, fin 2] = fin 1 := by
  refine ⟨?_, ?_, ?_⟩
  · simp only [trapz, trapzLL, List.zip_cons_cons, List.zip_nil_right, trapzIntervals]
    rw [trapzBin_zero _ _ _ _ (by simp)]; simp [XR.sum]
  · simp only [trapz, trapzLL, List.zip_cons_cons, List.zip_nil_right, trapzIntervals]
    rw [trapzBin_zero _ _ _ _ (by simp)]; simp [XR.sum]
  · simp only [trapz, trapzLL, List.zip_cons_cons, List.zip_nil_right, trapzIntervals]
    rw [trapzBin_fin _ _ _ _ one_pos two_pos (by norm_num) one_ne_zero (by norm_num)]
    unfold realBin
    simp
    norm_num [XR.sum]

/-! ### The hypotheses are met -/

/-- A power law, in the unit 1/eV of the default, is a population. -/
example : Population ⟨⟨1 / cEV, Dim.diffEnergy⟩, fun E => fin (E ^ (-2 : ℝ))⟩
    (fun E => E ^ (-2 : ℝ) * (1 / cEV)) (1e9 * cEV) (510e12 * cEV) := by
  have := cEV_pos
  refine ⟨rfl, by positivity, fun E hE => ⟨_, rfl, ?_, rfl⟩⟩
  have : 0 < E := lt_of_lt_of_le (by positivity) hE.1
  positivity

/-- Two populations, of which the second ends at 1 TeV, and their sum. -/
example : Population ⟨⟨1 / cEV, Dim.diffEnergy⟩, fun E => fin (3 + if E < 1e12 * cEV then 1 else 0)⟩
    (fun E => 3 * (1 / cEV) + (if E < 1e12 * cEV then 1 else 0) * (1 / cEV)) (1e9 * cEV) (510e12 * cEV) := by
  have := cEV_pos
  refine ⟨rfl, by positivity, fun E hE => ⟨_, rfl, ?_, ?_⟩⟩
  · split <;> norm_num
  · show (3 + _) * (1 / cEV) = _
    ring

end Naima.Props
