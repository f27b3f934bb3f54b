import Verif.Props.C84_C85_Order
import Verif.Proof.SyncAccuracy
import Verif.Props.C120_Nuclear
import Verif.Props.C103_SyncShape

/-! # C121: how hard a synchrotron spectrum can be, and how it grows with the field -/

namespace Naima.Props

open Naima XR Classical

/-- `G(x) / x^(1/3)` decreases. -/
theorem gAKP_ratio (x x' : ℝ) (h0 : 0 < x') (h : x' ≤ x) :
    gAKP x * x' ^ ((1:ℝ) / 3) ≤ gAKP x' * x ^ ((1:ℝ) / 3) := by
  have hx : 0 < x := h0.trans_le h
  have hpow : ∀ z : ℝ, 0 < z → z ^ ((4 : ℝ) / 3) = (z ^ ((2 : ℝ) / 3)) ^ 2 := by
    intro z hz
    rw [← Real.rpow_natCast, ← Real.rpow_mul hz.le]; norm_num
  have hy : 0 < x' ^ ((2:ℝ) / 3) := Real.rpow_pos_of_pos h0 _
  have hyx : x' ^ ((2:ℝ) / 3) ≤ x ^ ((2:ℝ) / 3) := Real.rpow_le_rpow h0.le h (by norm_num)
  have hc : 0 < x ^ ((1:ℝ) / 3) := Real.rpow_pos_of_pos hx _
  have hc' : 0 < x' ^ ((1:ℝ) / 3) := Real.rpow_pos_of_pos h0 _
  have he : Real.exp (-x) ≤ Real.exp (-x') := Real.exp_le_exp.2 (by linarith)
  unfold gAKP
  rw [hpow x hx, hpow x' h0]
  generalize x ^ ((2:ℝ) / 3) = Y at *
  generalize x' ^ ((2:ℝ) / 3) = y at *
  generalize x ^ ((1:ℝ) / 3) = c at *
  generalize x' ^ ((1:ℝ) / 3) = c' at *
  obtain ⟨t, ht, rfl⟩ : ∃ t, 0 ≤ t ∧ Y = y + t := ⟨Y - y, by linarith, by ring⟩
  have hY : 0 < y + t := by linarith
  -- the rational part
  have key : (1 + 2.210 * (y + t) + 0.347 * (y + t) ^ 2) / (1 + 1.353 * (y + t) + 0.217 * (y + t) ^ 2) /
      Real.sqrt (1 + 3.4 * (y + t)) ≤
      (1 + 2.210 * y + 0.347 * y ^ 2) / (1 + 1.353 * y + 0.217 * y ^ 2) / Real.sqrt (1 + 3.4 * y) := by
    have s1 : 0 < 1 + 3.4 * (y + t) := by positivity
    have s2 : 0 < 1 + 3.4 * y := by positivity
    have D1 : 0 < 1 + 1.353 * (y + t) + 0.217 * (y + t) ^ 2 := by positivity
    have D2 : 0 < 1 + 1.353 * y + 0.217 * y ^ 2 := by positivity
    have N1 : 0 < 1 + 2.210 * (y + t) + 0.347 * (y + t) ^ 2 := by positivity
    have N2 : 0 < 1 + 2.210 * y + 0.347 * y ^ 2 := by positivity
    refine le_of_sq_le_sq ?_ (by positivity)
    rw [div_pow, div_pow, div_pow, div_pow, Real.sq_sqrt s1.le, Real.sq_sqrt s2.le,
      div_div, div_div, div_le_div_iff₀ (by positivity) (by positivity)]
    have hpoly : 0 ≤ (1 + 2.210 * y + 0.347 * y ^ 2) ^ 2 * ((1 + 1.353 * (y + t) + 0.217 * (y + t) ^ 2) ^ 2 * (1 + 3.4 * (y + t)))
        - (1 + 2.210 * (y + t) + 0.347 * (y + t) ^ 2) ^ 2 * ((1 + 1.353 * y + 0.217 * y ^ 2) ^ 2 * (1 + 3.4 * y)) := by
      ring_nf
      positivity
    linarith
  have k0 : 0 ≤ (1 + 2.210 * y + 0.347 * y ^ 2) / (1 + 1.353 * y + 0.217 * y ^ 2) / Real.sqrt (1 + 3.4 * y) := by positivity
  have := mul_le_mul key he (Real.exp_pos _).le k0
  have h2 := mul_le_mul_of_nonneg_left this (show 0 ≤ 1.808 * c * c' by positivity)
  calc _ = 1.808 * c * c' * ((1 + 2.210 * (y + t) + 0.347 * (y + t) ^ 2) /
      (1 + 1.353 * (y + t) + 0.217 * (y + t) ^ 2) / Real.sqrt (1 + 3.4 * (y + t)) * Real.exp (-x)) := by ring
    _ ≤ _ := h2
    _ = _ := by ring

/-- One electron: the emission falls at least as the photon energy to the power -2/3. -/
theorem syncEmission_hard (B g e e' : ℝ) (hB : 0 < B) (hg : 0 < g) (he : 0 < e) (h : e ≤ e') :
    syncEmission cE cMe cC cHbar B g e' ≤ (e / e') ^ ((2:ℝ) / 3) * syncEmission cE cMe cC cHbar B g e := by
  have := cE_pos; have := cHbar_pos; have := cMe_pos; have := cC_pos
  have he' : 0 < e' := he.trans_le h
  have hc : 0 < critEnergy cE cMe cC cHbar B g := by unfold critEnergy; positivity
  have hx : 0 < e / critEnergy cE cMe cC cHbar B g := by positivity
  have hr := gAKP_ratio (e' / critEnergy cE cMe cC cHbar B g) (e / critEnergy cE cMe cC cHbar B g) hx
    (div_le_div_of_nonneg_right h hc.le)
  set C := critEnergy cE cMe cC cHbar B g
  have hq : 0 < e / e' := by positivity
  -- in terms of the ratio
  have e1 : (e / C) ^ ((1:ℝ) / 3) = (e / e') ^ ((1:ℝ) / 3) * (e' / C) ^ ((1:ℝ) / 3) := by
    rw [← Real.mul_rpow hq.le (by positivity)]; congr 1; field_simp
  have hp : 0 < (e' / C) ^ ((1:ℝ) / 3) := Real.rpow_pos_of_pos (by positivity) _
  rw [e1, ← mul_assoc] at hr
  have hr' : gAKP (e' / C) * (e / e') ^ ((1:ℝ) / 3) ≤ gAKP (e / C) := le_of_mul_le_mul_right hr hp
  have e3 : (e / e') ^ ((2:ℝ) / 3) * (e / e') ^ ((1:ℝ) / 3) = e / e' := by
    rw [← Real.rpow_add hq]; norm_num
  have h2 : 0 < (e / e') ^ ((2:ℝ) / 3) := Real.rpow_pos_of_pos hq _
  have hr2 : gAKP (e' / C) * (e / e') ≤ (e / e') ^ ((2:ℝ) / 3) * gAKP (e / C) := by
    have := mul_le_mul_of_nonneg_left hr' h2.le
    calc gAKP (e' / C) * (e / e') = (e / e') ^ ((2:ℝ) / 3) * (gAKP (e' / C) * (e / e') ^ ((1:ℝ) / 3)) := by
          conv_lhs => rw [← e3]
          ring
      _ ≤ _ := this
  unfold syncEmission
  have hA : 0 ≤ Real.sqrt 3 / (2 * Real.pi) * (cE ^ 3 * B) / (cMe * cC ^ 2 * cHbar * e) := by positivity
  have := mul_le_mul_of_nonneg_left hr2 hA
  calc _ = Real.sqrt 3 / (2 * Real.pi) * (cE ^ 3 * B) / (cMe * cC ^ 2 * cHbar * e) * (gAKP (e' / C) * (e / e')) := by
        generalize gAKP (e' / C) = G
        field_simp
    _ ≤ _ := this
    _ = _ := by ring

/-- The spectrum as a sum over one grid. -/
theorem sync_sum_hard (m : SyncModel) (hlo : m.Eemin.PosEnergy) (hhi : m.Eemax.PosEnergy)
    (hle : m.Eemin.phys ≤ m.Eemax.phys) (hB : m.B.unit.dim = Dim.magFluxDensity) (hBp : 0 < m.B.phys) :
    ∃ l : List ℝ, (∀ x ∈ l, x ∈ Set.Icc m.Eemin.phys m.Eemax.phys) ∧ l.Pairwise (· ≤ ·) ∧
      ∀ (pd : PDist) (N : ℝ → ℝ) (es : List ℝ), (∀ e ∈ es, 0 < e) → Population pd N m.Eemin.phys m.Eemax.phys →
        m.spectrum pd es = .ok (es.map (fun e => fin (cEV * binSum rbin (l.map (fun x => (x,
          N x * syncEmission cE cMe cC cHbar (m.B.phys / 0.1) (x / (cMe * cC ^ 2)) e)))))) := by
  have hm := cMec2_pos
  obtain ⟨gam, hg, hgp, hgs⟩ := gamGrid_facts m.nEed m.Eemin m.Eemax hlo hhi hle
  have hmem := gam_mem m.nEed m.Eemin m.Eemax hlo hhi hle gam hg
  obtain ⟨g1, g2⟩ := grid_scaled _ _ _ hm gam hgs hmem
  refine ⟨gam.map (· * cMec2), g1, g2, fun pd N es hes hN => ?_⟩
  obtain ⟨gam', hg', -, h⟩ := C70_documented m pd hN.dim hlo hhi hle hB hBp es hes
  have : gam' = gam := by
    have h1 : m.toElModel.gam = .ok gam := hg
    rw [h1] at hg'; injection hg' with h'; exact h'.symm
  subst this
  rw [h]
  congr 1
  apply List.map_congr_left
  intro e he
  rw [mul_comm cEV]
  conv_rhs => rw [← mul_fin]
  congr 1
  rw [← trapz_binSum cMec2 hm gam' hgp hgs (fun x => N x *
    syncEmission cE cMe cC cHbar (m.B.phys / 0.1) (x / (cMe * cC ^ 2)) e)]
  · congr 1
    apply List.map_congr_left
    intro g hgm
    have e2 : g * cMec2 / (cMe * cC ^ 2) = g := by
      show g * cMec2 / cMec2 = g; field_simp
    rw [e2]
    show (fin g, pd.f (g * cMec2) * fin (pd.unit.scale * cMec2) * _) = _
    obtain ⟨r, r1, -, r3⟩ := hN.value _ (hmem g hgm)
    rw [r1, ← r3, mul_fin, mul_fin]
    congr 2
    ring
  · intro g hgm
    obtain ⟨r, -, r2, r3⟩ := hN.value _ (hmem g hgm)
    refine mul_nonneg (by rw [← r3]; exact mul_nonneg r2 hN.scale.le) ?_
    exact (sync_kernel_spectrum m.Eemin.phys m.Eemax.phys (m.B.phys / 0.1) e hlo.phys_pos (by positivity)
      (hes e he)).nonneg _ (hmem g hgm)

/-- **C121 (hardest spectrum).** For every electron distribution, field and grid, the synchrotron spectrum falls between any two photon
energies at least as `E^(-2/3)`: no spectrum is harder than photon index 2/3 (up to the rounding factor of the rule for slopes near
-1). -/
theorem C121_hardest (m : SyncModel) (hlo : m.Eemin.PosEnergy) (hhi : m.Eemax.PosEnergy)
    (hle : m.Eemin.phys ≤ m.Eemax.phys) (hB : m.B.unit.dim = Dim.magFluxDensity) (hBp : 0 < m.B.phys)
    (pd : PDist) (N : ℝ → ℝ) (hN : Population pd N m.Eemin.phys m.Eemax.phys) :
    ∃ S : ℝ → ℝ, (∀ es : List ℝ, (∀ e ∈ es, 0 < e) → m.spectrum pd es = .ok (es.map (fun e => fin (S e)))) ∧
      ∀ e e', 0 < e → e ≤ e' → 0 ≤ S e ∧
        S e' ≤ (m.Eemax.phys / m.Eemin.phys) ^ (2e-10 : ℝ) * ((e / e') ^ ((2:ℝ) / 3) * S e) := by
  obtain ⟨l, h1, h2, h3⟩ := sync_sum_hard m hlo hhi hle hB hBp
  refine ⟨_, fun es hes => h3 pd N es hes hN, fun e e' he hee => ?_⟩
  have hNn : ∀ x ∈ l, 0 ≤ N x := by
    intro x hx
    obtain ⟨r, -, r2, r3⟩ := hN.value x (h1 x hx)
    rw [← r3]; exact mul_nonneg r2 hN.scale.le
  have hem : ∀ a, 0 < a → ∀ x ∈ l, 0 ≤ syncEmission cE cMe cC cHbar (m.B.phys / 0.1) (x / (cMe * cC ^ 2)) a := by
    intro a ha x hx
    exact (sync_kernel_spectrum m.Eemin.phys m.Eemax.phys (m.B.phys / 0.1) a hlo.phys_pos (by positivity)
      ha).nonneg x (h1 x hx)
  have he' := he.trans_le hee
  have hq : 0 < (e / e') ^ ((2:ℝ) / 3) := Real.rpow_pos_of_pos (by positivity) _
  have hev := cEV_pos
  have hMe := cMe_pos
  have hCC := cC_pos
  constructor
  · exact mul_nonneg hev.le (binSum_nonneg _ _ hlo.phys_pos l h1 h2 _ (fun x hx => mul_nonneg (hNn x hx) (hem e he x hx)))
  · have hb := binSum_mono _ _ hlo.phys_pos l h1 h2
      (fun x => N x * syncEmission cE cMe cC cHbar (m.B.phys / 0.1) (x / (cMe * cC ^ 2)) e')
      (fun x => (e / e') ^ ((2:ℝ) / 3) * (N x * syncEmission cE cMe cC cHbar (m.B.phys / 0.1) (x / (cMe * cC ^ 2)) e))
      (fun x hx => mul_nonneg (hNn x hx) (hem e' he' x hx))
      (fun x hx => by
        have hx0 : 0 < x := hlo.phys_pos.trans_le (h1 x hx).1
        have := mul_le_mul_of_nonneg_left (syncEmission_hard (m.B.phys / 0.1) (x / (cMe * cC ^ 2)) e e' (by positivity)
          (by positivity) he hee) (hNn x hx)
        linarith)
    have hs : binSum rbin (l.map (fun x => (x, (e / e') ^ ((2:ℝ) / 3) *
        (N x * syncEmission cE cMe cC cHbar (m.B.phys / 0.1) (x / (cMe * cC ^ 2)) e)))) =
      (e / e') ^ ((2:ℝ) / 3) * binSum rbin (l.map (fun x => (x,
        N x * syncEmission cE cMe cC cHbar (m.B.phys / 0.1) (x / (cMe * cC ^ 2)) e))) := by
      exact binSum_rbin_scale _ hq l _ (fun x hx => hlo.phys_pos.trans_le (h1 x hx).1)
        h2 (fun x hx => mul_nonneg (hNn x hx) (hem e he x hx))
    rw [hs] at hb
    have := mul_le_mul_of_nonneg_left hb hev.le
    linarith

/-- **C121 (growth with the field).** For every electron distribution and grid, a `k ≥ 1` times stronger field gives at every photon energy
at least `k^(2/3)` times the emission (up to the rounding factor of the rule for slopes near -1). -/
theorem C121_field (m m' : SyncModel) (k : ℝ) (hk : 1 ≤ k) (hm : m'.toElModel = m.toElModel)
    (hlo : m.Eemin.PosEnergy) (hhi : m.Eemax.PosEnergy) (hle : m.Eemin.phys ≤ m.Eemax.phys)
    (hB : m.B.unit.dim = Dim.magFluxDensity) (hB' : m'.B.unit.dim = Dim.magFluxDensity)
    (hBp : 0 < m.B.phys) (hBk : m'.B.phys = k * m.B.phys)
    (pd : PDist) (N : ℝ → ℝ) (hN : Population pd N m.Eemin.phys m.Eemax.phys) :
    ∃ S S' : ℝ → ℝ, (∀ es : List ℝ, (∀ e ∈ es, 0 < e) → m.spectrum pd es = .ok (es.map (fun e => fin (S e))) ∧
        m'.spectrum pd es = .ok (es.map (fun e => fin (S' e)))) ∧
      ∀ e, 0 < e → 0 ≤ S e ∧
        k ^ ((2:ℝ) / 3) * S e ≤ (m.Eemax.phys / m.Eemin.phys) ^ (2e-10 : ℝ) * S' e := by
  obtain ⟨S, h1, h2⟩ := C121_hardest m hlo hhi hle hB hBp pd N hN
  have hk0 : 0 < k := by linarith
  refine ⟨S, fun e => S (e / k), fun es hes => ⟨h1 es hes, ?_⟩, fun e he => ⟨(h2 e e he le_rfl).1, ?_⟩⟩
  · have hpos : ∀ e ∈ es.map (· / k), 0 < e := by
      intro e he; obtain ⟨x, hx, rfl⟩ := List.mem_map.1 he; exact div_pos (hes x hx) hk0
    have h := C70_field_scaling m m' pd k hk0 hm hN.dim hlo hhi hle hB hB' hBp hBk (es.map (· / k)) hpos
    rw [h1 _ hpos, List.map_map, List.map_map] at h
    have e1 : es.map ((k * ·) ∘ (· / k)) = es := by
      conv_rhs => rw [← List.map_id es]
      refine List.map_congr_left fun x _ => ?_
      simp only [Function.comp, id]; field_simp
    rw [e1] at h
    exact h
  · have h := (h2 (e / k) e (div_pos he hk0) (div_le_self he.le hk)).2
    have e2 : e / k / e = k⁻¹ := by field_simp
    rw [e2, Real.inv_rpow hk0.le] at h
    have hp : 0 < k ^ ((2:ℝ) / 3) := Real.rpow_pos_of_pos hk0 _
    have := mul_le_mul_of_nonneg_left h hp.le
    calc _ ≤ _ := this
      _ = _ := by field_simp

/-- **C121 (practical grids).** If the electron energies span at most thirty decades, the rounding is below `2·10⁻⁸`: a stronger field
gives at least `(B'/B)^(2/3) (1 - 2·10⁻⁸)` times the emission. -/
theorem C121_field_practical (m m' : SyncModel) (k : ℝ) (hk : 1 ≤ k) (hm : m'.toElModel = m.toElModel)
    (hlo : m.Eemin.PosEnergy) (hhi : m.Eemax.PosEnergy) (hle : m.Eemin.phys ≤ m.Eemax.phys)
    (hspan : m.Eemax.phys ≤ 10 ^ 30 * m.Eemin.phys)
    (hB : m.B.unit.dim = Dim.magFluxDensity) (hB' : m'.B.unit.dim = Dim.magFluxDensity)
    (hBp : 0 < m.B.phys) (hBk : m'.B.phys = k * m.B.phys)
    (pd : PDist) (N : ℝ → ℝ) (hN : Population pd N m.Eemin.phys m.Eemax.phys) :
    ∃ S S' : ℝ → ℝ, (∀ es : List ℝ, (∀ e ∈ es, 0 < e) → m.spectrum pd es = .ok (es.map (fun e => fin (S e))) ∧
        m'.spectrum pd es = .ok (es.map (fun e => fin (S' e)))) ∧
      ∀ e, 0 < e → 0 ≤ S e ∧ k ^ ((2:ℝ) / 3) * S e * (1 - 2e-8) ≤ S' e := by
  obtain ⟨S, S', h1, h2⟩ := C121_field m m' k hk hm hlo hhi hle hB hB' hBp hBk pd N hN
  refine ⟨S, S', h1, fun e he => ⟨(h2 e he).1, ?_⟩⟩
  obtain ⟨a, b⟩ := h2 e he
  have hp := hlo.phys_pos
  have hr := rounding_le (m.Eemax.phys / m.Eemin.phys) (div_pos (hp.trans_le hle) hp)
    ((div_le_iff₀ hp).2 hspan)
  have hr0 : 0 < (m.Eemax.phys / m.Eemin.phys) ^ (2e-10 : ℝ) := Real.rpow_pos_of_pos (div_pos (hp.trans_le hle) hp) _
  have hX : 0 ≤ k ^ ((2:ℝ) / 3) * S e := mul_nonneg (Real.rpow_nonneg (by linarith) _) a
  have hS' : 0 ≤ S' e := by
    by_contra hneg
    have := mul_neg_of_pos_of_neg hr0 (not_le.1 hneg)
    linarith
  generalize k ^ ((2:ℝ) / 3) * S e = X at *
  have h3 : X ≤ (1 + 2e-8) * S' e := b.trans (mul_le_mul_of_nonneg_right hr hS')
  have h4 : X * (1 - 2e-8) ≤ (1 + 2e-8) * S' e * (1 - 2e-8) := mul_le_mul_of_nonneg_right h3 (by norm_num)
  have h5 : (1 + 2e-8) * S' e * (1 - 2e-8) = S' e * ((1 + 2e-8) * (1 - 2e-8)) := by ring
  have h6 : S' e * ((1 + 2e-8) * (1 - 2e-8)) ≤ S' e * 1 := mul_le_mul_of_nonneg_left (by norm_num) hS'
  linarith

/-- Non-vacuity: electrons from 1 to 10⁶ GeV in fields of 1 and 8 gauss: at least four times the emission. -/
noncomputable def exField (b : ℝ) : SyncModel := ⟨⟨⟨1, PhysUnit.GeV⟩, ⟨1e6, PhysUnit.GeV⟩, 100⟩, ⟨b, gauss⟩⟩

example : ∃ S S' : ℝ → ℝ,
    (∀ es : List ℝ, (∀ e ∈ es, 0 < e) →
      (exField 1).spectrum ⟨⟨1 / cEV, Dim.diffEnergy⟩, fun E => fin (E ^ (-2 : ℝ))⟩ es = .ok (es.map (fun e => fin (S e))) ∧
      (exField 8).spectrum ⟨⟨1 / cEV, Dim.diffEnergy⟩, fun E => fin (E ^ (-2 : ℝ))⟩ es = .ok (es.map (fun e => fin (S' e)))) ∧
    ∀ e, 0 < e → 0 ≤ S e ∧ (8:ℝ) ^ ((2:ℝ) / 3) * S e * (1 - 2e-8) ≤ S' e := by
  have hc := cEV_pos
  have hG := GeV_pos
  refine C121_field_practical (exField 1) (exField 8) 8 (by norm_num) rfl ⟨rfl, hG, by norm_num [exField]⟩
    ⟨rfl, hG, by norm_num [exField]⟩ ?_ ?_ rfl rfl ?_ ?_ _ (fun E => E ^ (-2 : ℝ) * (1 / cEV)) ?_
  · simp only [exField, Qty.phys]
    exact mul_le_mul_of_nonneg_right (by norm_num) hG.le
  · simp only [exField, Qty.phys]
    rw [← mul_assoc]
    exact mul_le_mul_of_nonneg_right (by norm_num) hG.le
  · simp [exField, Qty.phys, gauss]; norm_num
  · simp [exField, Qty.phys]
  · refine ⟨rfl, by positivity, fun E hE => ⟨_, rfl, ?_, rfl⟩⟩
    have : 0 < E := lt_of_lt_of_le (by simp only [exField, Qty.phys]; exact mul_pos (by norm_num) hG) hE.1
    positivity

end Naima.Props
