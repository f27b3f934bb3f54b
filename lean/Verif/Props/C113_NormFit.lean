import Verif.Props.C07_Flux
import Verif.Props.C14_Synchrotron
import Verif.Props.C15_ICKernel
import Verif.Props.C17_C18_Brems
import Verif.Props.C19_C20_Pion
import Verif.Props.C109_Normalisation
import Verif.Props.C103_SyncShape

/-! # C113: fitting the normalisation of a radiative model

The whole computation a fit makes for one parameter vector: the particle distribution, the radiative model, the flux
or SED at the distance of the source, and the likelihood of the data. -/

namespace Naima.Props

open Naima Spec XR Classical

/-! ### Specification -/

/-- A radiative model with everything but its particle distribution fixed: any parameters, any history. -/
inductive Emitter
  | synchrotron (m : SyncModel)
  | inverseCompton (m : ElModel) (seeds : List SeedNum)
  | bremsstrahlung (m : BremsModel) (hee : m.wee ≠ 0) (hep : m.wep ≠ 0)
  | pionDecay (m : PionModel) (tbl : FTable) (h : Reachable tbl)
  | pionDecayTable (m : PionModel) (lut : ℝ → ℝ → XR)

/-- Its differential luminosity, in 1/(s eV), for a particle distribution and energies in erg. -/
noncomputable def Emitter.luminosity (em : Emitter) (pd : PDist) (es : List ℝ) : Except PyErr (List XR) :=
  match em with
  | .synchrotron m => m.spectrum pd es
  | .inverseCompton m seeds => icSpectrum m seeds pd es
  | .bremsstrahlung m _ _ => m.spectrum pd es
  | .pionDecay m tbl _ => photons (m.spectrum pd tbl es)
  | .pionDecayTable m lut => m.spectrumLUT pd lut es

/-- What the model function of a fit returns: `model.sed(data, distance)` or `model.flux(data, distance)`. -/
noncomputable def Emitter.predict (em : Emitter) (sed : Bool) (pd : PDist) (e : Qty (List ℝ)) (d : Qty ℝ) :
    Except PyErr (Qty (List XR)) :=
  if sed then sedOf (em.luminosity pd) e (.qty d) else fluxOf (em.luminosity pd) e (.qty d)

/-- A quantity array as the spectrum `lnprobmodel` compares with the data. -/
noncomputable def asSpectrum (q : Qty (List XR)) : Naima.Spectrum := ⟨q.value.map (· * fin q.unit.scale), q.unit⟩

/-- The log-likelihood of the data for that particle distribution. -/
noncomputable def Emitter.likelihood (em : Emitter) (sed : Bool) (pd : PDist) (e : Qty (List ℝ)) (d : Qty ℝ)
    (data : VTable) : Except PyErr XR :=
  (em.predict sed pd e d).bind (fun q => lnprobmodel (asSpectrum q) data)

/-- `e` are the energies of the table, in any energy unit. -/
structure EnergiesOf (e : Qty (List ℝ)) (data : VTable) : Prop where
  dim : e.unit.dim = Dim.energy
  scale : 0 < e.unit.scale
  eq : e.value.map (· * e.unit.scale) = data.rows.map (·.energy)

/-! ### Proofs -/

theorem Emitter.scaled (em : Emitter) (c : ℝ) (hc : 0 < c) (pd pd' : PDist) (h : Renormalised c pd pd')
    (es : List ℝ) : ScaledOutcome c (em.luminosity pd es) (em.luminosity pd' es) := by
  cases em with
  | synchrotron m => exact C08_synchrotron m c hc pd pd' h es
  | inverseCompton m seeds => exact C08_inverse_compton m seeds c hc pd pd' h es
  | bremsstrahlung m h1 h2 => exact C08_bremsstrahlung m h1 h2 c hc pd pd' h es
  | pionDecay m tbl hr => exact C08_pion m c hc pd pd' h tbl tbl hr hr es
  | pionDecayTable m lut => exact C08_pion_table m c hc pd pd' h lut es

/-- The prediction in the representation of the data. -/
noncomputable def rowModel (L : List ℝ) (d : Qty ℝ) (data : VTable) : List ℝ :=
  List.zipWith (fun l r => l / (4 * Real.pi * d.phys ^ 2) / cEV * eFac (unitIsSed data.fluxU.dim) r.energy) L data.rows

theorem uFlux_dim : uFlux.dim = Dim.diffFlux := rfl
theorem uSed_dim : uSed.dim = Dim.flux := rfl

theorem flux_value (spec : List ℝ → Except PyErr (List XR)) (e : Qty (List ℝ)) (d : Qty ℝ) (data : VTable)
    (he : EnergiesOf e data) (hd : d.unit.dim = Dim.length) (h0 : d.phys ≠ 0) (L : List ℝ)
    (hL : spec (data.rows.map (·.energy)) = .ok (L.map fin)) :
    fluxOf spec e (.qty d) = .ok ⟨(L.map (fun l => l / (4 * Real.pi * d.phys ^ 2))).map fin, uFlux⟩ := by
  have hv : d.value ≠ 0 := by rintro h; apply h0; rw [Qty.phys, h, zero_mul]
  have hk : 4 * Real.pi * d.phys ^ 2 ≠ 0 := by positivity
  rw [C07_flux_inverse_square spec e he.dim (L.map fin) (by unfold energyPhys; rw [he.eq]; exact hL) d hd hv]
  simp only [List.map_map]
  congr 2
  apply List.map_congr_left
  intro x _
  exact div_fin _ _ hk

theorem sed_value (spec : List ℝ → Except PyErr (List XR)) (e : Qty (List ℝ)) (d : Qty ℝ) (data : VTable)
    (he : EnergiesOf e data) (hd : d.unit.dim = Dim.length) (h0 : d.phys ≠ 0) (L : List ℝ)
    (hL : spec (data.rows.map (·.energy)) = .ok (L.map fin)) :
    sedOf spec e (.qty d) = .ok ⟨(List.zipWith (fun l r => l / (4 * Real.pi * d.phys ^ 2) * (r.energy ^ 2 / cEV)) L
      data.rows).map fin, uSed⟩ := by
  have hv : d.value ≠ 0 := by rintro h; apply h0; rw [Qty.phys, h, zero_mul]
  rw [C07_sed spec e he.dim he.scale (.qty d) _ (flux_value spec e d data he hd h0 L hL)]
  have : (DistArg.qty d).isZero = false := by simp [DistArg.isZero, hv]
  rw [this]
  unfold energyPhys
  rw [he.eq]
  simp only [Bool.false_eq_true, if_false, List.map_map, List.zipWith_map, List.map_zipWith]
  congr 3

theorem likelihood_eq (em : Emitter) (sed : Bool) (pd : PDist) (e : Qty (List ℝ)) (d : Qty ℝ) (data : VTable)
    (he : EnergiesOf e data) (hd : d.unit.dim = Dim.length) (h0 : d.phys ≠ 0) (hg : GoodData data)
    (hf : FluxLike data.fluxU.dim) (L : List ℝ) (hlen : L.length = data.rows.length)
    (hL : em.luminosity pd (data.rows.map (·.energy)) = .ok (L.map fin)) :
    em.likelihood sed pd e d data = lnprobmodel ⟨(rowModel L d data).map fin, data.fluxU⟩ data := by
  have hev := cEV_pos
  have hfam : SameFamily data.fluxU.dim data.fluxU.dim := Or.inl ⟨hf, hf⟩
  have hlen2 : (rowModel L d data).length = data.rows.length := by simp [rowModel, hlen]
  rw [lnprobmodel_same ⟨(rowModel L d data).map fin, data.fluxU⟩ data hfam (by simp [hlen2]) hg.energy]
  have key : ∀ (u : PhysUnit) (g : ℝ → ℝ → ℝ), FluxLike u.dim →
      (∀ l, ∀ r ∈ data.rows, eFac (unitIsSed data.fluxU.dim) r.energy / eFac (unitIsSed u.dim) r.energy * g l r.energy =
        l / (4 * Real.pi * d.phys ^ 2) / cEV * eFac (unitIsSed data.fluxU.dim) r.energy) →
      lnprobmodel ⟨(List.zipWith (fun l r => g l r.energy) L data.rows).map fin, u⟩ data =
        lnCore (List.zipWith (fun m r => fin (eFac (unitIsSed data.fluxU.dim) r.energy /
          eFac (unitIsSed data.fluxU.dim) r.energy) * m) ((rowModel L d data).map fin) data.rows) data.rows := by
    intro u g hu hgg
    rw [lnprobmodel_same _ data (Or.inl ⟨hu, hf⟩) (by simp [hlen]) hg.energy]
    congr 1
    unfold rowModel
    simp only
    have hE := hg.energy
    clear hlen2 hlen hL hg he
    generalize data.rows = rows at hgg hE
    induction L generalizing rows with
    | nil => simp
    | cons l L ih =>
      cases rows with
      | nil => simp
      | cons r rows =>
        simp only [List.zipWith_cons_cons, List.map_cons, List.cons.injEq]
        refine ⟨?_, ih rows (fun l r hr => hgg l r (by simp [hr])) (fun r hr => hE r (by simp [hr]))⟩
        have hp := eFac_pos (unitIsSed data.fluxU.dim) r.energy (hE r (by simp))
        rw [XR.mul_fin, XR.mul_fin, hgg l r (by simp), div_self hp.ne', one_mul]
  unfold Emitter.likelihood Emitter.predict
  cases sed with
  | true =>
    rw [if_pos rfl, sed_value _ e d data he hd h0 L hL]
    simp only [Except.bind, asSpectrum, uSed, List.map_map, List.map_zipWith]
    rw [← key ⟨1, Dim.flux⟩ (fun l x => l / (4 * Real.pi * d.phys ^ 2) * (x ^ 2 / cEV)) (Or.inl rfl)
      (by
        intro l r hr
        have hE := hg.energy r hr
        have : unitIsSed Dim.flux = true := by decide
        simp only [this]
        have e1 : eFac true r.energy = r.energy ^ 2 := rfl
        rw [e1]
        field_simp)]
    congr 2
    rw [List.map_zipWith]
    congr 1
    funext l r
    simp [XR.mul_fin]
  | false =>
    rw [if_neg (by simp), flux_value _ e d data he hd h0 L hL]
    simp only [Except.bind, asSpectrum, uFlux, List.map_map]
    rw [← key ⟨1 / cEV, Dim.diffFlux⟩ (fun l _ => l / (4 * Real.pi * d.phys ^ 2) * (1 / cEV)) (Or.inr rfl)
      (by
        intro l r hr
        have : unitIsSed Dim.diffFlux = false := by decide
        simp only [this]
        have e1 : eFac false r.energy = 1 := rfl
        rw [e1]
        field_simp)]
    congr 2
    clear hL hlen2 he hg key
    generalize data.rows = rows at hlen
    induction L generalizing rows with
    | nil => simp
    | cons l L ih =>
      cases rows with
      | nil => simp at hlen
      | cons r rows =>
        have := ih rows (by simpa using hlen)
        simp only [List.map_cons, List.zipWith_cons_cons, List.cons.injEq]
        refine ⟨?_, this⟩
        simp [XR.mul_fin]

theorem rowModel_scaled (A : ℝ) (L : List ℝ) (d : Qty ℝ) (data : VTable) :
    rowModel (L.map (A * ·)) d data = scaledBy A (rowModel L d data) := by
  unfold rowModel scaledBy
  rw [List.map_zipWith, List.zipWith_map_left]
  congr 1
  funext l r
  ring

theorem likelihood_scaled (em : Emitter) (sed : Bool) (pd pd' : PDist) (A : ℝ) (hA : 0 < A)
    (hr : Renormalised A pd pd') (e : Qty (List ℝ)) (d : Qty ℝ) (data : VTable)
    (he : EnergiesOf e data) (hd : d.unit.dim = Dim.length) (h0 : d.phys ≠ 0) (hg : GoodData data)
    (hf : FluxLike data.fluxU.dim) (L : List ℝ) (hlen : L.length = data.rows.length)
    (hL : em.luminosity pd (data.rows.map (·.energy)) = .ok (L.map fin)) :
    em.likelihood sed pd' e d data =
      lnprobmodel ⟨(scaledBy A (rowModel L d data)).map fin, data.fluxU⟩ data := by
  have h := em.scaled A hA pd pd' hr (data.rows.map (·.energy))
  unfold ScaledOutcome at h
  rw [hL] at h
  rw [likelihood_eq em sed pd' e d data he hd h0 hg hf (L.map (A * ·)) (by simpa using hlen)
    (by
      rw [h]
      simp only [Except.map, List.map_map]
      congr 1), rowModel_scaled]

theorem rowModel_ne_zero (L : List ℝ) (d : Qty ℝ) (data : VTable) (h0 : d.phys ≠ 0) (hg : GoodData data)
    (hlen : L.length = data.rows.length) (h : ∃ l ∈ L, l ≠ 0) : ∃ m ∈ rowModel L d data, m ≠ 0 := by
  obtain ⟨l, hl, hl0⟩ := h
  obtain ⟨i, hi, rfl⟩ := List.getElem_of_mem hl
  have hi2 : i < data.rows.length := by omega
  refine ⟨L[i] / (4 * Real.pi * d.phys ^ 2) / cEV * eFac (unitIsSed data.fluxU.dim) data.rows[i].energy, ?_, ?_⟩
  · rw [List.mem_iff_getElem]
    exact ⟨i, by simp [rowModel]; omega, by simp [rowModel]⟩
  · have := eFac_pos (unitIsSed data.fluxU.dim) data.rows[i].energy (hg.energy _ (List.getElem_mem hi2))
    have := cEV_pos
    have : 4 * Real.pi * d.phys ^ 2 ≠ 0 := by positivity
    positivity

theorem small_norm (l : List (ℝ × Row)) (hf : ∀ p ∈ l, 0 < p.2.flux) (hm : ∀ p ∈ l, 0 ≤ p.1) :
    ∃ ε > 0, ∀ p ∈ l, ε * p.1 ≤ p.2.flux := by
  induction l with
  | nil => exact ⟨1, one_pos, by simp⟩
  | cons p l ih =>
    obtain ⟨ε, h1, h2⟩ := ih (fun q hq => hf q (by simp [hq])) (fun q hq => hm q (by simp [hq]))
    have hp := hf p (by simp)
    have hm' := hm p (by simp)
    refine ⟨min ε (p.2.flux / (p.1 + 1)), lt_min h1 (by positivity), ?_⟩
    intro q hq
    rcases List.mem_cons.1 hq with rfl | hq
    · calc min ε (q.2.flux / (q.1 + 1)) * q.1 ≤ q.2.flux / (q.1 + 1) * q.1 :=
            mul_le_mul_of_nonneg_right (min_le_right _ _) hm'
        _ ≤ q.2.flux := by
          rw [div_mul_eq_mul_div, div_le_iff₀ (by positivity)]
          nlinarith
    · exact (mul_le_mul_of_nonneg_right (min_le_left _ _) (hm q (by simp [hq]))).trans (h2 q hq)

theorem chi2_towards (x y : ℝ) (r : Row) (h1 : 0 < r.fluxErrorLo) (h : x ≤ y) (hy : y ≤ r.flux) :
    chi2 y r ≤ chi2 x r := by
  unfold chi2
  rcases eq_or_lt_of_le hy with rfl | hy'
  · simp; positivity
  · rw [if_neg (by linarith), if_neg (by linarith), div_pow, div_pow]
    apply div_le_div_of_nonneg_right _ (by positivity)
    nlinarith

/-- the best normalisation is positive -/
theorem best_pos (l : List (ℝ × Row)) (hf : ∀ p ∈ l, 0 < p.2.flux) (hm : ∀ p ∈ l, 0 ≤ p.1)
    (h1 : ∀ p ∈ l, 0 < p.2.fluxErrorLo) (A : ℝ) (hA : ∀ B, gPart l B ≤ gPart l A)
    (hu : ∀ A', (∀ B, gPart l B ≤ gPart l A') → A' = A) : 0 < A := by
  by_contra hn
  push Not at hn
  obtain ⟨ε, he, hle⟩ := small_norm l hf hm
  have : gPart l A ≤ gPart l ε := by
    unfold gPart
    apply List.sum_le_sum
    intro p hp
    split_ifs
    · exact le_rfl
    · have := chi2_towards (A * p.1) (ε * p.1) p.2 (h1 p hp)
        (mul_le_mul_of_nonneg_right (by linarith) (hm p hp)) (hle p hp)
      exact mul_le_mul_of_nonpos_left this (by norm_num)
  have := hu ε (fun B => (hA B).trans this)
  linarith

theorem flux_rows (d : Qty ℝ) (L : List ℝ) (rows : List Row) (h : L.length = rows.length) :
    ((L.map (fun l => l / (4 * Real.pi * d.phys ^ 2))).map fin).map (· * fin (1 / cEV)) =
    (List.zipWith (fun l (_ : Row) => l / (4 * Real.pi * d.phys ^ 2) / cEV * 1) L rows).map fin := by
  induction L generalizing rows with
  | nil => simp
  | cons l L ih =>
    cases rows with
    | nil => simp at h
    | cons r rows =>
      simp only [List.map_cons, List.zipWith_cons_cons, List.cons.injEq]
      refine ⟨?_, ih rows (by simpa using h)⟩
      rw [XR.mul_fin, XR.fin_inj]; ring

/-! ### The theorems -/

/-- **C113 (well posed).** Data without upper limits, measured at the observer as differential flux or SED; any
radiative model whose spectrum at the energies of the data is finite, nowhere negative and not everywhere zero, returned
as `flux` or as `sed`, at any distance. Whatever the unit of the energies, the log-likelihood of `A` times the
particle distribution is a strictly concave function of `A > 0`, the same for `flux` and `sed`, and, when the measured
fluxes are positive, exactly one positive normalisation maximises it. -/
theorem C113_well_posed (em : Emitter) (pd : PDist) (e : Qty (List ℝ)) (d : Qty ℝ) (data : VTable)
    (he : EnergiesOf e data) (hd : d.unit.dim = Dim.length) (h0 : d.phys ≠ 0) (hg : GoodData data)
    (hf : FluxLike data.fluxU.dim) (hul : ∀ r ∈ data.rows, r.ul = false) (L : List ℝ)
    (hlen : L.length = data.rows.length)
    (hL : em.luminosity pd (data.rows.map (·.energy)) = .ok (L.map fin)) (hnn : ∀ l ∈ L, 0 ≤ l)
    (hne : ∃ l ∈ L, l ≠ 0) (hpos : ∀ r ∈ data.rows, 0 < r.flux) :
    ∃ lik : ℝ → ℝ,
      (∀ sed A pd', 0 < A → Renormalised A pd pd' → em.likelihood sed pd' e d data = .ok (fin (lik A))) ∧
      StrictConcaveOn ℝ (Set.Ioi 0) lik ∧ ∃! A, 0 < A ∧ ∀ B, 0 < B → lik B ≤ lik A := by
  have hlen2 : (rowModel L d data).length = data.rows.length := by simp [rowModel, hlen]
  have hz : ∀ p ∈ (rowModel L d data).zip data.rows, p.2 ∈ data.rows := fun p hp => (List.of_mem_zip hp).2
  obtain ⟨lik, h1, h2, A, hA, hu⟩ := C109_unique (rowModel L d data) data.fluxU data hg hlen2 rfl hul
    (rowModel_ne_zero L d data h0 hg hlen hne)
  have hlik : ∀ A, lik A = gPart ((rowModel L d data).zip data.rows) A := by
    intro A
    have := h1 A
    rw [C40_gaussian (scaledBy A (rowModel L d data)) data.fluxU data hg (by simpa [scaledBy] using hlen2) rfl hul] at this
    simp only [Except.ok.injEq, XR.fin_inj] at this
    rw [← this]
    unfold gaussLnL gPart
    rw [zip_scaled, List.map_map, ← List.sum_map_mul_left]
    congr 1
    apply List.map_congr_left
    intro p hp
    simp [hul p.2 (hz p hp)]
  have hmn : ∀ m ∈ rowModel L d data, 0 ≤ m := by
    intro m hm
    obtain ⟨i, hi, rfl⟩ := List.getElem_of_mem hm
    have hi' : i < data.rows.length := by omega
    have := eFac_pos (unitIsSed data.fluxU.dim) data.rows[i].energy (hg.energy _ (List.getElem_mem hi'))
    have := cEV_pos
    have := hnn L[i] (List.getElem_mem (by omega))
    simp only [rowModel, List.getElem_zipWith]
    positivity
  have hApos : 0 < A := by
    refine best_pos ((rowModel L d data).zip data.rows) (fun p hp => hpos _ (hz p hp))
      (fun p hp => hmn _ (List.of_mem_zip hp).1) (fun p hp => hg.errLo _ (hz p hp)) A ?_ ?_
    · intro B; rw [← hlik, ← hlik]; exact hA B
    · intro A' h'
      apply hu
      intro B
      rw [hlik, hlik]; exact h' B
  refine ⟨lik, ?_, h2.subset (Set.subset_univ _) (convex_Ioi 0), A, ⟨hApos, fun B _ => hA B⟩, ?_⟩
  · intro sed B pd' hB hr
    rw [likelihood_scaled em sed pd pd' B hB hr e d data he hd h0 hg hf L hlen hL]
    exact h1 B
  · rintro B ⟨hB, hB2⟩
    exact hu B (fun C => (hA C).trans (hB2 A hApos))

/-- **C113 (recovery).** If the measured fluxes are what the model predicts for the distribution `pd` (as `sed` for
SED data, as `flux` for differential data), then among all positive multiples of `pd` the distribution itself, and
only it, has log-likelihood 0; every other multiple has less. Whatever the errors. -/
theorem C113_recovers (em : Emitter) (pd : PDist) (e : Qty (List ℝ)) (d : Qty ℝ) (data : VTable)
    (he : EnergiesOf e data) (hd : d.unit.dim = Dim.length) (h0 : d.phys ≠ 0) (hg : GoodData data)
    (hf : FluxLike data.fluxU.dim) (hul : ∀ r ∈ data.rows, r.ul = false) (L : List ℝ)
    (hlen : L.length = data.rows.length)
    (hL : em.luminosity pd (data.rows.map (·.energy)) = .ok (L.map fin)) (hne : ∃ l ∈ L, l ≠ 0)
    (q : Qty (List XR)) (hq : em.predict (decide (data.fluxU.dim = Dim.flux)) pd e d = .ok q)
    (hdata : data.rows.map (fun r => fin r.flux) = q.value.map (· * fin q.unit.scale)) :
    ∀ sed A pd', 0 < A → Renormalised A pd pd' →
      ∃ v ≤ 0, em.likelihood sed pd' e d data = .ok (fin v) ∧ (v = 0 ↔ A = 1) := by
  have hev := cEV_pos
  have hrows : data.rows.map (·.flux) = scaledBy 1 (rowModel L d data) := by
    have inj : ∀ a b : List ℝ, a.map fin = b.map fin → a = b := fun a b h =>
      List.map_injective_iff.2 (fun x y h => (XR.fin_inj x y).1 h) h
    apply inj
    rw [List.map_map]
    have e1 : data.rows.map (fin ∘ fun r => r.flux) = data.rows.map (fun r => fin r.flux) := rfl
    rw [e1, hdata]
    have hs1 : scaledBy 1 (rowModel L d data) = rowModel L d data := by simp [scaledBy]
    rw [hs1]
    unfold Emitter.predict at hq
    rcases hf with hf | hf
    · simp only [hf, decide_true, if_true] at hq
      rw [sed_value _ e d data he hd h0 L hL] at hq
      simp only [Except.ok.injEq] at hq
      subst hq
      have hs : unitIsSed Dim.flux = true := by decide
      unfold rowModel
      simp only [List.map_zipWith, uSed, hf, hs, eFac, if_true]
      congr 1
      funext l r
      rw [XR.mul_fin, XR.fin_inj]
      ring
    · have hne' : ¬ Dim.diffFlux = Dim.flux := by decide
      simp only [hf, hne', decide_false, Bool.false_eq_true, if_false] at hq
      rw [flux_value _ e d data he hd h0 L hL] at hq
      simp only [Except.ok.injEq] at hq
      subst hq
      have hs : unitIsSed Dim.diffFlux = false := by decide
      unfold rowModel
      simp only [uFlux, hf, hs, eFac, Bool.false_eq_true, if_false]
      exact flux_rows d L data.rows hlen
  obtain ⟨r1, r2⟩ := C109_recovers (rowModel L d data) data.fluxU data hg rfl hul
    (rowModel_ne_zero L d data h0 hg hlen hne) 1 hrows
  intro sed A pd' hA hr
  rw [likelihood_scaled em sed pd pd' A hA hr e d data he hd h0 hg hf L hlen hL]
  by_cases h : A = 1
  · subst h
    exact ⟨0, le_rfl, r1, by simp⟩
  · obtain ⟨v, hv, h'⟩ := r2 A h
    exact ⟨v, hv.le, h', by simp [h, hv.ne]⟩

/-! ### The amplitude of a power law of electrons -/

theorem powerLaw_renormalised (A α : ℝ) (e0 : Qty ℝ) (u : PhysUnit) (hA : 0 < A) :
    Renormalised A (PowerLaw.toPDist ⟨fin 1, e0.lift, fin α⟩ u) (PowerLaw.toPDist ⟨fin A, e0.lift, fin α⟩ u) := by
  refine ⟨rfl, fun E => ?_⟩
  simp only [PowerLaw.toPDist, PowerLaw.call, validateEneEV, Qty.toValue, bind, Except.bind, pure, Except.pure]
  have h1 : (fin A : XR) = fin A * fin 1 := by rw [XR.mul_fin, mul_one]
  split_ifs
  all_goals first
    | rfl
    | (simp only [plEval]
       rw [h1, scale_mul A hA, ← h1])
    | simp

/-- positive electrons shine at every photon energy -/
theorem sync_positive (m : SyncModel) (pd : PDist) (hu : pd.unit.dim = Dim.diffEnergy) (hus : 0 < pd.unit.scale)
    (hlo : m.Eemin.PosEnergy) (hhi : m.Eemax.PosEnergy) (hlt : m.Eemin.phys < m.Eemax.phys)
    (hB : m.B.unit.dim = Dim.magFluxDensity) (hBp : 0 < m.B.phys) (p : ℝ → ℝ)
    (hp : ∀ E > 0, pd.f E = fin (p E)) (hpos : ∀ E > 0, 0 < p E) (hc : ContinuousOn p (Set.Ioi 0)) (es : List ℝ)
    (hes : ∀ e ∈ es, 0 < e) :
    ∃ L : List ℝ, m.spectrum pd es = .ok (L.map fin) ∧ L.length = es.length ∧ ∀ l ∈ L, 0 < l := by
  have hpos' : ∀ E ∈ Set.Icc m.Eemin.phys m.Eemax.phys, 0 < E := fun E hE => hlo.phys_pos.trans_le hE.1
  obtain ⟨a, -, ha, -, hS⟩ := C103_slope_and_cutoff m pd hu hus hlo hhi hlt hB hBp p
    (fun E hE => hp E (hpos' E hE)) (Spectrum.of_continuous (fun E hE => (hpos E (hpos' E hE)).le)
      (hc.mono fun E hE => hpos' E hE))
  have ha := ha (fun E hE => hpos E (hpos' E hE)) m.nEed
  have h1 : ∀ e, 0 < e → ∃ S > 0, m.spectrum pd [e] = .ok [fin S] := by
    intro e he
    obtain ⟨S, s1, s2, -⟩ := hS m.nEed e he
    refine ⟨S, ?_, s1⟩
    by_contra hn
    push Not at hn
    have hr : 0 < (m.Eemax.phys / m.Eemin.phys) ^ (2e-10 : ℝ) :=
      Real.rpow_pos_of_pos (div_pos hhi.phys_pos hlo.phys_pos) _
    have h2 := mul_nonpos_of_nonneg_of_nonpos hr.le hn
    have h3 : 0 < e ^ (-(2:ℝ) / 3) := Real.rpow_pos_of_pos he _
    generalize e ^ (-(2:ℝ) / 3) = y at h3 s2
    have h4 : 0 < Real.sqrt (1 + 3.4 *
            (e / critEnergy cE cMe cC cHbar (m.B.phys / 0.1) (m.Eemin.phys / (cMe * cC ^ 2))) ^ ((2 : ℝ) / 3)) := by
      apply Real.sqrt_pos.2
      have : 0 ≤ (e / critEnergy cE cMe cC cHbar (m.B.phys / 0.1) (m.Eemin.phys / (cMe * cC ^ 2))) ^ ((2 : ℝ) / 3) := by
        apply Real.rpow_nonneg
        have := critEnergy_pos (m.B.phys / 0.1) (m.Eemin.phys / (cMe * cC ^ 2)) (by positivity)
          (div_pos hlo.phys_pos cMec2_pos)
        positivity
      linarith
    have h5 := mul_pos ha (div_pos (mul_pos h3 (Real.exp_pos
      (-(e / critEnergy cE cMe cC cHbar (m.B.phys / 0.1) (m.Eemin.phys / (cMe * cC ^ 2)))))) h4)
    linarith
  obtain ⟨out, o1, o2, o3, -⟩ := C14_nonneg_partial m pd hu hus
    (fun e he => ⟨p e, (hpos e he).le, hp e he⟩) hlo hhi hlt.le hB hBp es hes
  have hC := (C12_synchrotron m pd es out o1).2
  have hfin : ∀ a ∈ out, ∃ r : ℝ, 0 < r ∧ a = fin r := by
    intro a ham
    obtain ⟨i, hi, rfl⟩ := List.getElem_of_mem ham
    have hi' : i < es.length := by omega
    obtain ⟨S, hS0, hS1⟩ := h1 es[i] (hes _ (List.getElem_mem hi'))
    have := hC i es[i] out[i] (by simp [hi']) (by simp [hi])
    rw [hS1] at this
    simp only [Except.ok.injEq, List.cons.injEq, and_true] at this
    exact ⟨S, hS0, this.symm⟩
  have : ∃ L : List ℝ, out = L.map fin ∧ ∀ l ∈ L, 0 < l := by
    clear o1 o2 o3 hC
    induction out with
    | nil => exact ⟨[], rfl, by simp⟩
    | cons a out ih =>
      obtain ⟨L, l1, l2⟩ := ih (fun b hb => hfin b (by simp [hb]))
      obtain ⟨r, r1, r2⟩ := hfin a (by simp)
      exact ⟨r :: L, by simp [l1, r2], by simpa using ⟨r1, l2⟩⟩
  obtain ⟨L, rfl, hL⟩ := this
  exact ⟨L, o1, by simpa using o2, hL⟩

/-- **C113 (amplitude of a power law).** The fit of the amplitude of a power law of electrons radiating synchrotron
emission: whatever the index, reference energy, field, electron range, grid and distance, and whatever (positive)
fluxes were measured at whatever energies with whatever errors, exactly one positive amplitude has the largest
likelihood. -/
theorem C113_power_law_synchrotron (m : SyncModel) (e0 : Qty ℝ) (h0 : e0.PosEnergy) (α : ℝ) (u : PhysUnit)
    (hu : u.dim = Dim.diffEnergy) (hus : 0 < u.scale)
    (hlo : m.Eemin.PosEnergy) (hhi : m.Eemax.PosEnergy) (hlt : m.Eemin.phys < m.Eemax.phys)
    (hB : m.B.unit.dim = Dim.magFluxDensity) (hBp : 0 < m.B.phys)
    (e : Qty (List ℝ)) (d : Qty ℝ) (data : VTable) (he : EnergiesOf e data) (hd : d.unit.dim = Dim.length)
    (hd0 : d.phys ≠ 0) (hg : GoodData data) (hf : FluxLike data.fluxU.dim) (hul : ∀ r ∈ data.rows, r.ul = false)
    (hne : data.rows ≠ []) (hpos : ∀ r ∈ data.rows, 0 < r.flux) :
    ∃ lik : ℝ → ℝ,
      (∀ sed A, 0 < A → (Emitter.synchrotron m).likelihood sed (PowerLaw.toPDist ⟨fin A, e0.lift, fin α⟩ u) e d data =
        .ok (fin (lik A))) ∧
      StrictConcaveOn ℝ (Set.Ioi 0) lik ∧ ∃! A, 0 < A ∧ ∀ B, 0 < B → lik B ≤ lik A := by
  have hpl : ∀ E > 0, (PowerLaw.toPDist ⟨fin 1, e0.lift, fin α⟩ u).f E = fin (1 * (E / e0.phys) ^ (-α)) :=
    fun E hE => powerLaw_pdist 1 α e0 h0 u E hE
  obtain ⟨L, l1, l2, l3⟩ := sync_positive m (PowerLaw.toPDist ⟨fin 1, e0.lift, fin α⟩ u) hu hus hlo hhi hlt hB hBp
    _ hpl (fun E hE => mul_pos one_pos (Real.rpow_pos_of_pos (div_pos hE h0.phys_pos) _))
    (by
      apply ContinuousOn.mul continuousOn_const
      apply ContinuousOn.rpow_const (continuousOn_id.div_const _)
      intro E hE
      exact Or.inl (div_pos hE h0.phys_pos).ne') (data.rows.map (·.energy))
    (by intro x hx; obtain ⟨r, hr, rfl⟩ := List.mem_map.1 hx; exact hg.energy r hr)
  have hlen : L.length = data.rows.length := by simpa using l2
  obtain ⟨lik, k1, k2, k3⟩ := C113_well_posed (.synchrotron m) (PowerLaw.toPDist ⟨fin 1, e0.lift, fin α⟩ u) e d data he hd
    hd0 hg hf hul L hlen l1 (fun l hl => (l3 l hl).le)
    (by
      cases L with
      | nil => simp at hlen; exact absurd hlen.symm (by simpa using hne)
      | cons a L => exact ⟨a, by simp, (l3 a (by simp)).ne'⟩) hpos
  exact ⟨lik, fun sed A hA => k1 sed A _ hA (powerLaw_renormalised A α e0 u hA), k2, k3⟩

/-! ### The hypotheses are met -/

/-- Two SED points 2 ± 1 and 5 ± 1 (−2) at 1 and 2 erg, a source at 2 kpc. -/
example (A₁ : ℝ) : ∃ lik : ℝ → ℝ, (∀ sed A, 0 < A →
      (Emitter.synchrotron ⟨⟨⟨1, PhysUnit.GeV⟩, ⟨510, PhysUnit.TeV⟩, 100⟩, ⟨3.24e-6, gauss⟩⟩).likelihood sed
        (PowerLaw.toPDist ⟨fin A, (⟨1, PhysUnit.TeV⟩ : Qty ℝ).lift, fin 2.2⟩ ⟨1 / cEV, Dim.diffEnergy⟩)
        ⟨[1, 2], PhysUnit.erg⟩ ⟨2, ⟨3.0857e21, Dim.length⟩⟩
        { ulTable [normRow 2 1 1 1 false, normRow 5 1 2 2 false] with fluxU := ⟨1, Dim.flux⟩ } = .ok (fin (lik A))) ∧
    ∃! A, 0 < A ∧ ∀ B, 0 < B → lik B ≤ lik A := by
  have := cEV_pos
  obtain ⟨lik, h1, -, h2⟩ := C113_power_law_synchrotron
    ⟨⟨⟨1, PhysUnit.GeV⟩, ⟨510, PhysUnit.TeV⟩, 100⟩, ⟨3.24e-6, gauss⟩⟩ ⟨1, PhysUnit.TeV⟩
    ⟨rfl, by simp [PhysUnit.TeV]; positivity, by norm_num⟩ 2.2 ⟨1 / cEV, Dim.diffEnergy⟩ rfl (by simp only; positivity)
    ⟨rfl, GeV_pos, by norm_num⟩ ⟨rfl, by simp only [PhysUnit.TeV]; norm_num, by norm_num⟩
    (by simp only [Qty.phys, PhysUnit.GeV, PhysUnit.TeV]; norm_num) rfl (by simp only [Qty.phys, gauss]; norm_num)
    ⟨[1, 2], PhysUnit.erg⟩ ⟨2, ⟨3.0857e21, Dim.length⟩⟩
    { ulTable [normRow 2 1 1 1 false, normRow 5 1 2 2 false] with fluxU := ⟨1, Dim.flux⟩ }
    ⟨rfl, by simp [PhysUnit.erg], by simp [PhysUnit.erg, ulTable, normRow]⟩ rfl
    (by simp only [Qty.phys]; norm_num) ⟨by simp [ulTable, normRow], by simp [ulTable, normRow], by simp [ulTable, normRow]⟩
    (Or.inl rfl) (by simp [ulTable, normRow]) (by simp [ulTable]) (by simp [ulTable, normRow])
  exact ⟨lik, h1, h2⟩

end Naima.Props
