import Verif.Model.SSC
import Verif.Props.C98_Scaling
import Verif.Props.C14_Synchrotron
import Verif.Props.C15_ICKernel

/-!
# C102 — synchrotron self Compton
-/

namespace Naima.Props

open XR Classical

/-! ### the photon density -/

theorem sscDensity_eq (syn : SyncModel) (pd : PDist) (Esy : Qty (List ℝ)) (R : Qty ℝ) :
    sscDensity syn pd Esy R =
      if Esy.unit.dim = Dim.energy then
        (syn.spectrum pd (Esy.value.map (· * Esy.unit.scale))).map (fun L =>
          ⟨L.map (fun l => l / fin (4 * Real.pi * R.value ^ 2 * lightSpeed.value) * fin 2.24),
            ⟨uLum.scale / (R.unit.scale ^ 2 * lightSpeed.unit.scale),
              uLum.dim.div ((R.unit.dim.mul R.unit.dim).mul lightSpeed.unit.dim)⟩⟩)
      else .error .typeError := by
  unfold sscDensity fluxOf energiesErg
  by_cases h : Esy.unit.dim = Dim.energy
  · simp only [h, if_true, DistArg.isZero, bind, Except.bind, pure, Except.pure]
    cases syn.spectrum pd (Esy.value.map (· * Esy.unit.scale)) <;> simp [Except.map]
  · simp only [h, if_false, bind, Except.bind]

theorem ssc_dim (R : Qty ℝ) (h : R.unit.dim = Dim.length) :
    uLum.dim.div ((R.unit.dim.mul R.unit.dim).mul lightSpeed.unit.dim) = Dim.diffNumDensity := by
  rw [h]; rfl

/-- the parsed field: two or more energies -/
theorem ssc_parse (Esy : Qty (List ℝ)) (n : Qty (List XR)) (he : Esy.unit.dim = Dim.energy)
    (hn : n.unit.dim = Dim.diffNumDensity) (hl : n.value.length = Esy.value.length)
    (h2 : 2 ≤ Esy.value.length) :
    parseSeed (sscSeed Esy n) = .ok ("SSC", .array (.qarr [Esy.value.length] (Esy.value.map fin) Esy.unit)
      (.qarr [n.value.length] n.value n.unit) none) := by
  have h1 : ¬ Esy.value.length = 1 := by omega
  have ht : ¬ Dim.energy = Dim.temperature := by decide
  have hp : ¬ Dim.diffNumDensity = Dim.pressure := by decide
  have hf := validateArray_flat (Esy.value.map fin) Esy.unit .positive [Dim.energy]
  rw [List.length_map] at hf
  have hg := validateArray_flat n.value n.unit .positive [Dim.diffNumDensity]
  simp [sscSeed, parseSeed, parseList, unitOf, he, ht, parseArray, flatQ, parseDensity, h1, hn, hp,
    bind, Except.bind, pure, Except.pure, hf, hg]


theorem div_scale (k : ℝ) (hk : 0 < k) (a : XR) : a / fin k = fin (1 / k) * a := by
  cases a with
  | nan => rfl
  | ninf => rw [scale_ninf _ (by positivity)]; show XR.div _ _ = _; simp [XR.div, not_lt.2 hk.le]
  | pinf => rw [scale_pinf _ (by positivity)]; show XR.div _ _ = _; simp [XR.div, not_lt.2 hk.le]
  | fin x => rw [div_fin _ _ hk.ne', mul_fin]; congr 1; ring

/-- the numbers the kernel reads -/
theorem ssc_num (Esy : Qty (List ℝ)) (L : List XR) (R : Qty ℝ) (he : Esy.unit.dim = Dim.energy)
    (hR : R.unit.dim = Dim.length) (hRv : R.phys ≠ 0) (hRs : 0 < R.unit.scale) (hl : L.length = Esy.value.length)
    (h2 : 2 ≤ Esy.value.length) :
    SeedField.toNum (.array (.qarr [Esy.value.length] (Esy.value.map fin) Esy.unit)
      (.qarr [(L.map (fun l => l / fin (4 * Real.pi * R.value ^ 2 * lightSpeed.value) * fin 2.24)).length]
        (L.map (fun l => l / fin (4 * Real.pi * R.value ^ 2 * lightSpeed.value) * fin 2.24))
        ⟨uLum.scale / (R.unit.scale ^ 2 * lightSpeed.unit.scale),
              uLum.dim.div ((R.unit.dim.mul R.unit.dim).mul lightSpeed.unit.dim)⟩) none) =
    .ok (.array (Esy.value.map (fun x => x * Esy.unit.scale / (cMe * cC ^ 2)))
      (L.map (fun l => fin (2.24 / (4 * Real.pi * R.phys ^ 2 * cC) * (1 / cEV) * (cMe * cC ^ 2)) * l)) none) := by
  have hm : ∀ l : List ℝ, (l.map fin).mapM asFinite = some l := by
    intro l
    induction l with
    | nil => rfl
    | cons a l ih => simp [List.mapM_cons, ih, asFinite]
  have h1 : 1 < Esy.value.length := by omega
  have hv : R.value ≠ 0 := by rintro h; exact hRv (by unfold Qty.phys; rw [h, zero_mul])
  have hls : 0 < lightSpeed.value := by unfold lightSpeed; norm_num
  have hv2 : 0 < R.value ^ 2 := by positivity
  simp only [SeedField.toNum, photE0, he, if_true, hm, photDens, List.length_map, h1, ssc_dim R hR, hl, bind,
    Except.bind, pure, Except.pure, thetaOf, List.map_map, ne_eq, not_true_eq_false, if_false]
  congr 2
  apply List.map_congr_left
  intro l _
  simp only [Function.comp_apply]
  have hk : 0 < 4 * Real.pi * R.value ^ 2 * lightSpeed.value := by have := Real.pi_pos; positivity
  rw [div_scale _ hk, scale_mul _ (by positivity), mul_comm' l, scale_mul _ (by positivity), scale_mul _ (by norm_num),
    mul_comm' l]
  have e2 : ∀ (a b : ℝ), 0 < a → fin a * (fin b * l) = fin (a * b) * l := by
    intro a b ha; rw [← scale_mul a ha, mul_fin]
  rw [e2 _ _ (by norm_num), e2 _ _ (by positivity)]
  congr 2
  unfold lightSpeed uLum Qty.phys cMec2 cC
  field_simp
  ring

/-- the whole recipe with the SSC field alone -/
theorem ssc_alone (m : ElModel) (pd : PDist) (Esy : Qty (List ℝ)) (es : List ℝ) (n : Qty (List XR)) : icModelSpectrum m (.list [sscSeed Esy n]) pd es =
      (parseSeed (sscSeed Esy n)).bind (fun f => f.2.toNum.bind (fun s => icSpectrum m [s] pd es)) := by
  unfold icModelSpectrum
  simp only [processInputSeed, parseLoop]
  cases parseSeed (sscSeed Esy n) with
  | error e => rfl
  | ok f =>
    obtain ⟨nm, f⟩ := f
    simp only [bind, Except.bind, Dict.set, Dict.keys, List.map_nil, List.not_mem_nil, if_false, List.nil_append,
      List.mapM_cons, List.mapM_nil, pure, Except.pure]
    cases f.toNum <;> rfl

theorem sync_length (syn : SyncModel) (pd : PDist) (es : List ℝ) (L : List XR) (h : syn.spectrum pd es = .ok L) :
    L.length = es.length := (C12_synchrotron syn pd es L h).1

/-- **C102 (the photon field inside the source).** The recipe documented for synchrotron self Compton —
luminosity from `flux` with distance 0, divided by `4πR²c` and multiplied by 2.24, given as seed field — is
accepted for two or more photon energies, in whatever units of energy and length; and the spectrum is that of
electrons in a photon field of exactly `2.24 L/(4πR²c)` photons per cm³ and erg at each of those energies, `L`
being the synchrotron photons per second and erg. -/
theorem C102_photon_field (m : ElModel) (syn : SyncModel) (pd : PDist) (Esy : Qty (List ℝ)) (R : Qty ℝ)
    (he : Esy.unit.dim = Dim.energy) (hR : R.unit.dim = Dim.length) (hRs : 0 < R.unit.scale) (hR0 : R.value ≠ 0)
    (h2 : 2 ≤ Esy.value.length) (L : List XR)
    (hL : syn.spectrum pd (Esy.value.map (· * Esy.unit.scale)) = .ok L) (es : List ℝ) :
    sscSpectrum m [] syn pd Esy R es =
      icSpectrum m [.array (Esy.value.map (fun x => x * Esy.unit.scale / (cMe * cC ^ 2)))
        (L.map (fun l => fin (2.24 / (4 * Real.pi * R.phys ^ 2 * cC) * (1 / cEV) * (cMe * cC ^ 2)) * l)) none]
        pd es := by
  have hl : L.length = Esy.value.length := by rw [sync_length _ _ _ _ hL, List.length_map]
  unfold sscSpectrum
  rw [sscDensity_eq, if_pos he, hL]
  simp only [Except.map, bind, Except.bind, List.nil_append]
  rw [ssc_alone m pd Esy es]
  rw [ssc_parse Esy _ he (ssc_dim R hR) (by simpa using hl) h2]
  simp only [Except.bind]
  rw [ssc_num Esy L R he hR (mul_ne_zero hR0 hRs.ne') hRs hl h2]

/-- **C102 (one photon energy).** With fewer than two photon energies the recipe is refused. -/
theorem C102_false_one_energy (m : ElModel) (syn : SyncModel) (pd : PDist) (Esy : Qty (List ℝ)) (R : Qty ℝ)
    (hR : R.unit.dim = Dim.length) (h2 : Esy.value.length < 2) (es : List ℝ) :
    ∃ x, sscSpectrum m [] syn pd Esy R es = .error x := by
  unfold sscSpectrum
  rw [sscDensity_eq]
  by_cases he : Esy.unit.dim = Dim.energy
  · rw [if_pos he]
    cases hL : syn.spectrum pd (Esy.value.map (· * Esy.unit.scale)) with
    | error e => exact ⟨e, rfl⟩
    | ok L =>
      have hl : L.length = Esy.value.length := by rw [sync_length _ _ _ _ hL, List.length_map]
      simp only [Except.map, bind, Except.bind, List.nil_append]
      rw [ssc_alone m pd Esy es]
      have ht : ¬ Dim.energy = Dim.temperature := by decide
      have hp : ¬ Dim.diffNumDensity = Dim.pressure := by decide
      have ho : ¬ Dim.diffNumDensity = Dim.one := by decide
      have hf := validateArray_flat (Esy.value.map fin) Esy.unit .positive [Dim.energy]
      rw [List.length_map] at hf
      match L, hl with
      | [], hl =>
        have h0 : Esy.value = [] := List.length_eq_zero_iff.1 hl.symm
        refine ⟨.unitConversionError, ?_⟩
        have := validateArray_flat [] (⟨uLum.scale / (R.unit.scale ^ 2 * lightSpeed.unit.scale),
          Dim.diffNumDensity⟩) .positive [Dim.diffNumDensity]
        simp only [List.length_nil] at this
        simp [sscSeed, parseSeed, parseList, unitOf, he, ht, parseArray, flatQ, parseDensity, h0, hp,
          ssc_dim R hR, bind, Except.bind, pure, Except.pure, SeedField.toNum, photE0, photDens,
          validateArray, validatePhysicalType, ho, asFinite]
      | [l], hl =>
        refine ⟨.typeError, ?_⟩
        have h1 : Esy.value.length = 1 := hl.symm
        rw [h1] at hf
        simp [sscSeed, parseSeed, parseList, unitOf, he, ht, parseArray, flatQ, parseDensity, h1, hp,
          ssc_dim R hR, bind, Except.bind, pure, Except.pure, hf, validateScalar, validatePhysicalType, ho]
      | _ :: _ :: _, hl => simp only [List.length_cons] at hl; omega
  · rw [if_neg he]; exact ⟨_, rfl⟩


/-! ### how the spectrum scales -/

/-- the recipe with other densities -/
theorem ssc_times (k : ℝ) (hk : 0 < k) (m : ElModel) (pd : PDist) (Esy : Qty (List ℝ)) (n n' : Qty (List XR))
    (hd : ¬ n.unit.dim = Dim.pressure) (hn : n'.unit = n.unit) (hv : n'.value = n.value.map (fun x => fin k * x))
    (he : Esy.unit.dim = Dim.energy) (hl : n.value.length = Esy.value.length) (es : List ℝ) :
    icModelSpectrum m (.list [sscSeed Esy n']) pd es =
      (icModelSpectrum m (.list [sscSeed Esy n]) pd es).map (List.map (fun a => fin k * a)) := by
  by_cases h0 : n.value = [fin 0]
  · have h1 : Esy.value.length = 1 := by rw [← hl, h0]; rfl
    have hs : sscSeed Esy n' = sscSeed Esy n := by
      unfold sscSeed
      rw [hv, hn, h0]
      simp
    rw [hs, ssc_alone m pd Esy es]
    have ht : ¬ Dim.energy = Dim.temperature := by decide
    have hf := validateArray_flat (Esy.value.map fin) Esy.unit .positive [Dim.energy]
    rw [List.length_map, h1] at hf
    have : parseSeed (sscSeed Esy n) = .error .typeError := by
      simp [sscSeed, parseSeed, parseList, unitOf, he, ht, parseArray, flatQ, parseDensity, h1, hd, h0,
          bind, Except.bind, pure, Except.pure, hf, validateScalar, validatePhysicalType]
    rw [this]
    rfl
  · apply C98_inverse_compton k hk
    refine .cons ?_ .nil
    unfold sscSeed
    have := SeedTimes.list3 (c := k) "SSC" (.qarr [Esy.value.length] (Esy.value.map fin) Esy.unit)
      (.qarr [n.value.length] n.value n.unit h0)
    rw [hn, hv, List.length_map]
    exact this

theorem icModelSpectrum_scale (m : ElModel) (arg : SeedsArg) (pd : PDist) (c : ℝ) (hc : 0 < c) (es : List ℝ) :
    icModelSpectrum m arg (pd.scale c) es =
      (icModelSpectrum m arg pd es).map (List.map (fun a => fin c * a)) := by
  unfold icModelSpectrum
  cases processInputSeed arg with
  | error e => rfl
  | ok fs =>
    simp only [bind, Except.bind]
    cases List.mapM (fun f : String × SeedField => f.2.toNum) fs with
    | error e => rfl
    | ok ss => exact icSpectrum_scale m ss pd c hc es

theorem ssc_not_pressure (R : Qty ℝ) (h : R.unit.dim = Dim.length) :
    ¬ uLum.dim.div ((R.unit.dim.mul R.unit.dim).mul lightSpeed.unit.dim) = Dim.pressure := by
  rw [ssc_dim R h]; decide

theorem map_scale_scale (a b : ℝ) (ha : 0 < a) (x : Except PyErr (List XR)) :
    (x.map (List.map (fun y => fin b * y))).map (List.map (fun y => fin a * y)) =
      x.map (List.map (fun y => fin (a * b) * y)) := by
  cases x with
  | error e => rfl
  | ok l =>
    simp only [Except.map, List.map_map]
    congr 1
    apply List.map_congr_left
    intro y _
    simp only [Function.comp_apply]
    rw [← scale_mul a ha, mul_fin]

/-- the densities of the recipe for synchrotron luminosities `L` -/
noncomputable def sscDens (R : Qty ℝ) (L : List XR) : Qty (List XR) :=
  ⟨L.map (fun l => l / fin (4 * Real.pi * R.value ^ 2 * lightSpeed.value) * fin 2.24),
    ⟨uLum.scale / (R.unit.scale ^ 2 * lightSpeed.unit.scale),
      uLum.dim.div ((R.unit.dim.mul R.unit.dim).mul lightSpeed.unit.dim)⟩⟩

theorem sscSpectrum_eq (m : ElModel) (others : List SeedSpec) (syn : SyncModel) (pd : PDist) (Esy : Qty (List ℝ))
    (R : Qty ℝ) (es : List ℝ) : sscSpectrum m others syn pd Esy R es =
      if Esy.unit.dim = Dim.energy then
        (syn.spectrum pd (Esy.value.map (· * Esy.unit.scale))).bind
          (fun L => icModelSpectrum m (.list (others ++ [sscSeed Esy (sscDens R L)])) pd es)
      else .error .typeError := by
  unfold sscSpectrum
  rw [sscDensity_eq]
  split
  · cases syn.spectrum pd (Esy.value.map (· * Esy.unit.scale)) <;> rfl
  · rfl

theorem sscDens_scale (c : ℝ) (hc : 0 < c) (R : Qty ℝ) (L : List XR) :
    (sscDens R (L.map (fun a => fin c * a))).value = (sscDens R L).value.map (fun a => fin c * a) := by
  simp only [sscDens, List.map_map]
  apply List.map_congr_left
  intro l _
  simp only [Function.comp_apply]
  rw [scale_div c hc, scale_mul c hc]

/-- **C102 (quadratic in the number of electrons).** With `c` times as many electrons of every energy the
synchrotron self-Compton spectrum is `c²` times as large at every energy, for all distributions, fields, source
sizes and photon energies; a refused argument is refused in the same way. -/
theorem C102_quadratic (m : ElModel) (syn : SyncModel) (Esy : Qty (List ℝ)) (R : Qty ℝ)
    (hR : R.unit.dim = Dim.length) (c : ℝ) (hc : 0 < c) (pd pd' : PDist) (h : Renormalised c pd pd')
    (es : List ℝ) :
    ScaledOutcome (c ^ 2) (sscSpectrum m [] syn pd Esy R es) (sscSpectrum m [] syn pd' Esy R es) := by
  have hs := C08_synchrotron syn c hc pd pd' h (Esy.value.map (· * Esy.unit.scale))
  rw [h.eq] at hs ⊢
  unfold ScaledOutcome at hs ⊢
  rw [sscSpectrum_eq, sscSpectrum_eq]
  by_cases he : Esy.unit.dim = Dim.energy
  · rw [if_pos he, if_pos he, hs]
    cases hL : syn.spectrum pd (Esy.value.map (· * Esy.unit.scale)) with
    | error e => rfl
    | ok L =>
      have hl : L.length = Esy.value.length := by rw [sync_length _ _ _ _ hL, List.length_map]
      show icModelSpectrum m (.list [sscSeed Esy (sscDens R (L.map (fun a => fin c * a)))]) (pd.scale c) es =
        (icModelSpectrum m (.list [sscSeed Esy (sscDens R L)]) pd es).map _
      rw [icModelSpectrum_scale m _ pd c hc, pow_two, ← map_scale_scale c c hc]
      congr 1
      exact ssc_times c hc m pd Esy (sscDens R L) (sscDens R (L.map (fun a => fin c * a)))
        (ssc_not_pressure R hR) rfl (sscDens_scale c hc R L) he
        (by simpa [sscDens] using hl) es
  · rw [if_neg he, if_neg he]; rfl

/-- **C102 (source size).** In a source `k` times as large, with the same electrons, the self-Compton spectrum
is `k²` times smaller at every energy. -/
theorem C102_radius (m : ElModel) (syn : SyncModel) (Esy : Qty (List ℝ)) (R R' : Qty ℝ)
    (hR : R.unit.dim = Dim.length) (hR0 : R.value ≠ 0) (k : ℝ) (hk : 0 < k) (hu : R'.unit = R.unit)
    (hv : R'.value = k * R.value) (pd : PDist) (es : List ℝ) :
    ScaledOutcome (1 / k ^ 2) (sscSpectrum m [] syn pd Esy R es) (sscSpectrum m [] syn pd Esy R' es) := by
  unfold ScaledOutcome
  rw [sscSpectrum_eq, sscSpectrum_eq]
  by_cases he : Esy.unit.dim = Dim.energy
  · rw [if_pos he, if_pos he]
    cases hL : syn.spectrum pd (Esy.value.map (· * Esy.unit.scale)) with
    | error e => rfl
    | ok L =>
      have hl : L.length = Esy.value.length := by rw [sync_length _ _ _ _ hL, List.length_map]
      show icModelSpectrum m (.list [sscSeed Esy (sscDens R' L)]) pd es =
        (icModelSpectrum m (.list [sscSeed Esy (sscDens R L)]) pd es).map _
      refine ssc_times (1 / k ^ 2) (by positivity) m pd Esy (sscDens R L) (sscDens R' L) (ssc_not_pressure R hR)
        (by simp only [sscDens, hu]) ?_ he (by simpa [sscDens] using hl) es
      simp only [sscDens, List.map_map]
      apply List.map_congr_left
      intro l _
      simp only [Function.comp_apply]
      have hls : 0 < lightSpeed.value := by unfold lightSpeed; norm_num
      have hp := Real.pi_pos
      rw [← scale_mul _ (by positivity), div_scale _ (by rw [hv]; positivity), div_scale _ (by positivity)]
      congr 1
      rw [← scale_mul _ (by positivity), mul_fin, hv]
      congr 2
      field_simp
  · rw [if_neg he, if_neg he]; rfl

/-! ### together with other photon fields -/

/-- The name of an entry of the list of seed fields. -/
def SeedName : SeedSpec → Option String
  | .str s => some s
  | .list3 n _ _ => some n
  | .list4 n _ _ _ => some n
  | .listN => none
  | .other => none

theorem parseLoop_snoc (l : List SeedSpec) (s : SeedSpec) : ∀ acc, parseLoop (l ++ [s]) acc =
    (parseLoop l acc).bind (fun d => (parseSeed s).bind (fun f => .ok (d.set f.1 f.2))) := by
  induction l with
  | nil =>
    intro acc
    simp only [List.nil_append, parseLoop, bind, Except.bind]
  | cons a l ih =>
    intro acc
    simp only [List.cons_append, parseLoop, bind, Except.bind]
    cases parseSeed a with
    | error e => rfl
    | ok f => exact ih _

theorem parseSeed_name (s : SeedSpec) (f : String × SeedField) (h : parseSeed s = .ok f) :
    SeedName s = some f.1 := by
  cases s with
  | str a =>
    simp only [parseSeed, bind, Except.bind] at h
    cases hp : parseStr a <;> rw [hp] at h <;> cases h
    rfl
  | list3 n T v =>
    simp only [parseSeed, bind, Except.bind] at h
    cases hp : parseList T v none <;> rw [hp] at h <;> cases h
    rfl
  | list4 n T v t =>
    simp only [parseSeed, bind, Except.bind] at h
    cases hp : parseList T v (some t) <;> rw [hp] at h <;> cases h
    rfl
  | listN => cases h
  | other => cases h

theorem keys_set (d : Dict String SeedField) (k : String) (f : SeedField) (x : String)
    (h : x ∈ (d.set k f).keys) : x ∈ d.keys ∨ x = k := by
  unfold Dict.set at h
  split at h
  · left
    simp only [Dict.keys, List.map_map, List.mem_map, Function.comp_apply] at h ⊢
    obtain ⟨a, ha, rfl⟩ := h
    refine ⟨a, ha, ?_⟩
    split <;> simp_all
  · simp only [Dict.keys, List.map_append, List.mem_append, List.map_cons, List.map_nil,
      List.mem_singleton] at h
    exact h

theorem parseLoop_keys (l : List SeedSpec) : ∀ (acc d : Dict String SeedField), parseLoop l acc = .ok d →
    ∀ x ∈ d.keys, x ∈ acc.keys ∨ ∃ s ∈ l, SeedName s = some x := by
  induction l with
  | nil =>
    intro acc d h x hx
    simp only [parseLoop, Except.ok.injEq] at h
    subst h
    exact Or.inl hx
  | cons a l ih =>
    intro acc d h x hx
    simp only [parseLoop, bind, Except.bind] at h
    cases hp : parseSeed a with
    | error e => rw [hp] at h; cases h
    | ok f =>
      rw [hp] at h
      rcases ih _ _ h x hx with h1 | ⟨s, hs, h1⟩
      · rcases keys_set _ _ _ _ h1 with h2 | rfl
        · exact Or.inl h2
        · exact Or.inr ⟨a, by simp, parseSeed_name a f hp⟩
      · exact Or.inr ⟨s, by simp [hs], h1⟩

theorem mapM_snoc {α β : Type} (f : α → Except PyErr β) (l : List α) (a : α) :
    (l ++ [a]).mapM f = (l.mapM f).bind (fun x => (f a).bind (fun y => .ok (x ++ [y]))) := by
  rw [List.mapM_append]
  simp only [bind, Except.bind, List.mapM_cons, List.mapM_nil, pure, Except.pure]
  cases l.mapM f with
  | error e => rfl
  | ok x => cases f a <;> rfl

theorem icSpectrum_snoc (m : ElModel) (l : List SeedNum) (s : SeedNum) (pd : PDist) (es : List ℝ) (A S : List XR)
    (hA : icSpectrum m l pd es = .ok A) (hS : icSpectrum m [s] pd es = .ok S) :
    icSpectrum m (l ++ [s]) pd es = .ok (List.zipWith (· + ·) A S) := by
  cases l with
  | nil => cases hA
  | cons t l =>
    rw [List.cons_append, icSpectrum_eq] at *
    cases hg : m.gam with
    | error e => rw [hg] at hA; cases hA
    | ok gam =>
      cases hn : m.nelec pd with
      | error e => rw [hg, hn] at hA; cases hA
      | ok n =>
        rw [hg, hn] at hA hS
        simp only [bind, Except.bind, pure, Except.pure, Except.ok.injEq] at hA hS ⊢
        subst hA hS
        rw [List.zipWith_map, List.zipWith_self]
        apply List.map_congr_left
        intro e _
        simp only [icTotal, List.foldl_append, List.foldl_cons, List.foldl_nil]

theorem icModel_snoc (m : ElModel) (others : List SeedSpec) (s : SeedSpec) (n : String) (hn : SeedName s = some n)
    (ho : ∀ t ∈ others, SeedName t ≠ some n) (pd : PDist) (es : List ℝ) (A S : List XR)
    (hA : icModelSpectrum m (.list others) pd es = .ok A) (hS : icModelSpectrum m (.list [s]) pd es = .ok S) :
    icModelSpectrum m (.list (others ++ [s])) pd es = .ok (List.zipWith (· + ·) A S) := by
  unfold icModelSpectrum at *
  simp only [processInputSeed] at *
  rw [parseLoop_snoc]
  cases hd : parseLoop others [] with
  | error e => rw [hd] at hA; cases hA
  | ok d =>
    cases hf : parseSeed s with
    | error e => simp only [parseLoop, bind, Except.bind, hf] at hS; cases hS
    | ok f =>
      have hfn : f.1 = n := by have := parseSeed_name s f hf; rw [hn] at this; simpa using this.symm
      have hfresh : f.1 ∉ d.keys := by
        intro h
        rcases parseLoop_keys others [] d hd f.1 h with h | ⟨t, ht, h⟩
        · simp [Dict.keys] at h
        · exact ho t ht (by rw [h, hfn])
      have hset : d.set f.1 f.2 = d ++ [(f.1, f.2)] := by
        unfold Dict.set; rw [if_neg hfresh]
      rw [hd] at hA
      simp only [parseLoop, bind, Except.bind, hf, hset] at hA hS ⊢
      simp only [Dict.set, Dict.keys, List.map_nil, List.not_mem_nil, if_false, List.nil_append,
        List.mapM_cons, List.mapM_nil, pure, Except.pure, bind, Except.bind] at hS
      rw [mapM_snoc]
      cases hx : d.mapM (fun f => f.2.toNum) with
      | error e => rw [hx] at hA; cases hA
      | ok x =>
        cases hy : f.2.toNum with
        | error e => rw [hy] at hS; cases hS
        | ok y =>
          rw [hx] at hA
          rw [hy] at hS
          simp only [Except.bind]
          exact icSpectrum_snoc m x y pd es A S hA hS

/-- **C102 (with other fields).** Let `A` be the spectrum on other photon fields alone (given in the same list,
none of them called "SSC") and `S` the self-Compton spectrum alone. With all fields together the spectrum is
`A + S`, and with `c` times as many electrons it is `c A + c² S`, energy by energy. -/
theorem C102_total (m : ElModel) (others : List SeedSpec) (ho : ∀ t ∈ others, SeedName t ≠ some "SSC")
    (syn : SyncModel) (Esy : Qty (List ℝ)) (R : Qty ℝ) (hR : R.unit.dim = Dim.length) (pd : PDist) (es : List ℝ)
    (A S : List XR) (hA : icModelSpectrum m (.list others) pd es = .ok A)
    (hS : sscSpectrum m [] syn pd Esy R es = .ok S) :
    sscSpectrum m others syn pd Esy R es = .ok (List.zipWith (· + ·) A S) ∧
    ∀ (c : ℝ) (pd' : PDist), 0 < c → Renormalised c pd pd' →
      sscSpectrum m others syn pd' Esy R es =
        .ok (List.zipWith (fun a s => fin c * a + fin (c ^ 2) * s) A S) := by
  have key : ∀ (pd : PDist) (A S : List XR), icModelSpectrum m (.list others) pd es = .ok A →
      sscSpectrum m [] syn pd Esy R es = .ok S →
      sscSpectrum m others syn pd Esy R es = .ok (List.zipWith (· + ·) A S) := by
    intro pd A S hA hS
    rw [sscSpectrum_eq] at hS ⊢
    split at hS
    · rename_i he
      rw [if_pos he]
      cases hL : syn.spectrum pd (Esy.value.map (· * Esy.unit.scale)) with
      | error e => rw [hL] at hS; cases hS
      | ok L =>
        rw [hL] at hS
        exact icModel_snoc m others _ "SSC" rfl ho pd es A S hA hS
    · cases hS
  refine ⟨key pd A S hA hS, fun c pd' hc h => ?_⟩
  have h1 := C102_quadratic m syn Esy R hR c hc pd pd' h es
  unfold ScaledOutcome at h1
  rw [hS] at h1
  have h2 := icModelSpectrum_scale m (.list others) pd c hc es
  rw [← h.eq, hA] at h2
  rw [key pd' _ _ h2 h1, List.zipWith_map]

/-- **C102 (no negative photons).** For every finite non-negative electron distribution, every electron range,
field and source size and two or more ascending positive photon energies, the self-Compton spectrum is computed
and all its values are finite and non-negative. -/
theorem C102_nonneg (m : ElModel) (syn : SyncModel) (pd : PDist) (hu : pd.unit.dim = Dim.diffEnergy)
    (hus : 0 < pd.unit.scale) (hpd : ∀ e, 0 < e → FiniteNonneg (pd.f e))
    (hlo : m.Eemin.PosEnergy) (hhi : m.Eemax.PosEnergy) (hle : m.Eemin.phys ≤ m.Eemax.phys)
    (hlo' : syn.Eemin.PosEnergy) (hhi' : syn.Eemax.PosEnergy) (hle' : syn.Eemin.phys ≤ syn.Eemax.phys)
    (hB : syn.B.unit.dim = Dim.magFluxDensity) (hBp : 0 < syn.B.phys)
    (Esy : Qty (List ℝ)) (he : Esy.unit.dim = Dim.energy) (hes' : 0 < Esy.unit.scale)
    (h2 : 2 ≤ Esy.value.length) (hp : ∀ e ∈ Esy.value, 0 < e) (hs : Esy.value.Pairwise (· ≤ ·))
    (R : Qty ℝ) (hR : R.unit.dim = Dim.length) (hRs : 0 < R.unit.scale) (hR0 : R.value ≠ 0)
    (es : List ℝ) (hes : ∀ e ∈ es, 0 < e) :
    ∃ out, sscSpectrum m [] syn pd Esy R es = .ok out ∧ out.length = es.length ∧
      ∀ a ∈ out, FiniteNonneg a := by
  obtain ⟨L, hL, hl, hn, -⟩ := C14_nonneg_partial syn pd hu hus hpd hlo' hhi' hle' hB hBp
    (Esy.value.map (· * Esy.unit.scale)) (by
      intro e h
      obtain ⟨x, hx, rfl⟩ := List.mem_map.1 h
      exact mul_pos (hp x hx) hes')
  rw [C102_photon_field m syn pd Esy R he hR hRs hR0 h2 L hL es]
  have hm := cMec2_pos
  have hm' : 0 < cMe * cC ^ 2 := hm
  refine C15_spectrum m pd hu hus hpd hlo hhi hle _ (by simp) ?_ es hes
  intro s hsm
  rw [List.mem_singleton] at hsm
  subst hsm
  refine ⟨?_, ?_, by simpa using hl, ?_⟩
  · intro e h
    obtain ⟨x, hx, rfl⟩ := List.mem_map.1 h
    have := hp x hx
    positivity
  · rw [List.pairwise_map]
    refine hs.imp ?_
    intro a b hab
    gcongr
  · intro n h
    obtain ⟨l, hl, rfl⟩ := List.mem_map.1 h
    obtain ⟨x, hx, rfl⟩ := hn l hl
    have hc := cC_pos
    have he : 0 < cEV := by unfold cEV; norm_num
    have hpi := Real.pi_pos
    refine ⟨_, ?_, mul_fin _ _⟩
    positivity

/-! ### concrete case -/

/-- The example of the documentation: 100 μG, 2 pc, photon energies from 10⁻⁶ to 10⁵ eV (three of them), an
electron distribution falling as the square of the energy; the hypotheses of the theorems above are met. -/
example : ∃ out, sscSpectrum ⟨⟨1, PhysUnit.GeV⟩, ⟨510, PhysUnit.TeV⟩, 100⟩ []
    ⟨⟨⟨1, PhysUnit.GeV⟩, ⟨510, PhysUnit.TeV⟩, 100⟩, ⟨1e-4, gauss⟩⟩
    ⟨⟨1, Dim.diffEnergy⟩, fun e => fin (1e50 / e ^ 2)⟩ ⟨[1e-6, 1, 1e5], PhysUnit.eV⟩
    ⟨2, ⟨3.0856775814913674e18, Dim.length⟩⟩ [1, 1.6] = .ok out ∧ out.length = 2 ∧ ∀ a ∈ out, FiniteNonneg a := by
  apply C102_nonneg
  · rfl
  · norm_num
  · intro e he; exact ⟨_, by positivity, rfl⟩
  · exact ⟨rfl, by unfold PhysUnit.GeV; norm_num, by norm_num⟩
  · exact ⟨rfl, by unfold PhysUnit.TeV; norm_num, by norm_num⟩
  · unfold Qty.phys PhysUnit.GeV PhysUnit.TeV; norm_num
  · exact ⟨rfl, by unfold PhysUnit.GeV; norm_num, by norm_num⟩
  · exact ⟨rfl, by unfold PhysUnit.TeV; norm_num, by norm_num⟩
  · unfold Qty.phys PhysUnit.GeV PhysUnit.TeV; norm_num
  · rfl
  · unfold Qty.phys gauss; norm_num
  · rfl
  · unfold PhysUnit.eV; norm_num
  · simp
  · intro e he; simp at he; rcases he with rfl | rfl | rfl <;> norm_num
  · simp; norm_num
  · rfl
  · norm_num
  · norm_num
  · intro e he; simp at he; rcases he with rfl | rfl <;> norm_num

end Naima.Props
