import Verif.Props.C97_Units
import Verif.Proof.LnProb

/-!
# C98 — scaling of spectra with the magnetic field and with the photon densities
-/

namespace Naima.Props

open XR Classical

/-! ### synchrotron -/

theorem syncKernel_scaled (c : ℝ) (hc : 0 < c) (b g e : ℝ) :
    syncKernel (c * b) g (c * e) = syncKernel b g e := by
  unfold syncKernel syncCS1 syncEc
  have h1 : fin (Real.sqrt 3 * cE ^ 3 * (c * b)) = fin c * fin (Real.sqrt 3 * cE ^ 3 * b) := by
    rw [mul_fin]; congr 1; ring
  have h2 : fin (2 * Real.pi * cMe * cC ^ 2 * cHbar * (c * e)) =
      fin c * fin (2 * Real.pi * cMe * cC ^ 2 * cHbar * e) := by
    rw [mul_fin]; congr 1; ring
  have h3 : fin (3 * cE * cHbar * (c * b) * g ^ 2 / (2 * (cMe * cC))) =
      fin c * fin (3 * cE * cHbar * b * g ^ 2 / (2 * (cMe * cC))) := by
    rw [mul_fin]; congr 1; ring
  have h4 : fin (c * e) = fin c * fin e := (mul_fin _ _).symm
  rw [h1, h2, h3, h4, scale_ratio c hc, scale_ratio c hc]

/-- **C98 (synchrotron).** The number of photons per energy depends on photon energy and magnetic
field only through their ratio: in a field `c` times as strong, the spectrum at `c` times the energy is
the same, for every electron distribution, every field and all photon energies. -/
theorem C98_synchrotron (m m' : SyncModel) (he : m'.toElModel = m.toElModel) (c : ℝ) (hc : 0 < c)
    (hB : m'.B.unit = m.B.unit) (hv : m'.B.value = c * m.B.value) (pd : PDist) (es : List ℝ) :
    m'.spectrum pd (es.map (c * ·)) = m.spectrum pd es := by
  rw [m'.spectrum_eq, m.spectrum_eq, he]
  unfold Qty.toReal
  rw [hB, hv]
  by_cases h : m.B.unit.dim = gauss.dim
  · rw [if_pos h, if_pos h]
    cases m.toElModel.gam with
    | error e => rfl
    | ok gam =>
      cases m.toElModel.nelec pd with
      | error e => rfl
      | ok n =>
        simp only [bind, Except.bind, pure, Except.pure, List.map_map]
        congr 1
        apply List.map_congr_left
        intro e _
        simp only [Function.comp_apply, syncAt]
        congr 2
        apply List.map_congr_left
        intro p _
        rw [mul_assoc, syncKernel_scaled c hc]
  · rw [if_neg h, if_neg h]
    rfl

/-! ### inverse Compton -/

/-- The density argument of a seed field multiplied by `c`; a density of exactly zero (which asks for
a black body) is excluded. -/
inductive DensTimes (c : ℝ) : PyVal → PyVal → Prop
  | qty (x : ℝ) (u) : x ≠ 0 → DensTimes c (.qty (fin x) u) (.qty (fin (c * x)) u)
  | qarr (s d u) : d ≠ [fin 0] → DensTimes c (.qarr s d u) (.qarr s (d.map (fun x => fin c * x)) u)

/-- An entry of the `seed_photon_fields` list with `c` times as many photons of every energy. -/
inductive SeedTimes (c : ℝ) : SeedSpec → SeedSpec → Prop
  | list3 (n T) {v v'} : DensTimes c v v' → SeedTimes c (.list3 n T v) (.list3 n T v')
  | list4 (n T a) {v v'} : DensTimes c v v' → SeedTimes c (.list4 n T v a) (.list4 n T v' a)

theorem dens_cmpQty (c : ℝ) (hc : 0 < c) (x : XR) (u : PhysUnit) :
    cmpQty (fin c * x) u (· < ·) (fin 0) = cmpQty x u (· < ·) (fin 0) := by
  have k : ∀ y : XR, (fin c * y < fin 0) = (y < fin 0) := by
    intro y
    have h := XR.scale_lt c hc y (fin 0)
    rw [mul_fin, mul_zero] at h
    exact propext h
  unfold cmpQty
  simp only [scale_mul c hc, k]

theorem dens_validate (c : ℝ) (hc : 0 < c) {v v' : PyVal} (h : DensTimes c v v') (t : List Dim) :
    RelE (fun _ _ => True) (validateScalar v .positive (some t)) (validateScalar v' .positive (some t)) := by
  have hp : validatePhysicalType v' (some t) = validatePhysicalType v (some t) := by
    cases h <;> rfl
  have hcmp : cmpScalar v' (· < ·) (fin 0) = cmpScalar v (· < ·) (fin 0) := by
    cases h with
    | qty x u _ =>
      show cmpQty (fin (c * x)) u (· < ·) (fin 0) = _
      rw [← mul_fin, dens_cmpQty c hc]
      rfl
    | qarr s d u _ =>
      match d with
      | [] => rfl
      | [x] => exact dens_cmpQty c hc x u
      | _ :: _ :: _ => rfl
  unfold validateScalar
  rw [hp, hcmp]
  cases validatePhysicalType v (some t) with
  | error e => rfl
  | ok _ =>
    simp only [bind, Except.bind, pure, Except.pure]
    cases cmpScalar v (· < ·) (fin 0) with
    | error e => rfl
    | ok b => cases b <;> simp [RelE, throw, throwThe, MonadExceptOf.throw]

theorem scale_eqv_zero (c : ℝ) (hc : 0 < c) (x : XR) : eqv (fin c * x) (fin 0) ↔ eqv x (fin 0) := by
  cases x with
  | nan => exact Iff.rfl
  | ninf => rw [scale_ninf c hc]
  | pinf => rw [scale_pinf c hc]
  | fin x => rw [mul_fin, eqv_fin, eqv_fin]; simp [hc.ne']

theorem dens_isZero (c : ℝ) (hc : 0 < c) {v v' : PyVal} (h : DensTimes c v v') :
    isZeroVal v' = isZeroVal v ∧ isZeroVal v ≠ .ok true := by
  cases h with
  | qty x u hx =>
    refine ⟨?_, ?_⟩
    · simp [isZeroVal, hx, hc.ne']
    · simp [isZeroVal, hx]
  | qarr s d u hd =>
    match d with
    | [] => exact ⟨rfl, by simp [isZeroVal]⟩
    | [x] =>
      refine ⟨?_, ?_⟩
      · simp only [isZeroVal, List.map_cons, List.map_nil, scale_eqv_zero c hc]
      · simp only [isZeroVal, ne_eq, Except.ok.injEq, decide_eq_true_eq]
        intro h
        apply hd
        cases x <;> simp [eqv] at h
        rw [h]
    | _ :: _ :: _ => exact ⟨rfl, by simp [isZeroVal]⟩

/-- the numbers of a field with `c` times the density -/
def NumTimes (c : ℝ) (s s' : SeedNum) : Prop :=
  match s with
  | .thermal T u th => s' = .thermal T (c * u) th
  | .array es ds th => s' = .array es (ds.map (fun x => fin c * x)) th

/-- fields with `c` times the density -/
def FieldTimes (c : ℝ) (f f' : SeedField) : Prop := RelE (NumTimes c) f.toNum f'.toNum

theorem dens_sizeOf (c : ℝ) (hc : 0 < c) {v v' : PyVal} (h : DensTimes c v v') (d : Dim) :
    RelE (fun a b => b = c * a) (sizeOf v d) (sizeOf v' d) := by
  cases h with
  | qty x u _ =>
    simp only [sizeOf, scalarQty, asFinite]
    split
    · simp only [RelE]; ring
    · rfl
  | qarr s e u _ =>
    match e with
    | [] => rfl
    | [x] =>
      simp only [sizeOf, scalarQty, List.map_cons, List.map_nil]
      by_cases hd : u.dim = d
      · rw [if_pos hd, if_pos hd]
        cases x with
        | nan => rfl
        | ninf => rw [scale_ninf c hc]; rfl
        | pinf => rw [scale_pinf c hc]; rfl
        | fin x => simp only [mul_fin, asFinite, RelE]; ring
      · rw [if_neg hd, if_neg hd]; rfl
    | _ :: _ :: _ => rfl

theorem dens_thermal (c : ℝ) (hc : 0 < c) (T : PyVal) (t : Option PyVal) {v v' : PyVal}
    (h : DensTimes c v v') : FieldTimes c (.thermal T v t) (.thermal T v' t) := by
  have := dens_sizeOf c hc h Dim.pressure
  unfold FieldTimes
  simp only [SeedField.toNum]
  refine relE_bind (relE_eq rfl) ?_
  rintro T' _ rfl
  refine relE_bind this ?_
  intro a b hab
  refine relE_bind (relE_eq rfl) ?_
  rintro t' _ rfl
  simp only [pure, Except.pure, RelE, NumTimes, hab]

theorem dens_parseThermal (c : ℝ) (hc : 0 < c) (T : PyVal) (t : Option PyVal) {v v' : PyVal}
    (h : DensTimes c v v') : RelE (FieldTimes c) (parseThermal T v t) (parseThermal T v' t) := by
  obtain ⟨h1, h2⟩ := dens_isZero c hc h
  unfold parseThermal
  refine relE_bind (relE_eq rfl) ?_
  intro _ _ _
  rw [h1]
  cases hz : isZeroVal v with
  | error e => rfl
  | ok b =>
    cases b with
    | true => exact absurd hz h2
    | false =>
      refine relE_bind (dens_validate c hc h _) ?_
      intro _ _ _
      exact dens_thermal c hc T t h

/-- what `flatQ` gives: the numbers times `c`, the same unit -/
theorem dens_flatQ (c : ℝ) {v v' : PyVal} (h : DensTimes c v v') :
    RelE (fun a b => b = (a.1.map (fun x => fin c * x), a.2)) (flatQ v) (flatQ v') := by
  cases h with
  | qty x u _ => simp [flatQ, RelE]
  | qarr s d u _ => rfl

theorem dens_photDens (c : ℝ) (hc : 0 < c) (s s' : List Nat) (d : List XR) (u : PhysUnit) :
    RelE (fun a b => b = a.map (fun x => fin c * x)) (photDens (.qarr s d u))
      (photDens (.qarr s' (d.map (fun x => fin c * x)) u)) := by
  simp only [photDens, List.length_map]
  have k : ∀ w : ℝ, (d.map (fun x => fin c * x)).map (fun x => x * fin w) =
      (d.map (fun x => x * fin w)).map (fun x => fin c * x) := by
    intro w
    simp only [List.map_map]
    apply List.map_congr_left
    intro x _
    exact scale_mul c hc _ _
  split
  · split
    · exact k _
    · rfl
  · split
    · exact k _
    · rfl

theorem dens_divEnergySq (c : ℝ) (hc : 0 < c) (d : List XR) (u : PhysUnit) (e : List XR) (w : PhysUnit) :
    RelE (fun a b => b = (a.1.map (fun x => fin c * x), a.2)) (divEnergySq d u e w)
      (divEnergySq (d.map (fun x => fin c * x)) u e w) := by
  unfold divEnergySq
  simp only [List.length_map]
  split
  · simp only [RelE, Prod.mk.injEq, and_true]
    rw [List.map_zipWith, List.zipWith_map_left]
    congr 1
    funext a b
    exact scale_div c hc _ _
  · rfl

theorem dens_parseDensity (c : ℝ) (hc : 0 < c) (e : List XR) (w : PhysUnit) (d : List XR) (u : PhysUnit) :
    RelE (fun v v' => RelE (fun a b => b = a.map (fun x => fin c * x)) (photDens v) (photDens v'))
      (parseDensity e w d u) (parseDensity e w (d.map (fun x => fin c * x)) u) := by
  unfold parseDensity
  by_cases h1 : e.length = 1
  · rw [if_pos h1, if_pos h1]
    have hv : RelE (fun _ _ => True)
        (validateScalar (.qarr [d.length] d u) .positive (some [Dim.pressure]))
        (validateScalar (.qarr [(d.map (fun x => fin c * x)).length] (d.map (fun x => fin c * x)) u)
          .positive (some [Dim.pressure])) := by
      by_cases hd : d = [fin 0]
      · subst hd
        simp only [List.map_cons, List.map_nil, mul_fin, mul_zero]
        cases validateScalar (.qarr [[fin (0 : ℝ)].length] [fin 0] u) .positive (some [Dim.pressure]) <;>
          simp [RelE]
      · rw [List.length_map]
        exact dens_validate c hc (.qarr [d.length] d u hd) _
    revert hv
    generalize hx : validateScalar (.qarr [d.length] d u) .positive (some [Dim.pressure]) = x
    generalize hy : validateScalar (.qarr [(d.map (fun x => fin c * x)).length]
      (d.map (fun x => fin c * x)) u) .positive (some [Dim.pressure]) = y
    intro hv
    cases x <;> cases y <;> simp only [RelE] at hv ⊢
    · exact hv
    · have ex := same_parseDensity.validateScalar_id _ _ _ _ hx
      have ey := same_parseDensity.validateScalar_id _ _ _ _ hy
      subst ex; subst ey
      exact dens_photDens c hc _ _ d u
  · rw [if_neg h1, if_neg h1]
    have fin' : ∀ a b : List XR × PhysUnit, b = (a.1.map (fun x => fin c * x), a.2) →
        RelE (fun v v' => RelE (fun a b => b = a.map (fun x => fin c * x)) (photDens v) (photDens v'))
          (validateArray (.qarr [a.1.length] a.1 a.2) .positive 1 none (some [Dim.diffNumDensity]))
          (validateArray (.qarr [b.1.length] b.1 b.2) .positive 1 none (some [Dim.diffNumDensity])) := by
      rintro a _ rfl
      rw [validateArray_flat, validateArray_flat]
      dsimp only
      split
      · exact dens_photDens c hc _ _ a.1 a.2
      · rfl
    by_cases hp : u.dim = Dim.pressure
    · simp only [hp, if_true]
      exact relE_bind (dens_divEnergySq c hc d u e w) fin'
    · simp only [hp, if_false]
      exact fin' (_, _) (_, _) rfl

theorem dens_parseArray (c : ℝ) (hc : 0 < c) (T : PyVal) (t : Option PyVal) {v v' : PyVal}
    (h : DensTimes c v v') : RelE (FieldTimes c) (parseArray T v t) (parseArray T v' t) := by
  unfold parseArray
  refine relE_bind (relE_eq rfl) ?_
  rintro ⟨e, u⟩ _ rfl
  refine relE_bind (dens_flatQ c h) ?_
  rintro ⟨d, w⟩ _ rfl
  refine relE_bind (relE_eq rfl) ?_
  rintro en _ rfl
  refine relE_bind (dens_parseDensity c hc e u d w) ?_
  intro a b hab
  show FieldTimes c _ _
  unfold FieldTimes
  simp only [SeedField.toNum]
  refine relE_bind (relE_eq rfl) ?_
  rintro en' _ rfl
  refine relE_bind hab ?_
  rintro x _ rfl
  simp only [List.length_map, bind, Except.bind, pure, Except.pure]
  split
  · rfl
  · rfl

theorem dens_parseSeed (c : ℝ) (hc : 0 < c) {s s' : SeedSpec} (h : SeedTimes c s s') :
    RelE (fun a b => a.1 = b.1 ∧ FieldTimes c a.2 b.2) (parseSeed s) (parseSeed s') := by
  have key : ∀ (T : PyVal) (t : Option PyVal) {v v' : PyVal}, DensTimes c v v' →
      RelE (FieldTimes c)
        ((unitOf T).bind fun u => if u.dim = Dim.temperature then parseThermal T v t else parseArray T v t)
        ((unitOf T).bind fun u =>
          if u.dim = Dim.temperature then parseThermal T v' t else parseArray T v' t) := by
    intro T t v v' hv
    refine relE_bind (relE_eq rfl) ?_
    rintro u _ rfl
    split
    · exact dens_parseThermal c hc T t hv
    · exact dens_parseArray c hc T t hv
  cases h with
  | list3 n T hv => exact relE_bind (key T none hv) (fun _ _ h => ⟨rfl, h⟩)
  | list4 n T a hv =>
    refine relE_bind (R := FieldTimes c) ?_ (fun _ _ h => ⟨rfl, h⟩)
    unfold parseList
    dsimp only
    cases validateScalar a .none (some [Dim.angle]) with
    | error e => rfl
    | ok a => exact key T (some a) hv

/-- dictionaries with `c` times the densities -/
def DictTimes (c : ℝ) : Dict String SeedField → Dict String SeedField → Prop :=
  List.Forall₂ (fun a b => a.1 = b.1 ∧ FieldTimes c a.2 b.2)

theorem dictTimes_keys (c : ℝ) {d d' : Dict String SeedField} (h : DictTimes c d d') :
    d.keys = d'.keys := by
  unfold Dict.keys
  induction h with
  | nil => rfl
  | cons h _ ih => simp only [List.map_cons, h.1, ih]

theorem dictTimes_set (c : ℝ) {d d' : Dict String SeedField} (h : DictTimes c d d') (n : String)
    {f f' : SeedField} (hf : FieldTimes c f f') : DictTimes c (d.set n f) (d'.set n f') := by
  have hk := dictTimes_keys c h
  unfold Dict.set
  rw [hk]
  split
  · rename_i hmem
    clear hk hmem
    unfold DictTimes at h ⊢
    induction h with
    | nil => exact .nil
    | @cons a b l l' hab _ ih =>
      simp only [List.map_cons]
      refine .cons ?_ ih
      simp only [hab.1]
      split
      · exact ⟨rfl, hf⟩
      · exact ⟨hab.1, hab.2⟩
  · exact List.rel_append h (.cons ⟨rfl, hf⟩ .nil)

theorem dens_parseLoop (c : ℝ) (hc : 0 < c) {l l' : List SeedSpec} (h : List.Forall₂ (SeedTimes c) l l') :
    ∀ {d d' : Dict String SeedField}, DictTimes c d d' →
      RelE (DictTimes c) (parseLoop l d) (parseLoop l' d') := by
  induction h with
  | nil => intro d d' hd; exact hd
  | cons hs _ ih =>
    intro d d' hd
    refine relE_bind (dens_parseSeed c hc hs) ?_
    rintro ⟨n, f⟩ ⟨n', f'⟩ ⟨hn, hf⟩
    simp only at hn hf
    subst hn
    exact ih (dictTimes_set c hd n hf)

theorem monoKernel_times (c : ℝ) (hc : 0 < c) (g eg : ℝ) (es : List ℝ) (ds : List XR) :
    monoKernel g eg es (ds.map (fun x => fin c * x)) = fin c * monoKernel g eg es ds := by
  have multi : trapz (List.zipWith (fun e0 n => monoGamint g e0 eg * n / fin e0) es
        (ds.map (fun x => fin c * x))) (es.map fin) =
      fin c * trapz (List.zipWith (fun e0 n => monoGamint g e0 eg * n / fin e0) es ds) (es.map fin) := by
    rw [← trapz_scale_y c hc, List.map_zipWith, List.zipWith_map_right]
    congr 2
    funext e0 n
    rw [mul_left_swap c hc, scale_div c hc]
  unfold monoKernel
  match es, ds with
  | [e0], [n] =>
    simp only [List.map_cons, List.map_nil]
    rw [scale_div c hc, mul_left_swap c hc, scale_mul c hc]
  | [], ds => rw [← scale_mul c hc, ← multi]
  | [e0], [] => rw [← scale_mul c hc, ← multi]; rfl
  | [e0], a :: b :: r => rw [← scale_mul c hc, ← multi]; rfl
  | a :: b :: r, ds => rw [← scale_mul c hc, ← multi]

theorem icAt_times (c : ℝ) (hc : 0 < c) {s s' : SeedNum} (h : NumTimes c s s') (gam : List ℝ)
    (n : List XR) (e : ℝ) : icAt gam n s' e = fin c * icAt gam n s e := by
  cases s with
  | thermal T u th =>
    simp only [NumTimes] at h
    subst h
    have hk : SeedNum.kernel (.thermal T (c * u) th) = SeedNum.kernel (.thermal T u th) := by
      cases th <;> rfl
    have hu : SeedNum.uf (.thermal T (c * u) th) = fin c * SeedNum.uf (.thermal T u th) := by
      simp only [SeedNum.uf]
      rw [← scale_div c hc, mul_fin]
    unfold icAt
    rw [hk, hu, scale_mul c hc, scale_mul c hc, scale_div c hc, scale_mul c hc]
  | array es ds th =>
    simp only [NumTimes] at h
    subst h
    unfold icAt
    have hk : (gam.map fun g => SeedNum.kernel (.array es (ds.map (fun x => fin c * x)) th) g (e / cMec2)) =
        (gam.map fun g => SeedNum.kernel (.array es ds th) g (e / cMec2)).map (fun a => fin c * a) := by
      rw [List.map_map]
      apply List.map_congr_left
      intro g _
      exact monoKernel_times c hc g _ es ds
    have hz : List.zipWith (· * ·) n
        ((gam.map fun g => SeedNum.kernel (.array es ds th) g (e / cMec2)).map (fun a => fin c * a)) =
        (List.zipWith (· * ·) n (gam.map fun g => SeedNum.kernel (.array es ds th) g (e / cMec2))).map
          (fun a => fin c * a) := by
      rw [List.map_zipWith, List.zipWith_map_right]
      congr 1
      funext a b
      exact mul_left_swap c hc _ _
    rw [hk, hz, trapz_scale_y c hc]
    have hu : SeedNum.uf (.array es (ds.map (fun x => fin c * x)) th) = SeedNum.uf (.array es ds th) := rfl
    rw [hu, mul_left_swap c hc, scale_div c hc, scale_mul c hc]

theorem icSpectrum_times (c : ℝ) (hc : 0 < c) {l l' : List SeedNum} (h : List.Forall₂ (NumTimes c) l l')
    (m : ElModel) (pd : PDist) (es : List ℝ) :
    icSpectrum m l' pd es = (icSpectrum m l pd es).map (List.map (fun a => fin c * a)) := by
  cases h with
  | nil => rfl
  | @cons s s' l l' hs hl =>
    rw [icSpectrum_eq, icSpectrum_eq]
    cases m.gam with
    | error e => rfl
    | ok gam =>
      cases m.nelec pd with
      | error e => rfl
      | ok n =>
        simp only [Except.map, bind, Except.bind, pure, Except.pure, List.map_map]
        congr 1
        apply List.map_congr_left
        intro e _
        simp only [Function.comp_apply, icTotal]
        rw [icAt_times c hc hs]
        generalize icAt gam n s e = a
        induction hl generalizing a with
        | nil => rfl
        | cons h _ ih =>
          simp only [List.foldl_cons]
          rw [icAt_times c hc h, ← scale_add c hc, ih]

/-- **C98 (inverse Compton).** With `c > 0` times as many photons in every seed field — thermal fields
with a stated energy density, isotropic or not, and fields given as arrays — the spectrum is `c` times as
large at every energy; a rejected argument is rejected in the same way. -/
theorem C98_inverse_compton (c : ℝ) (hc : 0 < c) (l l' : List SeedSpec)
    (h : List.Forall₂ (SeedTimes c) l l') (m : ElModel) (pd : PDist) (es : List ℝ) :
    icModelSpectrum m (.list l') pd es =
      (icModelSpectrum m (.list l) pd es).map (List.map (fun a => fin c * a)) := by
  have hd := dens_parseLoop c hc h (d := []) (d' := []) .nil
  unfold icModelSpectrum
  simp only [processInputSeed]
  revert hd
  generalize parseLoop l [] = x
  generalize parseLoop l' [] = x'
  intro hd
  cases x <;> cases x' <;> simp only [RelE] at hd
  · subst hd; rfl
  · rename_i d d'
    have key : RelE (List.Forall₂ (NumTimes c)) (d.mapM (fun f => f.2.toNum))
        (d'.mapM (fun f => f.2.toNum)) := by
      unfold DictTimes at hd
      induction hd with
      | nil => exact .nil
      | @cons a b t t' hab _ ih =>
        simp only [List.mapM_cons]
        refine relE_bind hab.2 ?_
        intro x y hxy
        refine relE_bind ih ?_
        intro xs ys hxs
        exact .cons hxy hxs
    simp only [bind, Except.bind] at key ⊢
    revert key
    generalize List.mapM (fun f : String × SeedField => f.2.toNum) d = y
    generalize List.mapM (fun f : String × SeedField => f.2.toNum) d' = y'
    intro key
    cases y <;> cases y' <;> simp only [RelE] at key
    · subst key; rfl
    · exact icSpectrum_times c hc key m pd es

/-! ### concrete cases -/

/-- Dust of 0.5 and of 1 eV/cm³, and twice the photons in a line of photon energies. -/
example : List.Forall₂ (SeedTimes 2)
    [.list3 "dust" (.qty (fin 30) kelvin) (.qty (fin 0.5) eVcm3),
      .list3 "lines" (.qarr [2] [fin 1, fin 2] PhysUnit.eV)
        (.qarr [2] [fin 0, fin 3] ⟨1, Dim.diffNumDensity⟩)]
    [.list3 "dust" (.qty (fin 30) kelvin) (.qty (fin (2 * 0.5)) eVcm3),
      .list3 "lines" (.qarr [2] [fin 1, fin 2] PhysUnit.eV)
        (.qarr [2] [fin 2 * fin 0, fin 2 * fin 3] ⟨1, Dim.diffNumDensity⟩)] :=
  .cons (.list3 _ _ (.qty _ _ (by norm_num)))
    (.cons (.list3 _ _ (.qarr _ [fin 0, fin 3] _ (by simp))) .nil)

/-- The exclusion of zero matters: a thermal field with density 0 is a black body, whose density `2 * 0`
is not twice that. -/
example : ∃ u : ℝ, u ≠ 0 ∧ (parseThermal (.qty (fin 30) kelvin) (.qty (fin 0) eVcm3) none).bind
      (fun f => f.toNum) = .ok (.thermal 30 u none) := by
  have hm : kelvin.dim ∈ [Dim.temperature] := by simp [kelvin]
  have ho : ¬ kelvin.dim = Dim.one := by decide
  refine ⟨cAr * 30 ^ 4, by have := cAr_pos; positivity, ?_⟩
  have hk : kelvin.dim = Dim.temperature := rfl
  have h30 : ¬ ((30 : ℝ) < 0) := by norm_num
  have hne : ¬ Dim.temperature = Dim.one := by decide
  simp [parseThermal, validateScalar, validatePhysicalType, hk, hne, cmpScalar, cmpQty, h30, isZeroVal,
    bind, Except.bind, pure, Except.pure, SeedField.toNum, sizeOf, scalarQty, arT4Of, arT4, asFinite,
    pow_fin_four, thetaOf, kelvin]

end Naima.Props
