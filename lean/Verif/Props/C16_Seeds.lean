import Verif.Props.C15_ICKernel
import Verif.Model.ICSeed
import Verif.Props.C27_C28_Validator
import Mathlib.Tactic.Linarith
import Mathlib.Tactic.NormNum
import Mathlib.Tactic.Push

/-! # C16: seed photon field specifications -/

namespace Naima.Props

open Naima XR Classical Spec

/-- the scalar quantity `x` in unit `u` -/
def q (x : ℝ) (u : PhysUnit) : PyVal := .qty (fin x) u

/-- **C16 (named fields).** 'CMB', 'FIR' and 'NIR' give isotropic thermal fields of 2.72548 K with the
blackbody energy density `ar T⁴`, 30 K with 0.5 eV/cm³ and 3000 K with 1 eV/cm³, under their own
name; every other string raises TypeError. -/
theorem C16_named_fields (s : String) :
    parseSeed (.str s) =
      if s = "CMB" then .ok ("CMB", .thermal (q 2.72548 kelvin) (q (cAr * 2.72548 ^ 4) ⟨1, Dim.pressure⟩) none)
      else if s = "FIR" then .ok ("FIR", .thermal (q 30 kelvin) (q 0.5 eVcm3) none)
      else if s = "NIR" then .ok ("NIR", .thermal (q 3000 kelvin) (q 1 eVcm3) none)
      else .error .typeError := by
  by_cases h1 : s = "CMB"
  · subst h1
    simp only [parseSeed, parseStr, if_true, bind, Except.bind, pure, Except.pure, arT4, q, kelvin]
    rw [pow_fin _ _ (by norm_num), mul_fin]
    norm_num
  · by_cases h2 : s = "FIR"
    · subst h2
      simp [parseSeed, parseStr, bind, Except.bind, pure, Except.pure, q]
    · by_cases h3 : s = "NIR"
      · subst h3
        simp [parseSeed, parseStr, bind, Except.bind, pure, Except.pure, q]
        norm_num
      · simp [parseSeed, parseStr, h1, h2, h3, bind, Except.bind]

theorem vs_pos (x : ℝ) (u : PhysUnit) (hu : 0 < u.scale) (d : Dim) :
    validateScalar (.qty (fin x) u) .positive (some [d]) =
      if u.dim = d then (if 0 ≤ x then .ok (.qty (fin x) u) else .error .valueError)
      else .error .typeError := by
  rw [C27_quantity x u hu _ (by intro lo hi h; cases h)]
  by_cases h : u.dim = d
  · simp only [h, List.mem_singleton, not_true_eq_false, if_false, InDomain, if_true]
    by_cases hx : 0 ≤ x <;> simp [hx]
  · simp [h]

/-- the outcome of a thermal entry, from the temperature and density given -/
theorem parseThermal_eq (T : ℝ) (uT : PhysUnit) (hT : 0 < uT.scale) (hd : uT.dim = Dim.temperature)
    (uu : PyVal) (th : Option PyVal) :
    parseThermal (q T uT) uu th =
      if T < 0 then .error .valueError else do
        if ← isZeroVal uu then return .thermal (q T uT) (q (cAr * T ^ 4) ⟨uT.scale ^ 4, Dim.pressure⟩) th
        let _ ← validateScalar uu .positive (some [Dim.pressure])
        return .thermal (q T uT) uu th := by
  unfold parseThermal
  rw [q, vs_pos T uT hT, if_pos hd]
  by_cases h : T < 0
  · rw [if_neg (not_le.2 h), if_pos h]; rfl
  · rw [if_pos (not_lt.1 h), if_neg h]
    have hp : pow (fin T) (fin 4) = fin (T ^ 4) := by
      rcases eq_or_lt_of_le (not_lt.1 h) with h0 | h0
      · rw [← h0]; simp [XR.pow, powFin]
      · rw [pow_fin _ _ h0]; norm_cast
    simp only [bind, Except.bind, arT4Of, arT4, hp, mul_fin, q]

/-- **C16 (thermal, blackbody density).** `[name, T, 0]` (a bare 0 or a zero quantity) with `T ≥ 0` gives
one isotropic thermal field of that name and temperature whose energy density is the blackbody value
`ar T⁴`; a negative temperature raises ValueError. -/
theorem C16_thermal_blackbody (name : String) (T : ℝ) (uT : PhysUnit) (hT : 0 < uT.scale)
    (hd : uT.dim = Dim.temperature) (uu : PyVal) (h0 : uu = .num (fin 0) ∨ ∃ u, uu = q 0 u) :
    parseSeed (.list3 name (q T uT) uu) =
      if T < 0 then .error .valueError
      else .ok (name, .thermal (q T uT) (q (cAr * T ^ 4) ⟨uT.scale ^ 4, Dim.pressure⟩) none) := by
  have hz : isZeroVal uu = .ok true := by
    rcases h0 with rfl | ⟨u, rfl⟩ <;> simp [isZeroVal, q]
  have hu : unitOf (q T uT) = .ok uT := rfl
  simp only [parseSeed, parseList, hu, bind, Except.bind, pure, Except.pure, hd, if_true,
    parseThermal_eq T uT hT hd, hz]
  split_ifs <;> rfl

/-- **C16 (thermal, given density).** `[name, T, u]` with `T ≥ 0` and a non-zero `u` gives one isotropic
thermal field with exactly that temperature and density if `u` is a positive energy density; raises
TypeError if `u` is not an energy density, ValueError if it is negative. -/
theorem C16_thermal_density (name : String) (T : ℝ) (uT : PhysUnit) (hT : 0 < uT.scale)
    (hd : uT.dim = Dim.temperature) (hT0 : 0 ≤ T) (x : ℝ) (hx : x ≠ 0) (u : PhysUnit)
    (hu : 0 < u.scale) :
    parseSeed (.list3 name (q T uT) (q x u)) =
      (if u.dim = Dim.pressure then
        (if 0 < x then .ok (name, .thermal (q T uT) (q x u) none) else .error .valueError)
      else .error .typeError) ∧
    parseSeed (.list3 name (q T uT) (.num (fin x))) = .error .typeError := by
  have hz : isZeroVal (q x u) = .ok false := by simp [isZeroVal, q, hx]
  have hz' : isZeroVal (.num (fin x)) = .ok false := by simp [isZeroVal, hx]
  have hun : unitOf (q T uT) = .ok uT := rfl
  have hv : validateScalar (q x u) .positive (some [Dim.pressure]) = _ := vs_pos x u hu Dim.pressure
  constructor
  · simp only [parseSeed, parseList, hun, bind, Except.bind, pure, Except.pure, hd, if_true,
      parseThermal_eq T uT hT hd, hz, if_neg (not_lt.2 hT0), Bool.false_eq_true, if_false, hv]
    by_cases h1 : u.dim = Dim.pressure
    · by_cases h2 : 0 < x
      · simp [h1, h2, h2.le]
      · have : ¬ 0 ≤ x := fun h => h2 (lt_of_le_of_ne h (Ne.symm hx))
        simp [h1, h2, this]
    · simp [h1]
  · have : validateScalar (.num (fin x)) .positive (some [Dim.pressure]) = .error .typeError := rfl
    simp only [parseSeed, parseList, hun, bind, Except.bind, pure, Except.pure, hd, if_true,
      parseThermal_eq T uT hT hd, hz', if_neg (not_lt.2 hT0), Bool.false_eq_true, if_false, this]

/-- The same field with an angle. -/
def SeedField.withTheta (th : PyVal) : SeedField → SeedField
  | .thermal T u _ => .thermal T u (some th)
  | .array e d _ => .array e d (some th)

theorem parseThermal_theta (T uu : PyVal) (t : PyVal) :
    parseThermal T uu (some t) = (parseThermal T uu none).map (SeedField.withTheta t) := by
  unfold parseThermal
  cases validateScalar T .positive (some [Dim.temperature]) with
  | error e => rfl
  | ok a =>
    simp only [bind, Except.bind]
    cases isZeroVal uu with
    | error e => rfl
    | ok b =>
      cases b with
      | true => rfl
      | false =>
        cases hv : validateScalar uu .positive (some [Dim.pressure]) with
        | error e => simp [hv, Except.map]
        | ok c => simp [hv, Except.map, pure, Except.pure, SeedField.withTheta]

theorem parseArray_theta (T uu : PyVal) (t : PyVal) :
    parseArray T uu (some t) = (parseArray T uu none).map (SeedField.withTheta t) := by
  unfold parseArray
  cases flatQ T with
  | error e => rfl
  | ok a =>
    cases flatQ uu with
    | error e => rfl
    | ok b =>
      simp only [bind, Except.bind]
      cases validateArray (.qarr [a.1.length] a.1 a.2) .positive 1 none (some [Dim.energy]) with
      | error e => rfl
      | ok c =>
        simp only
        cases parseDensity a.1 a.2 b.1 b.2 with
        | error e => rfl
        | ok d => rfl

/-- **C16 (anisotropic fields).** `[name, T, u, theta]` with `theta` an angle gives exactly the field of
`[name, T, u]` with that angle recorded (anisotropic); a `theta` that is not an angle raises
TypeError. -/
theorem C16_anisotropic (name : String) (T uu : PyVal) (th : ℝ) (u : PhysUnit) (hu : 0 < u.scale) :
    parseSeed (.list4 name T uu (q th u)) =
      if u.dim = Dim.angle then
        (parseSeed (.list3 name T uu)).map (fun p => (p.1, SeedField.withTheta (q th u) p.2))
      else .error .typeError := by
  have hv : validateScalar (q th u) .none (some [Dim.angle]) =
      if u.dim = Dim.angle then .ok (q th u) else .error .typeError := by
    rw [q, C27_quantity th u hu _ (by intro lo hi h; cases h)]
    by_cases h : u.dim = Dim.angle
    · simp [h, InDomain]
    · simp [h]
  by_cases h : u.dim = Dim.angle
  · simp only [parseSeed, parseList, hv, h, if_true, bind, Except.bind, pure, Except.pure]
    cases unitOf T with
    | error e => rfl
    | ok uT =>
      simp only
      by_cases hT : uT.dim = Dim.temperature
      · simp only [hT, if_true, parseThermal_theta]
        cases parseThermal T uu none <;> rfl
      · simp only [hT, if_false, parseArray_theta]
        cases parseArray T uu none <;> rfl
  · simp only [parseSeed, parseList, hv, h, if_false, bind, Except.bind]

/-- **C16 (monochromatic field).** `[name, E, u]` with `E` a single photon energy gives one isotropic
non-thermal field with that energy and density if `u` is a non-negative energy density; TypeError if
`u` has another type, ValueError if it is negative. -/
theorem C16_monochromatic (name : String) (E : ℝ) (uE : PhysUnit)
    (hE : uE.dim = Dim.energy) (x : ℝ) (u : PhysUnit) :
    parseSeed (.list3 name (q E uE) (q x u)) =
      if u.dim = Dim.pressure then
        (if 0 ≤ x then
          .ok (name, .array (.qarr [1] [fin E] uE) (.qarr [1] [fin x] u) none)
        else .error .valueError)
      else .error .typeError := by
  have hun : unitOf (q E uE) = .ok uE := rfl
  have hne : ¬ uE.dim = Dim.temperature := by rw [hE]; decide
  have hf1 : flatQ (q E uE) = .ok ([fin E], uE) := rfl
  have hf2 : flatQ (q x u) = .ok ([fin x], u) := rfl
  have hva : validateArray (.qarr [1] [fin E] uE) .positive 1 none (some [Dim.energy]) =
      .ok (.qarr [1] [fin E] uE) := by
    simp [validateArray, validatePhysicalType, hE, bind, Except.bind, pure, Except.pure]
  have hvs : validateScalar (.qarr [1] [fin x] u) .positive (some [Dim.pressure]) =
      if u.dim = Dim.pressure then (if 0 ≤ x then .ok (.qarr [1] [fin x] u) else .error .valueError)
      else .error .typeError := by
    by_cases h : u.dim = Dim.pressure
    · have hn1 : ¬ Dim.pressure = Dim.one := by decide
      by_cases hx : x < 0
      · simp [validateScalar, validatePhysicalType, h, bind, Except.bind, pure, Except.pure,
          cmpScalar, cmpQty, hn1, hx, not_le.2 hx, throw, throwThe, MonadExceptOf.throw]
      · simp [validateScalar, validatePhysicalType, h, bind, Except.bind, pure, Except.pure,
          cmpScalar, cmpQty, hn1, hx, not_lt.1 hx]
    · simp [validateScalar, validatePhysicalType, h, bind, Except.bind]
  simp only [parseSeed, parseList, hun, bind, Except.bind, pure, Except.pure, hne, if_false,
    parseArray, hf1, hf2, parseDensity, List.length_singleton, if_true, hva, hvs]
  split_ifs <;> rfl

/-- **C16 (spectral fields; partial).** `[name, E, n]` with arrays of `k ≥ 2` energies and densities
gives one isotropic non-thermal field with those energies; a differential number density is kept, an
energy density `u` is turned into `u / E²`, another type raises TypeError.  Missing: nothing checks
that the numbers are not negative, see `C16_false_negative_density`. -/
theorem C16_spectral_partial (name : String) (E d : List ℝ) (sE sd : List ℕ) (uE u : PhysUnit)
    (hE : uE.dim = Dim.energy) (hk : 2 ≤ E.length) (hl : d.length = E.length)
    (hpos : ∀ e ∈ E, 0 < e) :
    parseSeed (.list3 name (.qarr sE (E.map fin) uE) (.qarr sd (d.map fin) u)) =
      if u.dim = Dim.diffNumDensity then
        .ok (name, .array (.qarr [E.length] (E.map fin) uE) (.qarr [E.length] (d.map fin) u) none)
      else if u.dim = Dim.pressure then
        .ok (name, .array (.qarr [E.length] (E.map fin) uE)
          (.qarr [E.length] (List.zipWith (fun x e => fin (x / e ^ 2)) d E)
            ⟨u.scale / uE.scale ^ 2, Dim.diffNumDensity⟩) none)
      else .error .typeError := by
  have hun : unitOf (.qarr sE (E.map fin) uE) = .ok uE := rfl
  have hne : ¬ uE.dim = Dim.temperature := by rw [hE]; decide
  have h1 : ¬ E.length = 1 := by omega
  have hva : validateArray (.qarr [E.length] (E.map fin) uE) .positive 1 none (some [Dim.energy]) =
      .ok (.qarr [E.length] (E.map fin) uE) := by
    simp [validateArray, validatePhysicalType, hE, bind, Except.bind, pure, Except.pure]
  have hvd : ∀ (l : List XR) (v : PhysUnit),
      validateArray (.qarr [l.length] l v) .positive 1 none (some [Dim.diffNumDensity]) =
      if v.dim = Dim.diffNumDensity then .ok (.qarr [l.length] l v) else .error .typeError := by
    intro l v
    by_cases h : v.dim = Dim.diffNumDensity
    · simp [validateArray, validatePhysicalType, h, bind, Except.bind, pure, Except.pure]
    · simp [validateArray, validatePhysicalType, h, bind, Except.bind]
  simp only [parseSeed, parseList, hun, bind, Except.bind, pure, Except.pure, hne, if_false,
    parseArray, flatQ, parseDensity, List.length_map, h1, hva]
  by_cases hp : u.dim = Dim.pressure
  · have hnd : ¬ u.dim = Dim.diffNumDensity := by rw [hp]; decide
    have hdim : (u.dim.div (uE.dim.mul uE.dim)) = Dim.diffNumDensity := by rw [hp, hE]; decide
    simp only [hp, if_true, divEnergySq, List.length_map, hl]
    rw [hvd]
    rw [hp] at hdim
    simp only [hdim, if_true]
    rw [if_neg (by decide)]
    have hz : List.zipWith (fun a b => a / pow b (fin 2)) (d.map fin) (E.map fin) =
        List.zipWith (fun x e => fin (x / e ^ 2)) d E := by
      rw [List.zipWith_map]
      clear hvd hva hun hl hk h1
      induction E generalizing d with
      | nil => simp
      | cons a E ih =>
        cases d with
        | nil => simp
        | cons b d =>
          have ha : 0 < a := hpos a (by simp)
          simp only [List.zipWith_cons_cons]
          rw [ih d (fun e he => hpos e (by simp [he])), pow_fin _ _ ha]
          congr 1
          rw [div_fin _ _ (by positivity)]
          norm_cast
    rw [hz]
    simp [hl]
  · simp only [hp, if_false]
    have e := hvd (d.map fin) u
    rw [List.length_map] at e
    rw [e, hl]
    by_cases h : u.dim = Dim.diffNumDensity <;> simp [h]

/-- **C16 fails for the sign of array seeds.** Photon energies and densities given as arrays are
accepted with negative numbers although the validator is asked for the domain "positive". -/
theorem C16_false_negative_density :
    ∃ f, parseSeed (.list3 "X" (.qarr [2] [fin (-1), fin 2] PhysUnit.eV)
      (.qarr [2] [fin (-5), fin (-7)] ⟨1, Dim.diffNumDensity⟩)) = .ok ("X", f) := by
  refine ⟨.array (.qarr [2] [fin (-1), fin 2] PhysUnit.eV)
    (.qarr [2] [fin (-5), fin (-7)] ⟨1, Dim.diffNumDensity⟩) none, ?_⟩
  have h1 : ¬ Dim.energy = Dim.temperature := by decide
  have h2 : ¬ Dim.diffNumDensity = Dim.pressure := by decide
  simp [parseSeed, parseList, unitOf, parseArray, flatQ, validateArray, validatePhysicalType,
    parseDensity, bind, Except.bind, pure, Except.pure, PhysUnit.eV, h1, h2]

/-- **C16 (anything else raises).** A list of another length and any other kind of entry raise
TypeError, a temperature or energy without unit AttributeError, and an argument that is neither a
list nor a string AttributeError. -/
theorem C16_rejects (name : String) (T : PyVal) (uu : PyVal) (hT : ∀ x u, T ≠ .qty x u)
    (hT' : ∀ s d u, T ≠ .qarr s d u) :
    parseSeed .listN = .error .typeError ∧ parseSeed .other = .error .typeError ∧
    processInputSeed .other = .error .attributeError ∧
    parseSeed (.list3 name T uu) = .error .attributeError := by
  refine ⟨rfl, rfl, rfl, ?_⟩
  have : unitOf T = .error .attributeError := by
    cases T <;> first | rfl | (exfalso; exact hT _ _ rfl) | (exfalso; exact hT' _ _ _ rfl)
  simp [parseSeed, parseList, this, bind, Except.bind, pure, Except.pure]

theorem parseLoop_ok (l : List SeedSpec) (fs : List (String × SeedField)) (acc : Dict String SeedField)
    (h : List.Forall₂ (fun s f => parseSeed s = .ok f) l fs)
    (hn : (acc.keys ++ fs.map (·.1)).Nodup) : parseLoop l acc = .ok (acc ++ fs) := by
  induction h generalizing acc with
  | nil => simp [parseLoop]
  | cons h1 _ ih =>
    rename_i s f l fs _
    simp only [parseLoop, h1, bind, Except.bind]
    have hnot : f.1 ∉ acc.keys := by
      intro hm
      rw [List.map_cons, List.nodup_append] at hn
      exact hn.2.2 _ hm _ (by simp) rfl
    have hset : Dict.set acc f.1 f.2 = acc ++ [f] := by
      unfold Dict.set; rw [if_neg hnot]
    rw [hset, ih]
    · simp
    · simpa [Dict.keys] using hn

/-- **C16 (order; partial).** If every entry is accepted and the names are distinct, the result holds
exactly one field per entry, in the order given.  Missing: repeated names, see
`C16_false_duplicate_names`. -/
theorem C16_in_order_partial (l : List SeedSpec) (fs : List (String × SeedField))
    (h : List.Forall₂ (fun s f => parseSeed s = .ok f) l fs) (hn : (fs.map (·.1)).Nodup) :
    processInputSeed (.list l) = .ok fs := by
  have := parseLoop_ok l fs [] h (by simpa [Dict.keys] using hn)
  simpa [processInputSeed] using this

/-- **C16 (an entry that is rejected rejects the whole list).** The exception of the first rejected
entry is raised. -/
theorem C16_first_error (l1 l2 : List SeedSpec) (s : SeedSpec) (e : PyErr)
    (fs : List (String × SeedField)) (h : List.Forall₂ (fun s f => parseSeed s = .ok f) l1 fs)
    (hs : parseSeed s = .error e) : processInputSeed (.list (l1 ++ s :: l2)) = .error e := by
  unfold processInputSeed
  generalize ([] : Dict String SeedField) = acc
  induction h generalizing acc with
  | nil => simp [parseLoop, hs, bind, Except.bind]
  | cons h1 _ ih => simp [parseLoop, h1, bind, Except.bind, ih]

/-- **C16 fails for repeated names.** Two accepted entries with the same name leave a single field,
the later one. -/
theorem C16_false_duplicate_names (s1 s2 : SeedSpec) (name : String) (f1 f2 : SeedField)
    (h1 : parseSeed s1 = .ok (name, f1)) (h2 : parseSeed s2 = .ok (name, f2)) :
    processInputSeed (.list [s1, s2]) = .ok [(name, f2)] := by
  simp [processInputSeed, parseLoop, h1, h2, bind, Except.bind, Dict.set, Dict.keys]

theorem splitDashL_word (w : List Char) (hw : '-' ∉ w) :
    splitDash.splitDashL w = [w] := by
  induction w with
  | nil => rfl
  | cons c cs ih =>
    simp only [List.mem_cons, not_or] at hw
    have : ¬ c = '-' := fun e => hw.1 e.symm
    simp [splitDash.splitDashL, this, ih hw.2]

theorem splitDashL_cons (w rest : List Char) (hw : '-' ∉ w) :
    splitDash.splitDashL (w ++ '-' :: rest) = w :: splitDash.splitDashL rest := by
  induction w with
  | nil => simp [splitDash.splitDashL]
  | cons c cs ih =>
    simp only [List.mem_cons, not_or] at hw
    have : ¬ c = '-' := fun e => hw.1 e.symm
    simp [splitDash.splitDashL, this, ih hw.2]

/-- parts joined by dashes, as characters -/
def dashed : List (List Char) → List Char
  | [] => []
  | [w] => w
  | w :: ws => w ++ '-' :: dashed ws

/-- **C16 (dash notation).** A string of parts joined by '-' (parts without a dash, at least one) is
processed exactly as the list of its parts. -/
theorem C16_dash (parts : List (List Char)) (hne : parts ≠ []) (hw : ∀ w ∈ parts, '-' ∉ w) :
    processInputSeed (.str (String.ofList (dashed parts))) =
      processInputSeed (.list (parts.map (fun w => .str (String.ofList w)))) := by
  have key : splitDash.splitDashL (dashed parts) = parts := by
    induction parts with
    | nil => exact absurd rfl hne
    | cons w ws ih =>
      cases ws with
      | nil => exact splitDashL_word w (hw w (by simp))
      | cons v vs =>
        rw [dashed, splitDashL_cons w _ (hw w (by simp)), ih (by simp) (fun a ha => hw a (by simp [ha]))]
        simp
  simp only [processInputSeed, splitDash, String.toList_ofList, key, List.map_map]
  rfl

/-- 'CMB-FIR-NIR' is the list of the three named fields, and gives three fields in order. -/
example : ∃ fs, processInputSeed (.str "CMB-FIR-NIR") = .ok fs ∧
    fs.map (·.1) = ["CMB", "FIR", "NIR"] := by
  have h := C16_dash ["CMB".toList, "FIR".toList, "NIR".toList] (by simp) (by decide)
  have e : String.ofList (dashed ["CMB".toList, "FIR".toList, "NIR".toList]) = "CMB-FIR-NIR" := by
    decide
  rw [e] at h
  rw [h]
  obtain ⟨f1, h1⟩ : ∃ f, parseSeed (.str "CMB") = .ok ("CMB", f) :=
    ⟨_, (C16_named_fields _).trans (if_pos rfl)⟩
  obtain ⟨f2, h2⟩ : ∃ f, parseSeed (.str "FIR") = .ok ("FIR", f) :=
    ⟨_, (C16_named_fields _).trans ((if_neg (by decide)).trans (if_pos rfl))⟩
  obtain ⟨f3, h3⟩ : ∃ f, parseSeed (.str "NIR") = .ok ("NIR", f) :=
    ⟨_, (C16_named_fields _).trans
      ((if_neg (by decide)).trans ((if_neg (by decide)).trans (if_pos rfl)))⟩
  refine ⟨[("CMB", f1), ("FIR", f2), ("NIR", f3)],
    C16_in_order_partial _ _ ?_ (by simp), rfl⟩
  exact .cons h1 (.cons h2 (.cons h3 .nil))

/-- a two-entry list with the same name: the hypotheses of `C16_false_duplicate_names` are met -/
example : ∃ f1 f2, parseSeed (.str "CMB") = .ok ("CMB", f1) ∧
    parseSeed (.list3 "CMB" (q 10 kelvin) (.num (fin 0))) = .ok ("CMB", f2) := by
  exact ⟨_, _, (C16_named_fields _).trans (if_pos rfl),
    (C16_thermal_blackbody "CMB" 10 kelvin (by norm_num [kelvin]) rfl _ (Or.inl rfl)).trans
      (if_neg (by norm_num))⟩

/-! ### The other hypotheses are met -/

example := C16_thermal_blackbody "star" 5000 kelvin (by norm_num [kelvin]) rfl (q 0 eVcm3) (Or.inr ⟨_, rfl⟩)

example := C16_thermal_density "dust" 30 kelvin (by norm_num [kelvin]) rfl (by norm_num) 0.5 (by norm_num)
  ⟨1.602176634e-12, Dim.pressure⟩ (by norm_num)

example := C16_anisotropic "star" (q 5000 kelvin) (q 1 eVcm3) 30 ⟨Real.pi / 180, Dim.angle⟩ (by positivity)

example := C16_monochromatic "line" 2 PhysUnit.eV rfl 3 eVcm3

example := C16_spectral_partial "ssc" [1, 2, 4] [5, 3, 1] [3] [3] PhysUnit.eV ⟨1, Dim.diffNumDensity⟩ rfl
  (by simp) rfl (by simp)

example := C16_rejects "x" (.num (fin 3)) (.num (fin 0)) (by intro x u h; cases h) (by intro s d u h; cases h)

example := C16_first_error [.str "CMB"] [.str "NIR"] (.str "XIR") .typeError _
  (.cons ((C16_named_fields _).trans (if_pos rfl)) .nil)
  ((C16_named_fields _).trans ((if_neg (by decide)).trans ((if_neg (by decide)).trans (if_neg (by decide)))))

end Naima.Props
