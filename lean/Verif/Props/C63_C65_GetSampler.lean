import Verif.Model.GetSampler
import Verif.Props.C44_C45_Guess
import Verif.Props.C46_C47_NelderMead

/-! # C63–C65: initial walkers, the caller's objects, and `get_sampler` end to end -/

namespace Naima.Props

open Naima Spec XR Classical

/-! ## C63: the initial ensemble -/

/-- **C63 (the ball).** The ensemble has `nwalkers` walkers; parameter `j` of walker `i` is
`p₀ⱼ (1 + w n)`, `n` being the standard normal number drawn for it and `w` = 0.5% when the starting point
is a maximum-likelihood point and 10% otherwise. -/
theorem C63_ball (isML : Bool) (nwalkers : Nat) (p0 : List ℝ) (normal : Nat → List ℝ)
    (hn : ∀ i < nwalkers, (normal i).length = p0.length) :
    (initialWalkers isML nwalkers (p0.map fin) normal).length = nwalkers ∧
    ∀ i (hi : i < nwalkers), ∃ w : List XR, (initialWalkers isML nwalkers (p0.map fin) normal)[i]? = some w ∧
      w.length = p0.length ∧
      ∀ j (hj : j < p0.length), w[j]? = some (fin (p0[j] *
        (1 + (if isML then 5 / 1000 else 1 / 10) * (normal i)[j]'(by rw [hn i hi]; exact hj)))) := by
  refine ⟨by simp [initialWalkers], ?_⟩
  intro i hi
  refine ⟨_, by simp only [initialWalkers, List.getElem?_map, List.getElem?_range hi]; rfl, ?_, ?_⟩
  · simp [hn i hi]
  · intro j hj
    have hj' : j < (normal i).length := by rw [hn i hi]; exact hj
    rw [List.getElem?_zipWith, List.getElem?_map, List.getElem?_eq_getElem hj, List.getElem?_eq_getElem hj']
    simp only [Option.map_some, XR.mul_fin, XR.add_fin, Option.some.injEq, fin_inj]
    cases isML <;> norm_num <;> ring

/-- **C63 (a parameter that is not zero is spread), partial.** Two walkers for which different normal
numbers were drawn differ in every parameter that is not zero, and a walker keeps the sign of the
parameter unless its number is 10 (200 at a maximum-likelihood point) standard deviations below zero.
Missing: parameters equal to zero (false, below). -/
theorem C63_spread_partial (isML : Bool) (p n n' : ℝ) (hp : p ≠ 0) (hn : n ≠ n') :
    (fin p + (fin (if isML then 0.005 else 0.1) * fin p) * fin n : XR) ≠
      fin p + (fin (if isML then 0.005 else 0.1) * fin p) * fin n' ∧
    (0 < p → -10 < n → fin 0 < (fin p + (fin (if isML then 0.005 else 0.1) * fin p) * fin n : XR)) := by
  constructor
  · simp only [XR.mul_fin, XR.add_fin, ne_eq, fin_inj, add_right_inj]
    intro h
    apply hn
    have : (if isML = true then (0.005 : ℝ) else 0.1) * p ≠ 0 := by
      apply mul_ne_zero _ hp
      split_ifs <;> norm_num
    exact mul_left_cancel₀ this h
  · intro h1 h2
    simp only [XR.mul_fin, XR.add_fin, lt_fin]
    cases isML
    · simp only [Bool.false_eq_true, if_false]; nlinarith
    · simp only [if_true]; nlinarith

/-- The same, of the ensemble: coordinate `j` separates two walkers whose draws differ there. -/
theorem C63_ensemble_spread_partial (isML : Bool) (nwalkers : Nat) (p0 : List ℝ) (normal : Nat → List ℝ)
    (hn : ∀ i < nwalkers, (normal i).length = p0.length) (i i' j : Nat) (hi : i < nwalkers)
    (hi' : i' < nwalkers) (hj : j < p0.length) (hp : p0[j] ≠ 0)
    (hd : (normal i)[j]'(by rw [hn i hi]; exact hj) ≠ (normal i')[j]'(by rw [hn i' hi']; exact hj)) :
    ((initialWalkers isML nwalkers (p0.map fin) normal)[i]?.bind (·[j]?)) ≠
    ((initialWalkers isML nwalkers (p0.map fin) normal)[i']?.bind (·[j]?)) := by
  obtain ⟨-, h⟩ := C63_ball isML nwalkers p0 normal hn
  obtain ⟨w, h1, -, h2⟩ := h i hi
  obtain ⟨w', h1', -, h2'⟩ := h i' hi'
  rw [h1, h1', Option.bind_some, Option.bind_some, h2 j hj, h2' j hj]
  simp only [ne_eq, Option.some.injEq, fin_inj]
  intro h
  have h := mul_left_cancel₀ hp h
  apply hd
  cases isML <;> simp only [Bool.false_eq_true, if_false, if_true] at h <;> linarith

/-- **C63 (units).** Rescaling a parameter (a change of its unit) rescales the ensemble: the walkers for
`c p₀` are those for `p₀` times `c`. -/
theorem C63_scale_free (isML : Bool) (c p n : ℝ) :
    (fin (c * p) + (fin (if isML then 0.005 else 0.1) * fin (c * p)) * fin n : XR) =
    fin c * (fin p + (fin (if isML then 0.005 else 0.1) * fin p) * fin n) := by
  simp only [XR.mul_fin, XR.add_fin, fin_inj]; ring

/-- **C63 is false of the code for a parameter that is zero**: all walkers start at exactly zero in
that parameter, whatever is drawn. -/
theorem C63_false_zero (isML : Bool) (nwalkers : Nat) (p0 : List ℝ) (normal : Nat → List ℝ)
    (hn : ∀ i < nwalkers, (normal i).length = p0.length) (j : Nat) (hj : j < p0.length)
    (h0 : p0[j] = 0) :
    ∀ w ∈ initialWalkers isML nwalkers (p0.map fin) normal, w[j]? = some (fin 0) := by
  intro w hw
  obtain ⟨hl, h⟩ := C63_ball isML nwalkers p0 normal hn
  obtain ⟨i, hi, rfl⟩ := List.mem_iff_getElem.1 hw
  rw [hl] at hi
  obtain ⟨w, h1, -, h2⟩ := h i hi
  rw [List.getElem?_eq_getElem (by rw [hl]; exact hi)] at h1
  cases h1
  rw [h2 j hj, h0, zero_mul]

/-- **C63: and it stays there.** A coordinate in which all walkers agree on a finite value (such as
that zero) keeps that value in every ensemble reachable by any number of stretch moves: the parameter is
never explored. -/
theorem C63_false_never_explored (X Y : List (List XR)) (j : Nat) (v : ℝ)
    (hX : ∀ w ∈ X, w[j]? = some (fin v)) (h : StretchReach X Y) : ∀ w ∈ Y, w[j]? = some (fin v) := by
  induction h with
  | refl => exact hX
  | step _ hm ih =>
    intro w hw
    rcases hm.2 w hw with h' | ⟨c, hc, s, hs, z, rfl⟩
    · exact ih w h'
    · rw [List.getElem?_zipWith, ih c hc, ih s hs]
      simp [XR.mul_fin]

/-- Non-vacuity: two walkers around (2, 0) and a move. -/
example : initialWalkers false 2 [fin 2, fin 0] (fun i => if i = 0 then [1, 5] else [-1, 3]) =
    [[fin 2.2, fin 0], [fin 1.8, fin 0]] ∧
    StretchMove [[fin 2.2, fin 0], [fin 1.8, fin 0]] [[fin 2.2, fin 0], [fin 1.4, fin 0]] := by
  constructor
  · simp [initialWalkers, List.range_succ]; norm_num
  · refine ⟨rfl, ?_⟩
    intro x hx
    simp only [List.mem_cons, List.not_mem_nil, or_false] at hx
    rcases hx with rfl | rfl
    · left; simp
    · right
      refine ⟨[fin 2.2, fin 0], by simp, [fin 1.8, fin 0], by simp, 2, ?_⟩
      simp; norm_num

/-! ## C64: the caller's objects -/

theorem getSampler_ok {a : GSArgs} {data : VTable} {model : List XR → Except PyErr Spectrum}
    {fit : List XR → Except PyErr (List XR × Bool)} {normal : Nat → List ℝ} {r : GSResult}
    (h : getSampler a data model fit normal = .ok r) :
    ∃ spec p1, model a.p0 = .ok spec ∧
      guessInPlace a.kind a.guess (samplerLabels a.labels a.p0.length) a.p0 data spec = .ok p1 ∧
      r.callerP0 = p1 ∧ r.labels = samplerLabels a.labels a.p0.length ∧
      r.callerLabels = a.labels.map (fun _ => samplerLabels a.labels a.p0.length) ∧
      r.walkers = initialWalkers r.isML a.nwalkers r.start normal ∧
      (let p2 := match a.interactive with
        | none => (p1, false)
        | some w => w p1 (samplerLabels a.labels a.p0.length)
       (if a.prefit = true ∧ p2.2 = false then fit p2.1 else .ok p2) = .ok (r.start, r.isML)) := by
  unfold getSampler at h
  simp only at h
  cases hm : model a.p0 with
  | error e => simp [hm] at h
  | ok spec =>
    simp only [hm] at h
    cases hg : guessInPlace a.kind a.guess (samplerLabels a.labels a.p0.length) a.p0 data spec with
    | error e => simp [hg] at h
    | ok p1 =>
      simp only [hg] at h
      split at h
      · simp at h
      · rename_i p3 hp3
        cases h
        exact ⟨spec, p1, rfl, hg, rfl, rfl, rfl, rfl, hp3⟩

/-- **C64 (what the caller keeps), partial.** After `get_sampler`, the caller's label list begins with
the labels passed and has been extended, in place, only if it was too short; the caller's `p0` is
untouched when no guess is made (`guess=False`, or not exactly one label denotes a normalisation).
Missing: the guess changes `p0` in place (false, below). -/
theorem C64_caller_objects_partial (a : GSArgs) (data : VTable) (model : List XR → Except PyErr Spectrum)
    (fit : List XR → Except PyErr (List XR × Bool)) (normal : Nat → List ℝ) (r : GSResult)
    (h : getSampler a data model fit normal = .ok r) :
    (∀ l, a.labels = some l → ∃ l', r.callerLabels = some l' ∧ l <+: l' ∧
      l'.length = max l.length a.p0.length ∧ (a.p0.length ≤ l.length → l' = l)) ∧
    (a.labels = none → r.callerLabels = none) ∧
    (a.guess = false ∨ r.labels.countP (fun l => decide (DenotesNorm l)) ≠ 1 → r.callerP0 = a.p0) := by
  obtain ⟨spec, p1, h1, h2, h3, h4, h5, -⟩ := getSampler_ok h
  refine ⟨?_, ?_, ?_⟩
  · intro l hl
    obtain ⟨-, c, -⟩ := C45_sampler_labels a.labels a.p0.length
    refine ⟨_, by rw [h5, hl]; rfl, ?_, ?_, ?_⟩
    · have := (c l hl).1; rwa [hl] at this
    · have := (c l hl).2; rwa [hl] at this
    · intro hle
      simp [samplerLabels, hle]
  · intro hl; rw [h5, hl]; rfl
  · intro hc
    rw [h3]
    rw [h4, ← C44_count] at hc
    unfold guessInPlace at h2
    split at h2
    · simp at h2
    · rcases hc with hc | hc
      · simp [hc] at h2; exact h2.symm
      · split at h2
        · split at h2
          · rename_i i hi
            rw [hi] at hc; simp at hc
          · simp at h2; exact h2.symm
        · simp at h2; exact h2.symm

/-- for a list or a float array the guess stores what `guessNorm` says -/
theorem guessInPlace_eq (k : P0Kind) (hk : k = .list ∨ k = .floatArray) (guess : Bool) (labels : List Label)
    (p0 : List XR) (data : VTable) (spec : Spectrum) :
    guessInPlace k guess labels p0 data spec = guessNorm guess labels p0 data spec := by
  unfold guessInPlace guessNorm
  have hs : ∀ new, storeGuess k new = .ok new := by
    intro new
    have hid : ∀ x, storeIn k x = x := by intro x; rcases hk with rfl | rfl <;> cases x <;> rfl
    have hm : new.map (storeIn k) = new := List.map_id'' hid new
    rcases hk with rfl | rfl <;> simp only [storeGuess, hm]
  cases unitsCheck spec.unit data.fluxU with
  | error e => rfl
  | ok u =>
    simp only
    split_ifs
    · rcases hn : normIdxs labels with _ | ⟨i, _ | ⟨i', l⟩⟩
      · rfl
      · simp only [hs]
        cases guessAt labels p0 data spec i <;> rfl
      · rfl
    · rfl

/-- **C64 is false of the code**: the guess overwrites the caller's `p0` (a list or float array): one
parameter `norm` = 1, a model proportional to it and data three times as bright, the caller's list is
`[3]` after the call. -/
theorem C64_false_p0_overwritten (fit : List XR → Except PyErr (List XR × Bool)) (normal : Nat → List ℝ)
    (data : VTable) (hE : ∀ r ∈ data.rows, 0 < r.energy) (hs : SpectralType data.fluxU.dim)
    (J : ℝ) (hJ : 0 < J)
    (hdata : energyFlux (IsSedType data.fluxU.dim) (data.rows.map (·.flux)) (data.rows.map (·.energy)) = 3 * J)
    (m : List ℝ) (hl : m.length = data.rows.length)
    (hm : energyFlux (IsSedType data.fluxU.dim) m (data.rows.map (·.energy)) = J)
    (k : P0Kind) (hk : k = .list ∨ k = .floatArray) :
    ∃ r, getSampler ⟨k, [fin 1], none, 10, true, false, none⟩ data
      (fun _ => .ok ⟨m.map fin, data.fluxU⟩) fit normal = .ok r ∧ r.callerP0 = [fin 3] ∧
      r.start = [fin 3] := by
  have hl1 : samplerLabels none 1 = ["norm".toList] := by decide
  have hden : DenotesNorm "norm".toList := ⟨[], by simp, "norm".toList, by simp, by decide⟩
  have hv := guess_value ["norm".toList] [fin 1] 0 (by simp) (by simp) hden
    (by intro j hj _; simpa using hj) data m data.fluxU hs hs ⟨Iff.rfl, Iff.rfl⟩ hl hE (by rw [hm]; exact hJ.ne')
  rw [hm, hdata] at hv
  have h3 : 3 * J / J = 3 := by field_simp
  rw [h3] at hv
  have happ : applyRatio (["norm".toList][0]) [fin 1] 0 (fin 3) = .ok [fin 3] := by
    have h1 : logPre.isPrefixOf "norm".toList = false := by decide
    have h2 : log10Pre.isPrefixOf "norm".toList = false := by decide
    unfold applyRatio
    simp only [List.getElem_cons_zero, h1, h2]
    simp [modifyAt]
  rw [happ] at hv
  have hgi : guessInPlace k true (samplerLabels none [fin 1].length) [fin 1] data ⟨m.map fin, data.fluxU⟩ =
      .ok [fin 3] := by
    rw [show [fin (1:ℝ)].length = 1 from rfl, hl1, guessInPlace_eq k hk, hv]
  refine ⟨⟨samplerLabels none 1, [fin 3], false, initialWalkers false 10 [fin 3] normal, [fin 3], none⟩,
    ?_, rfl, rfl⟩
  unfold getSampler
  simp only [hgi]
  simp

/-- **C64 (a second call).** The overwritten `p0` is a fixed point of the guess: for a model proportional
to its normalisation (or to its exponential, for a `log` label) a second call with the same object starts
from the same parameters. -/
theorem C64_second_call (labels : List Label) (p0 : List ℝ) (k : Nat) (hk : k < labels.length)
    (hkp : k < p0.length) (h1 : DenotesNorm labels[k])
    (h2 : ∀ j (hj : j < labels.length), DenotesNorm labels[j] → j = k)
    (data : VTable) (hE : ∀ r ∈ data.rows, 0 < r.energy) (hd : SpectralType data.fluxU.dim)
    (model : List ℝ → List ℝ) (u : PhysUnit) (hu : SpectralType u.dim)
    (hsame : SameKind u.dim data.fluxU.dim)
    (hl : ∀ p, (model p).length = data.rows.length)
    (hm : 0 < energyFlux (IsSedType u.dim) (model p0) (data.rows.map (·.energy)))
    (hdpos : 0 < energyFlux (IsSedType data.fluxU.dim) (data.rows.map (·.flux)) (data.rows.map (·.energy)))
    (hprop : ∀ c : ℝ, 0 < c →
      (if "log(".toList <+: labels[k] then model (p0.set k (p0[k] + Real.log c))
       else if "log10(".toList <+: labels[k] then model (p0.set k (p0[k] + Real.logb 10 c))
       else model (p0.set k (p0[k] * c))) = (model p0).map (fun v => c * v))
    (kind : P0Kind) (hkind : kind = .list ∨ kind = .floatArray) :
    ∃ q : List ℝ, guessInPlace kind true labels (p0.map fin) data ⟨(model p0).map fin, u⟩ = .ok (q.map fin) ∧
      guessInPlace kind true labels (q.map fin) data ⟨(model q).map fin, u⟩ = .ok (q.map fin) := by
  obtain ⟨y, g1, g2⟩ := C44_matches_data labels p0 k hk hkp h1 h2 data hE hd model u hu hsame (hl _) hm hdpos
    hprop
  refine ⟨p0.set k y, by rw [guessInPlace_eq kind hkind, g1], ?_⟩
  rw [guessInPlace_eq kind hkind, guess_value labels ((p0.set k y).map fin) k hk (by simpa using hkp) h1 h2
    data (model (p0.set k y)) u hu hd hsame (hl _) hE (by rw [g2]; exact hdpos.ne'), g2, div_self hdpos.ne']
  have hkq : k < (p0.set k y).length := by simpa using hkp
  have hid : ((p0.set k y).set k ((p0.set k y)[k])) = p0.set k y := by
    rw [List.set_getElem_self]
  unfold applyRatio
  split_ifs
  · rw [modifyAt_fin (p0.set k y) k hkq _ _ (by rw [XR.log_fin _ one_pos, XR.add_fin, Real.log_one, add_zero]),
      hid]
  · rw [modifyAt_fin (p0.set k y) k hkq _ _ (by rw [XR.log10_fin _ one_pos, XR.add_fin, Real.logb_one,
      add_zero]), hid]
  · rw [modifyAt_fin (p0.set k y) k hkq _ _ (by rw [XR.mul_fin, mul_one]), hid]

/-! ## C65: end to end -/

/-- **C65 (where sampling starts).** `get_sampler` starts from the guess; if the interactive window was
used, from what it returned; and if a prefit was requested and the window did not already end on a fitted
point, from the result of the prefit of that.  `run_info["p0"]` is that point, the ensemble is the ball
around it, and its width is the narrow one only if the last of these steps said that it is a
maximum-likelihood point. -/
theorem C65_start (a : GSArgs) (data : VTable) (model : List XR → Except PyErr Spectrum)
    (fit : List XR → Except PyErr (List XR × Bool)) (normal : Nat → List ℝ) (r : GSResult)
    (h : getSampler a data model fit normal = .ok r) :
    r.walkers = initialWalkers r.isML a.nwalkers r.start normal ∧
    (a.interactive = none → a.prefit = false → r.start = r.callerP0 ∧ r.isML = false) ∧
    (a.interactive = none → a.prefit = true → fit r.callerP0 = .ok (r.start, r.isML)) ∧
    (∀ w, a.interactive = some w → (a.prefit = false ∨ (w r.callerP0 r.labels).2 = true) →
      (r.start, r.isML) = w r.callerP0 r.labels) ∧
    (∀ w, a.interactive = some w → a.prefit = true → (w r.callerP0 r.labels).2 = false →
      fit (w r.callerP0 r.labels).1 = .ok (r.start, r.isML)) := by
  obtain ⟨spec, p1, h1, h2, h3, h4, h5, h6, h7⟩ := getSampler_ok h
  rw [h3, h4]
  refine ⟨h6, ?_, ?_, ?_, ?_⟩
  · intro hi hp
    simp only [hi, hp, Bool.false_eq_true, false_and, if_false, Except.ok.injEq, Prod.mk.injEq] at h7
    exact ⟨h7.1.symm, h7.2.symm⟩
  · intro hi hp
    simpa only [hi, hp, true_and, if_true] using h7
  · intro w hi hp
    simp only [hi] at h7
    have : ¬ (a.prefit = true ∧ (w p1 (samplerLabels a.labels a.p0.length)).2 = false) := by
      rintro ⟨x, y⟩
      rcases hp with hp | hp
      · rw [hp] at x; simp at x
      · rw [hp] at y; simp at y
    rw [if_neg this] at h7
    exact (Except.ok.inj h7).symm
  · intro w hi hp hf
    simp only [hi, hp, hf, true_and, if_true] at h7
    exact h7

theorem getSampler_of {a : GSArgs} {data : VTable} {model : List XR → Except PyErr Spectrum}
    {fit : List XR → Except PyErr (List XR × Bool)} {normal : Nat → List ℝ} {spec : Spectrum}
    {p1 q : List XR} {b : Bool} (hm : model a.p0 = .ok spec)
    (hg : guessInPlace a.kind a.guess (samplerLabels a.labels a.p0.length) a.p0 data spec = .ok p1)
    (hi : a.interactive = none)
    (hf : (if a.prefit = true then fit p1 else .ok (p1, false)) = .ok (q, b)) :
    ∃ r, getSampler a data model fit normal = .ok r ∧ r.start = q ∧ r.isML = b ∧ r.callerP0 = p1 := by
  refine ⟨⟨samplerLabels a.labels a.p0.length, q, b, initialWalkers b a.nwalkers q normal, p1,
    a.labels.map (fun _ => samplerLabels a.labels a.p0.length)⟩, ?_, rfl, rfl, rfl⟩
  unfold getSampler
  simp only [hm, hg, hi, and_true, hf]

/-- **C65 (guess and prefit, end to end).** For a list or float array `p0`, one normalisation label, a
model proportional to that parameter and never a NaN likelihood: without prefit, sampling starts at a
point whose energy flux is that of the data; with prefit, at a point that is at least as likely (flat
prior) as that one. -/
theorem C65_end_to_end (sort : List (Vec × XR) → List (Vec × XR)) (hsort : IsNMSort sort)
    (a : GSArgs) (p0 : List ℝ) (hp0 : a.p0 = p0.map fin) (hkind : a.kind = .list ∨ a.kind = .floatArray)
    (hguess : a.guess = true) (hint : a.interactive = none)
    (k : Nat) (hk : k < (samplerLabels a.labels p0.length).length)
    (hkp : k < p0.length) (h1 : DenotesNorm (samplerLabels a.labels p0.length)[k])
    (h2 : ∀ j (hj : j < (samplerLabels a.labels p0.length).length),
      DenotesNorm (samplerLabels a.labels p0.length)[j] → j = k)
    (data : VTable) (hE : ∀ r ∈ data.rows, 0 < r.energy) (hd : SpectralType data.fluxU.dim)
    (model : List ℝ → List ℝ) (u : PhysUnit) (hu : SpectralType u.dim)
    (modelX : List XR → Except PyErr Spectrum)
    (hmodel : ∀ p : List ℝ, modelX (p.map fin) = .ok ⟨(model p).map fin, u⟩)
    (hsame : SameKind u.dim data.fluxU.dim)
    (hl : (model p0).length = data.rows.length)
    (hm : 0 < energyFlux (IsSedType u.dim) (model p0) (data.rows.map (·.energy)))
    (hdpos : 0 < energyFlux (IsSedType data.fluxU.dim) (data.rows.map (·.flux)) (data.rows.map (·.energy)))
    (hprop : ∀ c : ℝ, 0 < c →
      (if "log(".toList <+: (samplerLabels a.labels p0.length)[k] then
         model (p0.set k (p0[k] + Real.log c))
       else if "log10(".toList <+: (samplerLabels a.labels p0.length)[k] then
         model (p0.set k (p0[k] + Real.logb 10 c))
       else model (p0.set k (p0[k] * c))) = (model p0).map (fun v => c * v))
    (ll llPrior : Vec → XR) (hll : ∀ x, ll x ≠ nan)
    (fit : List XR → Except PyErr (List XR × Bool))
    (hfit : ∀ p : List ℝ, fit (p.map fin) =
      .ok ((prefit sort id ll llPrior p).1.map fin, (prefit sort id ll llPrior p).2))
    (normal : Nat → List ℝ) :
    ∃ r y q, getSampler a data modelX fit normal = .ok r ∧ r.start = List.map fin q ∧
      r.callerP0 = (p0.set k y).map fin ∧
      energyFlux (IsSedType u.dim) (model (p0.set k y)) (data.rows.map (·.energy)) =
        energyFlux (IsSedType data.fluxU.dim) (data.rows.map (·.flux)) (data.rows.map (·.energy)) ∧
      (a.prefit = false → q = p0.set k y) ∧
      (a.prefit = true → ll (p0.set k y) ≤ ll q) := by
  obtain ⟨y, g1, g2⟩ := C44_matches_data _ p0 k hk hkp h1 h2 data hE hd model u hu hsame hl hm hdpos hprop
  have hg : guessInPlace a.kind a.guess (samplerLabels a.labels a.p0.length) a.p0 data
      ⟨(model p0).map fin, u⟩ = .ok ((p0.set k y).map fin) := by
    rw [guessInPlace_eq a.kind hkind, hp0, hguess, List.length_map, g1]
  have hmod : modelX a.p0 = .ok ⟨(model p0).map fin, u⟩ := by rw [hp0, hmodel]
  by_cases hp : a.prefit = true
  · obtain ⟨r, r1, r2, -, r3⟩ := getSampler_of (fit := fit) (normal := normal) hmod hg hint
      (by rw [if_pos hp, hfit])
    refine ⟨r, y, _, r1, r2, r3, g2, by simp [hp], fun _ => ?_⟩
    refine C46_never_worse sort hsort ll llPrior hll _ ?_
    rw [ne_eq, ← List.length_eq_zero_iff, List.length_set]; omega
  · have hp' : a.prefit = false := by simpa using hp
    obtain ⟨r, r1, r2, -, r3⟩ := getSampler_of (fit := fit) (normal := normal) hmod hg hint
      (by rw [if_neg hp])
    exact ⟨r, y, _, r1, r2, r3, g2, fun _ => rfl, by simp [hp']⟩

/-- two points at 1 and 2 with flux `c` -/
noncomputable def exTable (c : ℝ) : VTable :=
  { energyU := PhysUnit.TeV, fluxU := perSTeVCm2, fluxErrorLoU := perSTeVCm2, fluxErrorHiU := perSTeVCm2,
    energyErrorLoU := PhysUnit.TeV, energyErrorHiU := PhysUnit.TeV,
    rows := [⟨1, c, 1, 1, 0, 0, 0, false, fin 0.9⟩, ⟨2, c, 1, 1, 0, 0, 0, false, fin 0.9⟩] }

theorem exTable_guess (c : ℝ) :
    guessNorm true ["norm".toList] [fin 1] (exTable c) ⟨[fin 1, fin 1], perSTeVCm2⟩ = .ok [fin c] := by
  have hden : DenotesNorm "norm".toList := ⟨[], by simp, "norm".toList, by simp, by decide⟩
  have hns : ¬ IsSedType perSTeVCm2.dim := by decide
  have hm : energyFlux (IsSedType perSTeVCm2.dim) [1, 1] ((exTable c).rows.map (·.energy)) = 3 / 2 := by
    simp [exTable, energyFlux, hns]; norm_num
  have hdt : energyFlux (IsSedType (exTable c).fluxU.dim) ((exTable c).rows.map (·.flux))
      ((exTable c).rows.map (·.energy)) = 3 / 2 * c := by
    have : ¬ IsSedType (exTable c).fluxU.dim := hns
    simp only [exTable, List.map_cons, List.map_nil, energyFlux]
    rw [if_neg hns, if_neg hns]; ring
  have hv := guess_value ["norm".toList] [fin 1] 0 (by simp) (by simp) hden
    (by intro j hj _; simpa using hj) (exTable c) [1, 1] perSTeVCm2 (Or.inl rfl) (Or.inl rfl)
    ⟨Iff.rfl, Iff.rfl⟩ rfl (by simp [exTable]) (by rw [hm]; norm_num)
  rw [hm, hdt, mul_div_cancel_left₀ c (by norm_num)] at hv
  have h1 : logPre.isPrefixOf "norm".toList = false := by decide
  have h2 : log10Pre.isPrefixOf "norm".toList = false := by decide
  simp only [applyRatio, List.getElem_cons_zero, h1, h2] at hv
  simpa [modifyAt] using hv

theorem exTable_inPlace (kind : P0Kind) (c : ℝ) :
    guessInPlace kind true (samplerLabels none 1) [fin 1] (exTable c) ⟨[fin 1, fin 1], perSTeVCm2⟩ =
      storeGuess kind [fin c] := by
  have hl1 : samplerLabels none 1 = ["norm".toList] := by decide
  have hi : normIdxs ["norm".toList] = [0] := by decide
  have hv := exTable_guess c
  rw [hl1]
  unfold guessNorm at hv
  unfold guessInPlace
  cases hu : unitsCheck (⟨[fin 1, fin 1], perSTeVCm2⟩ : Spectrum).unit (exTable c).fluxU with
  | error e => simp [hu] at hv
  | ok _ =>
    simp only [hu, if_true, hi] at hv ⊢
    rw [hv]

/-- **C65 is false of the code for a tuple**: the same one-parameter problem runs from a list, and
raises TypeError from a tuple (unless `guess=False`). -/
theorem C65_false_tuple (fit : List XR → Except PyErr (List XR × Bool)) (normal : Nat → List ℝ) (c : ℝ) :
    getSampler ⟨.tuple, [fin 1], none, 10, true, false, none⟩ (exTable c)
      (fun _ => .ok ⟨[fin 1, fin 1], perSTeVCm2⟩) fit normal = .error .typeError ∧
    ∃ r, getSampler ⟨.list, [fin 1], none, 10, true, false, none⟩ (exTable c)
      (fun _ => .ok ⟨[fin 1, fin 1], perSTeVCm2⟩) fit normal = .ok r ∧ r.start = [fin c] := by
  have h1 := exTable_inPlace .tuple c
  have h2 := exTable_inPlace .list c
  constructor
  · unfold getSampler
    simp only [List.length_cons, List.length_nil, zero_add, h1, storeGuess]
  · obtain ⟨r, r1, r2, -⟩ := getSampler_of (a := ⟨.list, [fin 1], none, 10, true, false, none⟩)
      (data := exTable c) (model := fun _ => .ok ⟨[fin 1, fin 1], perSTeVCm2⟩) (fit := fit)
      (normal := normal) (p1 := [fin c]) (q := [fin c]) (b := false) rfl
      (by simpa [storeGuess, storeIn] using h2) rfl (by simp)
    exact ⟨r, r1, r2⟩

/-- **C65 is false of the code for integer arrays**: the guess is truncated when it is stored.  When
the model at `p0 = np.array([1])` is brighter than the data (ratio `c` below one), the normalisation
becomes zero, and so does that parameter of every walker, for ever (C63). -/
theorem C65_false_integer_array (fit : List XR → Except PyErr (List XR × Bool)) (normal : Nat → List ℝ)
    (c : ℝ) (h0 : 0 < c) (h1 : c < 1) :
    ∃ r, getSampler ⟨.intArray, [fin 1], none, 10, true, false, none⟩ (exTable c)
      (fun _ => .ok ⟨[fin 1, fin 1], perSTeVCm2⟩) fit normal = .ok r ∧ r.start = [fin 0] := by
  have h2 := exTable_inPlace .intArray c
  have hf : ⌊c⌋ = 0 := by rw [Int.floor_eq_iff]; constructor <;> push_cast <;> linarith
  have hs : storeGuess .intArray [fin c] = .ok [fin 0] := by
    simp [storeGuess, storeIn, truncCast, h0.le, hf]
  obtain ⟨r, r1, r2, -⟩ := getSampler_of (a := ⟨.intArray, [fin 1], none, 10, true, false, none⟩)
    (data := exTable c) (model := fun _ => .ok ⟨[fin 1, fin 1], perSTeVCm2⟩) (fit := fit)
    (normal := normal) (p1 := [fin 0]) (q := [fin 0]) (b := false) rfl
    (by rw [← hs]; simpa using h2) rfl (by simp)
  exact ⟨r, r1, r2⟩

/-- **C65 is false of the code when the model is not a number at `p0`** (as pion decay below its threshold): the guess is NaN,
and from an integer array sampling starts, without an error, at the smallest 64-bit integer. -/
theorem C65_false_integer_nan (fit : List XR → Except PyErr (List XR × Bool)) (normal : Nat → List ℝ) (c : ℝ) :
    (∃ r, getSampler ⟨.list, [fin 1], none, 10, true, false, none⟩ (exTable c)
      (fun _ => .ok ⟨[nan, nan], perSTeVCm2⟩) fit normal = .ok r ∧ r.start = [nan]) ∧
    ∃ r, getSampler ⟨.intArray, [fin 1], none, 10, true, false, none⟩ (exTable c)
      (fun _ => .ok ⟨[nan, nan], perSTeVCm2⟩) fit normal = .ok r ∧ r.start = [fin (-2 ^ 63)] := by
  have hl1 : samplerLabels none 1 = ["norm".toList] := by decide
  have hi : normIdxs ["norm".toList] = [0] := by decide
  have h1 : logPre.isPrefixOf "norm".toList = false := by decide
  have h2 : log10Pre.isPrefixOf "norm".toList = false := by decide
  have d1 : perSTeVCm2.dim = Dim.diffFlux := by decide
  have hsed : sedConversion perSTeVCm2 false = .ok (perSTeVCm2, .ones) := by
    have e1 : Dim.diffFlux ∈ [Dim.diffFlux, Dim.diffPower, Dim.diffEnergy, Dim.diffNumDensity] := by decide
    have e2 : Dim.diffFlux ∉ [Dim.energy, Dim.diffEnergy] := by decide
    have e3 : Dim.diffFlux ∈ [Dim.flux, Dim.diffFlux] := by decide
    simp only [sedConversion, d1, e1, e2, e3, if_true, if_false, and_true, true_and, or_true, Bool.false_eq_true]
  have key : ∀ kind, guessInPlace kind true (samplerLabels none 1) [fin 1] (exTable c) ⟨[nan, nan], perSTeVCm2⟩ =
      storeGuess kind [nan] := by
    intro kind
    have hu : unitsCheck perSTeVCm2 (exTable c).fluxU = .ok () := by
      show unitsCheck perSTeVCm2 perSTeVCm2 = _
      simp only [unitsCheck, hsed]
    have hone : ∀ vals : List XR, vals.length = 2 → ∃ v, energyFluxOf vals perSTeVCm2 (exTable c).rows = .ok (v, perSTeVCm2.dim) ∧
        (vals = [nan, nan] → v = nan) := by
      intro vals hv
      have hd : perSTeVCm2.dim.mul SedFactor.ones.dim = perSTeVCm2.dim := by decide
      unfold energyFluxOf
      rw [hsed]
      simp only
      rw [if_neg (by simp [hv, exTable]), if_pos hd]
      refine ⟨_, rfl, fun h => ?_⟩
      subst h
      simp [exTable, npTrapezoid]
      rfl
    obtain ⟨v, a1, a2⟩ := hone [nan, nan] rfl
    obtain ⟨w, b1, -⟩ := hone ((exTable c).rows.map (fun r => fin r.flux)) rfl
    have b1 : energyFluxOf ((exTable c).rows.map (fun r => fin r.flux)) (exTable c).fluxU (exTable c).rows = _ := b1
    rw [a2 rfl] at a1
    rw [hl1]
    unfold guessInPlace
    simp only [hu, if_true, hi, guessAt, a1, b1, applyRatio, List.getD_cons_zero, h1, h2, Bool.false_eq_true, if_false, modifyAt]
    have hn : fin 1 * (w / nan) = nan := by cases w <;> rfl
    simp [hn]
  constructor
  · obtain ⟨r, r1, r2, -⟩ := getSampler_of (a := ⟨.list, [fin 1], none, 10, true, false, none⟩)
      (data := exTable c) (model := fun _ => .ok ⟨[nan, nan], perSTeVCm2⟩) (fit := fit)
      (normal := normal) (p1 := [nan]) (q := [nan]) (b := false) rfl
      (by simpa [storeGuess, storeIn] using key .list) rfl (by simp)
    exact ⟨r, r1, r2⟩
  · obtain ⟨r, r1, r2, -⟩ := getSampler_of (a := ⟨.intArray, [fin 1], none, 10, true, false, none⟩)
      (data := exTable c) (model := fun _ => .ok ⟨[nan, nan], perSTeVCm2⟩) (fit := fit)
      (normal := normal) (p1 := [fin (-2 ^ 63)]) (q := [fin (-2 ^ 63)]) (b := false) rfl
      (by
        have e : storeGuess .intArray [nan] = .ok [fin (-2 ^ 63)] := by
          simp only [storeGuess, storeIn, List.map_cons, List.map_nil]
          norm_num
        rw [← e]
        exact key .intArray) rfl (by simp)
    exact ⟨r, r1, r2⟩

/-- Non-vacuity of C64: the concrete table three times as bright as the model. -/
example (fit : List XR → Except PyErr (List XR × Bool)) (normal : Nat → List ℝ) :
    ∃ r, getSampler ⟨.list, [fin 1], none, 10, true, false, none⟩ (exTable 3)
      (fun _ => .ok ⟨[fin 1, fin 1], perSTeVCm2⟩) fit normal = .ok r ∧ r.callerP0 = [fin 3] := by
  obtain ⟨r, h1, h2, -⟩ := C64_false_p0_overwritten fit normal (exTable 3) (by simp [exTable]) (Or.inl rfl)
    (3 / 2) (by norm_num)
    (by simp only [exTable, List.map_cons, List.map_nil, energyFlux]
        rw [if_neg (by decide : ¬ IsSedType perSTeVCm2.dim), if_neg (by decide : ¬ IsSedType perSTeVCm2.dim)]
        norm_num) [1, 1] rfl
    (by simp only [exTable, List.map_cons, List.map_nil, energyFlux]
        rw [if_neg (by decide : ¬ IsSedType perSTeVCm2.dim), if_neg (by decide : ¬ IsSedType perSTeVCm2.dim)]
        norm_num) .list (Or.inl rfl)
  exact ⟨r, h1, h2⟩

example := C63_ball false 2 [2, 3] (fun i => if i = 0 then [1, 5] else [-1, 3]) (by intro i _; split_ifs <;> rfl)

example := C63_ensemble_spread_partial true 2 [2, 3] (fun i => if i = 0 then [1, 5] else [-1, 3])
  (by intro i _; split_ifs <;> rfl) 0 1 1 (by norm_num) (by norm_num) (by simp) (by simp) (by simp)

example := C63_false_zero true 2 [2, 0] (fun i => if i = 0 then [1, 5] else [-1, 3])
  (by intro i _; split_ifs <;> rfl) 1 (by simp) rfl

theorem exLabels_norm : DenotesNorm "norm".toList ∧ ∀ j (hj : j < ["norm".toList, "index".toList].length),
    DenotesNorm ["norm".toList, "index".toList][j] → j = 0 := by
  have hnd : ¬ DenotesNorm "index".toList := by rw [denotes_iff]; decide
  refine ⟨by rw [denotes_iff]; decide, ?_⟩
  intro j hj h
  match j, hj with
  | 0, _ => rfl
  | 1, _ => exact absurd h hnd

theorem exNorm_prop (p : List ℝ) (hp : 0 < p.length) (c : ℝ) (_ : 0 < c) :
    (if "log(".toList <+: "norm".toList then
        (fun p : List ℝ => [p.headD 0, p.headD 0]) (p.set 0 (p[0] + Real.log c))
      else if "log10(".toList <+: "norm".toList then
        (fun p : List ℝ => [p.headD 0, p.headD 0]) (p.set 0 (p[0] + Real.logb 10 c))
      else (fun p : List ℝ => [p.headD 0, p.headD 0]) (p.set 0 (p[0] * c))) =
      ((fun p : List ℝ => [p.headD 0, p.headD 0]) p).map (fun v => c * v) := by
  have a : ¬ ("log(".toList <+: "norm".toList) := by decide
  have b : ¬ ("log10(".toList <+: "norm".toList) := by decide
  rw [if_neg a, if_neg b]
  match p, hp with
  | x :: r, _ => simp; ring

theorem exTable_flux : 0 < Spec.energyFlux (IsSedType perSTeVCm2.dim) [2, 2] ((exTable 3).rows.map (·.energy)) ∧
    0 < Spec.energyFlux (IsSedType (exTable 3).fluxU.dim) ((exTable 3).rows.map (·.flux)) ((exTable 3).rows.map (·.energy)) := by
  have h : ¬ IsSedType perSTeVCm2.dim := by decide
  constructor <;>
  · simp only [exTable, List.map_cons, List.map_nil, Spec.energyFlux]
    rw [if_neg h, if_neg h]
    norm_num

/-- A constant spectrum and its normalisation, starting from 2: guessed once, then left alone. -/
example := C64_second_call ["norm".toList, "index".toList] [2, 5] 0 (by simp) (by simp) exLabels_norm.1 exLabels_norm.2
  (exTable 3) (by simp [exTable]) (Or.inl rfl) (fun p => [p.headD 0, p.headD 0]) perSTeVCm2 (Or.inl rfl)
  ⟨Iff.rfl, Iff.rfl⟩ (by simp [exTable]) exTable_flux.1 exTable_flux.2 (exNorm_prop [2, 5] (by simp)) .floatArray (Or.inr rfl)

/-- A prefit towards a normalisation of 3. -/
noncomputable def exFit (sort : List (Vec × XR) → List (Vec × XR)) (p : List XR) : Except PyErr (List XR × Bool) :=
  let q := prefit sort id (fun v => fin (-(v.headD 0 - 3) ^ 2)) (fun _ => fin 0)
    (p.map (fun x => match x with | fin r => r | _ => 0))
  .ok (q.1.map fin, q.2)

theorem exFit_fin (sort : List (Vec × XR) → List (Vec × XR)) (p : List ℝ) : exFit sort (p.map fin) =
    .ok ((prefit sort id (fun v => fin (-(v.headD 0 - 3) ^ 2)) (fun _ => fin 0) p).1.map fin,
      (prefit sort id (fun v => fin (-(v.headD 0 - 3) ^ 2)) (fun _ => fin 0) p).2) := by
  have : (p.map fin).map (fun x => match x with | fin r => r | _ => 0) = p := by
    rw [List.map_map]; simp [Function.comp_def]
  simp only [exFit, this]

/-- The same in a run with prefit. -/
example : ∃ sort r, IsNMSort sort ∧ ∃ y q : List ℝ, r.callerP0 = y.map fin ∧ r.start = q.map fin ∧
    getSampler ⟨.list, [2, 5].map fin, some ["norm".toList, "index".toList], 10, true, true, none⟩ (exTable 3)
      (fun p => .ok ⟨[p.headD (fin 0), p.headD (fin 0)], perSTeVCm2⟩) (exFit sort) (fun _ => [0, 0]) = .ok r := by
  obtain ⟨sort, hs⟩ := nmSort_exists
  have hp : 0 < [(2:ℝ), 5].length := by simp
  obtain ⟨r, y, q, h1, h2, h3, -⟩ := C65_end_to_end sort hs
    ⟨.list, [2, 5].map fin, some ["norm".toList, "index".toList], 10, true, true, none⟩ [2, 5] rfl (Or.inl rfl) rfl rfl
    0 (by decide) (by simp) exLabels_norm.1 exLabels_norm.2 (exTable 3) (by simp [exTable]) (Or.inl rfl)
    (fun p => [p.headD 0, p.headD 0]) perSTeVCm2 (Or.inl rfl)
    (fun p => .ok ⟨[p.headD (fin 0), p.headD (fin 0)], perSTeVCm2⟩)
    (by intro p; cases p <;> simp)
    ⟨Iff.rfl, Iff.rfl⟩ (by simp [exTable]) exTable_flux.1 exTable_flux.2 (exNorm_prop [2, 5] hp)
    (fun v => fin (-(v.headD 0 - 3) ^ 2)) (fun _ => fin 0) (by simp) (exFit sort) (exFit_fin sort) (fun _ => [0, 0])
  exact ⟨sort, r, hs, _, q, h3, h2, h1⟩

end Naima.Props
