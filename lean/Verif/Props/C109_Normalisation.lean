import Verif.Props.C40_C43_LnProb
import Mathlib.Analysis.Convex.Mul
import Mathlib.Analysis.Convex.SpecificFunctions.Basic
import Mathlib.Analysis.Convex.Function
import Mathlib.Topology.Semicontinuity.Basic

/-! # C109: fitting a normalisation

The likelihood of `A` times a fixed spectrum, as a function of the normalisation `A`. -/

namespace Naima.Props

open Naima Spec XR Classical

/-! ### Specification -/

/-- The spectrum `ms` times the normalisation `A`. -/
noncomputable def scaledBy (A : ℝ) (ms : List ℝ) : List ℝ := ms.map (A * ·)

/-- `Σ m²/σ²`, the inverse variance of the normalisation (errors taken as `flux_error_lo`). -/
noncomputable def invVar (ms : List ℝ) (rows : List Row) : ℝ :=
  ((ms.zip rows).map (fun p => p.1 ^ 2 / p.2.fluxErrorLo ^ 2)).sum

/-- `Σ m f/σ² / Σ m²/σ²`, the weighted mean of the normalisation. -/
noncomputable def weightedMean (ms : List ℝ) (rows : List Row) : ℝ :=
  ((ms.zip rows).map (fun p => p.1 * p.2.flux / p.2.fluxErrorLo ^ 2)).sum / invVar ms rows

/-! ### One point -/

theorem chi2_split (x : ℝ) (r : Row) (h1 : 0 < r.fluxErrorLo) (h2 : 0 < r.fluxErrorHi) :
    chi2 x r = min (1 / r.fluxErrorHi ^ 2) (1 / r.fluxErrorLo ^ 2) * (x - r.flux) ^ 2 +
      (1 / r.fluxErrorHi ^ 2 - min (1 / r.fluxErrorHi ^ 2) (1 / r.fluxErrorLo ^ 2)) * max (x - r.flux) 0 ^ 2 +
      (1 / r.fluxErrorLo ^ 2 - min (1 / r.fluxErrorHi ^ 2) (1 / r.fluxErrorLo ^ 2)) * max (r.flux - x) 0 ^ 2 := by
  unfold chi2
  split_ifs with h
  · rw [max_eq_left (by linarith : 0 ≤ x - r.flux), max_eq_right (by linarith : r.flux - x ≤ 0), div_pow]
    ring
  · rw [max_eq_right (by linarith : x - r.flux ≤ 0), max_eq_left (by linarith : 0 ≤ r.flux - x), div_pow]
    ring

theorem chi2_ge (x : ℝ) (r : Row) (h1 : 0 < r.fluxErrorLo) (h2 : 0 < r.fluxErrorHi) :
    min (1 / r.fluxErrorHi ^ 2) (1 / r.fluxErrorLo ^ 2) * (x - r.flux) ^ 2 ≤ chi2 x r := by
  rw [chi2_split x r h1 h2]
  have a1 := mul_nonneg (sub_nonneg.2 (min_le_left (1 / r.fluxErrorHi ^ 2) (1 / r.fluxErrorLo ^ 2)))
    (sq_nonneg (max (x - r.flux) 0))
  have a2 := mul_nonneg (sub_nonneg.2 (min_le_right (1 / r.fluxErrorHi ^ 2) (1 / r.fluxErrorLo ^ 2)))
    (sq_nonneg (max (r.flux - x) 0))
  linarith

theorem affine_cvx (m f : ℝ) : ConvexOn ℝ Set.univ (fun A : ℝ => A * m - f) := by
  refine ⟨convex_univ, ?_⟩
  intro x _ y _ a b _ _ hab
  simp only [smul_eq_mul]
  apply le_of_eq
  have : b = 1 - a := by linarith
  subst this
  ring

theorem affine_cvx' (m f : ℝ) : ConvexOn ℝ Set.univ (fun A : ℝ => f - A * m) := by
  refine (affine_cvx (-m) (-f)).congr ?_
  intro A _
  ring

theorem posPart_sq_cvx {g : ℝ → ℝ} (hg : ConvexOn ℝ Set.univ g) :
    ConvexOn ℝ Set.univ (fun A => max (g A) 0 ^ 2) :=
  (hg.sup (convexOn_const 0 convex_univ)).pow (fun _ _ => le_max_right _ _) 2

theorem sq_cvx (m f : ℝ) : ConvexOn ℝ Set.univ (fun A : ℝ => (A * m - f) ^ 2) := by
  refine ⟨convex_univ, ?_⟩
  intro x _ y _ a b ha hb hab
  simp only [smul_eq_mul]
  have : b = 1 - a := by linarith
  subst this
  nlinarith [mul_nonneg (mul_nonneg ha hb) (sq_nonneg ((x - y) * m))]

theorem sq_scvx (m f : ℝ) (hm : m ≠ 0) : StrictConvexOn ℝ Set.univ (fun A : ℝ => (A * m - f) ^ 2) := by
  refine ⟨convex_univ, ?_⟩
  intro x _ y _ hxy a b ha hb hab
  simp only [smul_eq_mul]
  have : b = 1 - a := by linarith
  subst this
  have h0 : 0 < ((x - y) * m) ^ 2 := by
    have := mul_ne_zero (sub_ne_zero.2 hxy) hm
    positivity
  nlinarith [mul_pos (mul_pos ha hb) h0]

theorem chi2_cvx (m : ℝ) (r : Row) (h1 : 0 < r.fluxErrorLo) (h2 : 0 < r.fluxErrorHi) :
    ConvexOn ℝ Set.univ (fun A => chi2 (A * m) r) ∧
    (m ≠ 0 → StrictConvexOn ℝ Set.univ (fun A => chi2 (A * m) r)) := by
  have hc : 0 < min (1 / r.fluxErrorHi ^ 2) (1 / r.fluxErrorLo ^ 2) := lt_min (by positivity) (by positivity)
  have g1 := (posPart_sq_cvx (affine_cvx m r.flux)).smul
    (c := 1 / r.fluxErrorHi ^ 2 - min (1 / r.fluxErrorHi ^ 2) (1 / r.fluxErrorLo ^ 2))
    (sub_nonneg.2 (min_le_left _ _))
  have g2 := (posPart_sq_cvx (affine_cvx' m r.flux)).smul
    (c := 1 / r.fluxErrorLo ^ 2 - min (1 / r.fluxErrorHi ^ 2) (1 / r.fluxErrorLo ^ 2))
    (sub_nonneg.2 (min_le_right _ _))
  have e : (fun A => chi2 (A * m) r) = fun A =>
      min (1 / r.fluxErrorHi ^ 2) (1 / r.fluxErrorLo ^ 2) * (A * m - r.flux) ^ 2 +
      ((1 / r.fluxErrorHi ^ 2 - min (1 / r.fluxErrorHi ^ 2) (1 / r.fluxErrorLo ^ 2)) * max (A * m - r.flux) 0 ^ 2 +
      (1 / r.fluxErrorLo ^ 2 - min (1 / r.fluxErrorHi ^ 2) (1 / r.fluxErrorLo ^ 2)) * max (r.flux - A * m) 0 ^ 2) := by
    funext A
    rw [chi2_split _ r h1 h2]; ring
  rw [e]
  refine ⟨((sq_cvx m r.flux).smul hc.le).add (g1.add g2), fun hm => ?_⟩
  have s : StrictConvexOn ℝ Set.univ
      (fun A : ℝ => min (1 / r.fluxErrorHi ^ 2) (1 / r.fluxErrorLo ^ 2) * (A * m - r.flux) ^ 2) := by
    have := sq_scvx m r.flux hm
    refine ⟨convex_univ, ?_⟩
    intro x hx y hy hxy a b ha hb hab
    have h := mul_lt_mul_of_pos_left (this.2 hx hy hxy ha hb hab) hc
    simp only [smul_eq_mul] at h ⊢
    linarith
  exact s.add_convexOn (g1.add g2)

theorem chi2_cont (m : ℝ) (r : Row) (h1 : 0 < r.fluxErrorLo) (h2 : 0 < r.fluxErrorHi) :
    Continuous (fun A => chi2 (A * m) r) := by
  have e : (fun A => chi2 (A * m) r) = fun A =>
      min (1 / r.fluxErrorHi ^ 2) (1 / r.fluxErrorLo ^ 2) * (A * m - r.flux) ^ 2 +
      (1 / r.fluxErrorHi ^ 2 - min (1 / r.fluxErrorHi ^ 2) (1 / r.fluxErrorLo ^ 2)) * max (A * m - r.flux) 0 ^ 2 +
      (1 / r.fluxErrorLo ^ 2 - min (1 / r.fluxErrorHi ^ 2) (1 / r.fluxErrorLo ^ 2)) * max (r.flux - A * m) 0 ^ 2 := by
    funext A
    rw [chi2_split _ r h1 h2]
  rw [e]
  fun_prop

/-! ### All points -/

/-- measured points -/
noncomputable def gPart (l : List (ℝ × Row)) (A : ℝ) : ℝ :=
  (l.map (fun p => if p.2.ul then 0 else -(1 / 2) * chi2 (A * p.1) p.2)).sum

/-- upper limits -/
noncomputable def uPart (c : ℝ) (l : List (ℝ × Row)) (A : ℝ) : ℝ :=
  (l.map (fun p => if p.2.ul then (if p.2.flux < A * p.1 then Real.log (1 - c) else 0) else 0)).sum

theorem zip_scaled (A : ℝ) (ms : List ℝ) (rows : List Row) :
    (scaledBy A ms).zip rows = (ms.zip rows).map (fun p => (A * p.1, p.2)) := by
  unfold scaledBy
  rw [List.zip_map_left]
  rfl

theorem lnL_parts (A c : ℝ) (ms : List ℝ) (rows : List Row) :
    lnL (scaledBy A ms) rows (fun _ => c) = gPart (ms.zip rows) A + uPart c (ms.zip rows) A := by
  unfold lnL gPart uPart
  rw [zip_scaled]
  induction ms.zip rows with
  | nil => simp
  | cons p l ih =>
    simp only [List.map_cons, List.sum_cons, List.map_map] at ih ⊢
    rw [ih]
    split_ifs <;> ring

theorem list_sum_nonpos (l : List ℝ) (h : ∀ x ∈ l, x ≤ 0) : l.sum ≤ 0 := by
  induction l with
  | nil => simp
  | cons a l ih =>
    rw [List.sum_cons]
    exact add_nonpos (h a (by simp)) (ih fun x hx => h x (by simp [hx]))

theorem chi2_nonneg (x : ℝ) (r : Row) : 0 ≤ chi2 x r := sq_nonneg _

theorem gPart_concave (l : List (ℝ × Row)) (h1 : ∀ p ∈ l, 0 < p.2.fluxErrorLo) (h2 : ∀ p ∈ l, 0 < p.2.fluxErrorHi) :
    ConcaveOn ℝ Set.univ (gPart l) ∧
    ((∃ p ∈ l, p.2.ul = false ∧ p.1 ≠ 0) → StrictConcaveOn ℝ Set.univ (gPart l)) := by
  induction l with
  | nil =>
    refine ⟨?_, fun h => by simp at h⟩
    have : gPart [] = fun _ => 0 := by funext A; simp [gPart]
    rw [this]
    exact concaveOn_const 0 convex_univ
  | cons p l ih =>
    obtain ⟨i1, i2⟩ := ih (fun q h => h1 q (by simp [h])) (fun q h => h2 q (by simp [h]))
    have e : gPart (p :: l) = (fun A => if p.2.ul then 0 else -(1 / 2) * chi2 (A * p.1) p.2) + gPart l := by
      funext A; simp [gPart]
    rw [e]
    obtain ⟨c1, c2⟩ := chi2_cvx p.1 p.2 (h1 p (by simp)) (h2 p (by simp))
    have t1 : ConcaveOn ℝ Set.univ (fun A => if p.2.ul then 0 else -(1 / 2) * chi2 (A * p.1) p.2) := by
      by_cases hu : p.2.ul
      · simp only [hu, if_true]; exact concaveOn_const 0 convex_univ
      · simp only [hu, Bool.false_eq_true, if_false]
        refine ((c1.smul (c := 1 / 2) (by norm_num)).neg).congr ?_
        intro A _
        simp
    refine ⟨t1.add i1, ?_⟩
    rintro ⟨q, hq, hu, hm⟩
    rcases List.mem_cons.1 hq with rfl | hq
    · have t2 : StrictConcaveOn ℝ Set.univ (fun A => if q.2.ul then 0 else -(1 / 2) * chi2 (A * q.1) q.2) := by
        simp only [hu, Bool.false_eq_true, if_false]
        refine ⟨convex_univ, ?_⟩
        intro x hx y hy hxy a b ha hb hab
        have := (c2 hm).2 hx hy hxy ha hb hab
        simp only [smul_eq_mul] at this ⊢
        linarith
      exact t2.add_concaveOn i1
    · exact t1.add_strictConcaveOn (i2 ⟨q, hq, hu, hm⟩)

theorem gPart_nonpos (l : List (ℝ × Row)) (A : ℝ) : gPart l A ≤ 0 := by
  unfold gPart
  apply list_sum_nonpos
  intro x hx
  obtain ⟨p, -, rfl⟩ := List.mem_map.1 hx
  split_ifs
  · exact le_rfl
  · exact mul_nonpos_of_nonpos_of_nonneg (by norm_num) (chi2_nonneg (A * p.1) p.2)

theorem gPart_le (l : List (ℝ × Row)) (p : ℝ × Row) (hp : p ∈ l) (hu : p.2.ul = false) (A : ℝ) :
    gPart l A ≤ -(1 / 2) * chi2 (A * p.1) p.2 := by
  induction l with
  | nil => simp at hp
  | cons q l ih =>
    have e : gPart (q :: l) A = (if q.2.ul then 0 else -(1 / 2) * chi2 (A * q.1) q.2) + gPart l A := by
      simp [gPart]
    rw [e]
    rcases List.mem_cons.1 hp with rfl | hp
    · rw [hu]
      have := gPart_nonpos l A
      simp only [Bool.false_eq_true, if_false]
      linarith
    · have := ih hp
      have h0 : (if q.2.ul then 0 else -(1 / 2) * chi2 (A * q.1) q.2) ≤ 0 := by
        split_ifs
        · exact le_rfl
        · have := chi2_nonneg (A * q.1) q.2
          linarith
      linarith

theorem gPart_cont (l : List (ℝ × Row)) (h1 : ∀ p ∈ l, 0 < p.2.fluxErrorLo) (h2 : ∀ p ∈ l, 0 < p.2.fluxErrorHi) :
    Continuous (gPart l) := by
  induction l with
  | nil =>
    have : gPart [] = fun _ => 0 := by funext A; simp [gPart]
    rw [this]; exact continuous_const
  | cons p l ih =>
    have e : gPart (p :: l) = (fun A => if p.2.ul then 0 else -(1 / 2) * chi2 (A * p.1) p.2) + gPart l := by
      funext A; simp [gPart]
    rw [e]
    refine Continuous.add ?_ (ih (fun q h => h1 q (by simp [h])) (fun q h => h2 q (by simp [h])))
    by_cases hu : p.2.ul
    · simp only [hu, if_true]; exact continuous_const
    · simp only [hu, Bool.false_eq_true, if_false]
      exact (chi2_cont p.1 p.2 (h1 p (by simp)) (h2 p (by simp))).const_mul _ |>.congr (fun _ => rfl)

theorem uPart_nonpos (c : ℝ) (hc0 : 0 ≤ c) (hc : c < 1) (l : List (ℝ × Row)) (A : ℝ) : uPart c l A ≤ 0 := by
  unfold uPart
  apply list_sum_nonpos
  intro x hx
  obtain ⟨p, -, rfl⟩ := List.mem_map.1 hx
  have : Real.log (1 - c) ≤ 0 := Real.log_nonpos (by linarith) (by linarith)
  split_ifs <;> first | exact le_rfl | exact this

theorem uPart_usc (c : ℝ) (hc0 : 0 ≤ c) (hc : c < 1) (l : List (ℝ × Row)) : UpperSemicontinuous (uPart c l) := by
  induction l with
  | nil =>
    have : uPart c [] = fun _ => 0 := by funext A; simp [uPart]
    rw [this]; exact continuous_const.upperSemicontinuous
  | cons p l ih =>
    have e : uPart c (p :: l) = fun A => (if p.2.ul then (if p.2.flux < A * p.1 then Real.log (1 - c) else 0) else 0) +
        uPart c l A := by
      funext A; simp [uPart]
    rw [e]
    refine UpperSemicontinuous.add ?_ ih
    have hlog : Real.log (1 - c) ≤ 0 := Real.log_nonpos (by linarith) (by linarith)
    by_cases hu : p.2.ul
    · simp only [hu, if_true]
      intro x y hy
      by_cases hv : p.2.flux < x * p.1
      · simp only [hv, if_true] at hy
        have ho : IsOpen {A : ℝ | p.2.flux < A * p.1} := isOpen_lt continuous_const (by fun_prop)
        filter_upwards [ho.mem_nhds hv] with A hA
        have hA' : p.2.flux < A * p.1 := hA
        simp only [hA', if_true]; exact hy
      · simp only [hv, if_false] at hy
        filter_upwards with A
        split_ifs
        · linarith
        · exact hy
    · simp only [hu, Bool.false_eq_true, if_false]
      exact continuous_const.upperSemicontinuous

theorem uPart_antitone (c : ℝ) (hc0 : 0 ≤ c) (hc : c < 1) (l : List (ℝ × Row))
    (hm : ∀ p ∈ l, p.2.ul = true → 0 ≤ p.1) (A B : ℝ) (h : A ≤ B) : uPart c l B ≤ uPart c l A := by
  unfold uPart
  apply List.sum_le_sum
  intro p hp
  have : Real.log (1 - c) ≤ 0 := Real.log_nonpos (by linarith) (by linarith)
  by_cases hu : p.2.ul
  · simp only [hu, if_true]
    have h1 := mul_le_mul_of_nonneg_right h (hm p hp hu)
    split_ifs <;> first | exact le_rfl | exact this | (exfalso; linarith)
  · simp [hu]

/-- a maximum exists -/
theorem exists_best (c : ℝ) (hc0 : 0 ≤ c) (hc : c < 1) (l : List (ℝ × Row)) (h1 : ∀ p ∈ l, 0 < p.2.fluxErrorLo)
    (h2 : ∀ p ∈ l, 0 < p.2.fluxErrorHi) (p : ℝ × Row) (hp : p ∈ l) (hu : p.2.ul = false) (hm : p.1 ≠ 0) :
    ∃ A, ∀ B, gPart l B + uPart c l B ≤ gPart l A + uPart c l A := by
  set L : ℝ → ℝ := fun A => gPart l A + uPart c l A with hL
  have husc : UpperSemicontinuous L := (gPart_cont l h1 h2).upperSemicontinuous.add (uPart_usc c hc0 hc l)
  set k := min (1 / p.2.fluxErrorHi ^ 2) (1 / p.2.fluxErrorLo ^ 2) with hk
  have hk0 : 0 < k := by
    have := h1 p hp; have := h2 p hp
    exact lt_min (by positivity) (by positivity)
  have hL0 : L 0 ≤ 0 := add_nonpos (gPart_nonpos l 0) (uPart_nonpos c hc0 hc l 0)
  set R := (|p.2.flux| + Real.sqrt (-2 * L 0 / k)) / |p.1| with hR
  have hm0 : 0 < |p.1| := abs_pos.2 hm
  have hR0 : 0 ≤ R := by positivity
  have far : ∀ B, R < |B| → L B ≤ L 0 := by
    intro B hB
    have b1 := gPart_le l p hp hu B
    have b2 := chi2_ge (B * p.1) p.2 (h1 p hp) (h2 p hp)
    have b3 := uPart_nonpos c hc0 hc l B
    have b4 : Real.sqrt (-2 * L 0 / k) ≤ |B * p.1 - p.2.flux| := by
      rw [hR, div_lt_iff₀ hm0] at hB
      have := abs_sub_abs_le_abs_sub (B * p.1) p.2.flux
      rw [abs_mul] at this
      linarith
    have b5 : -2 * L 0 / k ≤ (B * p.1 - p.2.flux) ^ 2 := by
      rw [← sq_abs (B * p.1 - p.2.flux)]
      exact (Real.sqrt_le_left (abs_nonneg _)).1 b4
    rw [div_le_iff₀ hk0] at b5
    show gPart l B + uPart c l B ≤ L 0
    rw [← hk] at b2
    nlinarith
  obtain ⟨A, hA, hmax⟩ := UpperSemicontinuousOn.exists_isMaxOn (s := Set.Icc (-R) R) (f := L)
    ⟨0, by constructor <;> linarith⟩ isCompact_Icc (husc.upperSemicontinuousOn _)
  refine ⟨A, fun B => ?_⟩
  by_cases hB : |B| ≤ R
  · exact hmax (abs_le.1 hB)
  · push Not at hB
    exact (far B hB).trans (hmax (⟨by linarith, by linarith⟩ : (0 : ℝ) ∈ Set.Icc (-R) R))

/-! ### The theorems -/

/-- **C109 (unique best fit).** For every data table without upper limits and every spectrum that does not vanish
at all of its energies: the log-likelihood of `A` times the spectrum is a strictly concave function of `A` and exactly
one normalisation maximises it. -/
theorem C109_unique (ms : List ℝ) (u : PhysUnit) (data : VTable) (hd : GoodData data)
    (hl : ms.length = data.rows.length) (hu : u.dim = data.fluxU.dim) (hul : ∀ r ∈ data.rows, r.ul = false)
    (hm : ∃ m ∈ ms, m ≠ 0) :
    ∃ L : ℝ → ℝ, (∀ A, lnprobmodel ⟨(scaledBy A ms).map fin, u⟩ data = .ok (fin (L A))) ∧
      StrictConcaveOn ℝ Set.univ L ∧ ∃! A, ∀ B, L B ≤ L A := by
  have hz : ∀ p ∈ ms.zip data.rows, p.2 ∈ data.rows := fun p hp => (List.of_mem_zip hp).2
  have e : ∀ A, gaussLnL (scaledBy A ms) data.rows = gPart (ms.zip data.rows) A := by
    intro A
    unfold gaussLnL gPart
    rw [zip_scaled, List.map_map, ← List.sum_map_mul_left]
    congr 1
    apply List.map_congr_left
    intro p hp
    simp [hul p.2 (hz p hp)]
  obtain ⟨m, hmm, hm0⟩ := hm
  obtain ⟨i, hi, rfl⟩ := List.getElem_of_mem hmm
  have hi2 : i < data.rows.length := by omega
  have hmem : (ms[i], data.rows[i]) ∈ ms.zip data.rows := by
    rw [List.mem_iff_getElem]
    exact ⟨i, by simp; omega, by simp⟩
  have h1 : ∀ p ∈ ms.zip data.rows, 0 < p.2.fluxErrorLo := fun p hp => hd.errLo _ (hz p hp)
  have h2 : ∀ p ∈ ms.zip data.rows, 0 < p.2.fluxErrorHi := fun p hp => hd.errHi _ (hz p hp)
  have hs := (gPart_concave (ms.zip data.rows) h1 h2).2 ⟨_, hmem, hul _ (hz _ hmem), hm0⟩
  refine ⟨gPart (ms.zip data.rows), fun A => ?_, hs, ?_⟩
  · rw [C40_gaussian (scaledBy A ms) u data hd (by simpa [scaledBy] using hl) hu hul, e A]
  · obtain ⟨A, hA⟩ := exists_best 0 le_rfl one_pos (ms.zip data.rows) h1 h2 _ hmem (hul _ (hz _ hmem)) hm0
    have h0 : ∀ B, uPart 0 (ms.zip data.rows) B = 0 := by
      intro B
      unfold uPart
      apply List.sum_eq_zero
      intro x hx
      obtain ⟨p, hp, rfl⟩ := List.mem_map.1 hx
      simp
    simp only [h0, add_zero] at hA
    refine ⟨A, hA, fun B hB => ?_⟩
    exact hs.eq_of_isMaxOn (fun x _ => hB x) (fun x _ => hA x) (Set.mem_univ _) (Set.mem_univ _)

/-- **C109 (symmetric errors).** With equal lower and upper errors the log-likelihood is the parabola around the
weighted mean `Σ m f/σ² / Σ m²/σ²` of curvature `Σ m²/σ²`. -/
theorem C109_weighted_mean (ms : List ℝ) (u : PhysUnit) (data : VTable) (hd : GoodData data)
    (hl : ms.length = data.rows.length) (hu : u.dim = data.fluxU.dim) (hul : ∀ r ∈ data.rows, r.ul = false)
    (hm : ∃ m ∈ ms, m ≠ 0) (hsym : ∀ r ∈ data.rows, r.fluxErrorHi = r.fluxErrorLo) :
    ∃ top : ℝ, 0 < invVar ms data.rows ∧ ∀ A, lnprobmodel ⟨(scaledBy A ms).map fin, u⟩ data =
      .ok (fin (top - 1 / 2 * invVar ms data.rows * (A - weightedMean ms data.rows) ^ 2)) := by
  have hz : ∀ p ∈ ms.zip data.rows, p.2 ∈ data.rows := fun p hp => (List.of_mem_zip hp).2
  obtain ⟨m, hmm, hm0⟩ := hm
  obtain ⟨i, hi, rfl⟩ := List.getElem_of_mem hmm
  have hi2 : i < data.rows.length := by omega
  have hmem : (ms[i], data.rows[i]) ∈ ms.zip data.rows := by
    rw [List.mem_iff_getElem]
    exact ⟨i, by simp; omega, by simp⟩
  have hpos : 0 < invVar ms data.rows := by
    unfold invVar
    have hnn : ∀ x ∈ (ms.zip data.rows).map (fun p => p.1 ^ 2 / p.2.fluxErrorLo ^ 2), 0 ≤ x := by
      intro x hx
      obtain ⟨p, -, rfl⟩ := List.mem_map.1 hx
      positivity
    refine lt_of_lt_of_le ?_ (List.single_le_sum hnn _ (List.mem_map.2 ⟨_, hmem, rfl⟩))
    have := hd.errLo _ (hz _ hmem)
    have : 0 < ms[i] ^ 2 := by positivity
    positivity
  refine ⟨-(1 / 2) * ((ms.zip data.rows).map (fun p => p.2.flux ^ 2 / p.2.fluxErrorLo ^ 2)).sum +
    1 / 2 * invVar ms data.rows * weightedMean ms data.rows ^ 2, hpos, fun A => ?_⟩
  rw [C40_gaussian (scaledBy A ms) u data hd (by simpa [scaledBy] using hl) hu hul]
  congr 2
  have key : ∀ l : List (ℝ × Row), (∀ p ∈ l, p.2.fluxErrorHi = p.2.fluxErrorLo) →
      (l.map (fun p => chi2 (A * p.1) p.2)).sum =
        A ^ 2 * (l.map (fun p => p.1 ^ 2 / p.2.fluxErrorLo ^ 2)).sum -
        2 * A * (l.map (fun p => p.1 * p.2.flux / p.2.fluxErrorLo ^ 2)).sum +
        (l.map (fun p => p.2.flux ^ 2 / p.2.fluxErrorLo ^ 2)).sum := by
    intro l hs
    induction l with
    | nil => simp
    | cons p l ih =>
      simp only [List.map_cons, List.sum_cons]
      rw [ih (fun q hq => hs q (by simp [hq]))]
      unfold chi2
      rw [hs p (by simp)]
      simp only [ite_self, div_pow]
      ring
  unfold gaussLnL
  rw [zip_scaled, List.map_map]
  have k := key (ms.zip data.rows) (fun p hp => hsym _ (hz p hp))
  have hcomp : ((fun p : ℝ × Row => chi2 p.1 p.2) ∘ fun p : ℝ × Row => (A * p.1, p.2)) =
    fun p => chi2 (A * p.1) p.2 := rfl
  rw [hcomp, k]
  unfold weightedMean
  have e : invVar ms data.rows = ((ms.zip data.rows).map (fun p => p.1 ^ 2 / p.2.fluxErrorLo ^ 2)).sum := rfl
  rw [← e]
  generalize ((ms.zip data.rows).map (fun p => p.1 * p.2.flux / p.2.fluxErrorLo ^ 2)).sum = S
  generalize ((ms.zip data.rows).map (fun p => p.2.flux ^ 2 / p.2.fluxErrorLo ^ 2)).sum = T
  generalize invVar ms data.rows = V at hpos ⊢
  field_simp
  ring

/-- **C109 (recovery).** If the data are `A₀` times the spectrum, the best normalisation is `A₀`, whatever the
errors: its log-likelihood is 0 and every other one is negative. -/
theorem C109_recovers (ms : List ℝ) (u : PhysUnit) (data : VTable) (hd : GoodData data)
    (hu : u.dim = data.fluxU.dim) (hul : ∀ r ∈ data.rows, r.ul = false) (hm : ∃ m ∈ ms, m ≠ 0) (A₀ : ℝ)
    (hdata : data.rows.map (·.flux) = scaledBy A₀ ms) :
    lnprobmodel ⟨(scaledBy A₀ ms).map fin, u⟩ data = .ok (fin 0) ∧
    ∀ A, A ≠ A₀ → ∃ v < 0, lnprobmodel ⟨(scaledBy A ms).map fin, u⟩ data = .ok (fin v) := by
  have hlen : ms.length = data.rows.length := by
    have := congrArg List.length hdata
    simpa [scaledBy] using this.symm
  have hval : ∀ A, lnprobmodel ⟨(scaledBy A ms).map fin, u⟩ data =
      .ok (fin (gaussLnL (scaledBy A ms) data.rows)) := fun A =>
    C40_gaussian _ u data hd (by simpa [scaledBy] using hlen) hu hul
  have hmax : ∀ A, gaussLnL (scaledBy A ms) data.rows ≤ 0 ∧
      (gaussLnL (scaledBy A ms) data.rows = 0 ↔ scaledBy A ms = data.rows.map (·.flux)) := fun A =>
    C40_max _ _ (by simpa [scaledBy] using hlen) hd.errLo hd.errHi
  refine ⟨by rw [hval, (hmax A₀).2.2 hdata.symm], fun A hA => ⟨_, ?_, hval A⟩⟩
  refine lt_of_le_of_ne (hmax A).1 fun h => ?_
  have h2 := ((hmax A).2.1 h).trans hdata
  obtain ⟨m, hmm, hm0⟩ := hm
  obtain ⟨i, hi, rfl⟩ := List.getElem_of_mem hmm
  have := congrArg (fun l : List ℝ => l[i]?) h2
  simp only [scaledBy, List.getElem?_map, List.getElem?_eq_getElem hi, Option.map_some, Option.some.injEq] at this
  exact hA (mul_right_cancel₀ hm0 this)

/-- **C109 (upper limits).** With upper limits at a common confidence level, and at least one measured point where
the spectrum does not vanish: some normalisation maximises the log-likelihood, and, for a spectrum that is nowhere
negative, no such normalisation is above the one that maximises the likelihood of the measured points alone. -/
theorem C109_upper_limits (ms : List ℝ) (u : PhysUnit) (data : VTable) (hd : GoodData data)
    (hl : ms.length = data.rows.length) (hu : u.dim = data.fluxU.dim) (c : ℝ) (hc0 : 0 ≤ c) (hc : c < 1)
    (hcl : ∀ r ∈ data.rows, r.cl = fin c) (hm : ∃ p ∈ ms.zip data.rows, p.2.ul = false ∧ p.1 ≠ 0) :
    ∃ L M : ℝ → ℝ, (∀ A, lnprobmodel ⟨(scaledBy A ms).map fin, u⟩ data = .ok (fin (L A))) ∧
      (∀ A, lnprobmodel ⟨(((ms.zip data.rows).filter (fun p => !p.2.ul)).map (fun p => A * p.1)).map fin, u⟩
        { data with rows := data.rows.filter (fun r => !r.ul) } = .ok (fin (M A))) ∧
      (∃ A, ∀ B, L B ≤ L A) ∧
      ((∀ m ∈ ms, 0 ≤ m) → ∀ A A', (∀ B, L B ≤ L A) → (∀ B, M B ≤ M A') → A ≤ A') := by
  have hz : ∀ p ∈ ms.zip data.rows, p.2 ∈ data.rows := fun p hp => (List.of_mem_zip hp).2
  have h1 : ∀ p ∈ ms.zip data.rows, 0 < p.2.fluxErrorLo := fun p hp => hd.errLo _ (hz p hp)
  have h2 : ∀ p ∈ ms.zip data.rows, 0 < p.2.fluxErrorHi := fun p hp => hd.errHi _ (hz p hp)
  obtain ⟨p, hp, hpu, hp0⟩ := hm
  refine ⟨fun A => gPart (ms.zip data.rows) A + uPart c (ms.zip data.rows) A, gPart (ms.zip data.rows),
    fun A => ?_, fun A => ?_, exists_best c hc0 hc _ h1 h2 p hp hpu hp0, ?_⟩
  · rw [C41_common_cl_partial (scaledBy A ms) u data hd (by simpa [scaledBy] using hl) hu c hc hcl ?_, lnL_parts]
    refine ⟨(A * p.1, p.2), ?_, Or.inl hpu⟩
    rw [zip_scaled]
    exact List.mem_map.2 ⟨p, hp, rfl⟩
  · have hzip : ∀ (ms : List ℝ) (rows : List Row), ms.length = rows.length →
        rows.filter (fun r => !r.ul) = ((ms.zip rows).filter (fun p => !p.2.ul)).map (·.2) := by
      intro ms
      induction ms with
      | nil => intro rows h; cases rows <;> simp at h ⊢
      | cons m ms ih =>
        intro rows h
        cases rows with
        | nil => simp at h
        | cons r rows =>
          have := ih rows (by simpa using h)
          cases hr : r.ul <;> simp [hr, this]
    have hrows := hzip ms data.rows hl
    have hgd : GoodData { data with rows := data.rows.filter (fun r => !r.ul) } :=
      ⟨fun r hr => hd.energy r (List.mem_of_mem_filter hr), fun r hr => hd.errLo r (List.mem_of_mem_filter hr),
        fun r hr => hd.errHi r (List.mem_of_mem_filter hr)⟩
    rw [C40_gaussian _ u { data with rows := data.rows.filter (fun r => !r.ul) } hgd
      (by
        have := congrArg List.length hrows
        simp only [List.length_map] at this ⊢
        exact this.symm) hu
      (fun r hr => by have := (List.mem_filter.1 hr).2; simpa using this)]
    congr 2
    show gaussLnL _ (data.rows.filter (fun r => !r.ul)) = _
    rw [hrows]
    unfold gaussLnL gPart
    have : ∀ l : List (ℝ × Row), -(1 / 2) * ((((l.filter (fun p => !p.2.ul)).map (fun p => A * p.1)).zip
        ((l.filter (fun p => !p.2.ul)).map (·.2))).map (fun p => chi2 p.1 p.2)).sum =
        (l.map (fun p => if p.2.ul then 0 else -(1 / 2) * chi2 (A * p.1) p.2)).sum := by
      intro l
      induction l with
      | nil => simp
      | cons q l ih =>
        cases hq : q.2.ul with
        | true => simpa [hq] using ih
        | false =>
          simp only [List.filter_cons, hq, Bool.not_false, if_true, List.map_cons, List.zip_cons_cons,
            List.sum_cons, Bool.false_eq_true, if_false]
          rw [← ih]
          ring
    exact this _
  · intro hmn A A' hA hA'
    by_contra hlt
    push Not at hlt
    have hs := (gPart_concave (ms.zip data.rows) h1 h2).2 ⟨p, hp, hpu, hp0⟩
    have ha := uPart_antitone c hc0 hc (ms.zip data.rows)
      (fun q hq _ => hmn _ (List.of_mem_zip hq).1) A' A hlt.le
    have hb := hA A'
    have hc' := hA' A
    have heq : gPart (ms.zip data.rows) A = gPart (ms.zip data.rows) A' := by
      simp only at hb
      linarith
    have := hs.eq_of_isMaxOn (x := A) (y := A') (fun x _ => by
      show gPart _ x ≤ gPart _ A
      rw [heq]; exact hA' x) (fun x _ => hA' x) (Set.mem_univ _) (Set.mem_univ _)
    linarith


/-! ### The hypotheses are met -/

/-- two measured points and one limit, at 1, 2 and 3 erg -/
noncomputable def normRow (f lo hi : ℝ) (e : ℝ) (ul : Bool) : Row :=
  { ulRow 0.9 with flux := f, fluxErrorLo := lo, fluxErrorHi := hi, energy := e, ul := ul }

theorem normTable_good (rows : List Row) (h : ∀ r ∈ rows, 0 < r.energy ∧ 0 < r.fluxErrorLo ∧ 0 < r.fluxErrorHi) :
    GoodData (ulTable rows) :=
  ⟨fun r hr => (h r hr).1, fun r hr => (h r hr).2.1, fun r hr => (h r hr).2.2⟩

/-- Two points 2 ± 1 and 5 ± 1 against the spectrum (1, 2): the best normalisation is 12/5. -/
example : ∃ top : ℝ, ∀ A, lnprobmodel ⟨(scaledBy A [1, 2]).map fin, (ulTable []).fluxU⟩
    (ulTable [normRow 2 1 1 1 false, normRow 5 1 1 2 false]) =
      .ok (fin (top - 1 / 2 * 5 * (A - 12 / 5) ^ 2)) := by
  obtain ⟨top, -, h⟩ := C109_weighted_mean [1, 2] (ulTable []).fluxU
    (ulTable [normRow 2 1 1 1 false, normRow 5 1 1 2 false])
    (normTable_good _ (by simp [normRow])) rfl rfl (by simp [ulTable, normRow]) ⟨1, by simp, one_ne_zero⟩
    (by simp [ulTable, normRow])
  refine ⟨top, fun A => ?_⟩
  have e1 : invVar [1, 2] (ulTable [normRow 2 1 1 1 false, normRow 5 1 1 2 false]).rows = 5 := by
    simp [invVar, ulTable, normRow]; norm_num
  have e2 : weightedMean [1, 2] (ulTable [normRow 2 1 1 1 false, normRow 5 1 1 2 false]).rows = 12 / 5 := by
    unfold weightedMean
    rw [e1]
    simp [ulTable, normRow]; norm_num
  rw [h A, e1, e2]

/-- With a limit of 1 at a third energy a best normalisation exists. -/
example : ∃ L : ℝ → ℝ, (∀ A, lnprobmodel ⟨(scaledBy A [1, 2, 1]).map fin, (ulTable []).fluxU⟩
    (ulTable [normRow 2 1 0.5 1 false, normRow 5 1 2 2 false, normRow 1 1 1 3 true]) = .ok (fin (L A))) ∧
    ∃ A, ∀ B, L B ≤ L A := by
  obtain ⟨L, -, h1, -, h2, -⟩ := C109_upper_limits [1, 2, 1] (ulTable []).fluxU
    (ulTable [normRow 2 1 0.5 1 false, normRow 5 1 2 2 false, normRow 1 1 1 3 true])
    (normTable_good _ (by simp [normRow]; norm_num)) rfl rfl 0.9 (by norm_num) (by norm_num)
    (by simp [ulTable, normRow, ulRow]) ⟨(1, normRow 2 1 0.5 1 false), by simp [ulTable], rfl, one_ne_zero⟩
  exact ⟨L, h1, h2⟩

end Naima.Props
