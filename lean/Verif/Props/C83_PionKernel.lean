import Verif.Props.C73_PionFormula
import Mathlib.Analysis.SpecialFunctions.Pow.Continuity

/-! Continuity of the p-p cross section, piece by piece (helpers for C83) -/

namespace Naima.Props

open Naima XR Classical Topology

/-- bounded, and continuous but for finitely many points -/
structure BPC (f : ℝ → ℝ) (a b : ℝ) : Prop where
  bounded : ∃ M, ∀ t ∈ Set.Icc a b, |f t| ≤ M
  continuous : ∃ S : Finset ℝ, ContinuousOn f (Set.Icc a b \ S)

theorem BPC.of_cont {f : ℝ → ℝ} {a b : ℝ} (hc : ContinuousOn f (Set.Icc a b)) : BPC f a b := by
  obtain ⟨M, hM⟩ := isCompact_Icc.bddAbove_image hc.abs
  exact ⟨⟨M, fun t ht => hM ⟨t, ht, rfl⟩⟩, ⟨∅, by simpa using hc⟩⟩

theorem BPC.mul {f g : ℝ → ℝ} {a b : ℝ} (hf : BPC f a b) (hg : BPC g a b) :
    BPC (fun t => f t * g t) a b := by
  obtain ⟨M, hM⟩ := hf.bounded
  obtain ⟨N, hN⟩ := hg.bounded
  obtain ⟨S, hS⟩ := hf.continuous
  obtain ⟨T, hT⟩ := hg.continuous
  refine ⟨⟨M * N, fun t ht => ?_⟩, ⟨S ∪ T, ?_⟩⟩
  · rw [abs_mul]
    exact mul_le_mul (hM t ht) (hN t ht) (abs_nonneg _) ((abs_nonneg _).trans (hM t ht))
  · apply ContinuousOn.mul
    · apply hS.mono; intro t ht; exact ⟨ht.1, fun h => ht.2 (by simp [show t ∈ S from h])⟩
    · apply hT.mono; intro t ht; exact ⟨ht.1, fun h => ht.2 (by simp [show t ∈ T from h])⟩

theorem BPC.add {f g : ℝ → ℝ} {a b : ℝ} (hf : BPC f a b) (hg : BPC g a b) :
    BPC (fun t => f t + g t) a b := by
  obtain ⟨M, hM⟩ := hf.bounded
  obtain ⟨N, hN⟩ := hg.bounded
  obtain ⟨S, hS⟩ := hf.continuous
  obtain ⟨T, hT⟩ := hg.continuous
  refine ⟨⟨M + N, fun t ht => ?_⟩, ⟨S ∪ T, ?_⟩⟩
  · exact (abs_add_le _ _).trans (add_le_add (hM t ht) (hN t ht))
  · apply ContinuousOn.add
    · apply hS.mono; intro t ht; exact ⟨ht.1, fun h => ht.2 (by simp [show t ∈ S from h])⟩
    · apply hT.mono; intro t ht; exact ⟨ht.1, fun h => ht.2 (by simp [show t ∈ T from h])⟩

theorem BPC.congr {f g : ℝ → ℝ} {a b : ℝ} (hf : BPC f a b) (h : ∀ t ∈ Set.Icc a b, g t = f t) :
    BPC g a b := by
  obtain ⟨M, hM⟩ := hf.bounded
  obtain ⟨S, hS⟩ := hf.continuous
  exact ⟨⟨M, fun t ht => by rw [h t ht]; exact hM t ht⟩, ⟨S, hS.congr (fun t ht => h t ht.1)⟩⟩

/-- a seam at `c`; the value at the seam itself is either one -/
theorem BPC.seam {f g k : ℝ → ℝ} {a b : ℝ} (c : ℝ) (hf : BPC f a (min b c)) (hg : BPC g (max a c) b)
    (h1 : ∀ t, t < c → k t = f t) (h2 : ∀ t, c < t → k t = g t) : BPC k a b := by
  obtain ⟨M, hM⟩ := hf.bounded
  obtain ⟨N, hN⟩ := hg.bounded
  obtain ⟨S, hS⟩ := hf.continuous
  obtain ⟨T, hT⟩ := hg.continuous
  refine ⟨⟨max (max M N) |k c|, fun t ht => ?_⟩, ⟨insert c (insert a (insert b (S ∪ T))), ?_⟩⟩
  · rcases lt_trichotomy t c with h | h | h
    · rw [h1 t h]
      exact (hM t ⟨ht.1, le_min ht.2 h.le⟩).trans ((le_max_left _ _).trans (le_max_left _ _))
    · rw [h]; exact le_max_right _ _
    · rw [h2 t h]
      exact (hN t ⟨max_le ht.1 h.le, ht.2⟩).trans ((le_max_right _ _).trans (le_max_left _ _))
  · intro t ht
    have hn : t ≠ c ∧ t ≠ a ∧ t ≠ b ∧ t ∉ S ∧ t ∉ T := by
      have := ht.2
      simp only [Finset.coe_insert, Finset.coe_union, Set.mem_insert_iff, Set.mem_union, Finset.mem_coe] at this
      push Not at this
      exact ⟨this.1, this.2.1, this.2.2.1, this.2.2.2.1, this.2.2.2.2⟩
    have ha : a < t := lt_of_le_of_ne ht.1.1 (Ne.symm hn.2.1)
    have hb : t < b := lt_of_le_of_ne ht.1.2 hn.2.2.1
    have cS : (S : Set ℝ)ᶜ ∈ 𝓝 t := S.finite_toSet.isClosed.isOpen_compl.mem_nhds hn.2.2.2.1
    have cT : (T : Set ℝ)ᶜ ∈ 𝓝 t := T.finite_toSet.isClosed.isOpen_compl.mem_nhds hn.2.2.2.2
    apply ContinuousAt.continuousWithinAt
    rcases lt_or_gt_of_ne hn.1 with h | h
    · have : ContinuousAt f t := by
        apply hS.continuousAt
        filter_upwards [cS, Ioi_mem_nhds ha, Iio_mem_nhds hb, Iio_mem_nhds h] with s q1 q2 q3 q4
        exact ⟨⟨le_of_lt q2, le_min (le_of_lt q3) (le_of_lt q4)⟩, q1⟩
      apply this.congr
      filter_upwards [Iio_mem_nhds h] with s q
      exact (h1 s q).symm
    · have : ContinuousAt g t := by
        apply hT.continuousAt
        filter_upwards [cT, Ioi_mem_nhds ha, Iio_mem_nhds hb, Ioi_mem_nhds h] with s q1 q2 q3 q4
        exact ⟨⟨max_le (le_of_lt q2) (le_of_lt q4), le_of_lt q3⟩, q1⟩
      apply this.congr
      filter_upwards [Ioi_mem_nhds h] with s q
      exact (h2 s q).symm

theorem BPC.ite {f g : ℝ → ℝ} {a b : ℝ} (c : ℝ) (hf : BPC f a (min b c)) (hg : BPC g (max a c) b) :
    BPC (fun t => if t < c then f t else g t) a b :=
  BPC.seam c hf hg (fun t h => if_pos h) (fun t h => if_neg (not_lt.2 h.le))

theorem BPC.ite' {f g : ℝ → ℝ} {a b : ℝ} (c : ℝ) (hf : BPC f a (min b c)) (hg : BPC g (max a c) b) :
    BPC (fun t => if c < t then g t else f t) a b :=
  BPC.seam c hf hg (fun t h => if_neg (not_lt.2 h.le)) (fun t h => if_pos h)

/-! ### the pieces of the cross section, `m > 0`, above threshold -/

variable {m a b : ℝ}

theorem cont_rpow {f : ℝ → ℝ} {s : Set ℝ} (r : ℝ) (hf : ContinuousOn f s) (h : ∀ t ∈ s, 0 < f t) :
    ContinuousOn (fun t => f t ^ r) s := hf.rpow_const (fun t ht => Or.inl (h t ht).ne')

theorem σinel_cont (ha : 0 < a) : ContinuousOn Kafexhiu.σinel (Set.Icc a b) := by
  have hp : ∀ t ∈ Set.Icc a b, 0 < t := fun t ht => ha.trans_le ht.1
  have hT : (0:ℝ) < Kafexhiu.Tth := by unfold Kafexhiu.Tth; norm_num
  have hl : ContinuousOn (fun T => Real.log (T / Kafexhiu.Tth)) (Set.Icc a b) :=
    (continuousOn_id.div_const _).log (fun t ht => (div_pos (hp t ht) hT).ne')
  unfold Kafexhiu.σinel
  apply ContinuousOn.mul _ continuousOn_const
  apply ContinuousOn.mul
  · exact (continuousOn_const.sub (continuousOn_const.mul hl)).add (continuousOn_const.mul (hl.pow 2))
  · apply ContinuousOn.pow
    apply continuousOn_const.sub
    apply cont_rpow
    · exact continuousOn_const.div continuousOn_id (fun t ht => (hp t ht).ne')
    · intro t ht; exact div_pos hT (hp t ht)

theorem s_pos (hm : 0 < m) (t : ℝ) (ht : 0 < t) : 0 < Kafexhiu.s m t := by unfold Kafexhiu.s; positivity

theorem s_cont : Continuous (Kafexhiu.s m) := by unfold Kafexhiu.s; fun_prop

theorem η_cont (hm : 0 < m) (ha : 0 < a) : ContinuousOn (Kafexhiu.η m) (Set.Icc a b) := by
  unfold Kafexhiu.η
  apply ContinuousOn.div
  · have := @s_cont m
    fun_prop
  · have := @s_cont m
    fun_prop
  · intro t ht
    have := Real.sqrt_pos.2 (s_pos hm t (ha.trans_le ht.1))
    have : (0:ℝ) < Kafexhiu.mπ := by unfold Kafexhiu.mπ; norm_num
    positivity

theorem η_nonneg (t : ℝ) : 0 ≤ Kafexhiu.η m t := by
  have : (0:ℝ) < Kafexhiu.mπ := by unfold Kafexhiu.mπ; norm_num
  unfold Kafexhiu.η; positivity

theorem fBW_den (t : ℝ) : 0 < ((Real.sqrt (Kafexhiu.s m t) - m) ^ 2 - Kafexhiu.Mres ^ 2) ^ 2 +
    Kafexhiu.Mres ^ 2 * Kafexhiu.Γres ^ 2 := by
  have : (0:ℝ) < Kafexhiu.Mres ^ 2 * Kafexhiu.Γres ^ 2 := by
    unfold Kafexhiu.Mres Kafexhiu.Γres; norm_num
  positivity

theorem fBW_cont : Continuous (Kafexhiu.fBW m) := by
  have := @s_cont m
  unfold Kafexhiu.fBW
  apply Continuous.div
  · fun_prop
  · fun_prop
  · intro t; exact (fBW_den t).ne'

theorem fBW_pos (hm : 0 < m) (t : ℝ) : 0 < Kafexhiu.fBW m t := by
  unfold Kafexhiu.fBW
  have h := @fBW_den m t
  have h1 : (0:ℝ) < Kafexhiu.Mres := by unfold Kafexhiu.Mres; norm_num
  have h2 : (0:ℝ) < Kafexhiu.Γres := by unfold Kafexhiu.Γres; norm_num
  have h3 : 0 < Real.sqrt (Kafexhiu.Mres ^ 2 * (Kafexhiu.Mres ^ 2 + Kafexhiu.Γres ^ 2)) := by positivity
  have := Real.pi_pos
  positivity

theorem σ1π_cont (hm : 0 < m) (ha : 0 < a) : ContinuousOn (Kafexhiu.σ1π m) (Set.Icc a b) := by
  have hη := η_cont (b := b) hm ha
  unfold Kafexhiu.σ1π
  apply ContinuousOn.mul
  · apply ContinuousOn.mul
    · apply ContinuousOn.mul continuousOn_const
      exact hη.rpow_const (fun t _ => Or.inr (by norm_num))
    · exact (continuousOn_const.add hη).add (hη.pow 5)
  · apply cont_rpow _ fBW_cont.continuousOn
    intro t _; exact fBW_pos hm t

theorem σ2π_bpc : BPC Kafexhiu.σ2π a b := by
  unfold Kafexhiu.σ2π
  apply BPC.ite
  · exact BPC.of_cont continuousOn_const
  · apply BPC.of_cont
    apply Continuous.continuousOn
    apply Continuous.div continuous_const
    · fun_prop
    · intro t
      have := Real.exp_pos (-9.3 * (t - 1.4))
      positivity

theorem nMid_cont : ContinuousOn (Kafexhiu.nMid m) (Set.Icc a b) := by
  apply Continuous.continuousOn
  unfold Kafexhiu.nMid
  fun_prop

theorem nHigh_cont (hm : 0 < m) (ha : 5 ≤ a) (c : ℝ × ℝ × ℝ × ℝ × ℝ) :
    ContinuousOn (fun T => Kafexhiu.nHigh m T c) (Set.Icc a b) := by
  obtain ⟨c1, c2, c3, c4, c5⟩ := c
  have hξ : ContinuousOn (fun T : ℝ => (T - 3) / m) (Set.Icc a b) := by fun_prop
  have hp : ∀ t ∈ Set.Icc a b, 0 < (t - 3) / m := fun t ht => div_pos (by linarith [ht.1]) hm
  have h1 := cont_rpow c4 hξ hp
  have h2 := cont_rpow c5 hξ hp
  have h3 := cont_rpow (1 / 4) hξ hp
  unfold Kafexhiu.nHigh
  exact ((continuousOn_const.mul h1).mul (continuousOn_const.add (continuousOn_const.mul h2).rexp)).mul
    (continuousOn_const.sub (continuousOn_const.mul h3).rexp)

theorem σπ_bpc (M : Kafexhiu.Model) (hm : 0 < m) (ha : 0 < a) : BPC (Kafexhiu.σπ M m) a b := by
  unfold Kafexhiu.σπ
  apply BPC.ite
  · exact (BPC.of_cont (σ1π_cont hm ha)).add σ2π_bpc
  · have h2 : 0 < max a 2 := ha.trans_le (le_max_left _ _)
    apply BPC.ite
    · exact (BPC.of_cont (σinel_cont h2)).mul (BPC.of_cont nMid_cont)
    · have h5 : 0 < max (max a 2) 5 := h2.trans_le (le_max_left _ _)
      apply BPC.ite
      · exact (BPC.of_cont (σinel_cont h5)).mul (BPC.of_cont (nHigh_cont hm (le_max_right _ _) _))
      · exact (BPC.of_cont (σinel_cont (h5.trans_le (le_max_left _ _)))).mul
          (BPC.of_cont (nHigh_cont hm ((le_max_right _ _).trans (le_max_left _ _)) _))

theorem Eπmax_cont (hm : 0 < m) (ha : 0 < a) : ContinuousOn (Kafexhiu.Eπmax m) (Set.Icc a b) := by
  have hs : ContinuousOn (fun T => Real.sqrt (Kafexhiu.s m T)) (Set.Icc a b) := by
    have := @s_cont m
    fun_prop
  have hs0 : ∀ t ∈ Set.Icc a b, Real.sqrt (Kafexhiu.s m t) ≠ 0 := fun t ht =>
    (Real.sqrt_pos.2 (s_pos hm t (ha.trans_le ht.1))).ne'
  have hγ : ContinuousOn (fun T => (T + 2 * m) / Real.sqrt (Kafexhiu.s m T)) (Set.Icc a b) :=
    (by fun_prop : ContinuousOn (fun T => T + 2 * m) (Set.Icc a b)).div hs hs0
  have hγ0 : ∀ t ∈ Set.Icc a b, ((t + 2 * m) / Real.sqrt (Kafexhiu.s m t)) ^ 2 ≠ 0 := by
    intro t ht
    have h1 : 0 < t := ha.trans_le ht.1
    have h2 := Real.sqrt_pos.2 (s_pos hm t h1)
    positivity
  have hE : ContinuousOn (fun T => (Kafexhiu.s m T - 4 * m ^ 2 + Kafexhiu.mπ ^ 2) /
      (2 * Real.sqrt (Kafexhiu.s m T))) (Set.Icc a b) := by
    apply ContinuousOn.div
    · have := @s_cont m
      fun_prop
    · exact continuousOn_const.mul hs
    · intro t ht; exact mul_ne_zero two_ne_zero (hs0 t ht)
  unfold Kafexhiu.Eπmax
  simp only []
  apply hγ.mul
  apply hE.add
  apply ContinuousOn.mul
  · exact ((hE.pow 2).sub continuousOn_const).sqrt
  · exact (continuousOn_const.sub (continuousOn_const.div (hγ.pow 2) hγ0)).sqrt

theorem mProton_pos : 0 < mProton := by rw [← pM_eq]; exact pM_pos

theorem Eπmax_gt (t : ℝ) (h : Kafexhiu.Tth ≤ t) : Kafexhiu.mπ < Kafexhiu.Eπmax mProton t := by
  have := epiMax_gt t h
  rw [epiMax_eq] at this
  exact this

theorem Amax_bpc (M : Kafexhiu.Model) (ha : Kafexhiu.Tth ≤ a) : BPC (Kafexhiu.Amax M mProton) a b := by
  have hm := mProton_pos
  have ha0 : 0 < a := lt_of_lt_of_le (by unfold Kafexhiu.Tth; norm_num) ha
  have hπ : (0:ℝ) < Kafexhiu.mπ := by unfold Kafexhiu.mπ; norm_num
  have piece : ∀ (c : ℝ × ℝ × ℝ) (a' b' : ℝ), 0 < a' → BPC (fun T => c.1 * (T / mProton) ^ (-c.2.1) *
      Real.exp (c.2.2 * Real.log (T / mProton) ^ 2) * (Kafexhiu.σπ M mProton T / mProton)) a' b' := by
    intro c a' b' h
    have hp : ∀ t ∈ Set.Icc a' b', 0 < t / mProton := fun t ht => div_pos (h.trans_le ht.1) hm
    have hq : ContinuousOn (fun T : ℝ => T / mProton) (Set.Icc a' b') := by fun_prop
    apply BPC.mul
    · apply BPC.of_cont
      apply ContinuousOn.mul
      · exact continuousOn_const.mul (cont_rpow _ hq hp)
      · exact (continuousOn_const.mul ((hq.log (fun t ht => (hp t ht).ne')).pow 2)).rexp
    · exact ((σπ_bpc M hm h).mul (BPC.of_cont (f := fun _ => mProton⁻¹) continuousOn_const)).congr
        (fun t _ => div_eq_mul_inv _ _)
  unfold Kafexhiu.Amax
  simp only []
  apply BPC.ite
  · have : BPC (fun T => Kafexhiu.σπ M mProton T * (5.9 / Kafexhiu.Eπmax mProton T)) a (min b 1) := by
      apply (σπ_bpc M hm ha0).mul
      apply BPC.of_cont
      apply continuousOn_const.div (Eπmax_cont hm ha0)
      intro t ht
      exact (hπ.trans (Eπmax_gt t (ha.trans ht.1))).ne'
    exact this.congr (fun t _ => by ring)
  · have h1 : 0 < max a 1 := ha0.trans_le (le_max_left _ _)
    have h5 : 0 < max (max a 1) 5 := h1.trans_le (le_max_left _ _)
    refine BPC.seam 5 (piece (9.53, 0.52, 0.054) _ _ h1)
      (BPC.seam M.T0 (piece Kafexhiu.Model.geant4.b _ _ h5)
        (piece M.b _ _ (h5.trans_le (le_max_left _ _)))
        (k := fun T => (if T < M.T0 then Kafexhiu.Model.geant4.b else M.b).1 *
          (T / mProton) ^ (-(if T < M.T0 then Kafexhiu.Model.geant4.b else M.b).2.1) *
          Real.exp ((if T < M.T0 then Kafexhiu.Model.geant4.b else M.b).2.2 * Real.log (T / mProton) ^ 2) *
            (Kafexhiu.σπ M mProton T / mProton)) ?_ ?_) ?_ ?_
    · intro t h; simp only [if_pos h]
    · intro t h; simp only [if_neg (not_lt.2 h.le)]
    · intro t h; simp only [if_pos h]
    · intro t h; simp only [if_neg (not_lt.2 h.le)]

/-- the shape for given parameters -/
noncomputable def Fp (lam α β γ m T E : ℝ) : ℝ :=
  let X := (E + Kafexhiu.mπ ^ 2 / (4 * E) - Kafexhiu.mπ) / (Kafexhiu.Eπmax m T - Kafexhiu.mπ)
  let C := lam * Kafexhiu.mπ / Kafexhiu.Eπmax m T
  if X < 1 then (1 - X ^ α) ^ β / (1 + X / C) ^ γ else 0

theorem Fp_bpc (lam α E : ℝ) (β γ : ℝ → ℝ) (hlam : 0 < lam) (hα : 0 < α) (hE : 0 < E) (ha : Kafexhiu.Tth ≤ a)
    (hβ : ContinuousOn β (Set.Icc a b)) (hγ : ContinuousOn γ (Set.Icc a b))
    (hβ0 : ∀ t ∈ Set.Icc a b, 0 < β t) : BPC (fun T => Fp lam α (β T) (γ T) mProton T E) a b := by
  have hm := mProton_pos
  have ha0 : 0 < a := lt_of_lt_of_le (by unfold Kafexhiu.Tth; norm_num) ha
  have hπ : (0:ℝ) < Kafexhiu.mπ := by unfold Kafexhiu.mπ; norm_num
  have hmax : ∀ t ∈ Set.Icc a b, 0 < Kafexhiu.Eπmax mProton t - Kafexhiu.mπ := fun t ht => by
    have := Eπmax_gt t (ha.trans ht.1); linarith
  have hy : 0 ≤ E + Kafexhiu.mπ ^ 2 / (4 * E) - Kafexhiu.mπ := by
    have := yg_ge E hE
    have e : Kafexhiu.mπ = pMpi := rfl
    rw [e]; linarith
  have hX0 : ∀ t ∈ Set.Icc a b, 0 ≤ (E + Kafexhiu.mπ ^ 2 / (4 * E) - Kafexhiu.mπ) /
      (Kafexhiu.Eπmax mProton t - Kafexhiu.mπ) := fun t ht => div_nonneg hy (hmax t ht).le
  have hXc : ContinuousOn (fun t => (E + Kafexhiu.mπ ^ 2 / (4 * E) - Kafexhiu.mπ) /
      (Kafexhiu.Eπmax mProton t - Kafexhiu.mπ)) (Set.Icc a b) :=
    continuousOn_const.div ((Eπmax_cont hm ha0).sub continuousOn_const) (fun t ht => (hmax t ht).ne')
  have hCc : ContinuousOn (fun t => lam * Kafexhiu.mπ / Kafexhiu.Eπmax mProton t) (Set.Icc a b) :=
    continuousOn_const.div (Eπmax_cont hm ha0) (fun t ht => by have := hmax t ht; linarith)
  have hC0 : ∀ t ∈ Set.Icc a b, 0 < lam * Kafexhiu.mπ / Kafexhiu.Eπmax mProton t := fun t ht => by
    have := hmax t ht
    have : 0 < Kafexhiu.Eπmax mProton t := by linarith
    positivity
  apply BPC.of_cont
  have hd : ContinuousOn (fun T => (1 + ((E + Kafexhiu.mπ ^ 2 / (4 * E) - Kafexhiu.mπ) /
      (Kafexhiu.Eπmax mProton T - Kafexhiu.mπ)) / (lam * Kafexhiu.mπ / Kafexhiu.Eπmax mProton T)) ^ γ T)
      (Set.Icc a b) := by
    apply ContinuousOn.rpow _ hγ
    · intro t ht
      left
      have := div_nonneg (hX0 t ht) (hC0 t ht).le
      positivity
    · exact continuousOn_const.add (hXc.div hCc (fun t ht => (hC0 t ht).ne'))
  have hn : ContinuousOn (fun T => (max 0 (1 - ((E + Kafexhiu.mπ ^ 2 / (4 * E) - Kafexhiu.mπ) /
      (Kafexhiu.Eπmax mProton T - Kafexhiu.mπ)) ^ α)) ^ β T) (Set.Icc a b) := by
    apply ContinuousOn.rpow _ hβ
    · intro t ht; right; exact hβ0 t ht
    · apply ContinuousOn.sup continuousOn_const
      apply continuousOn_const.sub
      exact hXc.rpow_const (fun t _ => Or.inr hα.le)
  apply (hn.div hd ?_).congr
  · intro t ht
    unfold Fp
    simp only [Pi.div_apply]
    set X := (E + Kafexhiu.mπ ^ 2 / (4 * E) - Kafexhiu.mπ) / (Kafexhiu.Eπmax mProton t - Kafexhiu.mπ) with hX
    have hx0 : 0 ≤ X := hX0 t ht
    by_cases h : X < 1
    · rw [if_pos h, max_eq_right]
      have := Real.rpow_le_one hx0 h.le hα.le
      linarith
    · rw [if_neg h, max_eq_left, Real.zero_rpow (hβ0 t ht).ne', zero_div]
      have := Real.one_le_rpow (not_lt.1 h) hα.le
      linarith
  · intro t ht
    have := div_nonneg (hX0 t ht) (hC0 t ht).le
    have h1 : 0 < 1 + ((E + Kafexhiu.mπ ^ 2 / (4 * E) - Kafexhiu.mπ) /
      (Kafexhiu.Eπmax mProton t - Kafexhiu.mπ)) / (lam * Kafexhiu.mπ / Kafexhiu.Eπmax mProton t) := by linarith
    exact (Real.rpow_pos_of_pos h1 _).ne'

theorem F_bpc (M : Kafexhiu.Model) (E : ℝ) (hE : 0 < E) (ha : Kafexhiu.Tth ≤ a) :
    BPC (fun T => Kafexhiu.F M mProton T E) a b := by
  have hm := mProton_pos
  have ha0 : 0 < a := lt_of_lt_of_le (by unfold Kafexhiu.Tth; norm_num) ha
  have hμc : ∀ a' b' : ℝ, 1 ≤ a' → ContinuousOn (Kafexhiu.μ mProton) (Set.Icc a' b') := by
    intro a' b' h
    have hq : ContinuousOn (fun T : ℝ => (T - 1) / mProton) (Set.Icc a' b') := by fun_prop
    unfold Kafexhiu.μ
    exact (continuousOn_const.mul (hq.rpow_const (fun t _ => Or.inr (by norm_num)))).mul
      (continuousOn_const.mul hq).rexp
  have hμ0 : ∀ t : ℝ, 1 ≤ t → 0 ≤ Kafexhiu.μ mProton t := by
    intro t h
    unfold Kafexhiu.μ
    have : 0 ≤ (t - 1) / mProton := div_nonneg (by linarith) hm.le
    positivity
  have hκc : ContinuousOn (Kafexhiu.κ mProton) (Set.Icc a (min (min (min (min b M.T0) 20) 4) 1)) := by
    unfold Kafexhiu.κ
    apply continuousOn_const.sub
    apply ContinuousOn.div_const
    apply cont_rpow
    · fun_prop
    · intro t ht; exact div_pos (ha0.trans_le ht.1) hm
  have hκ0 : ∀ t, Kafexhiu.Tth ≤ t → 0 < Kafexhiu.κ mProton t := by
    intro t ht
    have ht0 : 0 < t := lt_of_lt_of_le (by unfold Kafexhiu.Tth; norm_num) ht
    have hq : (1/4 : ℝ) ≤ t / mProton := by
      rw [le_div_iff₀ hm, ← pM_eq]
      have := pM_lt
      unfold Kafexhiu.Tth at ht
      linarith
    have hr : (t / mProton) ^ (-3 / 2 : ℝ) ≤ (1/4 : ℝ) ^ (-3 / 2 : ℝ) :=
      Real.rpow_le_rpow_of_nonpos (by norm_num) hq (by norm_num)
    have h8 : (1/4 : ℝ) ^ (-3 / 2 : ℝ) = 8 := by
      rw [show (1/4 : ℝ) = 2 ^ (-2 : ℝ) by rw [Real.rpow_neg (by norm_num)]; norm_num, ← Real.rpow_mul (by norm_num)]
      norm_num
    rw [h8] at hr
    unfold Kafexhiu.κ
    linarith
  have A4 : BPC (fun T => Fp 1 1 (Kafexhiu.κ mProton T) 0 mProton T E) a
      (min (min (min (min b M.T0) 20) 4) 1) :=
    Fp_bpc 1 1 E (Kafexhiu.κ mProton) (fun _ => 0) (by norm_num) (by norm_num) hE ha hκc continuousOn_const
      (fun t ht => hκ0 t (ha.trans ht.1))
  have A3 : BPC (fun T => Fp 3 1 (Kafexhiu.μ mProton T + 2.45) (Kafexhiu.μ mProton T + 1.45) mProton T E)
      (max a 1) (min (min (min b M.T0) 20) 4) :=
    Fp_bpc 3 1 E _ _ (by norm_num) (by norm_num) hE (ha.trans (le_max_left _ _))
      ((hμc _ _ (le_max_right _ _)).add continuousOn_const) ((hμc _ _ (le_max_right _ _)).add continuousOn_const)
      (fun t ht => by have := hμ0 t ((le_max_right _ _).trans ht.1); linarith)
  have A2 : BPC (fun T => Fp 3 1 (3 / 2 * Kafexhiu.μ mProton T + 4.95) (Kafexhiu.μ mProton T + 1.5) mProton T E)
      (max a 4) (min (min b M.T0) 20) := by
    have h1 : (1:ℝ) ≤ max a 4 := le_trans (by norm_num) (le_max_right a 4)
    exact Fp_bpc 3 1 E _ _ (by norm_num) (by norm_num) hE (ha.trans (le_max_left _ _))
      ((continuousOn_const.mul (hμc _ _ h1)).add continuousOn_const) ((hμc _ _ h1).add continuousOn_const)
      (fun t ht => by have := hμ0 t (h1.trans ht.1); linarith)
  have A1 : BPC (fun T => Fp 3 (1/2) 4.2 1 mProton T E) (max a 20) (min b M.T0) :=
    Fp_bpc 3 (1/2) E (fun _ => 4.2) (fun _ => 1) (by norm_num) (by norm_num) hE
      (ha.trans (le_max_left _ _)) continuousOn_const continuousOn_const (fun _ _ => by norm_num)
  have key : ∀ lam β : ℝ, 0 < lam → 0 < β → BPC (fun T => if M.T0 < T then Fp lam (1/2) β 1 mProton T E
      else if 20 < T then Fp 3 (1/2) 4.2 1 mProton T E
      else if 4 < T then Fp 3 1 (3 / 2 * Kafexhiu.μ mProton T + 4.95) (Kafexhiu.μ mProton T + 1.5) mProton T E
      else if 1 < T then Fp 3 1 (Kafexhiu.μ mProton T + 2.45) (Kafexhiu.μ mProton T + 1.45) mProton T E
      else Fp 1 1 (Kafexhiu.κ mProton T) 0 mProton T E) a b := by
    intro lam β hl hβ
    apply BPC.ite'
    · exact BPC.ite' 20 (BPC.ite' 4 (BPC.ite' 1 A4 A3) A2) A1
    · exact Fp_bpc lam (1/2) E (fun _ => β) (fun _ => 1) hl (by norm_num) hE
        (ha.trans (le_max_left _ _)) continuousOn_const continuousOn_const (fun _ _ => hβ)
  cases M
  case geant4 =>
    apply (key 3 4.9 (by norm_num) (by norm_num)).congr
    intro t _
    unfold Kafexhiu.F Kafexhiu.params Fp
    split_ifs <;> rfl
  case pythia8 =>
    apply (key 3.5 4 (by norm_num) (by norm_num)).congr
    intro t _
    unfold Kafexhiu.F Kafexhiu.params Fp
    split_ifs <;> rfl
  case sibyll =>
    apply (key 3.55 3.6 (by norm_num) (by norm_num)).congr
    intro t _
    unfold Kafexhiu.F Kafexhiu.params Fp
    split_ifs <;> rfl
  case qgsjet =>
    apply (key 3.55 4.5 (by norm_num) (by norm_num)).congr
    intro t _
    unfold Kafexhiu.F Kafexhiu.params Fp
    split_ifs <;> rfl

theorem nuclear_bpc (ha : Kafexhiu.Tth < a) : BPC Kafexhiu.nuclear a b := by
  unfold Kafexhiu.nuclear
  apply BPC.ite
  · exact BPC.of_cont continuousOn_const
  · apply BPC.of_cont
    have ha0 : 0 < max a 1 := lt_of_lt_of_le (by norm_num) (le_max_right a 1)
    have hσ := σinel_cont (b := b) ha0
    have hσ0 : ∀ t ∈ Set.Icc (max a 1) b, Kafexhiu.σinel t ≠ 0 := fun t ht =>
      (σinel_pos t (lt_of_lt_of_le ha ((le_max_left _ _).trans ht.1))).ne'
    apply continuousOn_const.add
    apply ContinuousOn.div _ hσ hσ0
    apply continuousOn_const.mul
    apply continuousOn_const.add
    apply ContinuousOn.log
    · exact ContinuousOn.sup continuousOn_const (hσ.div_const _)
    · intro t _
      exact (lt_of_lt_of_le zero_lt_one (le_max_left _ _)).ne'

theorem dσ_bpc (M : Kafexhiu.Model) (nuc : Bool) (E : ℝ) (hE : 0 < E) (ha : Kafexhiu.Tth < a) :
    BPC (fun T => Kafexhiu.dσ M nuc mProton T E) a b := by
  unfold Kafexhiu.dσ
  apply ((Amax_bpc M ha.le).mul (F_bpc M E hE ha.le)).mul
  cases nuc
  · exact BPC.of_cont continuousOn_const
  · exact nuclear_bpc ha

theorem dσ_nonneg (h : HiE) (nuc : Bool) (T E : ℝ) (hE : 0 < E) (hT : Kafexhiu.Tth < T) :
    0 ≤ Kafexhiu.dσ (modelOf h) nuc mProton T E := by
  have key : Spec.dsigma h nuc E T = fin (Kafexhiu.dσ (modelOf h) nuc mProton T E) := by
    have hT' : pTth < T := hT
    unfold Spec.dsigma Kafexhiu.dσ
    rw [aMax_eq h _ hT'.le, shape_eq h E _ hT'.le hE, nuclearFactor_eq _ hT', mul_fin]
    cases nuc <;> simp
  obtain ⟨h1, h2⟩ := dsigma_sign h nuc E T hT hE
  rcases lt_or_ge (xgR T E) 1 with hx | hx
  · obtain ⟨r, hr, e⟩ := h1 hx
    rw [key, fin_inj] at e
    rw [e]; exact hr.le
  · have e := h2 hx
    rw [key, fin_inj] at e
    rw [e]

end Naima.Props
