import Verif.Spec.Spline
import Mathlib.LinearAlgebra.Lagrange

/-! # Lemmas about `TableModel` -/

namespace Naima

open XR Classical Spec

noncomputable section

theorem npLE_fin (x y : ℝ) : npLE (fin x) (fin y) ↔ x ≤ y := by
  simp [npLE, IsNaN]

theorem npLE_total (a b : XR) : npLE a b ∨ npLE b a := by
  cases a <;> cases b <;> simp [npLE, IsNaN, LE.le, XR.lt, XR.eqv]
  rename_i x y
  rcases lt_trichotomy x y with h | h | h
  · exact .inl (.inl h)
  · exact .inl (.inr h)
  · exact .inr (.inl h)

theorem npLE_trans (a b c : XR) (h : npLE a b) (h' : npLE b c) : npLE a c := by
  cases a <;> cases b <;> cases c <;>
    simp_all [npLE, IsNaN, LE.le, XR.lt, XR.eqv]
  rename_i x y z
  rcases h with h | h <;> rcases h' with h' | h'
  · exact .inl (h.trans h')
  · exact .inl (h' ▸ h)
  · exact .inl (h ▸ h')
  · exact .inr (h.trans h')

/-- points with finite abscissae as nodes -/
def xNodes (pts : List (ℝ × XR)) : List (XR × XR) := pts.map (fun p => (fin p.1, p.2))

/-- sorting by abscissa -/
def sortPts (pts : List (ℝ × XR)) : List (ℝ × XR) :=
  pts.mergeSort (fun a b => decide (a.1 ≤ b.1))

theorem sortPts_perm (pts : List (ℝ × XR)) : (sortPts pts).Perm pts := List.mergeSort_perm _ _

theorem sortPts_le (pts : List (ℝ × XR)) :
    (sortPts pts).Pairwise (fun a b => a.1 ≤ b.1) := by
  have := List.pairwise_mergeSort (le := fun a b : ℝ × XR => decide (a.1 ≤ b.1))
    (fun a b c h h' => by simpa using le_trans (by simpa using h) (by simpa using h'))
    (fun a b => by simpa using le_total a.1 b.1) pts
  exact this.imp (by simp)

theorem sortPts_lt (pts : List (ℝ × XR)) (hn : (pts.map (·.1)).Nodup) :
    (sortPts pts).Pairwise (fun a b => a.1 < b.1) := by
  have h2 : ((sortPts pts).map (·.1)).Nodup :=
    ((sortPts_perm pts).map _).nodup_iff.2 hn
  have h3 : (sortPts pts).Pairwise (fun a b => a.1 ≠ b.1) := by
    simpa [List.Nodup, List.pairwise_map] using h2
  exact ((sortPts_le pts).and h3).imp (fun h => lt_of_le_of_ne h.1 h.2)

/-- sorting nodes is sorting points -/
theorem mergeSort_xNodes (pts : List (ℝ × XR)) :
    (xNodes pts).mergeSort (fun a b => decide (npLE a.1 b.1)) = xNodes (sortPts pts) := by
  unfold sortPts xNodes
  rw [List.map_mergeSort]
  intro a _ b _
  simp [npLE_fin]

theorem adj_iff {α : Type} (R : α → α → Prop) : ∀ l : List α,
    (∀ p ∈ l.zip l.tail, R p.1 p.2) ↔ l.IsChain R
  | [] => by simp
  | [a] => by simp
  | a :: b :: l => by
    have ih := adj_iff R (b :: l)
    simp only [List.tail_cons] at ih
    simp only [List.tail_cons, List.zip_cons_cons, List.isChain_cons_cons, ← ih]
    constructor
    · intro h
      exact ⟨h (a, b) (by simp), fun p hp => h p (by simp [hp])⟩
    · rintro ⟨h1, h2⟩ p hp
      rcases List.mem_cons.1 hp with rfl | hp
      · exact h1
      · exact h2 p hp

theorem isChain_and {l : List (ℝ × XR)} (h1 : l.IsChain (fun a b => a.1 ≤ b.1))
    (h2 : l.IsChain (fun a b => ¬ a.1 = b.1)) : l.IsChain (fun a b => a.1 < b.1) := by
  induction l with
  | nil => simp
  | cons a l ih =>
    cases l with
    | nil => simp
    | cons b l =>
      rw [List.isChain_cons_cons] at h1 h2 ⊢
      exact ⟨lt_of_le_of_ne h1.1 h2.1, ih h1.2 h2.2⟩

/-- the duplicate check succeeds exactly for repeated abscissae -/
theorem adjDup_iff (pts : List (ℝ × XR)) :
    (∃ p ∈ (xNodes (sortPts pts)).zip (xNodes (sortPts pts)).tail, eqv p.1.1 p.2.1) ↔
      ¬ (pts.map (·.1)).Nodup := by
  rw [← not_iff_not, not_not]
  push Not
  rw [show (∀ p ∈ (xNodes (sortPts pts)).zip (xNodes (sortPts pts)).tail, ¬ eqv p.1.1 p.2.1) ↔
      (xNodes (sortPts pts)).IsChain (fun a b => ¬ eqv a.1 b.1) from
    adj_iff (fun a b : XR × XR => ¬ eqv a.1 b.1) _]
  unfold xNodes
  rw [List.isChain_map]
  simp only [eqv_fin]
  constructor
  · intro h
    have h' : (sortPts pts).IsChain (fun a b => a.1 < b.1) := by
      have := (List.isChain_iff_pairwise (R := fun a b : ℝ × XR => a.1 ≤ b.1)).2 (sortPts_le pts)
      exact isChain_and this h
    have hp := (List.isChain_iff_pairwise (R := fun a b : ℝ × XR => a.1 < b.1)).1 h'
    refine ((sortPts_perm pts).map (·.1)).nodup_iff.1 ?_
    rw [List.Nodup, List.pairwise_map]
    exact hp.imp (fun h => ne_of_lt h)
  · intro h
    exact ((List.isChain_iff_pairwise (R := fun a b : ℝ × XR => a.1 < b.1)).2
      (sortPts_lt pts h)).imp (fun a b hab => ne_of_lt hab)

/-- decimal logarithm of an energy (in erg) in eV -/
def logEV (E : ℝ) : ℝ := Real.logb 10 (E / PhysUnit.eV.scale)

theorem eV_pos : 0 < PhysUnit.eV.scale := by norm_num [PhysUnit.eV]

theorem logEV_lt {E F : ℝ} (hE : 0 < E) (h : E < F) : logEV E < logEV F :=
  Real.logb_lt_logb (by norm_num) (div_pos hE eV_pos) (div_lt_div_of_pos_right h eV_pos)

theorem logEV_inj {E F : ℝ} (hE : 0 < E) (hF : 0 < F) (h : logEV E = logEV F) : E = F := by
  rcases lt_trichotomy E F with h' | h' | h'
  · exact absurd h (logEV_lt hE h').ne
  · exact h'
  · exact absurd h (logEV_lt hF h').ne'

theorem logEV_le_iff {E F : ℝ} (hE : 0 < E) (hF : 0 < F) : logEV E ≤ logEV F ↔ E ≤ F := by
  constructor
  · intro h
    by_contra hc
    exact absurd h (not_le.2 (logEV_lt hF (not_le.1 hc)))
  · intro h
    rcases h.lt_or_eq with h | h
    · exact (logEV_lt hE h).le
    · rw [h]

theorem log10_energy (x s : ℝ) (hx : 0 < x) (hs : 0 < s) :
    log10 (fin x * fin (s / PhysUnit.eV.scale)) = fin (logEV (x * s)) := by
  rw [mul_fin, log10_fin _ (mul_pos hx (div_pos hs eV_pos))]
  unfold logEV
  rw [mul_div_assoc]

/-- the points in log space -/
def logPts (s : ℝ) (T : List (ℝ × XR)) : List (ℝ × XR) :=
  T.map (fun r => (logEV (r.1 * s), log10 r.2))

theorem logPts_nodup (s : ℝ) (hs : 0 < s) (T : List (ℝ × XR)) (hpos : ∀ r ∈ T, 0 < r.1) :
    ((logPts s T).map (·.1)).Nodup ↔ (T.map (·.1)).Nodup := by
  unfold logPts
  simp only [List.map_map, List.Nodup, List.pairwise_map, Function.comp]
  have key : ∀ a ∈ T, ∀ b ∈ T, (logEV (a.1 * s) ≠ logEV (b.1 * s)) ↔ a.1 ≠ b.1 := by
    intro a ha b hb
    rw [not_iff_not]
    constructor
    · intro h
      exact mul_right_cancel₀ hs.ne' (logEV_inj (mul_pos (hpos a ha) hs) (mul_pos (hpos b hb) hs) h)
    · intro h; rw [h]
  constructor
  · intro h
    exact h.imp_of_mem (fun ha hb hab => (key _ ha _ hb).1 hab)
  · intro h
    exact h.imp_of_mem (fun ha hb hab => (key _ ha _ hb).2 hab)

/-- `interp1d` on finite abscissae -/
theorem interp1d_pts (pts : List (ℝ × XR)) :
    interp1d (pts.map (fun p => fin p.1)) (pts.map (·.2)) =
      if pts.length < 4 ∨ ¬ (pts.map (·.1)).Nodup then .error .valueError
      else .ok (xNodes (sortPts pts)) := by
  have hz : (pts.map (fun p => fin p.1)).zip (pts.map (·.2)) = xNodes pts := by
    rw [List.zip_map']; rfl
  unfold interp1d
  simp only [hz, mergeSort_xNodes, List.length_map, ne_eq, not_true_eq_false, if_false]
  by_cases h4 : pts.length < 4
  · simp [h4]
  · have hnan : ∀ a ∈ pts.map (fun p => fin p.1), ¬ a.IsNaN := by
      intro a ha
      obtain ⟨p, _, rfl⟩ := List.mem_map.1 ha
      simp [IsNaN]
    by_cases hd : (pts.map (·.1)).Nodup
    · have := (not_congr (adjDup_iff pts)).2 (not_not.2 hd)
      have hn : ¬ ∃ a ∈ pts.map (fun p => fin p.1), a.IsNaN := by
        rintro ⟨a, ha, h⟩; exact hnan a ha h
      rw [if_neg h4, if_neg (fun h => this h.2), if_neg (fun h => hn h.1), if_neg (by simp [h4, hd])]
    · have := (adjDup_iff pts).2 hd
      rw [if_neg h4, if_pos ⟨hnan, this⟩, if_pos (Or.inr hd)]

/-- the constructor on a table with positive energies -/
theorem tableInit_eq (T : List (ℝ × XR)) (u : PhysUnit) (hu : 0 < u.scale)
    (hpos : ∀ r ∈ T, 0 < r.1) (vunit : Option PhysUnit) (amp : XR) :
    TableModel.init (.qarr [T.length] (T.map (fun r => fin r.1)) u) (T.map (·.2)) vunit amp =
      if u.dim = Dim.energy then
        if T.length < 4 ∨ ¬ (T.map (·.1)).Nodup then .error .valueError
        else .ok ⟨amp, xNodes (sortPts (logPts u.scale T)), vunit.getD unitOne⟩
      else .error .typeError := by
  unfold TableModel.init
  by_cases hd : u.dim = Dim.energy
  · have hv : validateArray (.qarr [T.length] (T.map (fun r => fin r.1)) u) .positive 1 none
        (some [Dim.energy]) = .ok (.qarr [T.length] (T.map (fun r => fin r.1)) u) := by
      simp [validateArray, validatePhysicalType, hd, bind, Except.bind, pure, Except.pure]
    rw [hv]
    have h1 : (T.map (fun r => fin r.1)).map (fun e => log10 (e * fin (u.scale / PhysUnit.eV.scale)))
        = (logPts u.scale T).map (fun p => fin p.1) := by
      unfold logPts
      rw [List.map_map, List.map_map]
      refine List.map_congr_left (fun r hr => ?_)
      exact log10_energy _ _ (hpos r hr) hu
    have h2 : (T.map (·.2)).map log10 = (logPts u.scale T).map (·.2) := by
      unfold logPts; rw [List.map_map, List.map_map]; rfl
    simp only [h1, h2, interp1d_pts]
    rw [if_pos hd]
    have hl : (logPts u.scale T).length = T.length := by simp [logPts]
    have hc' : (T.length < 4 ∨ ¬ ((logPts u.scale T).map (·.1)).Nodup) ↔
        (T.length < 4 ∨ ¬ (T.map (·.1)).Nodup) := by
      rw [logPts_nodup _ hu T hpos]
    rw [hl]
    by_cases hc : T.length < 4 ∨ ¬ (T.map (·.1)).Nodup
    · rw [if_pos (hc'.2 hc), if_pos hc]
    · rw [if_neg (fun h => hc (hc'.1 h)), if_neg hc]
  · have hv : validateArray (.qarr [T.length] (T.map (fun r => fin r.1)) u) .positive 1 none
        (some [Dim.energy]) = .error .typeError := by
      simp [validateArray, validatePhysicalType, hd, bind, Except.bind]
    rw [hv, if_neg hd]

/-- the call at a finite positive energy -/
theorem tableCall_eq (I : Interp) (m : TableModel) (e : Qty ℝ) (he : e.PosEnergy) :
    m.call I e.lift = .ok ⟨m.amplitude * pow (fin 10) (interpEval I m.nodes (fin (logEV e.phys))),
      m.unit⟩ := by
  unfold TableModel.call validateEneEV Qty.toValue Qty.lift
  simp only [he.isEnergy, show PhysUnit.eV.dim = Dim.energy from rfl, if_true, bind, Except.bind,
    pure, Except.pure]
  rw [log10_energy _ _ he.pos he.proper]
  rfl

theorem xNodes_head (pts : List (ℝ × XR)) (p : XR × XR) (h : (xNodes pts).head? = some p) :
    ∃ q, pts.head? = some q ∧ p = (fin q.1, q.2) := by
  cases pts with
  | nil => simp [xNodes] at h
  | cons q l => exact ⟨q, rfl, by simpa [xNodes] using h.symm⟩

theorem xNodes_last (pts : List (ℝ × XR)) (p : XR × XR) (h : (xNodes pts).getLast? = some p) :
    ∃ q, pts.getLast? = some q ∧ p = (fin q.1, q.2) := by
  unfold xNodes at h
  rw [List.getLast?_map] at h
  cases hq : pts.getLast? with
  | none => simp [hq] at h
  | some q => exact ⟨q, rfl, by simpa [hq] using h.symm⟩

/-- outside the points: the fill value -/
theorem interpEval_outside (I : Interp) (pts : List (ℝ × XR)) (hne : pts ≠ [])
    (x : ℝ) (h : (∀ p ∈ pts, x < p.1) ∨ (∀ p ∈ pts, p.1 < x)) :
    interpEval I (xNodes pts) (fin x) = ninf := by
  unfold interpEval
  rcases h with h | h
  · obtain ⟨p, l, rfl⟩ := List.exists_cons_of_ne_nil hne
    rw [if_pos ⟨(fin p.1, p.2), rfl, (lt_fin _ _).2 (h p (by simp))⟩]
  · by_cases h1 : ∃ p, (xNodes pts).head? = some p ∧ fin x < p.1
    · rw [if_pos h1]
    · rw [if_neg h1, if_pos]
      obtain ⟨q, hq⟩ : ∃ q, pts.getLast? = some q := by
        cases hq : pts.getLast? with
        | none => exact absurd (List.getLast?_eq_none_iff.1 hq) hne
        | some q => exact ⟨q, rfl⟩
      refine ⟨(fin q.1, q.2), ?_, (lt_fin _ _).2 (h q (List.mem_of_getLast? hq))⟩
      unfold xNodes
      rw [List.getLast?_map, hq]; rfl

/-- inside the points and no NaN: the spline -/
theorem interpEval_inside (I : Interp) (pts : List (ℝ × XR))
    (hs : pts.Pairwise (fun a b => a.1 ≤ b.1)) (hn : ∀ p ∈ pts, ¬ p.2.IsNaN)
    (x : ℝ) (hlo : ∃ p ∈ pts, p.1 ≤ x) (hhi : ∃ p ∈ pts, x ≤ p.1) :
    interpEval I (xNodes pts) (fin x) = I (xNodes pts) (fin x) := by
  unfold interpEval
  rw [if_neg, if_neg, if_neg]
  · rintro ⟨p, hp, h⟩
    obtain ⟨q, hq, rfl⟩ := List.mem_map.1 hp
    rcases h with h | h
    · simp [IsNaN] at h
    · exact hn q hq h
  · rintro ⟨p, hp, h⟩
    obtain ⟨q, hq, rfl⟩ := xNodes_last _ _ hp
    have hle : ∀ p ∈ pts, p.1 ≤ q.1 := by
      intro p hp
      rw [List.getLast?_eq_some_iff] at hq
      obtain ⟨l, rfl⟩ := hq
      rcases List.mem_append.1 hp with hp | hp
      · exact (List.pairwise_append.1 hs).2.2 p hp q (by simp)
      · simp at hp; rw [hp]
    obtain ⟨p, hp, hx⟩ := hhi
    have := (lt_fin _ _).1 h
    exact absurd (hle p hp) (not_le.2 (lt_of_lt_of_le this hx))
  · rintro ⟨p, hp, h⟩
    obtain ⟨q, hq, rfl⟩ := xNodes_head _ _ hp
    have hle : ∀ p ∈ pts, q.1 ≤ p.1 := by
      intro r hr
      cases pts with
      | nil => simp at hr
      | cons a l =>
        simp at hq; subst hq
        rcases List.mem_cons.1 hr with rfl | hr
        · exact le_refl _
        · exact (List.pairwise_cons.1 hs).1 r hr
    obtain ⟨p, hp, hx⟩ := hlo
    have := (lt_fin _ _).1 h
    exact absurd (hle p hp) (not_le.2 (lt_of_le_of_lt hx this))

/-- real points as extended points -/
theorem asNodes_eq (pts : List (ℝ × ℝ)) :
    asNodes pts = xNodes (pts.map (fun p => (p.1, fin p.2))) := by
  simp [asNodes, xNodes]

/-- sorted finite points are real points -/
theorem sortPts_real (pts : List (ℝ × ℝ)) (hn : (pts.map (·.1)).Nodup) :
    ∃ q : List (ℝ × ℝ), q.Perm pts ∧ q.Pairwise (fun a b => a.1 < b.1) ∧
      sortPts (pts.map (fun p => (p.1, fin p.2))) = q.map (fun p => (p.1, fin p.2)) := by
  refine ⟨pts.mergeSort (fun a b => decide (a.1 ≤ b.1)), List.mergeSort_perm _ _, ?_, ?_⟩
  · have h1 := List.pairwise_mergeSort (le := fun a b : ℝ × ℝ => decide (a.1 ≤ b.1))
      (fun a b c h h' => by simpa using le_trans (by simpa using h) (by simpa using h'))
      (fun a b => by simpa using le_total a.1 b.1) pts
    have h2 : ((pts.mergeSort (fun a b => decide (a.1 ≤ b.1))).map (·.1)).Nodup :=
      ((List.mergeSort_perm _ _).map _).nodup_iff.2 hn
    rw [List.Nodup, List.pairwise_map] at h2
    exact (h1.and h2).imp (fun h => lt_of_le_of_ne (by simpa using h.1) h.2)
  · unfold sortPts
    rw [List.map_mergeSort]
    intro a _ b _
    simp

end

end Naima
