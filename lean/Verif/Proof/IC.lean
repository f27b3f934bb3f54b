import Verif.Proof.ICKernel
import Verif.Spec.ICKernel

namespace Naima

open XR Classical

theorem gInterp_eq (x α a β b : ℝ) (hx : 0 < x) (ha : 0 ≤ a) (hb : 0 ≤ b) :
    gInterp (fin x) α a β b = fin (Spec.gFactor α a β b x) := by
  unfold gInterp Spec.gFactor
  have h1 : 0 < 1 + b * x ^ β := by positivity
  have h2 : 0 < a * x ^ α / (1 + b * x ^ β) + 1 := by positivity
  simp only [pow_fin _ _ hx, mul_fin, add_fin, div_fin _ _ h1.ne', div_fin _ _ h2.ne', fin_inj]
  rw [add_comm 1 (a * x ^ α / _)]

theorem G12_eq (x α a β b : ℝ) (hx : 0 < x) (ha : 0 ≤ a) (hb : 0 ≤ b) :
    G12 (fin x) α a β b = fin (Spec.F12 α a β b x) := by
  unfold G12 Spec.F12 pi26
  simp only [gInterp_eq x α a β b hx ha hb, neg_fin, exp_fin, mul_fin, add_fin]

theorem G34_eq (x α a β b c : ℝ) (hx : 0 < x) (ha : 0 ≤ a) (hb : 0 ≤ b) (hc : 0 ≤ c) :
    G34 (fin x) α a β b c = fin (Spec.F34 α a β b c x) := by
  unfold G34 Spec.F34
  have := pi26_pos
  have h1 : 0 < 1 + pi26 * c * x := by positivity
  simp only [gInterp_eq x α a β b hx ha hb, neg_fin, exp_fin, mul_fin, add_fin, div_fin _ _ h1.ne']
  unfold pi26
  congr 5
  ring

theorem planckCross_eq (g t z h h' : ℝ) (hg : 0 < g) (ht : 0 < t) (hz : 0 < z) (hz1 : z < 1) :
    planckCross g t (fin z) (fin h) (fin h') =
      fin (Spec.thermalNorm * t ^ 2 / g ^ 2 * (z ^ 2 / (2 * (1 - z)) * h + h')) := by
  unfold planckCross Spec.thermalNorm
  have h1 : 0 < 1 - z := by linarith
  have hd : 0 < t / g := div_pos ht hg
  have h2 : 2 * (1 - z) ≠ 0 := by positivity
  simp only [div_fin _ _ hg.ne', pow_fin _ _ hd, pow_fin _ _ hz, sub_fin, mul_fin, div_fin _ _ h2,
    add_fin, fin_inj]
  have e1 : (t / g) ^ (2 : ℝ) = t ^ 2 / g ^ 2 := by
    rw [show (2 : ℝ) = ((2 : ℕ) : ℝ) by norm_num, Real.rpow_natCast, div_pow]
  have e2 : z ^ (2 : ℝ) = z ^ 2 := by
    rw [show (2 : ℝ) = ((2 : ℕ) : ℝ) by norm_num, Real.rpow_natCast]
  rw [e1, e2]
  ring

theorem planck_x' (g eg k : ℝ) (hg : 0 < g) (hlt : eg < g) (hk : 0 < k) :
    (fin eg / fin g) / (fin 1 - fin eg / fin g) / fin k = fin (eg / g / ((1 - eg / g) * k)) := by
  have hz1 : eg / g < 1 := by rwa [div_lt_one hg]
  have h1 : 0 < 1 - eg / g := by linarith
  rw [div_fin _ _ hg.ne', sub_fin, div_fin _ _ h1.ne', div_fin _ _ hk.ne', div_div]

theorem isoPlanck_eq (g T eg : ℝ) (hT : 0 < T) (heg : 0 < eg) (hlt : eg < g) (h1 : 1 < g) :
    isoPlanck g T eg = fin (Spec.isoThermal g (T * Ktomec2) eg) := by
  have hK := Ktomec2_pos
  have hg : 0 < g := by linarith
  have hz1 : eg / g < 1 := by rwa [div_lt_one hg]
  have h0 : 0 < 1 - eg / g := by linarith
  have hk : 0 < 4 * g * (T * Ktomec2) := by positivity
  have hx : 0 < eg / g / ((1 - eg / g) * (4 * g * (T * Ktomec2))) := by positivity
  unfold isoPlanck
  rw [if_pos ⟨hlt, h1⟩, planck_x' g eg _ hg hlt hk, div_fin _ _ hg.ne',
    G34_eq _ _ _ _ _ _ hx (by norm_num) (by norm_num) (by norm_num),
    G34_eq _ _ _ _ _ _ hx (by norm_num) (by norm_num) (by norm_num),
    planckCross_eq _ _ _ _ _ hg (by positivity) (by positivity) hz1]
  rfl

theorem aniPlanck_eq (g T eg theta : ℝ) (hT : 0 < T) (heg : 0 < eg) (hlt : eg < g) (h1 : 1 < g)
    (hth : Real.cos theta ≠ 1) :
    aniPlanck g T eg theta = fin (Spec.aniThermal g (T * Ktomec2) eg theta) := by
  have hK := Ktomec2_pos
  have hc : 0 < 1 - Real.cos theta := by
    rcases lt_or_eq_of_le (Real.cos_le_one theta) with h | h
    · linarith
    · exact absurd h hth
  have hg : 0 < g := by linarith
  have hz1 : eg / g < 1 := by rwa [div_lt_one hg]
  have h0 : 0 < 1 - eg / g := by linarith
  have hk : 0 < 2 * g * (T * Ktomec2) * (1 - Real.cos theta) := by positivity
  have hx : 0 < eg / g / ((1 - eg / g) * (2 * g * (T * Ktomec2) * (1 - Real.cos theta))) := by
    positivity
  unfold aniPlanck
  rw [if_pos ⟨hlt, h1⟩, planck_x' g eg _ hg hlt hk, div_fin _ _ hg.ne',
    G12_eq _ _ _ _ _ hx (by norm_num) (by norm_num),
    G12_eq _ _ _ _ _ hx (by norm_num) (by norm_num),
    planckCross_eq _ _ _ _ _ hg (by positivity) (by positivity) hz1]
  rfl

theorem gFactor_pos (α a β b x : ℝ) (hx : 0 < x) (ha : 0 ≤ a) (hb : 0 ≤ b) :
    0 < Spec.gFactor α a β b x := by unfold Spec.gFactor; positivity

theorem isoThermal_pos (g t eg : ℝ) (ht : 0 < t) (heg : 0 < eg) (hlt : eg < g) :
    0 < Spec.isoThermal g t eg := by
  unfold Spec.isoThermal Spec.thermalNorm Spec.F34
  have hg : 0 < g := by linarith
  have hz1 : eg / g < 1 := by rwa [div_lt_one hg]
  have h0 : 0 < 1 - eg / g := by linarith
  have hx : 0 < eg / g / ((1 - eg / g) * (4 * g * t)) := by positivity
  have e1 := gFactor_pos 0.606 0.443 1.481 0.540 _ hx (by norm_num) (by norm_num)
  have e2 := gFactor_pos 0.461 0.726 1.457 0.382 _ hx (by norm_num) (by norm_num)
  positivity

theorem aniThermal_pos (g t eg θ : ℝ) (ht : 0 < t) (heg : 0 < eg) (hlt : eg < g)
    (hth : Real.cos θ ≠ 1) : 0 < Spec.aniThermal g t eg θ := by
  unfold Spec.aniThermal Spec.thermalNorm Spec.F12
  have hc : 0 < 1 - Real.cos θ := by
    rcases lt_or_eq_of_le (Real.cos_le_one θ) with h | h
    · linarith
    · exact absurd h hth
  have hg : 0 < g := by linarith
  have hz1 : eg / g < 1 := by rwa [div_lt_one hg]
  have h0 : 0 < 1 - eg / g := by linarith
  have hx : 0 < eg / g / ((1 - eg / g) * (2 * g * t * (1 - Real.cos θ))) := by positivity
  have e1 := gFactor_pos 0.857 0.153 1.840 0.254 _ hx (by norm_num) (by norm_num)
  have e2 := gFactor_pos 0.691 1.330 1.668 0.534 _ hx (by norm_num) (by norm_num)
  positivity

theorem monoGamint_eq (g e0 eg : ℝ) (he0 : 0 < e0) (heg : 0 < eg) (hlt : eg < g) :
    (Spec.kinQ g e0 eg < 1 → 1 / (4 * g ^ 2) < Spec.kinQ g e0 eg →
      monoGamint g e0 eg = fin (Spec.isoMono g e0 eg)) ∧
    (1 < Spec.kinQ g e0 eg ∨ Spec.kinQ g e0 eg < 1 / (4 * g ^ 2) →
      monoGamint g e0 eg = fin 0) := by
  have hg : 0 < g := by linarith
  have hb : 0 < 4 * e0 * g := by positivity
  have hw1 : eg / g < 1 := by rwa [div_lt_one hg]
  have h1 : 0 < 1 - eg / g := by linarith
  have hq : Spec.kinQ g e0 eg = eg / g / (4 * e0 * g * (1 - eg / g)) := by
    unfold Spec.kinQ
    have : g - eg ≠ 0 := by intro h; linarith
    have h2 : 1 - eg / g = (g - eg) / g := by field_simp
    rw [h2]
    field_simp
  have hqp : 0 < Spec.kinQ g e0 eg := by rw [hq]; positivity
  have hQ : monoQ (4 * e0 * g) g eg = fin (Spec.kinQ g e0 eg) := by
    unfold monoQ
    rw [div_fin _ _ hg.ne', sub_fin, mul_fin, div_fin _ _ (by positivity), hq]
  have hF : monoFic (4 * e0 * g) (fin (Spec.kinQ g e0 eg)) = fin (Spec.isoMono g e0 eg) := by
    unfold monoFic Spec.isoMono
    generalize Spec.kinQ g e0 eg = q at hqp
    have h2 : 0 < 1 + 4 * e0 * g * q := by positivity
    simp only [log_fin _ hqp, mul_fin, add_fin, sub_fin,
      pow_fin _ _ (by positivity : 0 < 4 * e0 * g * q), div_fin _ _ h2.ne', fin_inj]
    have e2 : (4 * e0 * g * q) ^ (2 : ℝ) = (4 * e0 * g * q) ^ 2 := by
      rw [show (2 : ℝ) = ((2 : ℕ) : ℝ) by norm_num, Real.rpow_natCast]
    rw [e2]
    field_simp
  unfold monoGamint
  simp only [hQ, hF, sub_fin]
  obtain ⟨r1, _, _, e1, hn1, hp1⟩ := heaviside_fin (1 - Spec.kinQ g e0 eg)
  obtain ⟨r2, _, _, e2, hn2, hp2⟩ := heaviside_fin (Spec.kinQ g e0 eg - 1 / (4 * g ^ 2))
  rw [e1, e2]
  simp only [mul_fin]
  refine ⟨fun a b => ?_, fun h => ?_⟩
  · rw [hp1 (by linarith), hp2 (by linarith)]
    simp [nanToZero]
  · rcases h with h | h
    · rw [hn1 (by linarith)]; simp [nanToZero]
    · rw [hn2 (by linarith)]; simp [nanToZero]

theorem trapzLL_zero (l : List (XR × XR)) (h : ∀ p ∈ l, p.2 = fin 0) : trapzLL l = fin 0 := by
  unfold trapzLL
  have : ∀ l : List (XR × XR), (∀ p ∈ l, p.2 = fin 0) → XR.sum (trapzIntervals l) = fin 0 := by
    intro l
    induction l with
    | nil => intro _; rfl
    | cons p l ih =>
      intro h
      match l, ih, h with
      | [], _, _ => rfl
      | q :: rest, ih, h =>
        simp only [trapzIntervals, sum_cons]
        rw [trapzBin_zero _ _ _ _ (Or.inl (by rw [h p (by simp)]; simp)),
          ih (fun p hp => h p (by simp [hp]))]
        simp
  exact this l h

/-- the seed photon integral -/
theorem monoKernel_zero (g eg : ℝ) (seeds : List ℝ) (phn : List XR) (hg : 0 < g) (hge : g ≤ eg)
    (hs : ∀ e ∈ seeds, 0 < e) (hlen : phn.length = seeds.length) (hn : ∀ n ∈ phn, NN n) :
    monoKernel g eg seeds phn = fin 0 := by
  have hpre : ∃ r, monoPref g = fin r := by
    unfold monoPref
    exact ⟨_, div_fin _ _ (by positivity)⟩
  obtain ⟨r, hr⟩ := hpre
  have key : ∀ e0 ∈ seeds, monoGamint g e0 eg = fin 0 := fun e0 h =>
    monoGamint_zero g e0 eg hg (hs e0 h) hge
  unfold monoKernel
  rw [hr]
  split
  · rename_i e0 n
    rw [key e0 (by simp)]
    obtain ⟨x, _, rfl⟩ := hn n (by simp)
    have := hs e0 (by simp)
    rw [div_fin _ _ (by positivity)]
    simp
  · have : trapz (List.zipWith (fun e0 n => monoGamint g e0 eg * n / fin e0) seeds phn)
        (seeds.map fin) = fin 0 := by
      unfold trapz
      apply trapzLL_zero
      intro p hp
      have hp2 := (List.of_mem_zip hp).2
      obtain ⟨i, hi, hpe⟩ := List.getElem_of_mem hp2
      simp only [List.length_zipWith] at hi
      rw [← hpe, List.getElem_zipWith]
      obtain ⟨x, _, hx⟩ := hn _ (List.getElem_mem (by omega : i < phn.length))
      have := hs _ (List.getElem_mem (by omega : i < seeds.length))
      rw [key _ (List.getElem_mem (by omega)), hx, mul_fin, div_fin _ _ this.ne']
      simp
    rw [this]; simp

theorem monoKernel_NN (g eg : ℝ) (seeds : List ℝ) (phn : List XR) (hg : 0 < g) (heg : 0 < eg)
    (hlt : eg < g) (hs : ∀ e ∈ seeds, 0 < e) (hsort : seeds.Pairwise (· ≤ ·))
    (hlen : phn.length = seeds.length) (hn : ∀ n ∈ phn, NN n) :
    NN (monoKernel g eg seeds phn) := by
  unfold monoKernel
  have hpre : NN (monoPref g) := NN.div (NN.fin (by norm_num)) (by positivity)
  apply NN.mul _ hpre
  split
  · rename_i e0 n
    have := hs e0 (by simp)
    exact NN.mul (monoGamint_NN g e0 eg hg this heg hlt) (NN.div (hn n (by simp)) (by positivity))
  · have e : trapz (List.zipWith (fun e0 n => monoGamint g e0 eg * n / fin e0) seeds phn)
        (seeds.map fin) = trapzLL ((seeds.zip phn).map
          (fun p => (fin p.1, monoGamint g p.1 eg * p.2 / fin p.1))) := by
      unfold trapz
      congr 1
      apply List.ext_getElem
      · simp
      · intro i h1 h2; simp
    rw [e]
    apply trapzLL_NN (seeds.zip phn) (fun p => p.1) (fun p => monoGamint g p.1 eg * p.2 / fin p.1)
    · intro p hp; exact hs _ (List.of_mem_zip hp).1
    · rw [List.map_fst_zip (by omega)]; exact hsort
    · intro p hp
      have h1 := List.of_mem_zip hp
      have h2 := hs _ h1.1
      exact NN.div (NN.mul (monoGamint_NN g _ eg hg h2 heg hlt) (hn _ h1.2)) h2

/-! ### The spectrum -/

/-- `_calc_specic` at one photon energy -/
noncomputable def icAt (gam : List ℝ) (nelec : List XR) (s : SeedNum) (e : ℝ) : XR :=
  s.uf * fin (e / cMec2) *
    trapz (List.zipWith (· * ·) nelec (gam.map (fun g => s.kernel g (e / cMec2)))) (gam.map fin) /
    fin e * fin cEV

theorem calcSpecic_eq (gam : List ℝ) (nelec : List XR) (s : SeedNum) (es : List ℝ) :
    calcSpecic gam nelec s es = es.map (icAt gam nelec s) := by
  unfold calcSpecic
  induction es with
  | nil => rfl
  | cons e es ih =>
    simp only [List.map_cons, List.zipWith_cons_cons] at ih ⊢
    rw [ih]; rfl

/-- sum over the seeds at one photon energy -/
noncomputable def icTotal (gam : List ℝ) (nelec : List XR) (s : SeedNum) (rest : List SeedNum)
    (e : ℝ) : XR :=
  rest.foldl (fun acc t => acc + icAt gam nelec t e) (icAt gam nelec s e)

theorem foldl_zip_map (gam : List ℝ) (nelec : List XR) (rest : List SeedNum) (es : List ℝ)
    (f : ℝ → XR) :
    ((rest.map (fun s => calcSpecic gam nelec s es)).foldl (List.zipWith (· + ·)) (es.map f)) =
      es.map (fun e => rest.foldl (fun acc t => acc + icAt gam nelec t e) (f e)) := by
  induction rest generalizing f with
  | nil => rfl
  | cons t rest ih =>
    simp only [List.map_cons, List.foldl_cons]
    rw [calcSpecic_eq]
    have : List.zipWith (· + ·) (es.map f) (es.map (icAt gam nelec t)) =
        es.map (fun e => f e + icAt gam nelec t e) := by
      rw [List.zipWith_map]; simp
    rw [this, ih]

theorem icSpectrum_eq (m : ElModel) (s : SeedNum) (rest : List SeedNum) (pd : PDist) (es : List ℝ) :
    icSpectrum m (s :: rest) pd es = (do
      let gam ← m.gam
      let n ← m.nelec pd
      return es.map (icTotal gam n s rest)) := by
  unfold icSpectrum
  cases m.gam with
  | error x => rfl
  | ok gam =>
    cases m.nelec pd with
    | error x => rfl
    | ok n =>
      simp only [bind, Except.bind, List.map_cons, sumSpecic, pure, Except.pure]
      rw [calcSpecic_eq, foldl_zip_map]
      rfl

theorem mul_zip_scale (c : ℝ) (hc : 0 < c) (n k : List XR) :
    List.zipWith (· * ·) (n.map (fun a => fin c * a)) k =
      (List.zipWith (· * ·) n k).map (fun a => fin c * a) := by
  induction n generalizing k with
  | nil => simp
  | cons a n ih =>
    cases k with
    | nil => simp
    | cons b k => simp only [List.map_cons, List.zipWith_cons_cons, ih, scale_mul c hc]

theorem icAt_scale (c : ℝ) (hc : 0 < c) (gam : List ℝ) (n : List XR) (s : SeedNum) (e : ℝ) :
    icAt gam (n.map (fun a => fin c * a)) s e = fin c * icAt gam n s e := by
  unfold icAt
  rw [mul_zip_scale c hc, trapz_scale_y c hc, mul_left_swap c hc, scale_div c hc, scale_mul c hc]

theorem icTotal_scale (c : ℝ) (hc : 0 < c) (gam : List ℝ) (n : List XR) (s : SeedNum)
    (rest : List SeedNum) (e : ℝ) :
    icTotal gam (n.map (fun a => fin c * a)) s rest e = fin c * icTotal gam n s rest e := by
  unfold icTotal
  rw [icAt_scale c hc]
  generalize icAt gam n s e = a
  induction rest generalizing a with
  | nil => rfl
  | cons t rest ih =>
    simp only [List.foldl_cons]
    rw [icAt_scale c hc, ← scale_add c hc, ih]

theorem icSpectrum_scale (m : ElModel) (seeds : List SeedNum) (pd : PDist) (c : ℝ) (hc : 0 < c)
    (es : List ℝ) :
    icSpectrum m seeds (pd.scale c) es =
      (icSpectrum m seeds pd es).map (List.map (fun a => fin c * a)) := by
  cases seeds with
  | nil => rfl
  | cons s rest =>
    rw [icSpectrum_eq, icSpectrum_eq, nelec_scale _ _ _ hc]
    cases m.gam with
    | error e => rfl
    | ok gam =>
      cases m.nelec pd with
      | error e => rfl
      | ok n =>
        simp only [Except.map, bind, Except.bind, pure, Except.pure, List.map_map]
        congr 1
        apply List.map_congr_left
        intro e _
        exact icTotal_scale c hc gam n s rest e

/-- A seed field with physically meaningful numbers. -/
def SeedNum.Valid : SeedNum → Prop
  | .thermal T u none => 0 < T ∧ 0 ≤ u
  | .thermal T u (some theta) => 0 < T ∧ 0 ≤ u ∧ Real.cos theta ≠ 1
  | .array es ds _ => (∀ e ∈ es, 0 < e) ∧ es.Pairwise (· ≤ ·) ∧ ds.length = es.length ∧
      ∀ n ∈ ds, NN n

theorem uf_NN (s : SeedNum) (h : s.Valid) : NN s.uf := by
  have hA := cAr_pos
  match s, h with
  | .thermal T u none, h => exact NN.div (NN.fin h.2) (by have := h.1; positivity)
  | .thermal T u (some _), h => exact NN.div (NN.fin h.2.1) (by have := h.1; positivity)
  | .array _ _ _, _ => exact NN.fin (by norm_num)

theorem kernel_NN (s : SeedNum) (h : s.Valid) (g eg : ℝ) (hg : 0 < g) (heg : 0 < eg) :
    NN (s.kernel g eg) := by
  match s, h with
  | .thermal T u none, h => exact isoPlanck_NN g T eg h.1 heg
  | .thermal T u (some theta), h => exact aniPlanck_NN g T eg theta h.1 heg h.2.2
  | .array es ds _, h =>
    obtain ⟨h1, h2, h3, h4⟩ := h
    rcases lt_or_ge eg g with hlt | hge
    · exact monoKernel_NN g eg es ds hg heg hlt h1 h2 h3 h4
    · simp only [SeedNum.kernel]
      rw [monoKernel_zero g eg es ds hg hge h1 h3 h4]; exact NN.fin le_rfl

theorem icAt_NN (gam : List ℝ) (n : List XR) (s : SeedNum) (h : s.Valid) (e : ℝ) (he : 0 < e)
    (hg : ∀ g ∈ gam, 0 < g) (hs : gam.Pairwise (· ≤ ·)) (hlen : n.length = gam.length)
    (hn : ∀ a ∈ n, NN a) : NN (icAt gam n s e) := by
  have hm := cMec2_pos
  unfold icAt
  apply NN.mul _ (NN.fin cEV_pos.le)
  apply NN.div _ he
  apply NN.mul (NN.mul (uf_NN s h) (NN.fin (by positivity)))
  have heq : trapz (List.zipWith (· * ·) n (gam.map (fun g => s.kernel g (e / cMec2)))) (gam.map fin) =
      trapzLL ((gam.zip n).map (fun p => (fin p.1, p.2 * s.kernel p.1 (e / cMec2)))) := by
    unfold trapz
    congr 1
    apply List.ext_getElem
    · simp; omega
    · intro i h1 h2; simp
  rw [heq]
  apply trapzLL_NN (gam.zip n) (fun p => p.1) (fun p => p.2 * s.kernel p.1 (e / cMec2))
  · intro p hp; exact hg _ (List.of_mem_zip hp).1
  · rw [List.map_fst_zip (by omega)]; exact hs
  · intro p hp
    have := List.of_mem_zip hp
    exact NN.mul (hn _ this.2) (kernel_NN s h _ _ (hg _ this.1) (by positivity))

theorem icTotal_NN (gam : List ℝ) (n : List XR) (s : SeedNum) (rest : List SeedNum)
    (h : ∀ t ∈ s :: rest, t.Valid) (e : ℝ) (he : 0 < e)
    (hg : ∀ g ∈ gam, 0 < g) (hs : gam.Pairwise (· ≤ ·)) (hlen : n.length = gam.length)
    (hn : ∀ a ∈ n, NN a) : NN (icTotal gam n s rest e) := by
  unfold icTotal
  have h0 := icAt_NN gam n s (h s (by simp)) e he hg hs hlen hn
  generalize icAt gam n s e = a at h0
  have h' : ∀ t ∈ rest, t.Valid := fun t ht => h t (by simp [ht])
  clear h
  induction rest generalizing a with
  | nil => exact h0
  | cons t rest ih =>
    simp only [List.foldl_cons]
    exact ih _ (h0.add (icAt_NN gam n t (h' t (by simp)) e he hg hs hlen hn))
      (fun t ht => h' t (by simp [ht]))

end Naima
