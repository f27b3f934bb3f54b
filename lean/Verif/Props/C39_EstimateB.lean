import Verif.Model.EstimateB
import Verif.Proof.Electron
import Verif.Props.C34_C38_DataTable

/-! # C39: `estimate_B` -/

namespace Naima

open XR Classical Spec

noncomputable section

/-- A data table with every flux (and upper limit) multiplied by `k`. -/
def scaleFlux (k : ℝ) (t : InTable) : InTable :=
  { t with rows := t.rows.map fun r => { r with flux := k * r.flux, fluxUl := k * r.fluxUl } }

/-- A row of a validated table with the flux multiplied by `k`. -/
def fluxTimes (k : ℝ) (r : Row) : Row := { r with flux := k * r.flux }

/-- A validated table with every flux multiplied by `k`. -/
def VTable.scaleFlux (k : ℝ) (v : VTable) : VTable := { v with rows := v.rows.map (fluxTimes k) }

/-- `table[np.argsort(table["energy"])]`: an energy-ordered permutation that is determined by the
energies alone, so that changing other columns does not change the order. -/
structure IsArgsort (sort : List Row → List Row) : Prop where
  sorts : IsEnergySort sort
  byEnergy : ∀ (f : Row → Row), (∀ r, (f r).energy = r.energy) → ∀ l, sort (l.map f) = (sort l).map f

theorem validateColumn_indep (rows rows' : List RawRow) (c : Option PhysUnit) (f f' : RawRow → ℝ)
    (pt : List Dim) : validateColumn rows c f pt = validateColumn rows' c f' pt := by
  unfold validateColumn
  cases c with
  | none => rfl
  | some u =>
    by_cases h : u.dim ∈ pt
    · simp [validateArray, validatePhysicalType, h, bind, Except.bind, pure, Except.pure]
    · simp [validateArray, validatePhysicalType, h, bind, Except.bind]

theorem validateSingle_scale (k : ℝ) (t : InTable) (g : ℤ) :
    validateSingle (scaleFlux k t) g = (validateSingle t g).map (VTable.scaleFlux k) := by
  have e1 : ∀ c f pt, validateColumn (scaleFlux k t).rows c f pt = validateColumn t.rows c f pt :=
    fun c f pt => validateColumn_indep _ _ _ _ _ _
  have e2 : fluxErrors (scaleFlux k t) = fluxErrors t := by
    unfold fluxErrors; simp only [e1]; rfl
  have e3 : ∀ eU, energyErrors (scaleFlux k t) g eU = energyErrors t g eU := by
    intro eU
    unfold energyErrors
    simp only [e1]
    unfold scaleFlux rowGroup
    simp only [List.map_map]
    rfl
  have e4 : ulFlags (scaleFlux k t) = ulFlags t := by
    unfold ulFlags scaleFlux
    simp only [List.all_map]
    rfl
  have e5 : ∀ fU ul, fluxVals (scaleFlux k t) fU ul = fluxVals t fU ul := fun _ _ => rfl
  have e6 : clVal (scaleFlux k t) = clVal t := rfl
  have e7 : ∀ fU ul f, ulFlags t = .ok ul → fluxVals t fU ul = .ok f → ∀ r : RawRow,
      f { r with flux := k * r.flux, fluxUl := k * r.fluxUl } = k * f r ∧
      ul { r with flux := k * r.flux, fluxUl := k * r.fluxUl } = ul r := by
    intro fU ul f hul hf r
    have hulr : ul { r with flux := k * r.flux, fluxUl := k * r.fluxUl } = ul r := by
      unfold ulFlags at hul
      split at hul
      · injection hul with hul; rw [← hul]
      · injection hul with hul; rw [← hul]
      · injection hul with hul; rw [← hul]
      · split_ifs at hul
        injection hul with hul; rw [← hul]
      · cases hul
    refine ⟨?_, hulr⟩
    unfold fluxVals at hf
    split at hf
    · injection hf with hf; rw [← hf]; ring
    · split_ifs at hf
      injection hf with hf
      rw [← hf]
      simp only [hulr]
      split_ifs <;> ring
  unfold validateSingle
  simp only [e1, e2, e3, e4, e5, e6]
  show (validateColumn t.rows t.energyU (·.energy) [Dim.energy] >>= fun eU => _) = _
  cases h1 : validateColumn t.rows t.energyU (·.energy) [Dim.energy] with
  | error e => rfl
  | ok eU =>
  show (validateColumn t.rows t.fluxU (·.flux) fluxTypes >>= fun eU => _) =
    (validateColumn t.rows t.fluxU (·.flux) fluxTypes >>= fun eU => _).map _
  cases h2 : validateColumn t.rows t.fluxU (·.flux) fluxTypes with
  | error e => rfl
  | ok fU =>
  cases h3 : fluxErrors t with
  | error e => rfl
  | ok fe =>
  obtain ⟨⟨floU, flo⟩, ⟨fhiU, fhi⟩⟩ := fe
  simp only [bind, Except.bind, pure, Except.pure, Except.map]
  cases h4 : energyErrors t g eU with
  | error e => rfl
  | ok ee =>
  obtain ⟨eloU, ehiU, edges⟩ := ee
  simp only
  cases h5 : ulFlags t with
  | error e => rfl
  | ok ul =>
  simp only
  cases h6 : fluxVals t fU ul with
  | error e => rfl
  | ok f =>
  simp only
  cases h7 : clVal t with
  | error e => rfl
  | ok cl =>
    have hfe : ∀ r : RawRow, flo { r with flux := k * r.flux, fluxUl := k * r.fluxUl } = flo r ∧
        fhi { r with flux := k * r.flux, fluxUl := k * r.fluxUl } = fhi r := by
      intro r
      unfold fluxErrors at h3
      split_ifs at h3
      · simp only [bind_ok, pure_ok, Prod.mk.injEq] at h3
        obtain ⟨u, _, ⟨_, rfl⟩, _, rfl⟩ := h3
        exact ⟨rfl, rfl⟩
      · simp only [bind_ok, pure_ok, Prod.mk.injEq] at h3
        obtain ⟨u, _, u', _, ⟨_, rfl⟩, _, rfl⟩ := h3
        exact ⟨rfl, rfl⟩
    simp only [VTable.scaleFlux]
    have hrows : (scaleFlux k t).rows =
      t.rows.map fun r => { r with flux := k * r.flux, fluxUl := k * r.fluxUl } := rfl
    rw [List.map_zipWith, hrows, List.zipWith_map_left]
    have hfun : (fun (r : RawRow) (e : ℝ × ℝ) => ({
          energy := r.energy * eU.scale
          flux := f ({ r with flux := k * r.flux, fluxUl := k * r.fluxUl } : RawRow)
          fluxErrorLo := flo ({ r with flux := k * r.flux, fluxUl := k * r.fluxUl } : RawRow)
          fluxErrorHi := fhi ({ r with flux := k * r.flux, fluxUl := k * r.fluxUl } : RawRow)
          group := rowGroup (scaleFlux k t) g
            ({ r with flux := k * r.flux, fluxUl := k * r.fluxUl } : RawRow)
          energyErrorLo := e.1
          energyErrorHi := e.2
          ul := ul ({ r with flux := k * r.flux, fluxUl := k * r.fluxUl } : RawRow)
          cl := cl } : Row)) =
        fun (r : RawRow) (e : ℝ × ℝ) => fluxTimes k {
          energy := r.energy * eU.scale
          flux := f r
          fluxErrorLo := flo r
          fluxErrorHi := fhi r
          group := rowGroup t g r
          energyErrorLo := e.1
          energyErrorHi := e.2
          ul := ul r
          cl := cl } := by
      funext r e
      obtain ⟨a, b⟩ := e7 fU ul f h5 h6 r
      simp only [fluxTimes, a, b, (hfe r).1, (hfe r).2]
      rfl
    rw [hfun]

@[simp] theorem sf_energyU (k : ℝ) (v : VTable) : (v.scaleFlux k).energyU = v.energyU := rfl
@[simp] theorem sf_fluxU (k : ℝ) (v : VTable) : (v.scaleFlux k).fluxU = v.fluxU := rfl
@[simp] theorem sf_loU (k : ℝ) (v : VTable) : (v.scaleFlux k).fluxErrorLoU = v.fluxErrorLoU := rfl
@[simp] theorem sf_hiU (k : ℝ) (v : VTable) : (v.scaleFlux k).fluxErrorHiU = v.fluxErrorHiU := rfl
@[simp] theorem sf_eloU (k : ℝ) (v : VTable) :
    (v.scaleFlux k).energyErrorLoU = v.energyErrorLoU := rfl
@[simp] theorem sf_ehiU (k : ℝ) (v : VTable) :
    (v.scaleFlux k).energyErrorHiU = v.energyErrorHiU := rfl
@[simp] theorem sf_rows (k : ℝ) (v : VTable) :
    (v.scaleFlux k).rows = v.rows.map (fluxTimes k) := rfl

theorem dtSed_scale (k : ℝ) (v : VTable) (b : Bool) :
    dtSedConversion (v.scaleFlux k) b = (dtSedConversion v b).map (VTable.scaleFlux k) := by
  unfold dtSedConversion
  simp only [sf_fluxU, sf_loU, sf_hiU, sf_rows, sf_energyU, sf_eloU, sf_ehiU]
  cases sedConversion v.fluxU b with
  | error e => rfl
  | ok p =>
    obtain ⟨fu, s⟩ := p
    simp only [bind, Except.bind, pure, Except.pure, Except.map]
    by_cases c1 : v.fluxU.dim.mul s.dim = fu.dim
    swap
    · simp [c1]
    by_cases c2 : v.fluxErrorLoU.dim.mul s.dim = fu.dim
    swap
    · simp [c1, c2]
    by_cases c3 : v.fluxErrorHiU.dim.mul s.dim = fu.dim
    swap
    · simp [c1, c2, c3]
    simp only [c1, c2, c3, if_true, VTable.scaleFlux, List.map_map]
    congr 2
    refine List.map_congr_left (fun r _ => ?_)
    simp only [Function.comp, fluxTimes]
    congr 1
    ring

theorem append_scale (k : ℝ) (fpt : Dim) (b : Bool) (acc dt : VTable) :
    appendTable fpt b (acc.scaleFlux k) (dt.scaleFlux k) =
      (appendTable fpt b acc dt).map (VTable.scaleFlux k) := by
  unfold appendTable
  rw [dtSed_scale]
  simp only [bind, Except.bind, pure, Except.pure, throw, throwThe, MonadExceptOf.throw, sf_fluxU]
  by_cases h1 : (dt.fluxU.dim = Dim.flux ∧ fpt = Dim.power) ∨
      (dt.fluxU.dim = Dim.power ∧ fpt = Dim.flux)
  · simp [h1, Except.map]
  · simp only [h1, if_false]
    cases dtSedConversion dt b with
    | error e => rfl
    | ok w =>
      simp only [Except.map, sf_fluxU, sf_loU, sf_hiU, sf_rows, sf_energyU, sf_eloU, sf_ehiU,
        List.map_eq_nil_iff]
      by_cases hw : w.rows = []
      · simp [hw]
      · simp only [hw, if_false]
        by_cases hc : w.energyU.dim = acc.energyU.dim ∧ w.fluxU.dim = acc.fluxU.dim ∧
            w.fluxErrorLoU.dim = acc.fluxErrorLoU.dim ∧ w.fluxErrorHiU.dim = acc.fluxErrorHiU.dim ∧
            w.energyErrorLoU.dim = acc.energyErrorLoU.dim ∧
            w.energyErrorHiU.dim = acc.energyErrorHiU.dim
        · simp [hc, VTable.scaleFlux]
        · simp [hc]

theorem validateAll_scale (k : ℝ) (ts : List InTable) (g : Nat) :
    validateAll (ts.map (scaleFlux k)) g =
      (validateAll ts g).map (fun vs => vs.map (VTable.scaleFlux k)) := by
  induction ts generalizing g with
  | nil => rfl
  | cons t ts ih =>
    simp only [List.map_cons, validateAll, validateSingle_scale, ih, bind, Except.bind, pure,
      Except.pure]
    cases validateSingle t (g : ℤ) with
    | error e => rfl
    | ok v =>
      simp only [Except.map]
      cases validateAll ts (g + 1) with
      | error e => rfl
      | ok vs => rfl

theorem loop_scale (k : ℝ) (fpt : Dim) (b : Bool) (vs : List VTable) (acc : VTable) :
    (vs.map (VTable.scaleFlux k)).foldlM (appendTable fpt b) (acc.scaleFlux k) =
      (vs.foldlM (appendTable fpt b) acc).map (VTable.scaleFlux k) := by
  induction vs generalizing acc with
  | nil => rfl
  | cons v vs ih =>
    simp only [List.map_cons, List.foldlM_cons, append_scale, bind, Except.bind]
    cases appendTable fpt b acc v with
    | error e => rfl
    | ok w => exact ih w

/-- Validating a table with scaled fluxes gives the validated table with scaled fluxes. -/
theorem validate_scale (sort : List Row → List Row) (hs : IsArgsort sort) (k : ℝ)
    (ts : List InTable) (sed : Option Bool) :
    validateDataTable sort (ts.map (scaleFlux k)) sed =
      (validateDataTable sort ts sed).map (VTable.scaleFlux k) := by
  unfold validateDataTable
  rw [validateAll_scale]
  simp only [bind, Except.bind, pure, Except.pure]
  cases validateAll ts 0 with
  | error e => rfl
  | ok vs =>
    simp only [Except.map]
    cases vs with
    | nil => rfl
    | cons first rest =>
      have key : ∀ (fpt : Dim) (b : Bool),
          (dtSedConversion (first.scaleFlux k) b >>= fun acc =>
            (rest.map (VTable.scaleFlux k)).foldlM (appendTable fpt b) acc >>= fun out =>
              pure { out with rows := sort out.rows }) =
          (dtSedConversion first b >>= fun acc => rest.foldlM (appendTable fpt b) acc >>= fun out =>
              pure { out with rows := sort out.rows }).map (VTable.scaleFlux k) := by
        intro fpt b
        rw [dtSed_scale]
        cases dtSedConversion first b with
        | error e => rfl
        | ok acc =>
          simp only [Except.map, bind, Except.bind, loop_scale]
          cases rest.foldlM (appendTable fpt b) acc with
          | error e => rfl
          | ok out =>
            simp only [Except.map, VTable.scaleFlux, pure, Except.pure]
            rw [hs.byEnergy (fluxTimes k) (fun r => rfl)]
      exact key _ _

theorem tableLum_scale (k : ℝ) (hk : 0 < k) (v : VTable) :
    tableLum (v.scaleFlux k) = fin k * tableLum v := by
  unfold tableLum
  rw [← trapzLL_scale_y k hk]
  congr 1
  simp only [VTable.scaleFlux, List.map_map]
  refine List.map_congr_left (fun r _ => ?_)
  simp only [Function.comp, fluxTimes, mul_fin, Prod.mk.injEq, fin_inj]
  exact ⟨trivial, by ring⟩

theorem sqrt_scale (k : ℝ) (hk : 0 < k) (a : XR) :
    XR.sqrt (fin k * a) = fin (Real.sqrt k) * XR.sqrt a := by
  have hs : 0 < Real.sqrt k := Real.sqrt_pos.2 hk
  cases a with
  | nan => rfl
  | ninf =>
    show XR.sqrt (infMul (-k)) = nan
    unfold infMul
    rw [if_neg (by linarith), if_pos (by linarith)]; rfl
  | pinf =>
    show XR.sqrt (infMul k) = infMul (Real.sqrt k)
    unfold infMul
    rw [if_pos hk, if_pos hs]; rfl
  | fin x =>
    rw [mul_fin]
    by_cases hx : x < 0
    · have : k * x < 0 := mul_neg_of_pos_of_neg hk hx
      simp only [XR.sqrt, if_pos hx, if_pos this]; rfl
    · have h1 : 0 ≤ x := not_lt.1 hx
      rw [sqrt_fin _ (mul_nonneg hk.le h1), sqrt_fin _ h1, mul_fin, Real.sqrt_mul hk.le]

/-- Scaling every X-ray flux by `k` scales the estimate by `sqrt k` (also when the estimate is not a
number, and errors are unchanged). -/
theorem C39_xray_scaling (sort : List Row → List Row) (hs : IsArgsort sort) (k : ℝ) (hk : 0 < k)
    (xray vhe : List InTable) (uph : Qty ℝ) :
    estimateB sort (xray.map (scaleFlux k)) vhe uph =
      (estimateB sort xray vhe uph).map (fun B => fin (Real.sqrt k) * B) := by
  unfold estimateB
  rw [validate_scale sort hs]
  simp only [bind, Except.bind, pure, Except.pure]
  cases validateDataTable sort xray (some false) with
  | error e => rfl
  | ok x =>
    simp only [Except.map]
    cases validateDataTable sort vhe (some false) with
    | error e => rfl
    | ok v =>
      simp only
      cases uph.toReal ergPerCm3 with
      | error e => rfl
      | ok u =>
        simp only
        rw [tableLum_scale k hk, scale_div k hk, scale_mul k hk, scale_mul k hk, scale_mul k hk,
          scale_mul k hk, sqrt_scale k hk, scale_mul _ (Real.sqrt_pos.2 hk)]
        rfl

/-- Scaling both tables by the same factor leaves the estimate unchanged. -/
theorem C39_both_scaling (sort : List Row → List Row) (hs : IsArgsort sort) (k : ℝ) (hk : 0 < k)
    (xray vhe : List InTable) (uph : Qty ℝ) :
    estimateB sort (xray.map (scaleFlux k)) (vhe.map (scaleFlux k)) uph =
      estimateB sort xray vhe uph := by
  unfold estimateB
  rw [validate_scale sort hs, validate_scale sort hs]
  simp only [bind, Except.bind, pure, Except.pure]
  cases validateDataTable sort xray (some false) with
  | error e => rfl
  | ok x =>
    simp only [Except.map]
    cases validateDataTable sort vhe (some false) with
    | error e => rfl
    | ok v =>
      simp only
      cases uph.toReal ergPerCm3 with
      | error e => rfl
      | ok u =>
        simp only
        rw [tableLum_scale k hk, tableLum_scale k hk, scale_ratio k hk]
        rfl

/-- Scaling every gamma-ray flux by `k` divides the estimate by `sqrt k`. -/
theorem C39_vhe_scaling (sort : List Row → List Row) (hs : IsArgsort sort) (k : ℝ) (hk : 0 < k)
    (xray vhe : List InTable) (uph : Qty ℝ) :
    (estimateB sort xray (vhe.map (scaleFlux k)) uph).map (fun B => fin (Real.sqrt k) * B) =
      estimateB sort xray vhe uph := by
  rw [← C39_xray_scaling sort hs k hk, C39_both_scaling sort hs k hk]

/-- The energy flux (or luminosity) of a validated table in cgs: the power-law trapezium integral of
`E F(E)` over its rows, in physical sizes. -/
def energyFlux (v : VTable) : XR :=
  trapzLL (v.rows.map fun r => (fin r.energy, fin (r.flux * r.energy)))

theorem tableLum_phys (v : VTable) (hE : 0 < v.energyU.scale) (hF : 0 < v.fluxU.scale) :
    fin (tableLumUnit v).scale * tableLum v = energyFlux v := by
  have h1 : energyFlux v = trapzLL ((v.rows.map fun r =>
      (fin (r.energy / v.energyU.scale),
        fin (r.flux / v.fluxU.scale) * fin (r.energy / v.energyU.scale))).map
      (fun p => (fin v.energyU.scale * p.1, fin (v.fluxU.scale * v.energyU.scale) * p.2))) := by
    unfold energyFlux
    rw [List.map_map]
    congr 1
    refine List.map_congr_left (fun r _ => ?_)
    simp only [Function.comp, mul_fin, Prod.mk.injEq, fin_inj]
    constructor <;> field_simp
  have h2 : ∀ l : List (XR × XR), l.map (fun p => (fin v.energyU.scale * p.1,
      fin (v.fluxU.scale * v.energyU.scale) * p.2)) =
      (l.map (fun p => (fin v.energyU.scale * p.1, p.2))).map
        (fun p => (p.1, fin (v.fluxU.scale * v.energyU.scale) * p.2)) := by
    intro l; rw [List.map_map]; rfl
  rw [h1, h2, trapzLL_scale_y _ (mul_pos hF hE), trapzLL_scale_x _ hE, ← scale_mul _ (mul_pos hF hE),
    mul_fin]
  rfl

/-- The tables of both bands are of the same kind (both fluxes or both luminosities). -/
def SameKind (x v : VTable) : Prop := x.fluxU.dim = v.fluxU.dim

theorem fluxU_pos (sort : List Row → List Row) (ts : List InTable) (w : VTable)
    (hw : validateDataTable sort ts (some false) = .ok w) : 0 < w.fluxU.scale := by
  obtain ⟨t0, rest, u0, b, cs, s, rfl, h1, h2, h3, h4, h5, h6, h7⟩ := validate_ok sort ts _ w hw
  obtain ⟨fu, s', k1, k2, k3, -⟩ := Props.C33_dimensions u0 (spectral_of_fluxTypes h2) b
  rw [h6] at k1
  simp at k1
  obtain ⟨rfl, rfl⟩ := k1
  exact k3

theorem energyU_dim (sort : List Row → List Row) (ts : List InTable) (w : VTable)
    (hw : validateDataTable sort ts (some false) = .ok w) : w.energyU.dim = Dim.energy := by
  obtain ⟨t0, rest, u0, b, cs, s, rfl, h1, h2, h3, h4, h5, h6, h7, h8, h9, h10, -⟩ :=
    validate_ok sort ts _ w hw
  exact h10

theorem fluxU_diff (sort : List Row → List Row) (ts : List InTable) (w : VTable)
    (hw : validateDataTable sort ts (some false) = .ok w) : ¬ Props.IsSedType w.fluxU.dim := by
  obtain ⟨t0, rest, u0, b, cs, s, rfl, h1, h2, h3, h4, h5, h6, h7⟩ := validate_ok sort ts _ w hw
  obtain ⟨fu, s', k1, k2, k3, k4, k5, -⟩ := Props.C33_dimensions u0 (spectral_of_fluxTypes h2) b
  rw [h6] at k1
  simp at k1
  obtain ⟨rfl, rfl⟩ := k1
  rw [k5, h3]
  simp

/-- For accepted tables of the same kind, whatever units the columns and the energy density are in,
the estimate is `sqrt(8 pi u L_x / L_gamma)` in Gauss (the value returned is in µG), with `L` the
power-law trapezium integral of `E F(E)`, everything in cgs. -/
theorem C39_formula (sort : List Row → List Row) (xray vhe : List InTable) (uph : Qty ℝ)
    (x v : VTable) (hx : validateDataTable sort xray (some false) = .ok x)
    (hv : validateDataTable sort vhe (some false) = .ok v) (hk : SameKind x v)
    (hxE : 0 < x.energyU.scale) (hvE : 0 < v.energyU.scale)
    (hu : uph.unit.dim = Dim.pressure) :
    estimateB sort xray vhe uph =
      .ok (XR.sqrt (energyFlux x / energyFlux v * fin (8 * Real.pi * uph.phys)) * fin 1000000) := by
  have hxF := fluxU_pos _ _ _ hx
  have hvF := fluxU_pos _ _ _ hv
  have hdx := energyU_dim _ _ _ hx
  have hdv := energyU_dim _ _ _ hv
  unfold estimateB
  rw [hx, hv]
  have hto : uph.toReal ergPerCm3 = .ok uph.phys := by
    unfold Qty.toReal
    rw [if_pos (by rw [hu]; rfl)]
    simp [ergPerCm3, Qty.phys]
  rw [hto]
  simp only [bind, Except.bind, pure, Except.pure]
  have hdec : decomposeFactor (tableLumUnit x) (tableLumUnit v) =
      (tableLumUnit x).scale / (tableLumUnit v).scale := by
    unfold decomposeFactor
    have hd : (tableLumUnit x).dim = (tableLumUnit v).dim := by
      unfold tableLumUnit PhysUnit.mul
      simp only [hdx, hdv]
      rw [show x.fluxU.dim = v.fluxU.dim from hk]
    rw [hd]; simp
  have hsx : 0 < (tableLumUnit x).scale := by
    unfold tableLumUnit PhysUnit.mul; exact mul_pos (mul_pos hxF hxE) hxE
  have hsv : 0 < (tableLumUnit v).scale := by
    unfold tableLumUnit PhysUnit.mul; exact mul_pos (mul_pos hvF hvE) hvE
  have hratio : tableLum x / tableLum v * fin (decomposeFactor (tableLumUnit x) (tableLumUnit v)) =
      energyFlux x / energyFlux v := by
    rw [← tableLum_phys x hxE hxF, ← tableLum_phys v hvE hvF, hdec]
    have e1 : (tableLumUnit x).scale = (tableLumUnit v).scale *
        ((tableLumUnit x).scale / (tableLumUnit v).scale) := by field_simp
    have e2 : fin (tableLumUnit x).scale * tableLum x = fin (tableLumUnit v).scale *
        (fin ((tableLumUnit x).scale / (tableLumUnit v).scale) * tableLum x) := by
      rw [← scale_mul _ hsv, mul_fin, ← e1]
    rw [e2, scale_ratio _ hsv, scale_div _ (div_pos hsx hsv), mul_comm']
  rw [hratio]
  congr 2
  have : ∀ a : XR, ∀ c d : ℝ, 0 < c → a * fin c * fin d = a * fin (c * d) := by
    intro a c d hc
    rw [mul_comm' a (fin c), scale_mul c hc, mul_comm' (fin c), mul_comm' a (fin d), mul_comm' a,
      mul_comm' (fin d * a), ← scale_mul c hc, mul_fin]
  rw [this _ 8 Real.pi (by norm_num), this _ _ _ (mul_pos (by norm_num) Real.pi_pos)]

/-- A table with positive energies and fluxes and at least two different energies. -/
structure Measured (v : VTable) : Prop where
  energies : ∀ r ∈ v.rows, 0 < r.energy
  fluxes : ∀ r ∈ v.rows, 0 < r.flux
  range : ∃ r ∈ v.rows, ∃ s ∈ v.rows, r.energy < s.energy

/-- The energy flux of a table of positive fluxes is a positive number. -/
theorem energyFlux_pos (sort : List Row → List Row) (hs : IsEnergySort sort) (ts : List InTable)
    (sed : Option Bool) (v : VTable) (hv : validateDataTable sort ts sed = .ok v) (hm : Measured v) :
    ∃ a : ℝ, 0 < a ∧ energyFlux v = fin a := by
  have hsorted := (Props.C34_sorted_permutation sort hs ts sed v hv).1
  obtain ⟨r, hr, s, hsm, hrs⟩ := hm.range
  obtain ⟨a, ha, e⟩ := trapzLL_pos (v.rows.map fun r => (r.energy, r.flux * r.energy))
    (by
      intro p hp
      obtain ⟨r, hr, rfl⟩ := List.mem_map.1 hp
      exact hm.energies r hr)
    (by
      intro p hp
      obtain ⟨r, hr, rfl⟩ := List.mem_map.1 hp
      exact mul_pos (hm.fluxes r hr) (hm.energies r hr))
    (by
      rw [List.map_map]
      exact List.pairwise_map.2 hsorted)
    ⟨_, List.mem_map.2 ⟨r, hr, rfl⟩, _, List.mem_map.2 ⟨s, hsm, rfl⟩, hrs⟩
  refine ⟨a, ha, ?_⟩
  rw [← e, energyFlux, List.map_map]
  rfl

/-- For tables with positive fluxes over a non-empty energy range and a positive photon energy
density the estimate is a positive number whose magnetic energy density `B^2/8 pi` stands to the
photon energy density as the X-ray energy flux stands to the gamma-ray energy flux. -/
theorem C39_value (sort : List Row → List Row) (hs : IsEnergySort sort) (xray vhe : List InTable)
    (uph : Qty ℝ) (x v : VTable) (hx : validateDataTable sort xray (some false) = .ok x)
    (hv : validateDataTable sort vhe (some false) = .ok v) (hk : SameKind x v)
    (hxE : 0 < x.energyU.scale) (hvE : 0 < v.energyU.scale)
    (hu : uph.unit.dim = Dim.pressure) (hup : 0 < uph.phys) (mx : Measured x) (mv : Measured v) :
    ∃ B Lx Lg : ℝ, estimateB sort xray vhe uph = .ok (fin B) ∧ 0 < B ∧
      energyFlux x = fin Lx ∧ energyFlux v = fin Lg ∧ 0 < Lx ∧ 0 < Lg ∧
      (B * 1e-6) ^ 2 / (8 * Real.pi) / uph.phys = Lx / Lg := by
  obtain ⟨a, ha, ea⟩ := energyFlux_pos sort hs _ _ _ hx mx
  obtain ⟨b, hb, eb⟩ := energyFlux_pos sort hs _ _ _ hv mv
  have hpi := Real.pi_pos
  have hpos : 0 < a / b * (8 * Real.pi * uph.phys) := by positivity
  refine ⟨Real.sqrt (a / b * (8 * Real.pi * uph.phys)) * 1000000, a, b, ?_, ?_, ea, eb, ha, hb, ?_⟩
  · rw [C39_formula sort xray vhe uph x v hx hv hk hxE hvE hu, ea, eb, div_fin _ _ hb.ne', mul_fin,
      sqrt_fin _ hpos.le, mul_fin]
  · exact mul_pos (Real.sqrt_pos.2 hpos) (by norm_num)
  · have e : (Real.sqrt (a / b * (8 * Real.pi * uph.phys)) * 1000000 * 1e-6) ^ 2 =
        a / b * (8 * Real.pi * uph.phys) := by
      rw [mul_assoc, show (1000000 : ℝ) * 1e-6 = 1 by norm_num, mul_one, Real.sq_sqrt hpos.le]
    rw [e]
    field_simp

/-- Tables of different kinds are not rejected: an X-ray table of luminosities together with a
gamma-ray table of fluxes gives a number in which the leftover `m^2` of the SI decomposition has
been dropped. -/
theorem C39_false_mixed (sort : List Row → List Row) (xray vhe : List InTable) (uph : Qty ℝ)
    (x v : VTable) (hx : validateDataTable sort xray (some false) = .ok x)
    (hv : validateDataTable sort vhe (some false) = .ok v)
    (hxk : LumLike x.fluxU.dim) (hvk : FluxLike v.fluxU.dim)
    (hxE : 0 < x.energyU.scale) (hvE : 0 < v.energyU.scale)
    (hu : uph.unit.dim = Dim.pressure) :
    estimateB sort xray vhe uph =
      .ok (XR.sqrt (energyFlux x / energyFlux v * fin (1e-4 * (8 * Real.pi * uph.phys))) *
        fin 1000000) := by
  have hxF := fluxU_pos _ _ _ hx
  have hvF := fluxU_pos _ _ _ hv
  have hdx := energyU_dim _ _ _ hx
  have hdv := energyU_dim _ _ _ hv
  have hxd : x.fluxU.dim = Dim.diffPower := by
    have := fluxU_diff _ _ _ hx
    rcases hxk with h | h
    · rw [h] at this; exact absurd (by decide) this
    · exact h
  have hvd : v.fluxU.dim = Dim.diffFlux := by
    have := fluxU_diff _ _ _ hv
    rcases hvk with h | h
    · rw [h] at this; exact absurd (by decide) this
    · exact h
  unfold estimateB
  rw [hx, hv]
  have hto : uph.toReal ergPerCm3 = .ok uph.phys := by
    unfold Qty.toReal
    rw [if_pos (by rw [hu]; rfl)]
    simp [ergPerCm3, Qty.phys]
  rw [hto]
  simp only [bind, Except.bind, pure, Except.pure]
  have hdec : decomposeFactor (tableLumUnit x) (tableLumUnit v) =
      (tableLumUnit x).scale / (tableLumUnit v).scale * 1e-4 := by
    unfold decomposeFactor
    have hd : (tableLumUnit x).dim.len - (tableLumUnit v).dim.len = 2 ∧
        (tableLumUnit x).dim.mass - (tableLumUnit v).dim.mass = 0 := by
      unfold tableLumUnit PhysUnit.mul
      simp only [hdx, hdv, hxd, hvd]
      decide
    rw [hd.1, hd.2]
    norm_num
  have hsx : 0 < (tableLumUnit x).scale := by
    unfold tableLumUnit PhysUnit.mul; exact mul_pos (mul_pos hxF hxE) hxE
  have hsv : 0 < (tableLumUnit v).scale := by
    unfold tableLumUnit PhysUnit.mul; exact mul_pos (mul_pos hvF hvE) hvE
  have assoc : ∀ a : XR, ∀ c d : ℝ, 0 < c → a * fin c * fin d = a * fin (c * d) := by
    intro a c d hc
    rw [mul_comm' a (fin c), scale_mul c hc, mul_comm' (fin c), mul_comm' a (fin d), mul_comm' a,
      mul_comm' (fin d * a), ← scale_mul c hc, mul_fin]
  have hratio : tableLum x / tableLum v * fin (decomposeFactor (tableLumUnit x) (tableLumUnit v)) =
      energyFlux x / energyFlux v * fin 1e-4 := by
    rw [← tableLum_phys x hxE hxF, ← tableLum_phys v hvE hvF, hdec,
      ← assoc _ _ _ (div_pos hsx hsv)]
    have e1 : (tableLumUnit x).scale = (tableLumUnit v).scale *
        ((tableLumUnit x).scale / (tableLumUnit v).scale) := by field_simp
    have e2 : fin (tableLumUnit x).scale * tableLum x = fin (tableLumUnit v).scale *
        (fin ((tableLumUnit x).scale / (tableLumUnit v).scale) * tableLum x) := by
      rw [← scale_mul _ hsv, mul_fin, ← e1]
    rw [e2, scale_ratio _ hsv, scale_div _ (div_pos hsx hsv), mul_comm' (fin _) (tableLum x / _)]
  rw [hratio]
  congr 2
  rw [assoc _ 1e-4 8 (by norm_num), assoc _ _ Real.pi (by norm_num),
    assoc _ _ _ (mul_pos (by norm_num) Real.pi_pos)]
  rw [show (1e-4 * 8 * Real.pi * uph.phys : ℝ) = 1e-4 * (8 * Real.pi * uph.phys) by ring]

/-- Sorting functions with these properties exist (stable merge sort by energy). -/
theorem argsort_exists : ∃ sort, IsArgsort sort := by
  refine ⟨fun l => l.mergeSort (fun a b => decide (a.energy ≤ b.energy)), ⟨fun l =>
    ⟨List.mergeSort_perm _ _, ?_⟩, ?_⟩⟩
  · have := List.pairwise_mergeSort (le := fun a b : Row => decide (a.energy ≤ b.energy))
      (by intro a b c h1 h2; simp at *; exact le_trans h1 h2)
      (by intro a b; simp; exact le_total _ _) l
    simpa using this
  · intro f hf l
    rw [List.map_mergeSort]
    intro a _ b _
    simp only [hf]

/-- Input tables with positive units, energies and fluxes and at least two different energies. -/
structure MeasuredInput (ts : List InTable) : Prop where
  units : ∀ t ∈ ts, ∀ u, t.energyU = some u ∨ t.fluxU = some u ∨ t.fluxUlU = some u → 0 < u.scale
  energies : ∀ t ∈ ts, ∀ r ∈ t.rows, 0 < r.energy
  fluxes : ∀ t ∈ ts, ∀ r ∈ t.rows, 0 < r.flux ∧ (t.fluxUlU ≠ none → 0 < r.fluxUl)
  range : ∃ t ∈ ts, ∃ r ∈ t.rows, ∃ t' ∈ ts, ∃ r' ∈ t'.rows,
    Spec.phys t.energyU r.energy < Spec.phys t'.energyU r'.energy

/-- Such tables, if accepted, give a table with positive fluxes over a non-empty range. -/
theorem measured_of_input (sort : List Row → List Row) (hs : IsEnergySort sort) (ts : List InTable)
    (sed : Option Bool) (v : VTable) (hv : validateDataTable sort ts sed = .ok v)
    (hm : MeasuredInput ts) : Measured v := by
  obtain ⟨-, b, cs, -, -, -, -, -, hp, hl, hc⟩ := Props.C34_sorted_permutation sort hs ts sed v hv
  have hE : ∀ t ∈ ts, ∀ r ∈ t.rows, 0 < Spec.phys t.energyU r.energy := by
    intro t ht r hr
    have h1 := hm.energies t ht r hr
    unfold Spec.phys
    split
    · next u hu => exact mul_pos h1 (hm.units t ht u (Or.inl hu))
    · exact h1
  have hF : ∀ t ∈ ts, ∀ r ∈ t.rows, ∀ g e, 0 < (Spec.row t g b r e).flux := by
    intro t ht r hr g e
    have h0 := hE t ht r hr
    have hfac : 0 < Spec.factor t b (Spec.phys t.energyU r.energy) := by
      unfold Spec.factor
      split
      · norm_num
      · split_ifs <;> positivity
    unfold Spec.row
    simp only
    refine mul_pos ?_ hfac
    split_ifs with hul
    · unfold Spec.phys
      split
      · next u hu =>
          exact mul_pos ((hm.fluxes t ht r hr).2 hul.2) (hm.units t ht u (Or.inr (Or.inr hu)))
      · next h => exact absurd h hul.2
    · unfold Spec.phys
      split
      · next u hu => exact mul_pos (hm.fluxes t ht r hr).1 (hm.units t ht u (Or.inr (Or.inl hu)))
      · exact (hm.fluxes t ht r hr).1
  have hsrc : ∀ ro ∈ v.rows, ∃ t ∈ ts, ∃ r ∈ t.rows, ∃ g e, ro = Spec.row t g b r e := by
    intro ro hro
    obtain ⟨c, hcm, hroc⟩ := List.mem_flatten.1 (hp.mem_iff.1 hro)
    obtain ⟨i, hi, rfl⟩ := List.mem_iff_getElem.1 hcm
    have hi' : i < ts.length := by omega
    obtain ⟨w, -, -, hw⟩ := hc i ts[i] (by simp [hi'])
    rw [List.getElem?_eq_getElem hi, Option.some_inj] at hw
    rw [hw] at hroc
    obtain ⟨k, hk, e⟩ := List.mem_iff_getElem.1 hroc
    rw [List.getElem_zipWith] at e
    exact ⟨ts[i], List.getElem_mem _, _, List.getElem_mem _, _, _, e.symm⟩
  have hdst : ∀ t ∈ ts, ∀ r ∈ t.rows, ∃ ro ∈ v.rows, ro.energy = Spec.phys t.energyU r.energy := by
    intro t ht r hr
    obtain ⟨i, hi, rfl⟩ := List.mem_iff_getElem.1 ht
    obtain ⟨k, hk, rfl⟩ := List.mem_iff_getElem.1 hr
    obtain ⟨w, -, hwl, hw⟩ := hc i ts[i] (by simp [hi])
    refine ⟨Spec.row ts[i] i b ts[i].rows[k] (w[k]'(by omega)), ?_, rfl⟩
    refine hp.mem_iff.2 (List.mem_flatten.2 ⟨_, List.mem_of_getElem? hw, ?_⟩)
    refine List.mem_iff_getElem.2 ⟨k, by simp; omega, ?_⟩
    rw [List.getElem_zipWith]
  refine ⟨?_, ?_, ?_⟩
  · intro ro hro
    obtain ⟨t, ht, r, hr, g, e, rfl⟩ := hsrc ro hro
    exact hE t ht r hr
  · intro ro hro
    obtain ⟨t, ht, r, hr, g, e, rfl⟩ := hsrc ro hro
    exact hF t ht r hr g e
  · obtain ⟨t, ht, r, hr, t', ht', r', hr', hlt⟩ := hm.range
    obtain ⟨a, ha, ea⟩ := hdst t ht r hr
    obtain ⟨c, hc', ec⟩ := hdst t' ht' r' hr'
    exact ⟨a, ha, c, hc', by rw [ea, ec]; exact hlt⟩

/-- A table of two points, at 1 and 2 TeV. -/
def exTable : InTable where
  energyU := some PhysUnit.TeV
  fluxU := some perSTeVCm2
  fluxErrorU := some perSTeVCm2
  energyWidthU := some PhysUnit.TeV
  rows := [{ energy := 1, flux := 3, fluxError := 1, energyWidth := 1 },
    { energy := 2, flux := 1, fluxError := 1, energyWidth := 1 }]

/-- A concrete case: `estimate_B` of a two-point table with itself is a positive number. -/
example (sort : List Row → List Row) (hs : IsEnergySort sort) (uph : Qty ℝ)
    (hu : uph.unit.dim = Dim.pressure) (hup : 0 < uph.phys) :
    ∃ B : ℝ, estimateB sort [exTable] [exTable] uph = .ok (fin B) ∧ 0 < B := by
  have hval : Valid exTable :=
    ⟨⟨_, rfl, rfl⟩, ⟨_, rfl, Or.inl (Or.inr rfl)⟩, Or.inl ⟨_, rfl, Or.inl (Or.inr rfl)⟩,
      Or.inl ⟨_, rfl, rfl⟩, Or.inl rfl, by simp [exTable], by simp [exTable]⟩
  obtain ⟨x, hx⟩ := Props.C34_accepts sort [exTable] (some false) (by simp) (by simpa using hval)
    (by simp [ErrorsMatch, exTable]) (Or.inl (by simp [HasType, FluxLike, exTable, perSTeVCm2]))
  have hT : (0:ℝ) < PhysUnit.TeV.scale := by norm_num [PhysUnit.TeV]
  have hF : (0:ℝ) < perSTeVCm2.scale := by norm_num [perSTeVCm2]
  have hm : MeasuredInput [exTable] := by
    refine ⟨?_, by simp [exTable], by simp [exTable], ?_⟩
    · intro t ht u hu
      simp only [List.mem_singleton] at ht
      subst ht
      simp only [exTable, Option.some.injEq, reduceCtorEq, or_false] at hu
      rcases hu with rfl | rfl
      · exact hT
      · exact hF
    · refine ⟨exTable, by simp, { energy := 1, flux := 3, fluxError := 1, energyWidth := 1 },
        by simp [exTable], exTable, by simp, { energy := 2, flux := 1, fluxError := 1, energyWidth := 1 },
        by simp [exTable], ?_⟩
      show 1 * PhysUnit.TeV.scale < 2 * PhysUnit.TeV.scale
      linarith
  have hEU : 0 < x.energyU.scale := by
    obtain ⟨t0, rest, u0, b, cs, s, h0, h1, h2, h3, h4, h5, h6, h7, h8, h9, -⟩ :=
      validate_ok sort _ _ x hx
    injection h0 with h0 _
    rw [← h0] at h9
    simp only [exTable, Option.some.injEq] at h9
    rw [← h9]; exact hT
  have mx := measured_of_input sort hs _ _ x hx hm
  obtain ⟨B, _, _, e, hB, -⟩ := C39_value sort hs _ _ uph x x hx hx rfl hEU hEU hu hup mx mx
  exact ⟨B, e, hB⟩

end

end Naima
