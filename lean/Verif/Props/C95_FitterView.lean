import Verif.Model.FitterView
import Verif.Props.C33_Sed
import Verif.Props.C56_Interactive
import Verif.Props.C66_C69_Blob
import Verif.Proof.XR

/-!
# C95: the interactive fitter shows the model with its current parameters

"The curve in the window is the model with the current parameters, in the representation asked for and in
the units of the axes, at the energies of the data or of `e_range`, and ln L is the likelihood of the
data for these parameters, whatever the user does with sliders and buttons."

Small specification: `shownSize`, `ShowsModel`.
-/

namespace Naima.Props

open XR Naima

variable {β : Type}

/-- What a model value `v` (cgs) at energy `E` (erg) should be in the plot (cgs): `E² dN/dE` if an SED was
asked for, `dN/dE` otherwise. -/
noncomputable def shownSize (modelIsSed sed : Bool) (E : ℝ) (v : XR) : XR :=
  match modelIsSed, sed with
  | false, true => v * fin (E ^ 2)
  | true, false => v * fin (1 / E ^ 2)
  | _, _ => v

/-- The window shows the model with parameters `p`: each ordinate, in the unit of the axis, is the model
value in the representation asked for; the text is the likelihood of the model at the data (of the
spectrum shown if that has the energies of the data). -/
def ShowsModel (modelfn : List ℝ → FitterInput → Except PyErr (ModelOut β)) (a : FitterArgs)
    (w : FitterWindow) (p : List ℝ) : Prop :=
  ∃ out m, modelfn p (.dict w.es a.fluxUnit) = .ok out ∧
    (out = .array m ∨ ∃ rest, out = .iterable (.spec m :: rest)) ∧
    w.ys.length = w.es.length ∧ m.vals.length = w.es.length ∧
    (∀ (i : ℕ) (E : ℝ) (y v : XR), w.es[i]? = some E → 0 < E → w.ys[i]? = some y → m.vals[i]? = some v →
      y * fin w.conv.1.scale = shownSize (decide (IsSedType m.unit.dim)) a.sed E v) ∧
    (∀ d, a.data = some d →
      (w.es = d.rows.map (·.energy) ∧ ∃ l, lnprobmodel m d = .ok l ∧ w.lnL = some l) ∨
      (w.es ≠ d.rows.map (·.energy) ∧ ∃ out' m' l, modelfn p (.table d) = .ok out' ∧
        (out' = .array m' ∨ ∃ rest, out' = .iterable (.spec m' :: rest)) ∧
        lnprobmodel m' d = .ok l ∧ w.lnL = some l))

private theorem processModel_ok {out : ModelOut β} {m : Spectrum} (h : processModel out = .ok m) :
    out = .array m ∨ ∃ rest, out = .iterable (.spec m :: rest) := by
  match out, h with
  | .array s, h => simp only [processModel, Except.ok.injEq] at h; exact Or.inl (by rw [h])
  | .iterable (.spec s :: rest), h =>
    simp only [processModel, Except.ok.injEq] at h; exact Or.inr ⟨rest, by rw [h]⟩
  | .iterable (.nan :: rest), h => cases h
  | .iterable (.other b :: rest), h => cases h
  | .iterable [], h => cases h

private theorem callModel_ok {modelfn : List ℝ → FitterInput → Except PyErr (ModelOut β)} {p : List ℝ}
    {i : FitterInput} {m : Spectrum} (h : callModel modelfn p i = .ok m) :
    ∃ out, modelfn p i = .ok out ∧ (out = .array m ∨ ∃ rest, out = .iterable (.spec m :: rest)) := by
  unfold callModel at h
  cases hm : modelfn p i with
  | error e => rw [hm] at h; cases h
  | ok out => rw [hm] at h; exact ⟨out, rfl, processModel_ok h⟩

private theorem back (v : XR) {k S : ℝ} (hk : 0 < k) (hS : 0 < S) :
    v * fin k * fin (1 / S) * fin S = v * fin k := by
  have h1 : (0 : ℝ) < 1 / S := by positivity
  cases v with
  | nan => rfl
  | fin x => simp only [XR.mul_fin, XR.fin_inj]; field_simp
  | pinf => simp only [XR.mul_comm' _ (fin _), XR.scale_pinf _ hk, XR.scale_pinf _ hS, XR.scale_pinf _ h1]
  | ninf => simp only [XR.mul_comm' _ (fin _), XR.scale_ninf _ hk, XR.scale_ninf _ hS, XR.scale_ninf _ h1]

private theorem mulOne (v : XR) : v * fin 1 = v := by
  cases v with
  | nan => rfl
  | fin x => simp
  | pinf => rw [XR.mul_comm', XR.scale_pinf _ one_pos]
  | ninf => rw [XR.mul_comm', XR.scale_ninf _ one_pos]

/-- What the pair kept from the first model is good for. -/
def ConvOK (sed : Bool) (conv : PhysUnit × SedFactor) : Prop :=
  0 < conv.1.scale ∧ ∀ D : Dim, D.mul conv.2.dim = conv.1.dim → ∀ (E : ℝ) (v : XR),
    v * fin (conv.2.phys E) = shownSize (decide (IsSedType D)) sed E v

private theorem conv_ok {u : PhysUnit} {sed : Bool} {conv : PhysUnit × SedFactor}
    (h : sedConversion u sed = .ok conv) : ConvOK sed conv := by
  have cancel : ∀ D a b : Dim, D.mul a = b → D = b.mul a.inv := by
    rintro ⟨⟩ ⟨⟩ ⟨⟩ h
    simp only [Dim.mul, Dim.mk.injEq, Dim.inv] at h ⊢
    omega
  obtain ⟨sc, d⟩ := u
  have hd : d ∈ [Dim.power, Dim.energy, Dim.flux, Dim.diffFlux, Dim.diffPower, Dim.diffEnergy,
      Dim.diffNumDensity] := by
    by_contra hn
    simp only [List.mem_cons, List.not_mem_nil, or_false, not_or] at hn
    obtain ⟨h1, h2, h3, h4, h5, h6, h7⟩ := hn
    simp [sedConversion, h1, h2, h3, h4, h5, h6, h7] at h
  have key : ∀ (fu : PhysUnit) (s : SedFactor), 0 < fu.scale →
      (∀ (E : ℝ) (v : XR), v * fin (s.phys E) =
        shownSize (decide (IsSedType (fu.dim.mul s.dim.inv))) sed E v) → ConvOK sed (fu, s) := by
    intro fu s h1 h2
    refine ⟨h1, fun D hD E v => ?_⟩
    rw [cancel D _ _ hD]
    exact h2 E v
  simp only [List.mem_cons, List.not_mem_nil, or_false] at hd
  rcases hd with rfl | rfl | rfl | rfl | rfl | rfl | rfl <;> cases sed <;>
    simp [sedConversion, Dim.flux, Dim.diffFlux, Dim.power, Dim.diffPower, Dim.energy,
      Dim.diffEnergy, Dim.diffNumDensity] at h <;> subst h <;> apply key <;>
    first
      | (norm_num [perTeV, perSTeV, perSTeVCm2, PhysUnit.erg, ergPerS, ergPerSCm2]; done)
      | (intro E v
         simp [SedFactor.phys, SedFactor.dim, shownSize, IsSedType, perTeV, perSTeV, perSTeVCm2, PhysUnit.erg,
           ergPerS, ergPerSCm2, Dim.flux, Dim.diffFlux, Dim.power, Dim.diffPower, Dim.energy,
           Dim.diffEnergy, Dim.mul, Dim.inv, Dim.one, mulOne])

private theorem curve_ok {sed : Bool} {conv : PhysUnit × SedFactor} {es : List ℝ} {m : Spectrum} {ys : List XR}
    (hc : ConvOK sed conv) (h : fitterCurve conv es m = .ok ys) :
    ys.length = es.length ∧ m.vals.length = es.length ∧
      ∀ (i : ℕ) (E : ℝ) (y v : XR), es[i]? = some E → 0 < E → ys[i]? = some y → m.vals[i]? = some v →
        y * fin conv.1.scale = shownSize (decide (IsSedType m.unit.dim)) sed E v := by
  unfold fitterCurve at h
  split at h
  · cases h
  · rename_i hl
    split at h
    · cases h
    · rename_i hdim
      simp only [Except.ok.injEq] at h
      push Not at hl hdim
      subst h
      refine ⟨by simp [hl], hl, ?_⟩
      intro i E y v hE hpos hy hv
      simp only [List.getElem?_zipWith, hE, hv, Option.some.injEq] at hy
      subst hy
      have hk : 0 < conv.2.phys E := by
        cases conv.2 <;> simp only [SedFactor.phys] <;> positivity
      rw [back v hk hc.1]
      exact hc.2 _ hdim E v

private theorem draw_ok {modelfn : List ℝ → FitterInput → Except PyErr (ModelOut β)} {a : FitterArgs}
    {w : FitterWindow} (hc : ConvOK a.sed w.conv) (p : List ℝ) (h : (w.draw modelfn a p).2 = false)
    (c : Fitter) : ShowsModel modelfn a { (w.draw modelfn a p).1 with core := c } p := by
  unfold FitterWindow.draw at h ⊢
  cases hm : callModel modelfn p (.dict w.es a.fluxUnit) with
  | error e => simp [hm] at h
  | ok m =>
    obtain ⟨out, ho, hout⟩ := callModel_ok hm
    simp only [hm] at h ⊢
    cases hy : fitterCurve w.conv w.es m with
    | error e => simp [hy] at h
    | ok ys =>
      obtain ⟨c1, c2, c3⟩ := curve_ok hc hy
      simp only [hy] at h ⊢
      cases hd : a.data with
      | none =>
        simp only
        exact ⟨out, m, ho, hout, c1, c2, c3, fun d h => by rw [hd] at h; cases h⟩
      | some d =>
        simp only [hd] at h ⊢
        cases hl : fitterLnL modelfn p w.es m d with
        | error e => simp [hl] at h
        | ok l =>
          simp only
          refine ⟨out, m, ho, hout, c1, c2, c3, ?_⟩
          intro d' hd'
          rw [hd] at hd'
          cases hd'
          unfold fitterLnL at hl
          split at hl
          · rename_i he
            exact Or.inl ⟨he, l, hl, rfl⟩
          · rename_i he
            cases hm' : callModel modelfn p (.table d) with
            | error e => rw [hm'] at hl; cases hl
            | ok m' =>
              rw [hm'] at hl
              obtain ⟨out', ho', hout'⟩ := callModel_ok hm'
              exact Or.inr ⟨he, out', m', l, ho', hout', hl, rfl⟩

private theorem draw_fields (modelfn : List ℝ → FitterInput → Except PyErr (ModelOut β)) (a : FitterArgs)
    (w : FitterWindow) (p : List ℝ) :
    (w.draw modelfn a p).1.es = w.es ∧ (w.draw modelfn a p).1.conv = w.conv ∧
      (w.draw modelfn a p).1.xs = w.xs := by
  unfold FitterWindow.draw
  cases callModel modelfn p (.dict w.es a.fluxUnit) with
  | error e => exact ⟨rfl, rfl, rfl⟩
  | ok m =>
    simp only
    cases fitterCurve w.conv w.es m with
    | error e => exact ⟨rfl, rfl, rfl⟩
    | ok ys =>
      simp only
      cases a.data with
      | none => exact ⟨rfl, rfl, rfl⟩
      | some d =>
        simp only
        cases fitterLnL modelfn p w.es m d <;> exact ⟨rfl, rfl, rfl⟩

private theorem step_fields (modelfn : List ℝ → FitterInput → Except PyErr (ModelOut β)) (a : FitterArgs)
    (fit : List ℝ → Except PyErr (List ℝ × Bool)) (w : FitterWindow) (ev : FitterEvent) :
    (w.step modelfn a fit ev).es = w.es ∧ (w.step modelfn a fit ev).conv = w.conv ∧
      (w.step modelfn a fit ev).xs = w.xs := by
  unfold FitterWindow.step
  cases ev with
  | move i v =>
    simp only
    split
    · exact draw_fields modelfn a w _
    · exact ⟨rfl, rfl, rfl⟩
  | toggle => exact ⟨rfl, rfl, rfl⟩
  | update => exact draw_fields modelfn a w _
  | fit =>
    simp only
    split
    · exact ⟨rfl, rfl, rfl⟩
    · split
      · exact draw_fields modelfn a w _
      · exact ⟨rfl, rfl, rfl⟩

/-- **C95 (the window when it opens).** The curve is the model with the initial parameters and ln L the
likelihood of the data for them; the abscissae, in the unit of the axis, are the energies the model was
evaluated at. -/
theorem C95_open (modelfn : List ℝ → FitterInput → Except PyErr (ModelOut β)) (a : FitterArgs)
    (hu : 0 < a.eUnit.scale) (labels : List Label) (p0 : List ℝ) (auto : Bool) (w : FitterWindow)
    (h : openFitter modelfn a labels p0 auto = .ok w) :
    ShowsModel modelfn a w p0 ∧ w.core.pars = p0 ∧ a.energies = .ok w.es ∧
      w.xs.map (· * a.eUnit.scale) = w.es ∧ (a.data = none → w.lnL = none) := by
  unfold openFitter at h
  cases hes : a.energies with
  | error e => rw [hes] at h; cases h
  | ok es =>
    rw [hes] at h
    cases hm : callModel modelfn p0 (.dict es a.fluxUnit) with
    | error e => simp only [bind, Except.bind, hm] at h; cases h
    | ok m =>
      simp only [bind, Except.bind, hm] at h
      have hx : (es.map (· / a.eUnit.scale)).map (· * a.eUnit.scale) = es := by
        rw [List.map_map]
        conv_rhs => rw [← List.map_id es]
        apply List.map_congr_left
        intro e _
        simp only [Function.comp, id]
        field_simp
      obtain ⟨out, ho, hout⟩ := callModel_ok hm
      cases hd : a.data with
      | none =>
        simp only [hd] at h
        cases hc : sedConversion m.unit a.sed with
        | error e => simp only [hc] at h; cases h
        | ok conv =>
          simp only [hc] at h
          cases hy : fitterCurve conv es m with
          | error e => simp only [hy] at h; cases h
          | ok ys =>
            simp only [hy, pure, Except.pure, Except.ok.injEq] at h
            subst h
            obtain ⟨c1, c2, c3⟩ := curve_ok (conv_ok hc) hy
            exact ⟨⟨out, m, ho, hout, c1, c2, c3, fun d h => by rw [hd] at h; cases h⟩, rfl, rfl, hx,
              fun _ => rfl⟩
      | some d =>
        simp only [hd] at h
        cases hl : fitterLnL modelfn p0 es m d with
        | error e => simp only [hl, Except.map] at h; cases h
        | ok l =>
          simp only [hl, Except.map] at h
          cases hc : sedConversion m.unit a.sed with
          | error e => simp only [hc] at h; cases h
          | ok conv =>
            simp only [hc] at h
            cases hy : fitterCurve conv es m with
            | error e => simp only [hy] at h; cases h
            | ok ys =>
              simp only [hy, pure, Except.pure, Except.ok.injEq] at h
              subst h
              obtain ⟨c1, c2, c3⟩ := curve_ok (conv_ok hc) hy
              refine ⟨⟨out, m, ho, hout, c1, c2, c3, ?_⟩, rfl, rfl, hx, fun h => by cases h⟩
              intro d' hd'
              rw [hd] at hd'
              cases hd'
              unfold fitterLnL at hl
              split at hl
              · rename_i he
                exact Or.inl ⟨he, l, hl, rfl⟩
              · rename_i he
                cases hm' : callModel modelfn p0 (.table d) with
                | error e => rw [hm'] at hl; cases hl
                | ok m' =>
                  rw [hm'] at hl
                  obtain ⟨out', ho', hout'⟩ := callModel_ok hm'
                  exact Or.inr ⟨he, out', m', l, ho', hout', hl, rfl⟩

private theorem open_core {modelfn : List ℝ → FitterInput → Except PyErr (ModelOut β)} {a : FitterArgs}
    {labels : List Label} {p0 : List ℝ} {auto : Bool} {w : FitterWindow}
    (h : openFitter modelfn a labels p0 auto = .ok w) :
    w.core = fitterInit labels p0 auto ∧ ConvOK a.sed w.conv := by
  unfold openFitter at h
  cases hes : a.energies with
  | error e => rw [hes] at h; cases h
  | ok es =>
    rw [hes] at h
    cases hm : callModel modelfn p0 (.dict es a.fluxUnit) with
    | error e => simp only [bind, Except.bind, hm] at h; cases h
    | ok m =>
      simp only [bind, Except.bind, hm] at h
      have last : ∀ l : Option XR, ((sedConversion m.unit a.sed).bind (fun conv =>
          (fitterCurve conv es m).bind (fun ys =>
            pure { core := fitterInit labels p0 auto, es := es, conv := conv,
                   xs := es.map (· / a.eUnit.scale), ys := ys, lnL := l })) : Except PyErr FitterWindow)
            = .ok w → w.core = fitterInit labels p0 auto ∧ ConvOK a.sed w.conv := by
        intro l h
        cases hc : sedConversion m.unit a.sed with
        | error e => simp only [hc, Except.bind] at h; cases h
        | ok conv =>
          simp only [hc, Except.bind] at h
          cases hy : fitterCurve conv es m with
          | error e => simp only [hy] at h; cases h
          | ok ys =>
            simp only [hy, pure, Except.pure, Except.ok.injEq] at h
            subst h
            exact ⟨rfl, conv_ok hc⟩
      cases hd : a.data with
      | none =>
        simp only [hd] at h
        exact last _ h
      | some d =>
        simp only [hd] at h
        cases hl : fitterLnL modelfn p0 es m d with
        | error e => simp only [hl, Except.map] at h; cases h
        | ok l =>
          simp only [hl, Except.map] at h
          exact last _ h

/-- **C95 (units).** With data the energies are shown in the unit of the data; without, in that of `e_range`, or in
TeV. The model is asked for fluxes in the unit of the data if it is evaluated at the energies of the data, otherwise
in erg/(cm² s) for an SED and 1/(TeV cm² s) for a differential spectrum. -/
theorem C95_units (modelfn : List ℝ → FitterInput → Except PyErr (ModelOut β)) (a : FitterArgs)
    (labels : List Label) (p0 : List ℝ) (auto : Bool) (w : FitterWindow)
    (h : openFitter modelfn a labels p0 auto = .ok w) :
    (∀ u : PhysUnit, 0 < u.scale → ((∃ d, a.data = some d ∧ d.energyU = u) ∨
        (a.data = none ∧ ((∃ lo hi, a.eRange = some (lo, hi, u)) ∨ a.eRange = none ∧ u = PhysUnit.TeV))) →
      w.xs.map (· * u.scale) = w.es) ∧
    (∀ u : PhysUnit, ((∃ d, a.data = some d ∧ a.eRange = none ∧ d.fluxU = u) ∨
        ((a.data = none ∨ a.eRange ≠ none) ∧ (a.sed = true ∧ u = ergPerSCm2 ∨ a.sed = false ∧ u = perSTeVCm2))) →
      ∃ out, modelfn p0 (.dict w.es u) = .ok out) := by
  constructor
  · intro u hu hc
    have he : a.eUnit = u := by
      rcases hc with ⟨d, hd, rfl⟩ | ⟨hd, ⟨lo, hi, hr⟩ | ⟨hr, rfl⟩⟩
      · simp [FitterArgs.eUnit, hd]
      · simp [FitterArgs.eUnit, hd, hr]
      · simp [FitterArgs.eUnit, hd, hr]
    have := (C95_open modelfn a (by rw [he]; exact hu) labels p0 auto w h).2.2.2.1
    rwa [he] at this
  · intro u hc
    have he : a.fluxUnit = u := by
      rcases hc with ⟨d, hd, hr, rfl⟩ | ⟨hn, hs⟩
      · simp [FitterArgs.fluxUnit, hd, hr]
      · have : a.fluxUnit = if a.sed then ergPerSCm2 else perSTeVCm2 := by
          rcases hn with hn | hn
          · simp [FitterArgs.fluxUnit, hn]
          · obtain ⟨r, hr⟩ := Option.ne_none_iff_exists'.mp hn
            cases hd : a.data <;> simp [FitterArgs.fluxUnit, hr, hd]
        rw [this]
        rcases hs with ⟨hs, rfl⟩ | ⟨hs, rfl⟩ <;> simp [hs]
    unfold openFitter at h
    cases hes : a.energies with
    | error e => rw [hes] at h; cases h
    | ok es =>
      rw [hes] at h
      cases hm : callModel modelfn p0 (.dict es a.fluxUnit) with
      | error e => simp only [bind, Except.bind, hm] at h; cases h
      | ok m =>
        obtain ⟨out, ho, -⟩ := callModel_ok hm
        have hw : w.es = es := by
          simp only [bind, Except.bind, hm] at h
          repeat' split at h
          all_goals first
            | (cases h; done)
            | (simp only [pure, Except.pure, Except.ok.injEq] at h; rw [← h])
        rw [hw, ← he]
        exact ⟨out, ho⟩

/-- **C95 (energies).** The model is shown at the energies of the data if no `e_range` is given; with an
`e_range` at `e_npoints` energies from its lower to its upper limit, in constant ratio; without either
from 10⁻⁴ TeV to 100 TeV. -/
theorem C95_energies (a : FitterArgs) (es : List ℝ) (h : a.energies = .ok es) (hn : 2 ≤ a.npts) :
    (∀ lo hi u, a.eRange = some (lo, hi, u) → 0 < lo → 0 < hi → 0 < u.scale →
      u.dim = Dim.energy ∧ es.length = a.npts ∧ es[0]? = some (lo * u.scale) ∧
      es[a.npts - 1]? = some (hi * u.scale) ∧
      ∀ i, i + 1 < a.npts → es.getD (i + 1) 0 = es.getD i 0 * (hi / lo) ^ (1 / ((a.npts : ℝ) - 1))) ∧
    (∀ d, a.eRange = none → a.data = some d → es = d.rows.map (·.energy)) ∧
    (a.eRange = none → a.data = none → es.length = a.npts ∧ es[0]? = some (1e-4 * PhysUnit.TeV.scale) ∧
      es[a.npts - 1]? = some (1e2 * PhysUnit.TeV.scale)) := by
  refine ⟨?_, ?_, ?_⟩
  · intro lo hi u he h0 h1 hu
    simp only [FitterArgs.energies, he] at h
    split at h
    · cases h
    · rename_i hd
      push Not at hd
      simp only [Except.ok.injEq] at h
      obtain ⟨g, hg, g1, g2, g3, -, g5⟩ := C67_grid lo hi [] a.npts h0 h1 hn
      simp only [eRangeGrid, Except.ok.injEq] at hg
      rw [hg] at h
      subst h
      refine ⟨hd, by simpa using g1, by simp [g2], by simp [g3], ?_⟩
      intro i hi'
      have e1 : ∀ k, k < a.npts → (g.map (· * u.scale)).getD k 0 = g.getD k 0 * u.scale := by
        intro k hk
        have : k < g.length := by omega
        simp [List.getD_eq_getElem?_getD, this]
      rw [e1 _ hi', e1 _ (by omega), g5 i hi']
      ring
  · intro d he hd
    simp only [FitterArgs.energies, he, hd, Except.ok.injEq] at h
    exact h.symm
  · intro he hd
    simp only [FitterArgs.energies, he, hd, Except.ok.injEq] at h
    subst h
    have hn1 : (a.npts : ℝ) - 1 ≠ 0 := by
      have : (2 : ℝ) ≤ a.npts := by exact_mod_cast hn
      linarith
    refine ⟨by simp [logspace], ?_, ?_⟩
    · have : 0 < a.npts := by omega
      simp [logspace, List.getElem?_range, this]
      norm_num
    · have h2 : a.npts - 1 < a.npts := by omega
      have h3 : ((a.npts - 1 : ℕ) : ℝ) = (a.npts : ℝ) - 1 := by
        rw [Nat.cast_sub (by omega)]; simp
      simp only [logspace, List.getElem?_map, List.getElem?_range h2, Option.map_some, h3,
        Option.some.injEq]
      rw [mul_div_cancel₀ _ hn1]
      norm_num

/-- No evaluation of the model or of the likelihood raises. -/
def NeverRaises (modelfn : List ℝ → FitterInput → Except PyErr (ModelOut β)) (a : FitterArgs)
    (w : FitterWindow) : Prop := ∀ p, (w.draw modelfn a p).2 = false

private theorem draw_flag (modelfn : List ℝ → FitterInput → Except PyErr (ModelOut β)) (a : FitterArgs)
    (w w' : FitterWindow) (he : w'.es = w.es) (hc : w'.conv = w.conv) (p : List ℝ) :
    (w'.draw modelfn a p).2 = (w.draw modelfn a p).2 := by
  unfold FitterWindow.draw
  rw [he, hc]
  cases callModel modelfn p (.dict w.es a.fluxUnit) with
  | error e => rfl
  | ok m =>
    simp only
    cases fitterCurve w.conv w.es m with
    | error e => rfl
    | ok ys =>
      simp only
      cases a.data with
      | none => rfl
      | some d => simp only; cases fitterLnL modelfn p w.es m d <;> rfl

/-- A fit converges, raises, or gives back the parameters it started from. (A fit that runs out of
evaluations does not: `C95_false_out_of_evaluations`.) -/
def ConvergesOrKeeps (fit : List ℝ → Except PyErr (List ℝ × Bool)) : Prop :=
  ∀ s p, fit s = .ok (p, false) → p = s

private theorem run_shows {modelfn : List ℝ → FitterInput → Except PyErr (ModelOut β)} {a : FitterArgs}
    {fit : List ℝ → Except PyErr (List ℝ × Bool)} (hsz : SameSize fit) (hfit : ConvergesOrKeeps fit)
    (evs : List FitterEvent) (hev : FitterEvent.toggle ∉ evs) :
    ∀ w : FitterWindow, ConvOK a.sed w.conv → NeverRaises modelfn a w → w.core.auto = true →
      w.core.sliders = w.core.pars → ShowsModel modelfn a w w.core.pars →
      ShowsModel modelfn a (w.run modelfn a fit evs) (w.run modelfn a fit evs).core.pars ∧
        (w.run modelfn a fit evs).core.sliders = (w.run modelfn a fit evs).core.pars := by
  induction evs with
  | nil => intro w _ _ _ h1 h2; exact ⟨h2, h1⟩
  | cons ev evs ih =>
    intro w hc hn ha hs hm
    have hev' : FitterEvent.toggle ∉ evs := fun h => hev (List.mem_cons_of_mem _ h)
    obtain ⟨f1, f2, -⟩ := step_fields modelfn a fit w ev
    have hc' : ConvOK a.sed (w.step modelfn a fit ev).conv := by rw [f2]; exact hc
    have hn' : NeverRaises modelfn a (w.step modelfn a fit ev) := fun p => by
      rw [draw_flag modelfn a w _ f1 f2]; exact hn p
    have keep : ∀ c : Fitter, c.pars = w.core.pars →
        ShowsModel modelfn a { w with core := c } c.pars := by
      intro c hcp
      rw [hcp]
      exact hm
    have hn0 : ∀ p, (w.draw modelfn a p).2 = false := hn
    refine ih hev' (w.step modelfn a fit ev) hc' hn' ?_ ?_ ?_
    · cases ev with
      | move i v => simp [FitterWindow.step, ha, fitterStep, fitterUpdateIfAuto, fitterUpdate]
      | toggle => simp at hev
      | update => simp [FitterWindow.step, fitterStep, fitterUpdate, ha]
      | fit =>
        simp only [FitterWindow.step, fitterStep, fitterDoFit]
        cases a.data with
        | none => exact ha
        | some d =>
          simp only
          cases hf : fit w.core.sliders with
          | error e => simpa using ha
          | ok r =>
            obtain ⟨p, b⟩ := r
            cases b <;> simp [fitterUpdate, hn0, ha]
    · cases ev with
      | move i v => simp [FitterWindow.step, ha, fitterStep, fitterUpdateIfAuto, fitterUpdate]
      | toggle => simp at hev
      | update => simp [FitterWindow.step, fitterStep, fitterUpdate]
      | fit =>
        simp only [FitterWindow.step, fitterStep, fitterDoFit]
        cases a.data with
        | none => exact hs
        | some d =>
          simp only
          cases hf : fit w.core.sliders with
          | error e => simp
          | ok r =>
            obtain ⟨p, b⟩ := r
            cases b with
            | false => simp [hfit _ _ hf]
            | true => simp [fitterUpdate, hn0]
    · cases ev with
      | move i v =>
        simp only [FitterWindow.step, ha, if_true]
        exact draw_ok hc _ (hn _) _
      | toggle => simp at hev
      | update => exact draw_ok hc _ (hn _) _
      | fit =>
        simp only [FitterWindow.step]
        cases hd : a.data with
        | none => exact hm
        | some d =>
          simp only
          cases hf : fit w.core.sliders with
          | error e =>
            simp only [fitterStep, fitterDoFit, hf]
            exact keep _ hs
          | ok r =>
            obtain ⟨p, b⟩ := r
            cases b with
            | true => exact draw_ok hc _ (hn _) _
            | false =>
              simp only
              apply keep
              simp only [fitterStep, fitterDoFit, hf, Bool.false_eq_true, if_false]
              rw [hfit _ _ hf, hs]

/-- **C95 (histories), partial.** With automatic updating on, sliders that start at the parameters, a
model that never raises, and fits that converge, raise or keep their start: after any sequence of slider moves, updates and
fits the window shows the model and the likelihood of the current parameters, which are those of the
sliders.  Missing: automatic updating switched off, fits that run out of evaluations (both false,
below). -/
theorem C95_histories_partial (modelfn : List ℝ → FitterInput → Except PyErr (ModelOut β)) (a : FitterArgs)
    (hu : 0 < a.eUnit.scale) (fit : List ℝ → Except PyErr (List ℝ × Bool)) (hsz : SameSize fit)
    (hfit : ConvergesOrKeeps fit) (labels : List Label) (p0 : List ℝ) (hl : p0.length ≤ labels.length)
    (hfaith : ∀ l v, (l, v) ∈ labels.zip p0 → Faithful l v) (w : FitterWindow)
    (hw : openFitter modelfn a labels p0 true = .ok w) (hn : NeverRaises modelfn a w)
    (evs : List FitterEvent) (hev : FitterEvent.toggle ∉ evs) :
    let w' := w.run modelfn a fit evs
    ShowsModel modelfn a w' w'.core.pars ∧ w'.core.sliders = w'.core.pars ∧ w'.es = w.es ∧ w'.xs = w.xs := by
  intro w'
  obtain ⟨h1, h2, -⟩ := C95_open modelfn a hu labels p0 true w hw
  have hcore := open_core hw
  have hsl : w.core.sliders = w.core.pars := by
    rw [hcore.1]
    simp only [fitterInit]
    clear hw h1 h2 hcore
    induction p0 generalizing labels with
    | nil => cases labels <;> rfl
    | cons v p0 ih =>
      cases labels with
      | nil => simp at hl
      | cons l labels =>
        simp only [List.zipWith_cons_cons]
        rw [ih labels (by simpa using hl) (fun l v h => hfaith l v (by simp [h]))]
        rw [show valueInBounds (sliderRange l v) v = v from hfaith l v (by simp)]
  have hauto : w.core.auto = true := by rw [hcore.1]; rfl
  have hrun := run_shows hsz hfit evs hev w hcore.2 hn hauto hsl (by rw [h2]; exact h1)
  have hxs : ∀ (evs : List FitterEvent) (v : FitterWindow), (v.run modelfn a fit evs).es = v.es ∧
      (v.run modelfn a fit evs).xs = v.xs := by
    intro evs
    induction evs with
    | nil => intro v; exact ⟨rfl, rfl⟩
    | cons ev evs ih =>
      intro v
      obtain ⟨e1, -, e3⟩ := step_fields modelfn a fit v ev
      obtain ⟨i1, i2⟩ := ih (v.step modelfn a fit ev)
      exact ⟨i1.trans e1, i2.trans e3⟩
  exact ⟨hrun.1, hrun.2, (hxs evs w).1, (hxs evs w).2⟩

/-- **C95 (a redraw always catches up).** Whatever happened before, after the "Update model" button and
after a fit that converged the window shows the model and the likelihood of the current parameters,
if evaluating them does not raise. -/
theorem C95_redraw (modelfn : List ℝ → FitterInput → Except PyErr (ModelOut β)) (a : FitterArgs)
    (hu : 0 < a.eUnit.scale) (fit : List ℝ → Except PyErr (List ℝ × Bool)) (labels : List Label)
    (p0 : List ℝ) (auto : Bool) (w : FitterWindow) (hw : openFitter modelfn a labels p0 auto = .ok w)
    (hn : NeverRaises modelfn a w) (evs : List FitterEvent) (ev : FitterEvent)
    (hev : ev = .update ∨ (ev = .fit ∧ a.data ≠ none ∧
      ∃ p, fit (w.run modelfn a fit evs).core.sliders = .ok (p, true))) :
    let w' := w.run modelfn a fit (evs ++ [ev])
    ShowsModel modelfn a w' w'.core.pars ∧ w'.core.pars = w'.core.sliders := by
  intro w'
  have hconv := (open_core hw).2
  have hfields : ∀ (evs : List FitterEvent) (v : FitterWindow), (v.run modelfn a fit evs).es = v.es ∧
      (v.run modelfn a fit evs).conv = v.conv := by
    intro evs
    induction evs with
    | nil => intro v; exact ⟨rfl, rfl⟩
    | cons ev evs ih =>
      intro v
      obtain ⟨e1, e2, -⟩ := step_fields modelfn a fit v ev
      obtain ⟨i1, i2⟩ := ih (v.step modelfn a fit ev)
      exact ⟨i1.trans e1, i2.trans e2⟩
  obtain ⟨f1, f2⟩ := hfields evs w
  set v := w.run modelfn a fit evs with hv
  have hw' : w' = v.step modelfn a fit ev := by
    simp only [w', hv, FitterWindow.run, List.foldl_append, List.foldl_cons, List.foldl_nil]
  have hcv : ConvOK a.sed v.conv := by rw [f2]; exact hconv
  have hnv : ∀ p, (v.draw modelfn a p).2 = false := fun p => by
    rw [draw_flag modelfn a w _ f1 f2]; exact hn p
  rw [hw']
  rcases hev with rfl | ⟨rfl, hd, p, hp⟩
  · exact ⟨draw_ok hcv _ (hnv _) _, rfl⟩
  · obtain ⟨d, hd⟩ := Option.ne_none_iff_exists'.mp hd
    constructor
    · simp only [FitterWindow.step, hd, hp]
      exact draw_ok hcv _ (hnv _) _
    · simp [FitterWindow.step, hd, hp, fitterStep, fitterDoFit, fitterUpdate, hnv]

/-- **C95 (ln L does not depend on `e_range`).** For a model that, given the energies of the data, returns
the same whatever else it is given, ln L shown at the start is the likelihood of the data, with any
`e_range` or none. -/
theorem C95_lnL (modelfn : List ℝ → FitterInput → Except PyErr (ModelOut β)) (a : FitterArgs)
    (labels : List Label) (p0 : List ℝ) (auto : Bool) (d : VTable)
    (hd : a.data = some d) (m : Spectrum)
    (hm : ∀ fu, modelfn p0 (.dict (d.rows.map (·.energy)) fu) = .ok (.array m))
    (ht : modelfn p0 (.table d) = .ok (.array m)) (w : FitterWindow)
    (h : openFitter modelfn a labels p0 auto = .ok w) :
    ∃ l, lnprobmodel m d = .ok l ∧ w.lnL = some l := by
  unfold openFitter at h
  simp only [bind, Except.bind, hd] at h
  split at h
  · cases h
  · rename_i es hes
    split at h
    · cases h
    · rename_i m' hm'
      split at h
      · cases h
      · rename_i l hl
        have : w.lnL = l := by
          split at h
          · cases h
          · split at h
            · cases h
            · simp only [pure, Except.pure, Except.ok.injEq] at h
              rw [← h]
        rw [this]
        unfold fitterLnL at hl
        split at hl
        · rename_i he
          rw [he] at hm'
          unfold callModel at hm'
          rw [hm] at hm'
          simp only [Except.bind, processModel, Except.ok.injEq] at hm'
          rw [← hm'] at hl
          cases hx : lnprobmodel m d with
          | error e => rw [hx] at hl; cases hl
          | ok x => rw [hx] at hl; simp only [Except.map, Except.ok.injEq] at hl; exact ⟨x, rfl, hl.symm⟩
        · unfold callModel at hl
          rw [ht] at hl
          simp only [Except.bind, processModel] at hl
          cases hx : lnprobmodel m d with
          | error e => rw [hx] at hl; cases hl
          | ok x => rw [hx] at hl; simp only [Except.map, Except.ok.injEq] at hl; exact ⟨x, rfl, hl.symm⟩

/-! ## Where the claim fails -/

/-- **C95 (negation: a fit without convergence while automatic updating is off).** After moving a slider
with automatic updating off and a fit that raises or does not converge, the parameters are those of
the sliders or of the fit, and curve and ln L are still those from before the move. -/
theorem C95_false_stale (modelfn : List ℝ → FitterInput → Except PyErr (ModelOut β)) (a : FitterArgs)
    (ha : a.data ≠ none) (fit : List ℝ → Except PyErr (List ℝ × Bool)) (w : FitterWindow)
    (hw : w.core.auto = false) (i : ℕ) (x : ℝ)
    (hf : (∃ e, fit (w.core.sliders.set i x) = .error e) ∨
      fit (w.core.sliders.set i x) = .ok (w.core.sliders.set i x, false)) :
    let w' := w.run modelfn a fit [.move i x, .fit]
    w'.core.pars = w.core.sliders.set i x ∧ w'.ys = w.ys ∧ w'.lnL = w.lnL := by
  obtain ⟨d, hd⟩ := Option.ne_none_iff_exists'.mp ha
  rcases hf with ⟨e, hf⟩ | hf <;>
    simp [FitterWindow.run, FitterWindow.step, hw, hd, fitterStep, fitterUpdateIfAuto, fitterDoFit, hf]

/-- **C95 (negation: a fit that runs out of evaluations).** The pre-fit returns the point it reached
together with `False`; that point becomes the parameters (with which sampling goes on), while sliders,
curve and ln L stay as they were, also with automatic updating on. -/
theorem C95_false_out_of_evaluations (modelfn : List ℝ → FitterInput → Except PyErr (ModelOut β))
    (a : FitterArgs) (ha : a.data ≠ none) (fit : List ℝ → Except PyErr (List ℝ × Bool)) (w : FitterWindow)
    (p : List ℝ) (hf : fit w.core.sliders = .ok (p, false)) :
    let w' := w.run modelfn a fit [.fit]
    w'.core.pars = p ∧ w'.core.sliders = w.core.sliders ∧ w'.ys = w.ys ∧ w'.lnL = w.lnL := by
  obtain ⟨d, hd⟩ := Option.ne_none_iff_exists'.mp ha
  simp [FitterWindow.run, FitterWindow.step, hd, fitterStep, fitterDoFit, hf]

/-- The pre-fit of `core._prefit` does that: when the minimiser stops at its evaluation limit, and the
likelihood where it stopped is not infinite, the point reached is returned with `False`. -/
theorem C95_out_of_evaluations_happens (sort : List (Vec × XR) → List (Vec × XR)) (cast : ℝ → ℝ)
    (ll llPrior : Vec → XR) (p0 : Vec)
    (h : (minimize sort (fun p => -(ll p)) cast p0 1e-1 1e-3 (some 500) none).status = 1)
    (hs : (minimize sort (fun p => -(ll p)) cast p0 1e-1 1e-3 (some 500) none).success = false)
    (hp : llPrior (minimize sort (fun p => -(ll p)) cast p0 1e-1 1e-3 (some 500) none).x ≠ ninf)
    (hp' : llPrior (minimize sort (fun p => -(ll p)) cast p0 1e-1 1e-3 (some 500) none).x ≠ pinf) :
    prefit sort cast ll llPrior p0 =
      ((minimize sort (fun p => -(ll p)) cast p0 1e-1 1e-3 (some 500) none).x, false) := by
  simp only [prefit]
  simp [h, hs]

/-- **C95 (negation: luminosity data with `e_range`).** With an `e_range` (or without data) the model is
given fluxes in erg/(cm² s) or 1/(TeV cm² s) whatever the data are; a model that returns its spectrum in the unit of the fluxes it is given, and cannot because it is a
luminosity, raises, and the window does not open, although it would without `e_range`. -/
theorem C95_false_luminosity (modelfn : List ℝ → FitterInput → Except PyErr (ModelOut β)) (a : FitterArgs)
    (labels : List Label) (p0 : List ℝ) (auto : Bool) (lo hi : ℝ) (u : PhysUnit) (hu : u.dim = Dim.energy)
    (hr : a.eRange = some (lo, hi, u))
    (hm : ∀ es fu, fu.dim ≠ Dim.power → fu.dim ≠ Dim.diffPower →
      modelfn p0 (.dict es fu) = .error .unitConversionError) :
    openFitter modelfn a labels p0 auto = .error .unitConversionError := by
  have hes : ∃ es, a.energies = .ok es := by
    simp [FitterArgs.energies, hr, hu]
  obtain ⟨es, hes⟩ := hes
  have hfu : a.fluxUnit.dim ≠ Dim.power ∧ a.fluxUnit.dim ≠ Dim.diffPower := by
    have : a.fluxUnit = ergPerSCm2 ∨ a.fluxUnit = perSTeVCm2 := by
      simp only [FitterArgs.fluxUnit, hr]
      cases a.data <;> cases a.sed <;> simp
    rcases this with h | h <;> rw [h] <;>
      simp [ergPerSCm2, perSTeVCm2, Dim.power, Dim.diffPower, Dim.flux, Dim.diffFlux]
  simp [openFitter, bind, Except.bind, hes, callModel, hm es a.fluxUnit hfu.1 hfu.2]

/-! ## The hypotheses are met -/

/-- A model that is constant: its SED is the sum of its parameters. -/
noncomputable def flatModel (p : List ℝ) (i : FitterInput) : Except PyErr (ModelOut Unit) :=
  .ok (.array ⟨(match i with
    | .dict es _ => es
    | .table d => d.rows.map Row.energy).map (fun _ => fin (p.sum)), ergPerSCm2⟩)

/-- One measured point of SED 1 ± 1 erg/(cm² s). -/
noncomputable def oneSed : VTable where
  energyU := PhysUnit.erg
  fluxU := ergPerSCm2
  fluxErrorLoU := ergPerSCm2
  fluxErrorHiU := ergPerSCm2
  energyErrorLoU := PhysUnit.erg
  energyErrorHiU := PhysUnit.erg
  rows := [⟨1, 1, 1, 1, 0, 0, 0, false, fin 0.95⟩]

private noncomputable def demoArgs : FitterArgs := ⟨some oneSed, none, 100, true⟩

private theorem demo_lnL (v : ℝ) : lnprobmodel ⟨[fin v], ergPerSCm2⟩ oneSed = .ok (fin (-((v - 1) ^ 2) / 2)) := by
  have e : lnTerm (fin v) ⟨1, 1, 1, 1, 0, 0, 0, false, fin 0.95⟩ = fin (-((v - 1) ^ 2) / 2) := by
    simp only [lnTerm, ite_self]
    rw [XR.sub_fin, XR.mul_fin, XR.neg_fin, XR.div_fin _ _ (by norm_num)]
    congr 1
    ring
  simp [lnprobmodel, toDataKind, oneSed, bind, Except.bind, pure, Except.pure, XR.sum, e]

private theorem demo_conv : sedConversion ergPerSCm2 true = .ok (ergPerSCm2, .ones) := by
  simp [sedConversion, ergPerSCm2, Dim.flux, Dim.power, Dim.energy, Dim.diffFlux, Dim.diffPower, Dim.diffEnergy,
    Dim.diffNumDensity]

private theorem demo_call (p : List ℝ) (fu : PhysUnit) :
    callModel flatModel p (.dict [1] fu) = .ok ⟨[fin p.sum], ergPerSCm2⟩ := rfl

private theorem demo_curve (v : ℝ) : fitterCurve (ergPerSCm2, .ones) [1] ⟨[fin v], ergPerSCm2⟩ =
    .ok [fin v * fin 1 * fin (1 / ergPerSCm2.scale)] := by
  simp [fitterCurve, SedFactor.dim, SedFactor.phys, ergPerSCm2, Dim.mul, Dim.flux, Dim.one]

private theorem demo_fl (p : List ℝ) : fitterLnL flatModel p [1] ⟨[fin p.sum], ergPerSCm2⟩ oneSed =
    .ok (fin (-((p.sum - 1) ^ 2) / 2)) := by
  unfold fitterLnL
  rw [if_pos (by rfl)]
  exact demo_lnL _

private theorem demo_window (p0 : List ℝ) : openFitter flatModel demoArgs [['x']] p0 false =
    .ok ⟨fitterInit [['x']] p0 false, [1], (ergPerSCm2, .ones), [1 / PhysUnit.erg.scale],
      [fin p0.sum * fin 1 * fin (1 / ergPerSCm2.scale)], some (fin (-((p0.sum - 1) ^ 2) / 2))⟩ := by
  have he : demoArgs.energies = .ok [1] := rfl
  have hd : demoArgs.data = some oneSed := rfl
  have hs : demoArgs.sed = true := rfl
  simp only [openFitter, he, hd, hs, bind, Except.bind, demo_call, demo_fl, Except.map, demo_conv, demo_curve]
  rfl

private theorem demo_never (w : FitterWindow) (he : w.es = [1]) (hc : w.conv = (ergPerSCm2, .ones)) :
    NeverRaises flatModel demoArgs w := by
  intro p
  have hd : demoArgs.data = some oneSed := rfl
  simp only [FitterWindow.draw, he, hc, demo_call, demo_curve, hd, demo_fl]

/-- The window opens, and its evaluations never raise. -/
example : ∃ w, openFitter flatModel demoArgs [['x']] [2] false = .ok w ∧ NeverRaises flatModel demoArgs w :=
  ⟨_, demo_window [2], demo_never _ rfl rfl⟩

/-- A concrete stale window: the slider is moved to 1, where the model agrees with the data (ln L = 0), and
the fit raises; the window still shows ln L = -1/2. -/
theorem C95_stale_shown : ∃ w, openFitter flatModel demoArgs [['x']] [2] false = .ok w ∧
    let w' := w.run flatModel demoArgs (fun _ => .error .valueError) [.move 0 1, .fit]
    w'.core.pars = [1] ∧ w'.lnL = some (fin (-(1 / 2))) ∧
      ¬ ShowsModel flatModel demoArgs w' w'.core.pars := by
  refine ⟨_, demo_window [2], ?_⟩
  intro w'
  obtain ⟨h1, h2, h3⟩ := C95_false_stale flatModel demoArgs (by simp [demoArgs]) (fun _ => .error .valueError)
    ⟨fitterInit [['x']] [2] false, [1], (ergPerSCm2, .ones), [1 / PhysUnit.erg.scale],
      [fin [(2 : ℝ)].sum * fin 1 * fin (1 / ergPerSCm2.scale)], some (fin (-(([(2 : ℝ)].sum - 1) ^ 2) / 2))⟩ rfl 0 1
    (Or.inl ⟨_, rfl⟩)
  have h1' : w'.core.pars = [1] := h1.trans (by simp [fitterInit])
  have h3' : w'.lnL = some (fin (-(1 / 2))) := h3.trans (by norm_num)
  refine ⟨h1', h3', ?_⟩
  rintro ⟨out, m, ho, hout, -, -, -, hd⟩
  have hes : w'.es = [1] := by
    simp [w', FitterWindow.run, FitterWindow.step, demoArgs, fitterInit]
  rw [h1', hes] at ho
  simp only [flatModel, Except.ok.injEq] at ho
  subst ho
  have hm : m = ⟨[fin 1], ergPerSCm2⟩ := by
    rcases hout with h | ⟨r, h⟩
    · simpa using h.symm
    · cases h
  subst hm
  rcases hd oneSed rfl with ⟨-, l, hl, hl'⟩ | ⟨hne, -⟩
  · rw [demo_lnL] at hl
    rw [h3'] at hl'
    simp only [Except.ok.injEq, Option.some.injEq] at hl hl'
    rw [← hl'] at hl
    norm_num at hl
  · exact hne (by rw [hes]; rfl)

/-- A model of a luminosity that returns it in the unit of the fluxes it is given, as the examples of the
documentation do (`.to(data["flux"].unit)`). -/
noncomputable def powerModel (_p : List ℝ) (i : FitterInput) : Except PyErr (ModelOut Unit) :=
  match i with
  | .dict es fu =>
    if fu.dim = Dim.power then .ok (.array ⟨es.map (fun _ => fin 1), fu⟩) else .error .unitConversionError
  | .table d =>
    if d.fluxU.dim = Dim.power then .ok (.array ⟨d.rows.map (fun _ => fin 1), d.fluxU⟩)
    else .error .unitConversionError

/-- One measured luminosity. -/
noncomputable def oneLum : VTable := { oneSed with fluxU := ergPerS }

/-- The window opens for luminosity data without `e_range`, and not with one. -/
theorem C95_luminosity_shown :
    (∃ w, openFitter powerModel ⟨some oneLum, none, 100, true⟩ [['x']] [2] true = .ok w) ∧
    openFitter powerModel ⟨some oneLum, some (1, 10, PhysUnit.TeV), 100, true⟩ [['x']] [2] true =
      .error .unitConversionError := by
  constructor
  · have e : lnTerm (fin 1) ⟨1, 1, 1, 1, 0, 0, 0, false, fin 0.95⟩ = fin 0 := by
      simp only [lnTerm, ite_self]
      rw [XR.sub_fin, XR.mul_fin, XR.neg_fin, XR.div_fin _ _ (by norm_num)]
      congr 1
      ring
    have hl : lnprobmodel ⟨[fin 1], ergPerS⟩ oneLum = .ok (fin 0) := by
      simp [lnprobmodel, toDataKind, oneLum, oneSed, bind, Except.bind, pure, Except.pure, XR.sum, e]
    have hc : sedConversion ergPerS true = .ok (ergPerS, .ones) := by
      simp [sedConversion, ergPerS, Dim.flux, Dim.power, Dim.energy, Dim.diffFlux, Dim.diffPower, Dim.diffEnergy,
        Dim.diffNumDensity]
    have hy : fitterCurve (ergPerS, .ones) [1] ⟨[fin 1], ergPerS⟩ =
        .ok [fin 1 * fin 1 * fin (1 / ergPerS.scale)] := by
      simp [fitterCurve, SedFactor.dim, SedFactor.phys, ergPerS, Dim.mul, Dim.power, Dim.one]
    have hm : callModel powerModel [2] (.dict [1] ergPerS) = .ok ⟨[fin 1], ergPerS⟩ := by
      simp [callModel, powerModel, ergPerS, Except.bind, processModel]
    have hf : fitterLnL powerModel [2] [1] ⟨[fin 1], ergPerS⟩ oneLum = .ok (fin 0) := by
      unfold fitterLnL
      rw [if_pos (by rfl)]
      exact hl
    have he : (FitterArgs.mk (some oneLum) none 100 true).energies = .ok [1] := rfl
    have hu : (FitterArgs.mk (some oneLum) none 100 true).fluxUnit = ergPerS := rfl
    simp only [openFitter, he, hu, bind, Except.bind, hm, hf, Except.map, hc, hy]
    exact ⟨_, rfl⟩
  · apply C95_false_luminosity _ _ _ _ _ 1 10 PhysUnit.TeV rfl rfl
    intro es fu h _
    simp [powerModel, h]

end Naima.Props
