import Verif.Model.Corner
import Verif.Props.C91_Distribution

/-!
# C115: the corner plot

`plot_corner` hands every sample of the chain to the corner package, once and in order, with the labels of the
run; the marked point is the parameter vector of a sample of highest log-probability (none with
`show_ML=False`); keywords of the call replace the defaults of the same name; the line width used is 0.7 and
the caller's is restored. Failing parts: a sampler whose first blob is not a spectrum or a Quantity cannot be
plotted, one without labels neither, and a call that fails leaves the line width of every later plot at 0.7.
-/

namespace Naima.Props

open Naima XR Classical

/-! ### Specification -/

/-- `p` is the parameter vector of a sample whose log-probability no other exceeds. -/
def BestSample (r : CornerRun) (p : List ℝ) : Prop :=
  ∃ (i j : ℕ) (m : XR), (r.lnprob[i]?.bind (·[j]?)) = some m ∧ (r.chain[i]?.bind (·[j]?)) = some p ∧
    ∀ row ∈ r.lnprob, ∀ a ∈ row, a ≤ m

/-- A run of `s` steps and `w` walkers, with labels, no NaN log-probability, and if it has blobs, a Quantity or an
(energies, spectrum) pair first; if it has none, the model function has not been kept. -/
structure CornerReady (r : CornerRun) (ls : List Label) (s w : ℕ) : Prop where
  steps : 0 < s
  walkers : 0 < w
  shapeL : HasShape r.lnprob s w
  shapeC : HasShape r.chain s w
  noNaN : ∀ row ∈ r.lnprob, ∀ a ∈ row, a ≠ nan
  labels : r.labels = some ls
  blobs : (∃ b, r.blobs = some b ∧ HasShape b s w ∧ ∀ step ∈ b, ∀ smp ∈ step,
      (∃ q, smp[0]? = some (.qty q)) ∨ ∃ e m, smp[0]? = some (.pair e m)) ∨
    (r.blobs = none ∧ r.modelfn = none)

/-- The value of an option: the caller's if the caller gives it (the last one, should there be several),
otherwise the default. -/
def OptionIs (opts kwargs : Dict String CornerVal) (k : String) (default : CornerVal) : Prop :=
  (k ∉ kwargs.keys → opts.get? k = some default) ∧
  ∀ v a b, kwargs = a ++ (k, v) :: b → k ∉ Dict.keys b → opts.get? k = some v

/-! ### Options -/

theorem foldl_set_absent (kw : Dict String CornerVal) : ∀ (d : Dict String CornerVal) (k : String), k ∉ kw.keys →
    Dict.get? (kw.foldl (fun d kv => d.set kv.1 kv.2) d) k = Dict.get? d k := by
  induction kw with
  | nil => intro d k _; rfl
  | cons p kw ih =>
    intro d k hk
    simp only [Dict.keys, List.map_cons, List.mem_cons, not_or] at hk
    rw [List.foldl_cons, ih _ k hk.2, Dict.get?_set_other _ _ _ _ hk.1]

theorem foldl_set_last (a b : Dict String CornerVal) (d : Dict String CornerVal) (k : String) (v : CornerVal)
    (hb : k ∉ Dict.keys b) :
    Dict.get? ((a ++ (k, v) :: b).foldl (fun d kv => d.set kv.1 kv.2) d) k = some v := by
  rw [List.foldl_append, List.foldl_cons, foldl_set_absent b _ k hb, Dict.get?_set_self]

theorem cornerOpts_is (ls : List Label) (mlp : Option (List ℝ)) (kw : Dict String CornerVal) (k : String) (v : CornerVal)
    (h : Dict.get? (cornerOpts ls mlp []) k = some v) : OptionIs (cornerOpts ls mlp kw) kw k v := by
  refine ⟨fun hk => ?_, fun u a b hab hb => ?_⟩
  · unfold cornerOpts
    rw [foldl_set_absent kw _ k hk]
    exact h
  · subst hab
    unfold cornerOpts
    exact foldl_set_last a b _ k u hb

theorem cornerOpts_defaults (ls : List Label) (mlp : Option (List ℝ)) :
    Dict.get? (cornerOpts ls mlp []) "labels" = some (.labels ls) ∧
    Dict.get? (cornerOpts ls mlp []) "truths" = some (.truths mlp) ∧
    Dict.get? (cornerOpts ls mlp []) "quantiles" = some (.quantiles [16 / 100, 1 / 2, 84 / 100]) ∧
    Dict.get? (cornerOpts ls mlp []) "verbose" = some (.flag false) := by
  refine ⟨rfl, rfl, rfl, rfl⟩

/-- Options nobody asked for are not passed. -/
theorem cornerOpts_absent (ls : List Label) (mlp : Option (List ℝ)) (kw : Dict String CornerVal) (k : String)
    (hk : k ∉ kw.keys) (hd : k ∉ ["labels", "truths", "quantiles", "verbose", "truth_color"]) :
    Dict.get? (cornerOpts ls mlp kw) k = none := by
  unfold cornerOpts
  rw [foldl_set_absent kw _ k hk, Dict.get?_eq_none_iff]
  exact hd

/-! ### The point that is marked -/

theorem cornerTruths_best (r : CornerRun) (ls : List Label) (s w : ℕ) (h : CornerReady r ls s w) :
    ∃ p, BestSample r p ∧ cornerTruths r true = .ok (some p) := by
  rcases h.blobs with ⟨b, hb, hsh, hq⟩ | ⟨hb, hm⟩
  · obtain ⟨i, j, m, p, bs, h1, h2, h3, h4, h5⟩ := C49_consistent r.lnprob r.chain (b.map (·.map some)) s w h.steps
      h.walkers h.shapeL h.shapeC (hasShape_map hsh some) h.noNaN
    refine ⟨p, ⟨i, j, m, h2, h3, h5⟩, ?_⟩
    obtain ⟨step, hst, hbm⟩ := Option.bind_eq_some_iff.1 h4
    rw [List.getElem?_map] at hst
    obtain ⟨step', hst', rfl⟩ := Option.map_eq_some_iff.1 hst
    rw [List.getElem?_map] at hbm
    obtain ⟨smp, hsmp, rfl⟩ := Option.map_eq_some_iff.1 hbm
    have hx : ∃ x y, (blobAt 0 smp).bind (blobModel r.energy) = .ok (x, y) := by
      rcases hq step' (List.mem_of_getElem? hst') smp (List.mem_of_getElem? hsmp) with ⟨q, e⟩ | ⟨x, y, e⟩
      · exact ⟨r.energy, q, by unfold blobAt; rw [e]; rfl⟩
      · exact ⟨x, y, by unfold blobAt; rw [e]; rfl⟩
    obtain ⟨x, y, hxy⟩ := hx
    unfold cornerTruths findMLAll
    rw [if_pos rfl, hb]
    simp only [h1, mlModel, hxy]
  · obtain ⟨i, j, m, p, bs, h1, h2, h3, h4, h5⟩ := C49_consistent r.lnprob r.chain
      (r.chain.map (·.map (fun _ => (none : Option (List MBlob))))) s w h.steps
      h.walkers h.shapeL h.shapeC (hasShape_map h.shapeC _) h.noNaN
    refine ⟨p, ⟨i, j, m, h2, h3, h5⟩, ?_⟩
    obtain ⟨step, hst, hbm⟩ := Option.bind_eq_some_iff.1 h4
    rw [List.getElem?_map] at hst
    obtain ⟨step', hst', rfl⟩ := Option.map_eq_some_iff.1 hst
    rw [List.getElem?_map] at hbm
    obtain ⟨smp, hsmp, rfl⟩ := Option.map_eq_some_iff.1 hbm
    unfold cornerTruths findMLAll
    rw [if_pos rfl, hb, hm]
    simp only [h1, mlModel]

/-! ### C115 -/

/-- **C115.** With the package installed, for every run that is ready, every call and every drawing function:
the outcome is that of the drawing function called once, with line width 0.7, with the samples of all steps in
order, and with options of which labels, marked point, quantiles and verbosity are those of the run (or of the
caller, who has precedence), and no others but the caller's. The marked point is a best sample, or nothing with
`show_ML=False`. If drawing succeeds the line width is afterwards what it was. -/
theorem C115_corner_partial {F : Type} (c : CornerFn F) (r : CornerRun) (ls : List Label) (s w : ℕ)
    (h : CornerReady r ls s w) (showML : Bool) (kw : Dict String CornerVal) (lw : ℚ) :
    ∃ (opts : Dict String CornerVal) (marked : Option (List ℝ)),
      (plotCornerRun (some c) r showML kw lw).2 = (c (7 / 10) r.chain.flatten opts).map some ∧
      ((∃ f, c (7 / 10) r.chain.flatten opts = .ok f) → (plotCornerRun (some c) r showML kw lw).1 = lw) ∧
      (showML = true → ∃ p, marked = some p ∧ BestSample r p ∧ p ∈ r.chain.flatten) ∧ (showML = false → marked = none) ∧
      OptionIs opts kw "labels" (.labels ls) ∧ OptionIs opts kw "truths" (.truths marked) ∧
      OptionIs opts kw "quantiles" (.quantiles [0.16, 0.5, 0.84]) ∧ OptionIs opts kw "verbose" (.flag false) ∧
      (∀ k, k ∉ kw.keys → k ∉ ["labels", "truths", "quantiles", "verbose", "truth_color"] → opts.get? k = none) := by
  have key : ∃ marked, cornerTruths r showML = .ok marked ∧
      (showML = true → ∃ p, marked = some p ∧ BestSample r p ∧ p ∈ r.chain.flatten) ∧ (showML = false → marked = none) := by
    cases showML with
    | true =>
      obtain ⟨p, hp, e⟩ := cornerTruths_best r ls s w h
      obtain ⟨i, j, m, -, hc, -⟩ := id hp
      obtain ⟨row, hr, hj⟩ := Option.bind_eq_some_iff.1 hc
      exact ⟨some p, e, fun _ => ⟨p, rfl, hp, List.mem_flatten.2 ⟨row, List.mem_of_getElem? hr, List.mem_of_getElem? hj⟩⟩,
        by simp⟩
    | false => exact ⟨none, rfl, by simp, fun _ => rfl⟩
  obtain ⟨marked, hm, h1, h2⟩ := key
  obtain ⟨d1, d2, d3, d4⟩ := cornerOpts_defaults ls marked
  refine ⟨cornerOpts ls marked kw, marked, ?_, ?_, h1, h2, cornerOpts_is _ _ _ _ _ d1, cornerOpts_is _ _ _ _ _ d2,
    ?_, cornerOpts_is _ _ _ _ _ d4, fun k => cornerOpts_absent ls marked kw k⟩
  · unfold plotCornerRun cornerTry
    simp only [hm, h.labels]
    cases c (7 / 10) r.chain.flatten (cornerOpts ls marked kw) <;> rfl
  · rintro ⟨f, hf⟩
    unfold plotCornerRun cornerTry
    simp only [hm, h.labels, hf]
  · have : ([0.16, 0.5, 0.84] : List ℚ) = [16 / 100, 1 / 2, 84 / 100] := by norm_num
    rw [this]
    exact cornerOpts_is _ _ _ _ _ d3

/-- **C115, missing package.** Without the package the call succeeds for every sampler, gives no figure and
leaves the line width alone. -/
theorem C115_missing {F : Type} (r : CornerRun) (showML : Bool) (kw : Dict String CornerVal) (lw : ℚ) :
    plotCornerRun (F := F) none r showML kw lw = (lw, .ok none) := rfl

/-- **C115 fails for other first blobs.** For every run whose samples keep a plain number or an object first, the
default corner plot (which shows parameters only) cannot be made: TypeError, and the line width stays 0.7.
With `show_ML=False` the same run can be plotted. -/
theorem C115_false_first_blob {F : Type} (c : CornerFn F) (r : CornerRun) (b : List (List (List MBlob)))
    (s w : ℕ) (hs : 0 < s) (hw : 0 < w) (hL : HasShape r.lnprob s w) (hC : HasShape r.chain s w)
    (hn : ∀ row ∈ r.lnprob, ∀ a ∈ row, a ≠ nan) (hb : r.blobs = some b) (hB : HasShape b s w)
    (hq : ∀ step ∈ b, ∀ smp ∈ step, (∃ x, smp[0]? = some (.num x)) ∨ smp[0]? = some .other)
    (kw : Dict String CornerVal) (lw : ℚ) :
    plotCornerRun (some c) r true kw lw = (7 / 10, .error .typeError) ∧
    ∀ ls f, r.labels = some ls → (∀ o, c (7 / 10) r.chain.flatten o = .ok f) →
      plotCornerRun (some c) r false kw lw = (lw, .ok (some f)) := by
  constructor
  · obtain ⟨i, j, m, p, bs, h1, h2, h3, h4, h5⟩ := C49_consistent r.lnprob r.chain (b.map (·.map some)) s w hs
      hw hL hC (hasShape_map hB some) hn
    obtain ⟨step, hst, hbm⟩ := Option.bind_eq_some_iff.1 h4
    rw [List.getElem?_map] at hst
    obtain ⟨step', hst', rfl⟩ := Option.map_eq_some_iff.1 hst
    rw [List.getElem?_map] at hbm
    obtain ⟨smp, hsmp, rfl⟩ := Option.map_eq_some_iff.1 hbm
    have hx : (blobAt 0 smp).bind (blobModel r.energy) = .error .typeError := by
      rcases hq step' (List.mem_of_getElem? hst') smp (List.mem_of_getElem? hsmp) with ⟨x, e⟩ | e <;>
      · unfold blobAt; rw [e]; rfl
    unfold plotCornerRun cornerTry cornerTruths findMLAll
    rw [if_pos rfl, hb]
    simp only [h1, mlModel, hx]
  · intro ls f hl hc
    unfold plotCornerRun cornerTry
    simp [cornerTruths, hl, hc]

/-- **C115 fails for samplers without labels.** A sampler that naima did not make has no `labels`: AttributeError
even if the caller passes labels, and the line width stays 0.7. -/
theorem C115_false_labels {F : Type} (c : CornerFn F) (r : CornerRun) (hl : r.labels = none)
    (kw : Dict String CornerVal) (lw : ℚ) :
    plotCornerRun (some c) r false kw lw = (7 / 10, .error .attributeError) := by
  unfold plotCornerRun cornerTry
  simp [cornerTruths, hl]

/-- **C115 fails for the line width.** Whatever the calls of a session: if none of them raised, the line width
afterwards is what it was, but if any raised, it is 0.7, whatever it was: all lines drawn later in the session
are 0.7 points wide. -/
theorem C115_false_linewidth {F : Type} (calls : List (Option (CornerFn F) × CornerRun × Bool × Dict String CornerVal)) :
    ∀ lw : ℚ, (cornerSession calls lw).2.length = calls.length ∧
      ((∀ o ∈ (cornerSession calls lw).2, ∃ f, o = .ok f) → (cornerSession calls lw).1 = lw) ∧
      ((∃ o ∈ (cornerSession calls lw).2, ∃ e, o = .error e) → (cornerSession calls lw).1 = 0.7) := by
  induction calls with
  | nil => intro lw; simp [cornerSession]
  | cons x rest ih =>
    obtain ⟨c, r, s, k⟩ := x
    intro lw
    obtain ⟨i1, i2, i3⟩ := ih (plotCornerRun c r s k lw).1
    have h0 : (∃ e, (plotCornerRun c r s k lw).2 = .error e) → (plotCornerRun c r s k lw).1 = 0.7 := by
      unfold plotCornerRun
      cases cornerTry c r s k (7 / 10) with
      | error e => intro _; norm_num
      | ok f => rintro ⟨e, he⟩; cases he
    have h1 : (∃ f, (plotCornerRun c r s k lw).2 = .ok f) → (plotCornerRun c r s k lw).1 = lw := by
      unfold plotCornerRun
      cases cornerTry c r s k (7 / 10) with
      | error e => rintro ⟨f, hf⟩; cases hf
      | ok f => intro _; rfl
    refine ⟨by simp [cornerSession, i1], ?_, ?_⟩
    · intro h
      simp only [cornerSession] at h ⊢
      rw [i2 (fun o ho => h o (List.mem_cons_of_mem _ ho)), h1 (h _ (List.mem_cons_self ..))]
    · rintro ⟨o, ho, e, rfl⟩
      simp only [cornerSession] at ho ⊢
      by_cases hr : ∃ o ∈ (cornerSession rest (plotCornerRun c r s k lw).1).2, ∃ e, o = .error e
      · exact i3 hr
      · have : ∀ o ∈ (cornerSession rest (plotCornerRun c r s k lw).1).2, ∃ f, o = .ok f := by
          intro o ho'
          cases o with
          | error e' => exact absurd ⟨_, ho', e', rfl⟩ hr
          | ok f => exact ⟨f, rfl⟩
        rw [i2 this]
        rcases List.mem_cons.1 ho with h | h
        · exact h0 ⟨e, h.symm⟩
        · exact absurd ⟨_, h, e, rfl⟩ hr

/-- **C115, diagnostic plots.** The corner plot of `save_diagnostic_plots` (C86) is this one: with the outcome of
`plot_corner` as the drawing, line width and outcome agree. -/
theorem C115_diagnostics {F : Type} (pkg : Option (CornerFn F)) (r : CornerRun) (showML : Bool)
    (kw : Dict String CornerVal) (D : Draw) (w : PlotWorld)
    (hD : D.corner = (cornerTry pkg r showML kw (7 / 10)).map (Option.map fun _ => ())) :
    (plotCorner D w).1.linewidth = (plotCornerRun pkg r showML kw w.linewidth).1 ∧
    (plotCorner D w).2 = (plotCornerRun pkg r showML kw w.linewidth).2.map (Option.map fun _ => ()) := by
  unfold plotCorner plotCornerRun
  rw [hD]
  cases cornerTry pkg r showML kw (7 / 10) <;> exact ⟨rfl, rfl⟩

/-! ### Non-vacuity -/

/-- Two steps of two walkers with two parameters; the second walker of the first step is best. -/
noncomputable def exCornerRun : CornerRun where
  lnprob := [[fin (-3), fin (-1)], [fin (-2), ninf]]
  chain := [[[1, 2], [3, 4]], [[5, 6], [7, 8]]]
  blobs := some [[[.qty exEnergy], [.pair exEnergy exEnergy]], [[.qty exEnergy], [.qty exEnergy]]]
  npar := 2
  energy := exEnergy
  modelfn := none
  labels := some ["norm".toList, "index".toList]

/-- The best sample is marked in seaborn's blue #4C72B0 unless the call says otherwise. -/
theorem C115_mark_colour (labels : List Label) (mlp : Option (List ℝ)) :
    ∃ r g b : ℚ, (cornerOpts labels mlp []).get? "truth_color" = some (.color (r, g, b)) ∧
      |r - 0x4C / 255| ≤ 5e-17 ∧ |g - 0x72 / 255| ≤ 5e-17 ∧ |b - 0xB0 / 255| ≤ 5e-17 := by
  refine ⟨_, _, _, rfl, ?_, ?_, ?_⟩ <;> rw [abs_le] <;> constructor <;> norm_num

theorem exCornerReady : CornerReady exCornerRun ["norm".toList, "index".toList] 2 2 where
  steps := by norm_num
  walkers := by norm_num
  shapeL := ⟨rfl, by simp [exCornerRun]⟩
  shapeC := ⟨rfl, by simp [exCornerRun]⟩
  noNaN := by simp [exCornerRun]
  labels := rfl
  blobs := Or.inl ⟨_, rfl, ⟨rfl, by simp⟩, by simp⟩

theorem exCornerBest (p : List ℝ) (h : BestSample exCornerRun p) : p = [3, 4] := by
  obtain ⟨i, j, m, h1, h2, h3⟩ := h
  have hm : fin (-1) ≤ m := h3 [fin (-3), fin (-1)] (by simp [exCornerRun]) _ (by simp)
  obtain ⟨row, hr, hj⟩ := Option.bind_eq_some_iff.1 h1
  obtain ⟨crow, hcr, hcj⟩ := Option.bind_eq_some_iff.1 h2
  simp only [exCornerRun] at hr hcr
  rcases i with _ | _ | i
  · simp at hr hcr
    subst hr hcr
    rcases j with _ | _ | j
    · simp at hj
      subst hj
      norm_num [XR.le_def, XR.lt, XR.eqv] at hm
    · simpa using hcj.symm
    · simp at hj
  · simp at hr hcr
    subst hr hcr
    rcases j with _ | _ | j
    · simp at hj
      subst hj
      norm_num [XR.le_def, XR.lt, XR.eqv] at hm
    · simp at hj
      subst hj
      norm_num [XR.le_def, XR.lt, XR.eqv] at hm
    · simp at hj
  · simp at hr

/-- With the caller's own quantiles, the figure being the arguments of the drawing: the best sample is (3, 4), all four
samples are drawn, the line width of 1.5 is restored. -/
example : ∃ opts : Dict String CornerVal,
    plotCornerRun (some (fun (lw : ℚ) (x : List (List ℝ)) o => Except.ok (lw, x, o))) exCornerRun true
      [("quantiles", .other 0), ("bins", .other 40)] (3 / 2) =
      (3 / 2, .ok (some (7 / 10, [[1, 2], [3, 4], [5, 6], [7, 8]], opts))) ∧
    opts.get? "quantiles" = some (.other 0) ∧
    opts.get? "labels" = some (.labels ["norm".toList, "index".toList]) ∧
    opts.get? "truths" = some (.truths (some [3, 4])) := by
  obtain ⟨opts, marked, h1, h2, h3, -, h5, h6, h7, -⟩ := C115_corner_partial
    (fun (lw : ℚ) (x : List (List ℝ)) o => Except.ok (lw, x, o)) exCornerRun _ 2 2 exCornerReady true
    [("quantiles", .other 0), ("bins", .other 40)] (3 / 2)
  obtain ⟨p, rfl, hb, -⟩ := h3 rfl
  rw [exCornerBest p hb] at h6
  refine ⟨opts, Prod.ext (h2 ⟨_, rfl⟩) h1, h7.2 _ [] _ rfl (by decide), h5.1 (by decide), h6.1 (by decide)⟩

/-- The same chain with a number as first blob: the default corner plot fails, and a later one is not needed to see
that the line width has changed. -/
example (c : CornerFn ℕ) (lw : ℚ) := C115_false_first_blob c
  { exCornerRun with blobs := some [[[.num nan], [.other]], [[.num (fin 1)], [.num nan]]] } _ 2 2 (by norm_num) (by norm_num)
  exCornerReady.shapeL exCornerReady.shapeC exCornerReady.noNaN rfl ⟨rfl, by simp⟩ (by simp) [] lw

end Naima.Props
