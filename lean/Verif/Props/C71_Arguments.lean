import Verif.Props.C71_ICFormula
import Verif.Props.C16_Seeds
import Verif.Props.C49_C52_Results
import Verif.Model.ICModel

/-! # C71 from the arguments of `InverseCompton`: seed fields given in any units -/

namespace Naima.Props

open Naima XR Classical

/-! ### Specification -/

/-- A photon field in cgs units. -/
inductive Field
  /-- temperature in K, energy density in erg/cm³, angle in rad (none: isotropic) -/
  | blackbody (T u : ℝ) (θ : Option ℝ)
  /-- photon energy in erg, energy density in erg/cm³ -/
  | line (E u : ℝ)
  /-- photon energies in erg with number densities in 1/(erg cm³) -/
  | spectral (l : List (ℝ × ℝ))

/-- The field seen under an angle. An angle given for the other fields has no effect (see
`C16_false_array_angle`). -/
def Field.seenUnder (θ : ℝ) : Field → Field
  | .blackbody T u _ => .blackbody T u (some θ)
  | F => F

/-- The energy density of a blackbody. -/
noncomputable def planckDensity (T : ℝ) : ℝ := 4 * cSigma / cC * T ^ 4

/-- What the documentation says an entry of `seed_photon_fields` means. -/
inductive Means : SeedSpec → Field → Prop
  | cmb : Means (.str "CMB") (.blackbody 2.72548 (planckDensity 2.72548) none)
  | fir : Means (.str "FIR") (.blackbody 30 (0.5 * cEV) none)
  | nir : Means (.str "NIR") (.blackbody 3000 (1 * cEV) none)
  | planck (name : String) (T : ℝ) (uT : PhysUnit) (uu : PyVal) (hT : 0 < T) (hs : 0 < uT.scale)
      (hd : uT.dim = Dim.temperature) (h0 : uu = .num (fin 0) ∨ ∃ u, uu = q 0 u) :
      Means (.list3 name (q T uT) uu)
        (.blackbody (T * uT.scale) (planckDensity (T * uT.scale)) none)
  | grey (name : String) (T x : ℝ) (uT u : PhysUnit) (hT : 0 < T) (hx : 0 < x) (hs : 0 < uT.scale)
      (hd : uT.dim = Dim.temperature) (hu : 0 < u.scale) (hp : u.dim = Dim.pressure) :
      Means (.list3 name (q T uT) (q x u)) (.blackbody (T * uT.scale) (x * u.scale) none)
  | line (name : String) (E x : ℝ) (uE u : PhysUnit) (hE : 0 < E) (hx : 0 ≤ x) (hs : 0 < uE.scale)
      (hd : uE.dim = Dim.energy) (hp : u.dim = Dim.pressure) :
      Means (.list3 name (q E uE) (q x u)) (.line (E * uE.scale) (x * u.scale))
  | numbers (name : String) (l : List (ℝ × ℝ)) (sE sd : List ℕ) (uE u : PhysUnit)
      (hl : 2 ≤ l.length) (hE : ∀ p ∈ l, 0 < p.1) (hs : 0 < uE.scale) (hd : uE.dim = Dim.energy)
      (hp : u.dim = Dim.diffNumDensity) :
      Means (.list3 name (.qarr sE (l.map (fun p => fin p.1)) uE) (.qarr sd (l.map (fun p => fin p.2)) u))
        (.spectral (l.map (fun p => (p.1 * uE.scale, p.2 * u.scale))))
  | energies (name : String) (l : List (ℝ × ℝ)) (sE sd : List ℕ) (uE u : PhysUnit)
      (hl : 2 ≤ l.length) (hE : ∀ p ∈ l, 0 < p.1) (hs : 0 < uE.scale) (hd : uE.dim = Dim.energy)
      (hp : u.dim = Dim.pressure) :
      Means (.list3 name (.qarr sE (l.map (fun p => fin p.1)) uE) (.qarr sd (l.map (fun p => fin p.2)) u))
        (.spectral (l.map (fun p => (p.1 * uE.scale, p.2 * u.scale / (p.1 * uE.scale) ^ 2))))
  | angle (name : String) (T uu : PyVal) (θ : ℝ) (u : PhysUnit) (F : Field)
      (h : Means (.list3 name T uu) F) (hu : 0 < u.scale) (hd : u.dim = Dim.angle) :
      Means (.list4 name T uu (q θ u)) (F.seenUnder (θ * u.scale))

/-- The name of an entry. -/
def SeedSpec.name : SeedSpec → String
  | .str s => s
  | .list3 n _ _ => n
  | .list4 n _ _ _ => n
  | _ => ""

/-- The direction of a field, if it has one, is not that of a head-on view (`θ = 0`, where the kernel
has no value). -/
def Field.AngleOk : Field → Prop
  | .blackbody _ _ (some θ) => Real.cos θ ≠ 1
  | _ => True

/-- Photons of energy `E` erg scattered out of the field per second and eV by electrons sampled at the
Lorentz factors `gam`. -/
noncomputable def Field.spectrum (pd : PDist) (gam : List ℝ) (E : ℝ) : Field → XR
  | .blackbody T u θ => fin (u / planckDensity T * cEV / (cMe * cC ^ 2)) *
      trapzLL (gam.map (fun g => (fin g,
        electrons pd g * fin (thermalRate T θ g (E / (cMe * cC ^ 2))))))
  | .line E₀ u => fin (cEV / (cMe * cC ^ 2)) *
      trapzLL (gam.map (fun g => (fin g,
        electrons pd g * fin (u / E₀ * monoRate g (E₀ / (cMe * cC ^ 2)) (E / (cMe * cC ^ 2))))))
  | .spectral l => fin (cEV / (cMe * cC ^ 2)) *
      trapzLL (gam.map (fun g => (fin g,
        electrons pd g * trapzLL (l.map (fun p => (fin (p.1 / (cMe * cC ^ 2)),
          fin (p.2 * (cMe * cC ^ 2) *
            monoRate g (p.1 / (cMe * cC ^ 2)) (E / (cMe * cC ^ 2)))))))))

/-! ### Proof -/

/-- the processed field holds the numbers of `F` -/
private inductive Reads : SeedField → Field → Prop
  | thermal (Tq uq : PyVal) (thq : Option PyVal) (T u : ℝ) (θ : Option ℝ) (hT : 0 < T)
      (h1 : sizeOf Tq Dim.temperature = .ok T) (h2 : sizeOf uq Dim.pressure = .ok u)
      (h3 : thetaOf thq = .ok θ) : Reads (.thermal Tq uq thq) (.blackbody T u θ)
  | line (en de : PyVal) (th : Option PyVal) (E u : ℝ) (hE : 0 < E)
      (h1 : photE0 en = .ok [E / cMec2]) (h2 : photDens de = .ok [fin (u / cMec2)]) :
      Reads (.array en de th) (.line E u)
  | spectral (en de : PyVal) (th : Option PyVal) (l : List (ℝ × ℝ)) (hl : 2 ≤ l.length)
      (hE : ∀ p ∈ l, 0 < p.1)
      (h1 : photE0 en = .ok (l.map (fun p => p.1 / cMec2)))
      (h2 : photDens de = .ok (l.map (fun p => fin (p.2 * cMec2)))) :
      Reads (.array en de th) (.spectral l)

private theorem sizeOf_q (x : ℝ) (u : PhysUnit) (d : Dim) (h : u.dim = d) :
    sizeOf (q x u) d = .ok (x * u.scale) := by
  simp [sizeOf, scalarQty, q, h, asFinite]

private theorem mapM_fin (l : List ℝ) : (l.map fin).mapM asFinite = some l := by
  induction l with
  | nil => rfl
  | cons a l ih => simp [List.mapM_cons, asFinite, ih]

private theorem photE0_arr (s : List ℕ) (l : List ℝ) (u : PhysUnit) (h : u.dim = Dim.energy) :
    photE0 (.qarr s (l.map fin) u) = .ok (l.map (fun r => r * u.scale / cMec2)) := by
  simp only [photE0, h, if_true, mapM_fin]

private theorem means_reads (s : SeedSpec) (F : Field) (h : Means s F) :
    ∃ f, parseSeed s = .ok (SeedSpec.name s, f) ∧ Reads f F := by
  have hm := cMec2_pos
  induction h with
  | cmb =>
    refine ⟨_, (C16_named_fields _).trans (if_pos rfl), ?_⟩
    refine .thermal _ _ _ _ _ _ (by norm_num) ?_ ?_ rfl
    · exact (sizeOf_q _ kelvin Dim.temperature rfl).trans (by simp [kelvin])
    · rw [sizeOf_q _ _ _ rfl]; simp [planckDensity, cAr]
  | fir =>
    refine ⟨_, (C16_named_fields _).trans ((if_neg (by decide)).trans (if_pos rfl)), ?_⟩
    refine .thermal _ _ _ _ _ _ (by norm_num) ?_ ?_ rfl
    · exact (sizeOf_q _ kelvin Dim.temperature rfl).trans (by simp [kelvin])
    · exact sizeOf_q _ eVcm3 Dim.pressure rfl
  | nir =>
    refine ⟨_, (C16_named_fields _).trans
      ((if_neg (by decide)).trans ((if_neg (by decide)).trans (if_pos rfl))), ?_⟩
    refine .thermal _ _ _ _ _ _ (by norm_num) ?_ ?_ rfl
    · exact (sizeOf_q _ kelvin Dim.temperature rfl).trans (by simp [kelvin])
    · exact sizeOf_q _ eVcm3 Dim.pressure rfl
  | planck name T uT uu hT hs hd h0 =>
    refine ⟨_, (C16_thermal_blackbody name T uT hs hd uu h0).trans (if_neg (by linarith)), ?_⟩
    refine .thermal _ _ _ _ _ _ (by positivity) (sizeOf_q _ _ _ hd) ?_ rfl
    rw [sizeOf_q _ _ _ rfl]
    congr 1
    unfold planckDensity cAr
    ring
  | grey name T x uT u hT hx hs hd hu hp =>
    refine ⟨_, (C16_thermal_density name T uT hs hd hT.le x hx.ne' u hu).1.trans
      ((if_pos hp).trans (if_pos hx)), ?_⟩
    exact .thermal _ _ _ _ _ _ (by positivity) (sizeOf_q _ _ _ hd) (sizeOf_q _ _ _ hp) rfl
  | line name E x uE u hE hx hs hd hp =>
    refine ⟨_, (C16_monochromatic name E uE hd x u).trans ((if_pos hp).trans (if_pos hx)), ?_⟩
    refine .line _ _ _ _ _ (by positivity) (photE0_arr [1] [E] uE hd) ?_
    simp [photDens, hp, mul_div_assoc]
  | numbers name l sE sd uE u hl hE hs hd hp =>
    have := C16_spectral_partial name (l.map (·.1)) (l.map (·.2)) sE sd uE u hd (by simpa using hl)
      (by simp) (by simpa using fun a b h => hE (a, b) h)
    simp only [List.map_map, hp, if_true] at this
    refine ⟨_, this, ?_⟩
    refine .spectral _ _ _ _ (by simpa using hl) ?_ ?_ ?_
    · intro p hp
      obtain ⟨a, ha, rfl⟩ := List.mem_map.1 hp
      have := hE a ha
      simp only; positivity
    · have := photE0_arr [(l.map (·.1)).length] (l.map (·.1)) uE hd
      simp only [List.map_map] at this ⊢
      exact this
    · unfold photDens
      simp only [List.length_map, hp, if_true]
      rw [if_pos (by omega)]
      simp [mul_assoc, Function.comp_def]
  | energies name l sE sd uE u hl hE hs hd hp =>
    have := C16_spectral_partial name (l.map (·.1)) (l.map (·.2)) sE sd uE u hd (by simpa using hl)
      (by simp) (by simpa using fun a b h => hE (a, b) h)
    rw [if_neg (by rw [hp]; decide), if_pos hp, List.zipWith_map, List.zipWith_self] at this
    simp only [List.map_map] at this
    refine ⟨_, this, ?_⟩
    refine .spectral _ _ _ _ (by simpa using hl) ?_ ?_ ?_
    · intro p hp
      obtain ⟨a, ha, rfl⟩ := List.mem_map.1 hp
      have := hE a ha
      simp only; positivity
    · have := photE0_arr [(l.map (·.1)).length] (l.map (·.1)) uE hd
      simp only [List.map_map] at this ⊢
      exact this
    · unfold photDens
      simp only [List.length_map]
      rw [if_pos (by omega)]
      simp only [if_true, List.map_map, Except.ok.injEq]
      apply List.map_congr_left
      intro p hpm
      have := hE p hpm
      simp only [Function.comp_apply, mul_fin, fin_inj]
      field_simp
  | angle name T uu θ u F h hu hd ih =>
    obtain ⟨f, hf, hr⟩ := ih
    refine ⟨SeedField.withTheta (q θ u) f, ?_, ?_⟩
    · rw [C16_anisotropic name T uu θ u hu, if_pos hd, hf]; rfl
    · cases hr with
      | thermal Tq uq thq T u' θ' hT h1 h2 h3 =>
        refine .thermal _ _ _ _ _ _ hT h1 h2 ?_
        simp [thetaOf, sizeOf_q _ _ _ hd, Except.map]
      | line en de th E u' hE h1 h2 => exact .line _ _ _ _ _ hE h1 h2
      | spectral en de th l hl hE h1 h2 => exact .spectral _ _ _ _ hl hE h1 h2

private theorem reads_num (f : SeedField) (F : Field) (h : Reads f F) (ha : F.AngleOk) :
    ∃ s, f.toNum = .ok s ∧ ∀ (pd : PDist) (gam : List ℝ) (hg : ∀ g ∈ gam, 0 < g) (e : ℝ), 0 < e →
      icAt gam (gam.map (electrons pd)) s e = F.spectrum pd gam e := by
  have hm := cMec2_pos
  have hm' : cMe * cC ^ 2 = cMec2 := rfl
  cases h with
  | thermal Tq uq thq T u θ hT h1 h2 h3 =>
    refine ⟨.thermal T u θ, ?_, ?_⟩
    · simp [SeedField.toNum, h1, h2, h3, bind, Except.bind, pure, Except.pure]
    · intro pd gam hg e he
      have hA := cAr_pos
      apply ic_icAt gam (electrons pd) (fun g => fin (thermalRate T θ g (e / (cMe * cC ^ 2)))) _ e
        (u / planckDensity T) he
      · simp only [SeedNum.uf]
        rw [div_fin _ _ (by positivity)]; rfl
      · intro g hgm
        have heg : 0 < e / cMec2 := div_pos he cMec2_pos
        show _ = fin (thermalRate T θ g (e / cMec2))
        generalize e / cMec2 = ε at heg
        unfold thermalRate
        cases θ with
        | none =>
          obtain ⟨h1, h2⟩ := C15_isotropic g T ε hT heg
          simp only [SeedNum.kernel]
          split
          · rename_i h; exact (h2 h.1 h.2).1
          · rename_i h; apply h1; by_contra h'; push Not at h'; exact h h'
        | some θ =>
          obtain ⟨h1, h2⟩ := C15_anisotropic_partial g T ε θ hT heg ha
          simp only [SeedNum.kernel]
          split
          · rename_i h; exact (h2 h.1 h.2).1
          · rename_i h; apply h1; by_contra h'; push Not at h'; exact h h'
  | line en de th E u hE h1 h2 =>
    refine ⟨SeedNum.array [E / cMec2] [fin (u / cMec2)]
        (match thetaOf th with | .ok t => t | .error _ => none), ?_, ?_⟩
    · simp only [SeedField.toNum, h1, h2, bind, Except.bind, pure, Except.pure, List.length_map,
        List.length_singleton, ne_eq, not_true_eq_false, if_false]
      cases th <;> rfl
    · intro pd gam hg e he
      rw [ic_icAt gam (electrons pd) (fun g => fin (u / cMec2 / (E / cMec2) *
        monoRate g (E / cMec2) (e / cMec2))) _ e 1 he rfl (by
        intro g hgm
        exact monoKernel_one g _ _ _ (hg g hgm) (div_pos hE hm) (div_pos he hm))]
      simp only [Field.spectrum, one_mul, hm']
      congr 2
      apply List.map_congr_left
      intro g _
      rw [div_div_div_cancel_right₀ hm.ne']
  | spectral en de th l hl hE h1 h2 =>
    refine ⟨SeedNum.array (l.map (fun p => p.1 / cMec2)) (l.map (fun p => fin (p.2 * cMec2)))
        (match thetaOf th with | .ok t => t | .error _ => none), ?_, ?_⟩
    · simp only [SeedField.toNum, h1, h2, bind, Except.bind, pure, Except.pure, List.length_map,
        List.length_singleton, ne_eq, not_true_eq_false, if_false]
      cases th <;> rfl
    · intro pd gam hg e he
      rw [ic_icAt gam (electrons pd) (fun g => trapzLL (l.map (fun p => (fin (p.1 / cMec2),
          fin (p.2 * cMec2 * monoRate g (p.1 / cMec2) (e / cMec2)))))) _ e 1 he rfl (by
        intro g hgm
        have := monoKernel_many g (e / cMec2) (l.map (fun p => (p.1 / cMec2, p.2 * cMec2))) (hg g hgm)
          (div_pos he hm) (by simpa using hl) (by
            intro p hp
            obtain ⟨a, ha, rfl⟩ := List.mem_map.1 hp
            exact div_pos (hE a ha) hm)
        simp only [List.map_map, Function.comp_def] at this
        exact this)]
      simp only [Field.spectrum, one_mul, hm']

/-- **C71 (from the arguments; partial).** For every list of seed photon fields with distinct names, in
the notations and units the documentation offers, all electron distributions, energy ranges and photon
energies: `InverseCompton(...)` succeeds and its spectrum is the sum over the fields of the documented
spectrum, the fields' temperatures, densities, energies and angles being converted to cgs. Missing:
repeated names (`C16_false_duplicate_names`) and `θ = 0` (`C15_false_zero_angle`). -/
theorem C71_arguments_partial (m : ElModel) (pd : PDist) (hu : pd.unit.dim = Dim.diffEnergy)
    (hlo : m.Eemin.PosEnergy) (hhi : m.Eemax.PosEnergy) (hle : m.Eemin.phys ≤ m.Eemax.phys)
    (entries : List SeedSpec) (fields : List Field) (hne : entries ≠ [])
    (hm : List.Forall₂ Means entries fields) (hn : (entries.map SeedSpec.name).Nodup)
    (ha : ∀ F ∈ fields, F.AngleOk) (es : List ℝ) (hes : ∀ e ∈ es, 0 < e) :
    ∃ gam, m.gam = .ok gam ∧ (∀ g ∈ gam, 0 < g) ∧
      icModelSpectrum m (.list entries) pd es = .ok (es.map (fun E =>
        (fields.map (Field.spectrum pd gam E)).foldl (· + ·) (fin 0))) := by
  obtain ⟨gam, hg, hgp, -⟩ := gamGrid_facts m.nEed m.Eemin m.Eemax hlo hhi hle
  have hg : m.gam = .ok gam := hg
  refine ⟨gam, hg, hgp, ?_⟩
  have key : ∃ (fs : List (String × SeedField)) (ss : List SeedNum),
      List.Forall₂ (fun s f => parseSeed s = .ok f) entries fs ∧
      fs.map (·.1) = entries.map SeedSpec.name ∧
      fs.mapM (fun f => f.2.toNum) = .ok ss ∧
      List.Forall₂ (fun s F => ∀ e, 0 < e →
        icAt gam (gam.map (electrons pd)) s e = F.spectrum pd gam e) ss fields := by
    clear hn hne
    induction hm with
    | nil => exact ⟨[], [], .nil, rfl, rfl, .nil⟩
    | cons h1 _ ih =>
      rename_i s F _ _ _
      obtain ⟨fs, ss, a1, a2, a3, a4⟩ := ih (fun F hF => ha F (by simp [hF]))
      obtain ⟨f, b1, b2⟩ := means_reads s F h1
      obtain ⟨n, c1, c2⟩ := reads_num f F b2 (ha F (by simp))
      refine ⟨(SeedSpec.name s, f) :: fs, n :: ss, .cons b1 a1, by simp [a2], ?_,
        .cons (fun e he => c2 pd gam hgp e he) a4⟩
      rw [List.mapM_cons, a3, c1]
      rfl
  obtain ⟨fs, ss, a1, a2, a3, a4⟩ := key
  have hp := C16_in_order_partial entries fs a1 (by rw [a2]; exact hn)
  unfold icModelSpectrum
  rw [hp]
  simp only [bind, Except.bind]
  rw [a3]
  simp only
  cases a4 with
  | nil => cases hm; exact absurd rfl hne
  | cons h1 h2 =>
    rename_i s F ss Fs
    rw [icSpectrum_eq, hg, nelec_eq m pd hu gam hg]
    simp only [bind, Except.bind, pure, Except.pure]
    congr 1
    apply List.map_congr_left
    intro e he
    have hN : (gam.map (· * cMec2)).map (fun e => pd.f e * XR.fin (pd.unit.scale / perMec2.scale)) =
        gam.map (electrons pd) := by
      rw [List.map_map]
      apply List.map_congr_left
      intro g _
      have : pd.unit.scale / perMec2.scale = pd.unit.scale * (cMe * cC ^ 2) := by
        simp only [perMec2, cMec2, one_div, div_inv_eq_mul]
      simp only [Function.comp_apply, electrons, this]
      rfl
    rw [hN]
    simp only [icTotal, List.map_cons, List.foldl_cons, zero_add']
    rw [h1 e (hes e he)]
    clear hm ha a3 h1 hne
    generalize F.spectrum pd gam e = acc
    induction h2 generalizing acc with
    | nil => rfl
    | cons h1 _ ih =>
      simp only [List.map_cons, List.foldl_cons]
      rw [h1 e (hes e he)]
      exact ih _

/-- A list in four notations: named, in millikelvin with a density in J/m³ and an angle in degrees, a
line in eV and a spectrum in eV with energy densities. -/
example : List.Forall₂ Means
    [.str "CMB",
      .list4 "dust" (q 30000 ⟨1e-3, Dim.temperature⟩) (q 1 ⟨10, Dim.pressure⟩)
        (q 90 ⟨Real.pi / 180, Dim.angle⟩),
      .list3 "line" (q 1 PhysUnit.eV) (q 1 eVcm3),
      .list3 "ssc" (.qarr [2] ([(1, 2), (10, 3)].map (fun p : ℝ × ℝ => fin p.1)) PhysUnit.eV)
        (.qarr [2] ([(1, 2), (10, 3)].map (fun p : ℝ × ℝ => fin p.2)) eVcm3)]
    [.blackbody 2.72548 (planckDensity 2.72548) none,
      .blackbody (30000 * 1e-3) (1 * 10) (some (90 * (Real.pi / 180))),
      .line (1 * PhysUnit.eV.scale) (1 * eVcm3.scale),
      .spectral ([(1, 2), (10, 3)].map (fun p : ℝ × ℝ =>
        (p.1 * PhysUnit.eV.scale, p.2 * eVcm3.scale / (p.1 * PhysUnit.eV.scale) ^ 2)))] := by
  have he : 0 < PhysUnit.eV.scale := by unfold PhysUnit.eV; norm_num
  refine .cons .cmb (.cons ?_ (.cons ?_ (.cons ?_ .nil)))
  · exact .angle "dust" _ _ 90 ⟨Real.pi / 180, Dim.angle⟩ _
      (.grey "dust" 30000 1 ⟨1e-3, Dim.temperature⟩ ⟨10, Dim.pressure⟩ (by norm_num) (by norm_num)
        (by norm_num) rfl (by norm_num) rfl) (by have := Real.pi_pos; positivity) rfl
  · exact .line "line" 1 1 _ _ (by norm_num) (by norm_num) he rfl rfl
  · exact .energies "ssc" [(1, 2), (10, 3)] _ _ _ _ (by simp) (by simp) he rfl rfl

end Naima.Props
