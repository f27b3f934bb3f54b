import Verif.Proof.DataTable2

namespace Naima

open Spec

/-- The error columns are in the same kind of unit as the flux column. -/
def ErrorsMatch (t : InTable) : Prop :=
  ∀ u, t.fluxU = some u →
    (∀ e, t.fluxErrorU = some e → e.dim = u.dim) ∧
    (t.fluxErrorU = none → (∀ e, t.fluxErrorLoU = some e → e.dim = u.dim) ∧
      (∀ e, t.fluxErrorHiU = some e → e.dim = u.dim))

theorem single_errors_dim (t : InTable) (g : ℤ) (v : VTable) (h : validateSingle t g = .ok v)
    (hm : ErrorsMatch t) : v.fluxErrorLoU.dim = v.fluxU.dim ∧ v.fluxErrorHiU.dim = v.fluxU.dim := by
  unfold validateSingle at h
  simp only [bind_ok, pure_ok, validateColumn_ok] at h
  obtain ⟨eU, ⟨he, heU⟩, fU, ⟨hf, hfU⟩, ⟨⟨floU, flo⟩, ⟨fhiU, fhi⟩⟩, herr, edges, hedge,
    ul, hul, flux, hflux, cl, hcl, rfl⟩ := h
  obtain ⟨h1, h2⟩ := hm fU hf
  rcases (fluxErrors_ok t _ _).1 herr with ⟨u, hu, hd, ha, hb⟩ | ⟨hu, ul, uh, hl, hh, hd1, hd2, ha, hb⟩
  · simp at ha hb
    simp only [ha.1, hb.1]
    exact ⟨h1 u hu, h1 u hu⟩
  · simp at ha hb
    simp only [ha.1, hb.1]
    exact ⟨(h2 hu).1 ul hl, (h2 hu).2 uh hh⟩

theorem dtSed_exists (v : VTable) (b : Bool) (hd : v.fluxU.dim ∈ fluxTypes)
    (h1 : v.fluxErrorLoU.dim = v.fluxU.dim) (h2 : v.fluxErrorHiU.dim = v.fluxU.dim) :
    ∃ w, dtSedConversion v b = .ok w := by
  obtain ⟨fu, s, hs, hdim, -⟩ := Props.C33_dimensions v.fluxU (spectral_of_fluxTypes hd) b
  exact ⟨_, dtSed_mk v b fu s hs hdim.symm (by rw [h1, hdim]) (by rw [h2, hdim])⟩

/-- dimensions after conversion are determined by the kind -/
theorem dtSed_dim (v w : VTable) (b : Bool) (hd : v.fluxU.dim ∈ fluxTypes)
    (h : dtSedConversion v b = .ok w) :
    w.fluxU.dim = (if FluxLike v.fluxU.dim then (if b then Dim.flux else Dim.diffFlux)
                   else (if b then Dim.power else Dim.diffPower)) := by
  obtain ⟨fu, s, hs, -, -, -, rfl⟩ := dtSed_ok v w b h
  simp only
  rcases (mem_fluxTypes _).1 hd with (h | h) | (h | h) <;>
    (obtain ⟨⟨e1, e2⟩, f1, f2, f3, f4, f5, rs⟩ := v
     obtain ⟨sc, d⟩ := f1
     simp only at h hs
     subst h
     cases b <;>
     (simp [sedConversion, Dim.flux, Dim.diffFlux, Dim.power, Dim.diffPower, Dim.energy,
        Dim.diffEnergy, Dim.diffNumDensity] at hs
      rw [← hs.1]
      simp [FluxLike, perSTeVCm2, perSTeV, ergPerS, ergPerSCm2, Dim.flux, Dim.diffFlux, Dim.power,
        Dim.diffPower]))

theorem append_exists (fpt : Dim) (b : Bool) (acc v : VTable) (hd : v.fluxU.dim ∈ fluxTypes)
    (h1 : v.fluxErrorLoU.dim = v.fluxU.dim) (h2 : v.fluxErrorHiU.dim = v.fluxU.dim)
    (hfpt : fpt ∈ fluxTypes) (hk : FluxLike v.fluxU.dim ↔ FluxLike fpt)
    (he : v.energyU.dim = acc.energyU.dim) (hlo : v.energyErrorLoU.dim = acc.energyErrorLoU.dim)
    (hhi : v.energyErrorHiU.dim = acc.energyErrorHiU.dim)
    (ha : acc.fluxU.dim = (if FluxLike fpt then (if b then Dim.flux else Dim.diffFlux)
                   else (if b then Dim.power else Dim.diffPower)))
    (hal : acc.fluxErrorLoU = acc.fluxU) (hah : acc.fluxErrorHiU = acc.fluxU) :
    ∃ rs, appendTable fpt b acc v = .ok { acc with rows := rs } := by
  obtain ⟨w, hw⟩ := dtSed_exists v b hd h1 h2
  have hdim := dtSed_dim v w b hd hw
  unfold appendTable
  have hmix : ¬ ((v.fluxU.dim = Dim.flux ∧ fpt = Dim.power) ∨
      (v.fluxU.dim = Dim.power ∧ fpt = Dim.flux)) := by
    rintro (⟨h, h'⟩ | ⟨h, h'⟩)
    · rw [h, h'] at hk; revert hk; decide
    · rw [h, h'] at hk; revert hk; decide
  rw [if_neg hmix, hw]
  simp only [bind, Except.bind, pure, Except.pure]
  by_cases hemp : w.rows = []
  · rw [if_pos hemp]; exact ⟨acc.rows, rfl⟩
  · rw [if_neg hemp]
    obtain ⟨fu, s, hs, -, -, -, hweq⟩ := dtSed_ok v w b hw
    have hwf : w.fluxU.dim = acc.fluxU.dim := by
      rw [hdim, ha]; simp only [hk]
    have e1 : w.fluxErrorLoU = w.fluxU := by rw [hweq]
    have e2 : w.fluxErrorHiU = w.fluxU := by rw [hweq]
    have e3 : w.energyU = v.energyU := by rw [hweq]
    have e4 : w.energyErrorLoU = v.energyErrorLoU := by rw [hweq]
    have e5 : w.energyErrorHiU = v.energyErrorHiU := by rw [hweq]
    rw [if_pos ⟨by rw [e3, he], hwf, by rw [e1, hal, hwf], by rw [e2, hah, hwf],
      by rw [e4, hlo], by rw [e5, hhi]⟩]
    exact ⟨_, rfl⟩

theorem loop_exists (fpt : Dim) (b : Bool) (ts : List InTable) (g : Nat) (vs : List VTable)
    (hv : validateAll ts g = .ok vs) (hm : ∀ t ∈ ts, ErrorsMatch t) (hfpt : fpt ∈ fluxTypes)
    (hk : ∀ t ∈ ts, ∀ u, t.fluxU = some u → (FluxLike u.dim ↔ FluxLike fpt))
    (acc : VTable) (he : acc.energyU.dim = Dim.energy) (hlo : acc.energyErrorLoU.dim = Dim.energy)
    (hhi : acc.energyErrorHiU.dim = Dim.energy)
    (ha : acc.fluxU.dim = (if FluxLike fpt then (if b then Dim.flux else Dim.diffFlux)
                   else (if b then Dim.power else Dim.diffPower)))
    (hal : acc.fluxErrorLoU = acc.fluxU) (hah : acc.fluxErrorHiU = acc.fluxU) :
    ∃ out, vs.foldlM (appendTable fpt b) acc = .ok out := by
  induction ts generalizing g vs acc with
  | nil => simp [validateAll] at hv; subst hv; exact ⟨acc, rfl⟩
  | cons t ts ih =>
    unfold validateAll at hv
    simp only [bind_ok, pure_ok] at hv
    obtain ⟨v, hv1, vs', hv2, rfl⟩ := hv
    obtain ⟨es, -, -, k1, k2, k3, k4, k5, k6, -⟩ := validateSingle_ok t g v hv1
    obtain ⟨m1, m2⟩ := single_errors_dim t g v hv1 (hm t (by simp))
    obtain ⟨rs, hrs⟩ := append_exists fpt b acc v k4 m1 m2 hfpt (hk t (by simp) _ k3)
      (by rw [k2, he]) (by rw [k5, hlo]) (by rw [k6, hhi]) ha hal hah
    rw [List.foldlM_cons, hrs]
    exact ih (g + 1) vs' hv2 (fun t ht => hm t (by simp [ht])) (fun t ht => hk t (by simp [ht]))
      { acc with rows := rs } he hlo hhi ha hal hah

theorem validateAll_exists (ts : List InTable) (g : Nat) (h : ∀ t ∈ ts, Valid t) :
    ∃ vs, validateAll ts g = .ok vs := by
  induction ts generalizing g with
  | nil => exact ⟨[], rfl⟩
  | cons t ts ih =>
    obtain ⟨v, hv⟩ := (validateSingle_exists t g).2 (h t (by simp))
    obtain ⟨vs, hvs⟩ := ih (g + 1) (fun t ht => h t (by simp [ht]))
    refine ⟨v :: vs, ?_⟩
    unfold validateAll
    rw [hv, hvs]; rfl

/-! ### permuting rows -/

/-- same units, rows permuted -/
def VEquiv (v v' : VTable) : Prop := v' = { v with rows := v'.rows } ∧ v'.rows.Perm v.rows

theorem energyErrors_rows (t : InTable) (rs : List RawRow) (g : ℤ) (eU ul uh : PhysUnit)
    (es : List (ℝ × ℝ)) (hg : GivenWidths t) (h : energyErrors t g eU = .ok (ul, uh, es)) :
    ∃ es', energyErrors { t with rows := rs } g eU = .ok (ul, uh, es') := by
  unfold energyErrors at h ⊢
  cases hw : t.energyWidthU with
  | some u =>
    simp only [hw, Option.isSome_some, if_true, validateColumn_some] at h ⊢
    by_cases hd : u.dim = Dim.energy
    · simp [hd, bind, Except.bind, pure, Except.pure] at h ⊢
      exact ⟨h.1, h.2.1⟩
    · simp [hd, bind, Except.bind] at h
  | none =>
  cases hee : t.energyErrorU with
  | some u =>
    simp only [hw, hee, Option.isSome_none, Bool.false_eq_true, if_false, Option.isSome_some,
      if_true, validateColumn_some] at h ⊢
    by_cases hd : u.dim = Dim.energy
    · simp [hd, bind, Except.bind, pure, Except.pure] at h ⊢
      exact ⟨h.1, h.2.1⟩
    · simp [hd, bind, Except.bind] at h
  | none =>
  by_cases hlh : t.energyErrorLoU ≠ none ∧ t.energyErrorHiU ≠ none
  · obtain ⟨xl, hxl⟩ := Option.ne_none_iff_exists'.1 hlh.1
    obtain ⟨xh, hxh⟩ := Option.ne_none_iff_exists'.1 hlh.2
    simp only [hw, hee, hxl, hxh, Option.isSome_none, Bool.false_eq_true, if_false,
      Option.isSome_some, Bool.and_self, if_true, validateColumn_some] at h ⊢
    by_cases hd : xl.dim = Dim.energy <;> by_cases hd' : xh.dim = Dim.energy <;>
      simp [hd, hd', bind, Except.bind, pure, Except.pure] at h ⊢
    exact ⟨h.1, h.2.1⟩
  · have hb : (t.energyErrorLoU.isSome && t.energyErrorHiU.isSome) = false := by
      cases h1 : t.energyErrorLoU <;> cases h2 : t.energyErrorHiU <;> simp_all
    have hlh2 : t.energyLoU ≠ none ∧ t.energyHiU ≠ none := by
      rcases hg with h1 | h1 | h1 | h1
      · exact absurd hw h1
      · exact absurd hee h1
      · exact absurd h1 hlh
      · exact h1
    obtain ⟨xl, hxl⟩ := Option.ne_none_iff_exists'.1 hlh2.1
    obtain ⟨xh, hxh⟩ := Option.ne_none_iff_exists'.1 hlh2.2
    simp only [hw, hee, hb, hxl, hxh, Option.isSome_none, Bool.false_eq_true, if_false,
      Option.isSome_some, Bool.and_self, if_true, validateColumn_some] at h ⊢
    by_cases hd : xl.dim = Dim.energy <;> by_cases hd' : xh.dim = Dim.energy <;>
      simp [hd, hd', bind, Except.bind, pure, Except.pure] at h ⊢
    exact ⟨h.1, h.2.1⟩

theorem zipWith_map_right {α β γ : Type} (f : α → β → γ) (k : α → β) (l : List α) :
    List.zipWith f l (l.map k) = l.map (fun a => f a (k a)) := by
  induction l with
  | nil => rfl
  | cons a l ih => simp [ih]

theorem single_perm (t : InTable) (rs : List RawRow) (hp : rs.Perm t.rows) (g : ℤ) (v : VTable)
    (hg : GivenWidths t) (h : validateSingle t g = .ok v) :
    ∃ v', validateSingle { t with rows := rs } g = .ok v' ∧ VEquiv v v' := by
  have h0 := h
  have hval : Valid t := (validateSingle_exists t g).1 ⟨v, h⟩
  have hval' : Valid { t with rows := rs } := by
    obtain ⟨a1, a2, a3, a4, a5, a6, a7⟩ := hval
    refine ⟨a1, a2, a3, a4, ?_, a6, a7⟩
    rcases a5 with a | a | a | ⟨a, b⟩
    · exact Or.inl a
    · exact Or.inr (Or.inl a)
    · exact Or.inr (Or.inr (Or.inl a))
    · exact Or.inr (Or.inr (Or.inr ⟨a, fun r hr => b r (hp.mem_iff.1 hr)⟩))
  unfold validateSingle at h
  simp only [bind_ok, pure_ok, validateColumn_ok] at h
  obtain ⟨eU, ⟨he, heU⟩, fU, ⟨hf, hfU⟩, ⟨⟨floU, flo⟩, ⟨fhiU, fhi⟩⟩, herr, ⟨eloU, ehiU, es⟩, hedge,
    ul, hul, flux, hflux, cl, hcl, hv⟩ := h
  obtain ⟨es', hes'⟩ := energyErrors_rows t rs g eU eloU ehiU es hg hedge
  have herr' : fluxErrors { t with rows := rs } = .ok ((floU, flo), (fhiU, fhi)) := by
    rw [fluxErrors_ok] at herr ⊢; exact herr
  obtain ⟨ul', hul'⟩ := (ulFlags_exists { t with rows := rs }).2 hval'.ul
  have hulf : ul' = ul := by
    rw [ulFlags_ok _ _ hul', ulFlags_ok _ _ hul]; rfl
  subst hulf
  let v' : VTable := {
         energyU := eU, fluxU := fU, fluxErrorLoU := floU, fluxErrorHiU := fhiU,
         energyErrorLoU := eloU, energyErrorHiU := ehiU,
         rows := List.zipWith (fun r e =>
           { energy := r.energy * eU.scale, flux := flux r, fluxErrorLo := flo r,
             fluxErrorHi := fhi r, group := rowGroup t g r, energyErrorLo := e.1,
             energyErrorHi := e.2, ul := ul' r, cl := cl }) rs es' }
  have hv' : validateSingle { t with rows := rs } g = .ok v' := by
    unfold validateSingle
    simp only [bind_ok, pure_ok, validateColumn_ok]
    exact ⟨eU, ⟨he, heU⟩, fU, ⟨hf, hfU⟩, ((floU, flo), (fhiU, fhi)), herr', (eloU, ehiU, es'), hes',
      ul', hul', flux, hflux, cl, hcl, rfl⟩
  refine ⟨v', hv', ?_, ?_⟩
  · rw [← hv]
  · obtain ⟨w1, hw1, -, -, -, -, -, -, -, hr1⟩ := validateSingle_ok t g v h0
    obtain ⟨w2, hw2, -, -, -, -, -, -, -, hr2⟩ := validateSingle_ok _ g v' hv'
    rw [hr1, hr2, hw1.1 hg, hw2.1 hg, zipWith_map_right, zipWith_map_right]
    exact hp.map _

theorem dtSed_perm (v v' w : VTable) (b : Bool) (he : VEquiv v v')
    (h : dtSedConversion v b = .ok w) : ∃ w', dtSedConversion v' b = .ok w' ∧ VEquiv w w' := by
  obtain ⟨fu, s, hs, h1, h2, h3, rfl⟩ := dtSed_ok v w b h
  obtain ⟨he1, he2⟩ := he
  have f1 : v'.fluxU = v.fluxU := by rw [he1]
  have f2 : v'.fluxErrorLoU = v.fluxErrorLoU := by rw [he1]
  have f3 : v'.fluxErrorHiU = v.fluxErrorHiU := by rw [he1]
  refine ⟨_, dtSed_mk v' b fu s (by rw [f1, hs]) (by rw [f1, h1]) (by rw [f2, h2])
    (by rw [f3, h3]), ?_, ?_⟩
  · have f4 : v'.energyU = v.energyU := by rw [he1]
    have f5 : v'.energyErrorLoU = v.energyErrorLoU := by rw [he1]
    have f6 : v'.energyErrorHiU = v.energyErrorHiU := by rw [he1]
    simp only [f4, f5, f6]
  · exact he2.map _

theorem append_perm (fpt : Dim) (b : Bool) (acc acc' v v' out : VTable) (ha : VEquiv acc acc')
    (hv : VEquiv v v') (h : appendTable fpt b acc v = .ok out) :
    ∃ out', appendTable fpt b acc' v' = .ok out' ∧ VEquiv out out' := by
  unfold appendTable at h ⊢
  have f1 : v'.fluxU = v.fluxU := by rw [hv.1]
  rw [f1]
  by_cases hmix : (v.fluxU.dim = Dim.flux ∧ fpt = Dim.power) ∨
        (v.fluxU.dim = Dim.power ∧ fpt = Dim.flux)
  · simp [hmix, bind, Except.bind, throw, throwThe, MonadExceptOf.throw] at h
  · simp only [hmix, if_false, bind_ok, pure_ok] at h ⊢
    obtain ⟨w, hw, h⟩ := h
    obtain ⟨w', hw', hww⟩ := dtSed_perm v v' w b hv hw
    have g0 : w'.rows = [] ↔ w.rows = [] := by
      constructor
      · intro h0; have := hww.2; rw [h0] at this; exact this.symm.eq_nil
      · intro h0; have := hww.2; rw [h0] at this; exact this.eq_nil
    have hweq := hww.1
    have g1 : w'.energyU = w.energyU := by rw [hweq]
    have g2 : w'.fluxU = w.fluxU := by rw [hweq]
    have g3 : w'.fluxErrorLoU = w.fluxErrorLoU := by rw [hweq]
    have g4 : w'.fluxErrorHiU = w.fluxErrorHiU := by rw [hweq]
    have g5 : w'.energyErrorLoU = w.energyErrorLoU := by rw [hweq]
    have g6 : w'.energyErrorHiU = w.energyErrorHiU := by rw [hweq]
    have haeq := ha.1
    have k1 : acc'.energyU = acc.energyU := by rw [haeq]
    have k2 : acc'.fluxU = acc.fluxU := by rw [haeq]
    have k3 : acc'.fluxErrorLoU = acc.fluxErrorLoU := by rw [haeq]
    have k4 : acc'.fluxErrorHiU = acc.fluxErrorHiU := by rw [haeq]
    have k5 : acc'.energyErrorLoU = acc.energyErrorLoU := by rw [haeq]
    have k6 : acc'.energyErrorHiU = acc.energyErrorHiU := by rw [haeq]
    by_cases hemp : w.rows = []
    · simp only [hemp, if_true, pure_ok] at h
      subst h
      exact ⟨acc', ⟨w', hw', by simp [g0, hemp, pure, Except.pure]⟩, ha⟩
    · simp only [hemp, if_false] at h
      split at h
      · rename_i hdims
        rw [pure_ok] at h
        subst h
        refine ⟨{ acc' with rows := acc'.rows ++ w'.rows }, ⟨w', hw', ?_⟩, ?_, ?_⟩
        · rw [if_neg (by rw [g0]; exact hemp), g1, g2, g3, g4, g5, g6, k1, k2, k3, k4, k5, k6,
            if_pos hdims]
          rfl
        · simp only [k1, k2, k3, k4, k5, k6]
        · exact ha.2.append hww.2
      · simp [throw_ok] at h

/-- `ts'` is `ts` with the rows of each table permuted. -/
def RowsPermuted (ts ts' : List InTable) : Prop :=
  List.Forall₂ (fun t t' => t' = { t with rows := t'.rows } ∧ t'.rows.Perm t.rows) ts ts'

theorem validateAll_perm (ts ts' : List InTable) (g : Nat) (vs : List VTable)
    (hp : RowsPermuted ts ts') (hg : ∀ t ∈ ts, GivenWidths t)
    (h : validateAll ts g = .ok vs) :
    ∃ vs', validateAll ts' g = .ok vs' ∧ List.Forall₂ VEquiv vs vs' := by
  induction hp generalizing g vs with
  | nil => simp [validateAll] at h; subst h; exact ⟨[], rfl, .nil⟩
  | @cons t t' ts ts' hd _ ih =>
    unfold validateAll at h
    simp only [bind_ok, pure_ok] at h
    obtain ⟨v, hv1, vs', hv2, rfl⟩ := h
    obtain ⟨he, hperm⟩ := hd
    obtain ⟨v', hv', hvv⟩ := single_perm t t'.rows hperm g v (hg t (by simp)) hv1
    rw [← he] at hv'
    obtain ⟨vs'', hvs'', hall⟩ := ih (g + 1) vs' (fun t ht => hg t (by simp [ht])) hv2
    refine ⟨v' :: vs'', ?_, .cons hvv hall⟩
    unfold validateAll
    rw [hv', hvs'']; rfl

theorem loop_perm (fpt : Dim) (b : Bool) (vs vs' : List VTable) (hvs : List.Forall₂ VEquiv vs vs')
    (acc acc' out : VTable) (ha : VEquiv acc acc')
    (h : vs.foldlM (appendTable fpt b) acc = .ok out) :
    ∃ out', vs'.foldlM (appendTable fpt b) acc' = .ok out' ∧ VEquiv out out' := by
  induction hvs generalizing acc acc' with
  | nil => simp [List.foldlM, pure_ok] at h; subst h; exact ⟨acc', rfl, ha⟩
  | cons hd _ ih =>
    rw [List.foldlM_cons, bind_ok] at h
    obtain ⟨acc1, h1, h2⟩ := h
    obtain ⟨acc1', h1', he⟩ := append_perm fpt b acc acc' _ _ acc1 ha hd h1
    obtain ⟨out', ho, hee⟩ := ih acc1 acc1' he h2
    exact ⟨out', by rw [List.foldlM_cons, h1']; exact ho, hee⟩

theorem validate_perm (sort : List Row → List Row) (hsort : IsEnergySort sort)
    (ts ts' : List InTable) (sed : Option Bool) (out : VTable) (hp : RowsPermuted ts ts')
    (hg : ∀ t ∈ ts, GivenWidths t) (h : validateDataTable sort ts sed = .ok out) :
    ∃ out', validateDataTable sort ts' sed = .ok out' ∧ VEquiv out out' := by
  unfold validateDataTable at h ⊢
  rw [bind_ok] at h
  obtain ⟨vs, hvs, h⟩ := h
  obtain ⟨vs', hvs', hall⟩ := validateAll_perm ts ts' 0 vs hp hg hvs
  cases hall with
  | nil => simp [throw_ok] at h
  | cons hd htl =>
    rename_i v v' vs vs'
    simp only [bind_ok, pure_ok] at h
    obtain ⟨acc, hacc, o, ho, rfl⟩ := h
    have f1 : v'.fluxU = v.fluxU := by rw [hd.1]
    obtain ⟨acc', hacc', he⟩ := dtSed_perm v v' acc _ hd hacc
    obtain ⟨o', ho', hoo⟩ := loop_perm _ _ vs vs' htl acc acc' o he ho
    refine ⟨{ o' with rows := sort o'.rows }, ?_, ?_, ?_⟩
    · rw [hvs']
      simp only [bind, Except.bind]
      rw [f1, hacc']
      show (List.foldlM (appendTable v.fluxU.dim (sed.getD (decide (v.fluxU.dim = Dim.flux ∨
        v.fluxU.dim = Dim.power)))) acc' vs' >>= fun o => .ok { o with rows := sort o.rows }) = _
      rw [ho']; rfl
    · rw [hoo.1]
    · exact ((hsort o'.rows).1.trans hoo.2).trans (hsort o.rows).1.symm

/-- Two energy-ordered permutations of the same rows with distinct energies are equal. -/
theorem sorted_unique (l l' : List Row) (hp : l'.Perm l)
    (h1 : l.Pairwise (fun a b => a.energy ≤ b.energy))
    (h2 : l'.Pairwise (fun a b => a.energy ≤ b.energy))
    (hd : (l.map (·.energy)).Nodup) : l' = l := by
  have hd' : (l'.map (·.energy)).Nodup := (hp.map _).nodup_iff.2 hd
  have strict : ∀ m : List Row, m.Pairwise (fun a b => a.energy ≤ b.energy) →
      (m.map (·.energy)).Nodup → m.Pairwise (fun a b => a.energy < b.energy) := by
    intro m hm hn
    rw [List.Nodup, List.pairwise_map] at hn
    exact (hm.and hn).imp (fun h => lt_of_le_of_ne h.1 h.2)
  exact hp.eq_of_pairwise (le := fun a b => a.energy < b.energy)
    (fun a b _ _ hab hba => absurd (lt_trans hab hba) (lt_irrefl _)) (strict l' h2 hd') (strict l h1 hd)

end Naima
