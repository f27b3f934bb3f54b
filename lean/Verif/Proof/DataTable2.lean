import Verif.Proof.DataTable

namespace Naima

open Spec

/-- scaling of the flux columns of a row -/
noncomputable def scaleRow (s : SedFactor) (r : Row) : Row :=
  { r with flux := r.flux * s.phys r.energy,
           fluxErrorLo := r.fluxErrorLo * s.phys r.energy,
           fluxErrorHi := r.fluxErrorHi * s.phys r.energy }

theorem spectral_of_fluxTypes {d : Dim} (h : d ∈ fluxTypes) : Props.SpectralType d := by
  rcases (mem_fluxTypes d).1 h with (h | h) | (h | h) <;> subst h <;> decide

theorem sedType_of_fluxTypes {d : Dim} (h : d ∈ fluxTypes) : Props.IsSedType d ↔ IsSed d := by
  rcases (mem_fluxTypes d).1 h with (h | h) | (h | h) <;> subst h <;> decide

/-- Inversion of `dt_sed_conversion`. -/
theorem dtSed_ok (v w : VTable) (b : Bool) (h : dtSedConversion v b = .ok w) :
    ∃ fu s, sedConversion v.fluxU b = .ok (fu, s) ∧
      v.fluxU.dim.mul s.dim = fu.dim ∧ v.fluxErrorLoU.dim.mul s.dim = fu.dim ∧
      v.fluxErrorHiU.dim.mul s.dim = fu.dim ∧
      w = { v with fluxU := fu, fluxErrorLoU := fu, fluxErrorHiU := fu,
                   rows := v.rows.map (scaleRow s) } := by
  unfold dtSedConversion at h
  simp only [bind_ok, pure_ok] at h
  obtain ⟨⟨fu, s⟩, hs, _, h1, _, h2, _, h3, h4⟩ := h
  refine ⟨fu, s, hs, ?_, ?_, ?_, h4.symm⟩
  · by_contra hc; simp [hc] at h1
  · by_contra hc; simp [hc] at h2
  · by_contra hc; simp [hc] at h3

theorem dtSed_mk (v : VTable) (b : Bool) (fu : PhysUnit) (s : SedFactor)
    (hs : sedConversion v.fluxU b = .ok (fu, s)) (h1 : v.fluxU.dim.mul s.dim = fu.dim)
    (h2 : v.fluxErrorLoU.dim.mul s.dim = fu.dim) (h3 : v.fluxErrorHiU.dim.mul s.dim = fu.dim) :
    dtSedConversion v b = .ok { v with fluxU := fu, fluxErrorLoU := fu, fluxErrorHiU := fu,
                                       rows := v.rows.map (scaleRow s) } := by
  unfold dtSedConversion
  simp only [hs, bind, Except.bind, h1, h2, h3, if_true, pure, Except.pure]
  rfl

theorem preRow_scale (t : InTable) (g : ℤ) (u : PhysUnit) (hu : t.fluxU = some u)
    (hd : u.dim ∈ fluxTypes) (b : Bool) (fu : PhysUnit) (s : SedFactor)
    (hs : sedConversion u b = .ok (fu, s)) (r : RawRow) (e : ℝ × ℝ) :
    scaleRow s (preRow t g r e) = Spec.row t g b r e := by
  have hf := Props.C33_factor u (spectral_of_fluxTypes hd) b fu s hs
  have hI := sedType_of_fluxTypes hd
  have hk : s.phys (phys t.energyU r.energy) = factor t b (phys t.energyU r.energy) := by
    unfold factor
    rw [hu, hf]
    by_cases hi : IsSed u.dim
    · cases b <;> simp [hI, hi, SedFactor.phys]
    · cases b <;> simp [hI, hi, SedFactor.phys]
  unfold scaleRow preRow Spec.row
  simp only [hk]
  congr

/-- The chunk of rows contributed by each table. -/
def ChunksOk (b : Bool) : Nat → List InTable → List (List Row) → Prop
  | _, [], [] => True
  | g, t :: ts, c :: cs =>
      (∃ es, Widths t (g : ℤ) es ∧ es.length = t.rows.length ∧
        c = List.zipWith (Spec.row t (g : ℤ) b) t.rows es) ∧ ChunksOk b (g + 1) ts cs
  | _, _, _ => False

/-- kind of a spectral unit: flux-like or luminosity-like -/
theorem convert_kind (v w : VTable) (b : Bool) (hd : v.fluxU.dim ∈ fluxTypes)
    (h : dtSedConversion v b = .ok w) :
    (FluxLike w.fluxU.dim ↔ FluxLike v.fluxU.dim) ∧ (LumLike w.fluxU.dim ↔ LumLike v.fluxU.dim) := by
  obtain ⟨fu, s, hs, -, -, -, rfl⟩ := dtSed_ok v w b h
  obtain ⟨fu', s', h1, -, -, -, -, h2, h3⟩ :=
    Props.C33_dimensions v.fluxU (spectral_of_fluxTypes hd) b
  rw [hs] at h1
  simp at h1
  obtain ⟨rfl, rfl⟩ := h1
  simp only [List.mem_cons, List.not_mem_nil, or_false] at h2 h3
  exact ⟨h2, h3⟩

theorem single_convert (t : InTable) (g : ℤ) (v w : VTable) (b : Bool)
    (h : validateSingle t g = .ok v) (hw : dtSedConversion v b = .ok w) :
    ∃ es, Widths t g es ∧ es.length = t.rows.length ∧
      w.rows = List.zipWith (Spec.row t g b) t.rows es := by
  obtain ⟨es, hwid, hlen, he, heU, hf, hfU, -, -, hrows⟩ := validateSingle_ok t g v h
  obtain ⟨fu, s, hs, -, -, -, rfl⟩ := dtSed_ok v w b hw
  refine ⟨es, hwid, hlen, ?_⟩
  simp only
  rw [hrows, List.map_zipWith]
  apply zipWith_congr
  intro r e
  exact preRow_scale t g v.fluxU hf hfU b fu s hs r e

/-- Inversion of the concatenation loop. -/
theorem loop_ok (fpt : Dim) (b : Bool) (ts : List InTable) (g : Nat) (vs : List VTable)
    (hv : validateAll ts g = .ok vs) (acc out : VTable)
    (h : vs.foldlM (appendTable fpt b) acc = .ok out) :
    ∃ cs, ChunksOk b g ts cs ∧ out = { acc with rows := acc.rows ++ cs.flatten } ∧
      ∀ t ∈ ts, t.rows ≠ [] → ∃ u, t.fluxU = some u ∧ (FluxLike u.dim ∨ LumLike u.dim) ∧
        (FluxLike u.dim ↔ FluxLike acc.fluxU.dim) ∧ (LumLike u.dim ↔ LumLike acc.fluxU.dim) := by
  induction ts generalizing g vs acc with
  | nil =>
    simp [validateAll] at hv
    subst hv
    simp [List.foldlM, pure_ok] at h
    exact ⟨[], trivial, by simp [h], by simp⟩
  | cons t ts ih =>
    unfold validateAll at hv
    simp only [bind_ok, pure_ok] at hv
    obtain ⟨v, hv1, vs', hv2, rfl⟩ := hv
    rw [List.foldlM_cons, bind_ok] at h
    obtain ⟨acc', ha, hrest⟩ := h
    obtain ⟨cs, hcs, hout, hkind⟩ := ih (g + 1) vs' hv2 acc' hrest
    unfold appendTable at ha
    by_cases hmix : (v.fluxU.dim = Dim.flux ∧ fpt = Dim.power) ∨
        (v.fluxU.dim = Dim.power ∧ fpt = Dim.flux)
    · simp [hmix, bind, Except.bind, throw, throwThe, MonadExceptOf.throw] at ha
    · simp only [hmix, if_false, bind_ok, pure_ok] at ha
      obtain ⟨w, hw, ha⟩ := ha
      obtain ⟨es, hwid, hlen, hrows⟩ := single_convert t g v w b hv1 hw
      obtain ⟨-, -, -, -, -, hfu, hfU, -⟩ := validateSingle_ok t g v hv1
      have hkind1 := convert_kind v w b hfU hw
      by_cases hemp : w.rows = []
      · simp only [hemp, if_true, pure_ok] at ha
        subst ha
        have hte : t.rows = [] := by
          rw [hrows] at hemp
          rw [List.zipWith_eq_nil_iff] at hemp
          rcases hemp with h | h
          · exact h
          · rw [h] at hlen; simp at hlen; exact List.eq_nil_of_length_eq_zero hlen.symm
        refine ⟨[] :: cs, ⟨⟨es, hwid, hlen, by simp [hte]⟩, hcs⟩, by simpa using hout, ?_⟩
        intro t' ht' hne
        rcases List.mem_cons.1 ht' with rfl | ht'
        · exact absurd hte hne
        · exact hkind t' ht' hne
      · simp only [hemp, if_false] at ha
        split at ha
        · rename_i hdims
          rw [pure_ok] at ha
          subst ha
          refine ⟨w.rows :: cs, ⟨⟨es, hwid, hlen, hrows⟩, hcs⟩, by simp [hout], ?_⟩
          intro t' ht' hne
          rcases List.mem_cons.1 ht' with rfl | ht'
          · refine ⟨v.fluxU, hfu, (mem_fluxTypes _).1 hfU, ?_, ?_⟩
            · rw [← hkind1.1, hdims.2.1]
            · rw [← hkind1.2, hdims.2.1]
          · exact hkind t' ht' hne
        · simp [throw_ok] at ha

/-- Inversion of `validate_data_table`. -/
theorem validate_ok (sort : List Row → List Row) (ts : List InTable) (sed : Option Bool)
    (out : VTable) (h : validateDataTable sort ts sed = .ok out) :
    ∃ t0 rest u0 b cs acc, ts = t0 :: rest ∧ t0.fluxU = some u0 ∧ u0.dim ∈ fluxTypes ∧
      b = sed.getD (decide (IsSed u0.dim)) ∧
      ChunksOk b 0 ts cs ∧ out.rows = sort cs.flatten ∧
      sedConversion u0 b = .ok (out.fluxU, acc) ∧ out.fluxErrorLoU = out.fluxU ∧
      out.fluxErrorHiU = out.fluxU ∧ t0.energyU = some out.energyU ∧
      out.energyU.dim = Dim.energy ∧ out.energyErrorLoU.dim = Dim.energy ∧
      out.energyErrorHiU.dim = Dim.energy ∧
      ∀ t ∈ rest, t.rows ≠ [] → ∃ u, t.fluxU = some u ∧ (FluxLike u.dim ∨ LumLike u.dim) ∧
        (FluxLike u.dim ↔ FluxLike u0.dim) ∧ (LumLike u.dim ↔ LumLike u0.dim) := by
  unfold validateDataTable at h
  rw [bind_ok] at h
  obtain ⟨vs, hvs, h⟩ := h
  cases ts with
  | nil => simp [validateAll] at hvs; subst hvs; simp [throw_ok] at h
  | cons t0 rest =>
    have hvs0 := hvs
    unfold validateAll at hvs
    simp only [bind_ok, pure_ok] at hvs
    obtain ⟨v0, hv0, vs', hvs', rfl⟩ := hvs
    simp only [bind_ok, pure_ok] at h
    obtain ⟨acc, hacc, out', hout', rfl⟩ := h
    obtain ⟨es0, hwid0, hlen0, he0, heU0, hf0, hfU0, hd1, hd2, -⟩ := validateSingle_ok t0 _ v0 hv0
    have hb : sed.getD (decide (v0.fluxU.dim = Dim.flux ∨ v0.fluxU.dim = Dim.power))
        = sed.getD (decide (IsSed v0.fluxU.dim)) := rfl
    rw [hb] at hacc hout'
    obtain ⟨es, hwid, hlen, hrows⟩ := single_convert t0 _ v0 acc _ hv0 hacc
    obtain ⟨cs, hcs, hout, hkind⟩ := loop_ok _ _ rest 1 vs' hvs' acc out' hout'
    have hk := convert_kind v0 acc _ hfU0 hacc
    obtain ⟨fu, s, hs, -, -, -, hacceq⟩ := dtSed_ok v0 acc _ hacc
    refine ⟨t0, rest, v0.fluxU, _, acc.rows :: cs, s, rfl, hf0, hfU0, rfl,
      ⟨⟨es, hwid, hlen, hrows⟩, hcs⟩, ?_, ?_, ?_, ?_, ?_, ?_, ?_, ?_, ?_⟩
    · simp [hout]
    · rw [hout, hacceq]; exact hs
    · rw [hout, hacceq]
    · rw [hout, hacceq]
    · rw [hout, hacceq]; exact he0
    · rw [hout, hacceq]; exact heU0
    · rw [hout, hacceq]; exact hd1
    · rw [hout, hacceq]; exact hd2
    · intro t ht hne
      obtain ⟨u, h1, h2, h3, h4⟩ := hkind t ht hne
      exact ⟨u, h1, h2, by rw [h3, hk.1], by rw [h4, hk.2]⟩

theorem chunks_index (b : Bool) (g : Nat) (ts : List InTable) (cs : List (List Row))
    (h : ChunksOk b g ts cs) : cs.length = ts.length ∧
      ∀ i t, ts[i]? = some t → ∃ es, Widths t ((g + i : Nat) : ℤ) es ∧ es.length = t.rows.length ∧
        cs[i]? = some (List.zipWith (Spec.row t ((g + i : Nat) : ℤ) b) t.rows es) := by
  induction ts generalizing g cs with
  | nil => cases cs with
    | nil => simp
    | cons => exact h.elim
  | cons t ts ih =>
    cases cs with
    | nil => exact h.elim
    | cons c cs =>
      obtain ⟨⟨es, h1, h2, h3⟩, h4⟩ := h
      obtain ⟨hl, hi⟩ := ih (g + 1) cs h4
      refine ⟨by simp [hl], ?_⟩
      intro i t' ht'
      cases i with
      | zero =>
        simp at ht'; subst ht'
        exact ⟨es, by simpa using h1, h2, by simp [h3]⟩
      | succ i =>
        simp at ht'
        obtain ⟨es', k1, k2, k3⟩ := hi i t' ht'
        have : g + 1 + i = g + (i + 1) := by omega
        rw [this] at k1 k3
        exact ⟨es', k1, k2, by simpa using k3⟩

end Naima
