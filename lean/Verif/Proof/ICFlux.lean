import Verif.Model.ICFlux
import Verif.Proof.Memo

namespace Naima

theorem fillSpecic_ok (f : String → Except PyErr (List ℝ)) (g : String → List ℝ)
    (seeds : List String) (acc : List (List ℝ)) (h : ∀ s ∈ seeds, f s = .ok (g s)) :
    fillSpecic f seeds acc = (.ok (), acc ++ seeds.map g) := by
  induction seeds generalizing acc with
  | nil => simp [fillSpecic]
  | cons s rest ih =>
    simp only [fillSpecic, h s (by simp)]
    rw [ih _ (fun t ht => h t (by simp [ht]))]
    simp

variable {P E κ : Type} [DecidableEq κ]

theorem superFlux_miss (o : ICObj P E) (key : P × E × Dist → κ) (s : ICState κ)
    (p : P) (e : E) (d : Dist) (g : String → List ℝ) (hd : d ≠ .bad)
    (hmiss : s.memo.cache.get? (key (p, e, d)) = none)
    (hseeds : o.seeds p ≠ []) (h : ∀ n ∈ o.seeds p, o.specOf p e n = .ok (g n)) :
    ∃ tot v, sumSeeds ((o.seeds p).map g) = .ok tot ∧ atDistance tot d = .ok v ∧
      o.superFlux key s p e d
        = (.ok v, ⟨s.memo.store (key (p, e, d)) v, (o.seeds p).map g⟩) := by
  have hf := fillSpecic_ok (o.specOf p e) g (o.seeds p) [] h
  obtain ⟨a, l, hl⟩ := List.exists_cons_of_ne_nil hseeds
  have hs : sumSeeds ((o.seeds p).map g)
      = .ok ((l.map g).foldl (List.zipWith (· + ·)) (g a)) := by simp [hl, sumSeeds]
  have hat : ∃ v, atDistance ((l.map g).foldl (List.zipWith (· + ·)) (g a)) d = .ok v := by
    cases d with
    | zero => exact ⟨_, rfl⟩
    | cm x => exact ⟨_, rfl⟩
    | bad => exact absurd rfl hd
  obtain ⟨v, hv⟩ := hat
  refine ⟨_, v, hs, hv, ?_⟩
  unfold ICObj.superFlux
  simp only [hmiss]
  have hc : o.compute p e d = (.ok v, (o.seeds p).map g) := by
    unfold ICObj.compute
    simp only [hf, List.nil_append, hs, hv]
  rw [hc]

theorem pyIndex_ofNat {α : Type} (l : List α) (i : Nat) (a : α) (h : l[i]? = some a) :
    pyIndex l (i : Int) = .ok a := by
  unfold pyIndex
  simp [h]

theorem flux_of_specic (o : ICObj P E) (key : P × E × Dist → κ) (s s' : ICState κ)
    (p : P) (e : E) (d : Dist) (v : List ℝ) (g : String → List ℝ) (hd : d ≠ .bad)
    (hs : o.superFlux key s p e d = (.ok v, s')) (hsp : s'.specic = (o.seeds p).map g)
    (i : Nat) (n : String) (hi : (o.seeds p)[i]? = some n) :
    (o.flux key s p e d (.int i)).1 = atDistance (g n) d := by
  have hlt : i < (o.seeds p).length := by
    by_contra hc
    rw [List.getElem?_eq_none (by omega)] at hi; cases hi
  unfold ICObj.flux
  simp only [hs, resolveSeed]
  rw [if_neg (by omega)]
  have : pyIndex s'.specic (i : Int) = .ok (g n) := by
    apply pyIndex_ofNat; rw [hsp]; simp [hi]
  cases d with
  | zero => simp only [this]
  | cm x => simp only [this]
  | bad => exact absurd rfl hd

theorem indexOf?_nodup (l : List String) (i : Nat) (n : String) (hn : l.Nodup)
    (hi : l[i]? = some n) : indexOf? l n = some i := by
  unfold indexOf?
  induction l generalizing i with
  | nil => simp at hi
  | cons a l ih =>
    cases i with
    | zero => simp at hi; subst hi; simp [List.findIdx?_cons]
    | succ i =>
      simp at hi
      have hmem : n ∈ l := List.mem_of_getElem? hi
      have hne : a ≠ n := fun e => (List.nodup_cons.1 hn).1 (e ▸ hmem)
      simp [List.findIdx?_cons, hne, ih i (List.nodup_cons.1 hn).2 hi]

theorem flux_name_eq_int (o : ICObj P E) (key : P × E × Dist → κ) (s : ICState κ)
    (p : P) (e : E) (d : Dist) (i : Nat) (n : String) (hn : (o.seeds p).Nodup)
    (hi : (o.seeds p)[i]? = some n) :
    o.flux key s p e d (.name n) = o.flux key s p e d (.int i) := by
  have hlt : i < (o.seeds p).length := by
    by_contra hc
    rw [List.getElem?_eq_none (by omega)] at hi; cases hi
  have h1 : resolveSeed (o.seeds p) (.name n) = resolveSeed (o.seeds p) (.int i) := by
    simp only [resolveSeed, indexOf?_nodup _ i n hn hi]
    rw [if_neg (by omega)]
  unfold ICObj.flux
  rw [h1]

/-- pointwise value of a folded sum of equally long arrays -/
theorem foldl_zipWith_getElem (rest : List (List ℝ)) (a : List ℝ) (n j : Nat)
    (ha : a.length = n) (hr : ∀ x ∈ rest, x.length = n) (hj : j < n) :
    (rest.foldl (List.zipWith (· + ·)) a)[j]? =
      some (((a :: rest).map (fun x => x.getD j 0)).sum) := by
  induction rest generalizing a with
  | nil =>
    have : j < a.length := by omega
    simp [this]
  | cons b rest ih =>
    have hb := hr b (by simp)
    simp only [List.foldl_cons]
    rw [ih _ (by simp [ha, hb]) (fun x hx => hr x (by simp [hx]))]
    have h1 : j < a.length := by omega
    have h2 : j < b.length := by omega
    simp [h1, h2, add_assoc]

theorem foldl_zipWith_length (rest : List (List ℝ)) (a : List ℝ) (n : Nat)
    (ha : a.length = n) (hr : ∀ x ∈ rest, x.length = n) :
    (rest.foldl (List.zipWith (· + ·)) a).length = n := by
  induction rest generalizing a with
  | nil => simpa
  | cons b rest ih =>
    simp only [List.foldl_cons]
    exact ih _ (by simp [ha, hr b (by simp)]) (fun x hx => hr x (by simp [hx]))

end Naima
