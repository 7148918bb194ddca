import Verif.Spec.Curves
import Verif.Props.Adstock
import Verif.Props.Metrics

namespace Verif.Curves

open Verif.Adstock Verif.Adstock.Spec Verif.Transformers Verif.Mmm Verif.Mmm.Spec Verif.Metrics.Spec
open Verif.Curves.Spec Finset

theorem entry_error_or {ctx : Ctx} {k : MediaKind} {α : ℕ → ℝ} {nIn nOut : ℕ} (x : T3) (g c : ℕ) :
    (∃ out, adstock k.decay c (series x nIn g c) (α c) ctx.maxLag nOut = .ok out) ↔
      0 < nOut ∧ nOut ≤ nIn := by
  rw [Adstock.Props.adstock_rejects]
  simp [series]

theorem adstockForward_of_bad {ctx : Ctx} {k : MediaKind} {α : ℕ → ℝ} {nIn nOut : ℕ} {x : T3}
    {g t c : ℕ} (h : ¬ (0 < nOut ∧ nOut ≤ nIn)) :
    adstockForward ctx k α nIn nOut x g t c = 0 := by
  rw [← entry_error_or (ctx := ctx) (k := k) (α := α) x g c] at h
  unfold adstockForward
  cases e : adstock k.decay c (series x nIn g c) (α c) ctx.maxLag nOut with
  | ok out => exact absurd ⟨out, e⟩ h
  | error e => rfl

theorem adstockForward_mono {ctx : Ctx} {k : MediaKind} {α : ℕ → ℝ} {nIn nOut : ℕ} {x y : T3}
    {g t c : ℕ} (h0 : 0 ≤ α c) (h : ∀ t, x g t c ≤ y g t c) :
    adstockForward ctx k α nIn nOut x g t c ≤ adstockForward ctx k α nIn nOut y g t c := by
  by_cases hok : 0 < nOut ∧ nOut ≤ nIn
  · obtain ⟨a, ha⟩ := (entry_error_or (ctx := ctx) (k := k) (α := α) x g c).2 hok
    obtain ⟨b, hb⟩ := (entry_error_or (ctx := ctx) (k := k) (α := α) y g c).2 hok
    have hm := Adstock.Props.adstock_mono k.decay c (series x nIn g c) (series y nIn g c) (α c)
      ctx.maxLag nOut a b h0 (by simp [series]) (by
        intro i u v hu hv
        simp only [series, List.getElem?_map, Option.map_eq_some_iff] at hu hv
        obtain ⟨i', e1, rfl⟩ := hu
        obtain ⟨j', e2, rfl⟩ := hv
        rw [e1] at e2
        cases e2
        exact h _) ha hb
    unfold adstockForward entry
    rw [ha, hb]
    simp only
    have hla := Adstock.Props.adstock_is_weighted_lag_sum k.decay c (series x nIn g c) (α c) ctx.maxLag
      nOut hok.1 (by simp [series]; exact hok.2)
    have hlb := Adstock.Props.adstock_is_weighted_lag_sum k.decay c (series y nIn g c) (α c) ctx.maxLag
      nOut hok.1 (by simp [series]; exact hok.2)
    obtain ⟨a', ea, la, -⟩ := hla
    obtain ⟨b', eb, lb, -⟩ := hlb
    rw [ha] at ea; rw [hb] at eb
    cases ea; cases eb
    by_cases ht : t < nOut
    · have h1 : a[t]? = some a[t] := List.getElem?_eq_getElem (by omega)
      have h2 : b[t]? = some b[t] := List.getElem?_eq_getElem (by omega)
      have := hm t _ _ h1 h2
      simpa [List.getD_eq_getElem?_getD, h1, h2] using this
    · simp [List.getD_eq_getElem?_getD, List.getElem?_eq_none (show a.length ≤ t by omega),
        List.getElem?_eq_none (show b.length ≤ t by omega)]
  · rw [adstockForward_of_bad hok, adstockForward_of_bad hok]

theorem adstockForward_nonneg {ctx : Ctx} {k : MediaKind} {α : ℕ → ℝ} {nIn nOut : ℕ} {x : T3}
    {g t c : ℕ} (h0 : 0 ≤ α c) (h : ∀ t, 0 ≤ x g t c) :
    0 ≤ adstockForward ctx k α nIn nOut x g t c := by
  have := adstockForward_mono (ctx := ctx) (k := k) (nIn := nIn) (nOut := nOut) (t := t)
    (x := fun _ _ _ => 0) (y := x) (g := g) h0 h
  rwa [adstockForward_zero (fun _ _ => rfl)] at this

theorem adstockForward_smul {ctx : Ctx} {k : MediaKind} {α : ℕ → ℝ} {nIn nOut : ℕ} {x y : T3}
    {g t c : ℕ} (a : ℝ) (h : ∀ t, y g t c = a * x g t c) :
    adstockForward ctx k α nIn nOut y g t c = a * adstockForward ctx k α nIn nOut x g t c := by
  by_cases hok : 0 < nOut ∧ nOut ≤ nIn
  · unfold adstockForward
    rw [adstock_eq _ _ _ _ _ _ hok.1 (by simp [series]; exact hok.2),
      adstock_eq _ _ _ _ _ _ hok.1 (by simp [series]; exact hok.2)]
    simp only [entry, List.getD_eq_getElem?_getD, List.getElem?_map]
    have hl : window ctx.maxLag (series y nIn g c) = window ctx.maxLag (series x nIn g c) := by
      simp [window, series]
    have hlen : (series y nIn g c).length = (series x nIn g c).length := by simp [series]
    have hat : ∀ i, mediaAt (series y nIn g c) i = a * mediaAt (series x nIn g c) i := by
      intro i
      unfold mediaAt
      split_ifs
      · simp only [series, List.getD_eq_getElem?_getD, List.getElem?_map]
        cases (List.range nIn)[i.toNat]? with
        | none => simp
        | some u => simpa using h u
      · ring
    cases (List.range nOut)[t]? with
    | none => simp
    | some u =>
      simp only [Option.map_some, Option.getD_some, adstockAt, hl, hlen, hat, Finset.mul_sum]
      refine Finset.sum_congr rfl fun _ _ => by ring
  · rw [adstockForward_of_bad hok, adstockForward_of_bad hok]; ring

theorem hill_mono {ec slope m m' : ℝ} (hec : 0 < ec) (hs : 0 < slope) (hm : 0 ≤ m) (h : m ≤ m') :
    hill m ec slope ≤ hill m' ec slope := by
  rcases h.eq_or_lt with rfl | h
  · rfl
  · exact ((Adstock.Props.hill_shape ec slope hec hs).2.2.1 m m' hm h).le

theorem hill_nonneg {ec slope m : ℝ} (hec : 0 < ec) (hs : 0 < slope) (hm : 0 ≤ m) :
    0 ≤ hill m ec slope := ((Adstock.Props.hill_shape ec slope hec hs).2.1 m hm).1

theorem adstockHillMedia_mono {ctx : Ctx} {k : MediaKind} {p : MediaParams} {nIn nOut : ℕ}
    {x y : T3} {g t c : ℕ} (h0 : 0 ≤ p.alpha c) (hec : 0 < p.ec c) (hs : 0 < p.slope c)
    (hx : ∀ t, 0 ≤ x g t c) (h : ∀ t, x g t c ≤ y g t c) :
    adstockHillMedia ctx k p nIn nOut x g t c ≤ adstockHillMedia ctx k p nIn nOut y g t c := by
  unfold adstockHillMedia
  split_ifs with hb
  · apply adstockForward_mono h0
    intro u
    simp only [hillForward]
    split_ifs
    · exact hill_mono hec hs (hx u) (h u)
    · exact h u
  · simp only [hillForward]
    split_ifs
    · exact hill_mono hec hs (adstockForward_nonneg h0 hx) (adstockForward_mono h0 h)
    · exact adstockForward_mono h0 h

theorem adstockHillRf_mono {ctx : Ctx} {k : MediaKind} {p : MediaParams} {nIn nOut : ℕ}
    {r r' f f' : T3} {g t c : ℕ} (h0 : 0 ≤ p.alpha c) (hec : 0 < p.ec c) (hs : 0 < p.slope c)
    (hr : ∀ t, 0 ≤ r g t c) (hr' : ∀ t, r g t c ≤ r' g t c) (hf : ∀ t, 0 ≤ f g t c)
    (hf' : ∀ t, f g t c ≤ f' g t c) :
    adstockHillRf ctx k p nIn nOut r f g t c ≤ adstockHillRf ctx k p nIn nOut r' f' g t c := by
  unfold adstockHillRf
  apply adstockForward_mono h0
  intro u
  simp only [hillForward]
  apply mul_le_mul (hr' u) _ _ ((hr u).trans (hr' u))
  · split_ifs
    · exact hill_mono hec hs (hf u) (hf' u)
    · exact hf' u
  · split_ifs
    · exact hill_nonneg hec hs (hf u)
    · exact hf u

theorem scaleMedia_mono {ctx : Ctx} {k : MediaKind} {x y : T3} {g t c : ℕ} (hm : 0 ≤ k.median c)
    (hp : 0 ≤ ctx.population g) (h : x g t c ≤ y g t c) :
    scaleMedia ctx k x g t c ≤ scaleMedia ctx k y g t c := by
  unfold scaleMedia mediaForward mediaScale
  exact div_le_div_of_nonneg_right h (mul_nonneg hp hm)

theorem scaleMedia_nonneg {ctx : Ctx} {k : MediaKind} {x : T3} {g t c : ℕ} (hm : 0 ≤ k.median c)
    (hp : 0 ≤ ctx.population g) (h : 0 ≤ x g t c) : 0 ≤ scaleMedia ctx k x g t c := by
  unfold scaleMedia mediaForward mediaScale
  exact div_nonneg h (mul_nonneg hp hm)

theorem value_mono {ctx : Ctx} (hw : WF ctx) {p : Params} {d : Data} (hd : DataOk ctx d) {ch : Chan}
    (hp : ParamsOk p ch) (br : Bool) {a b : ℝ} (ha : 0 ≤ a) (hab : a ≤ b) (nOut g t : ℕ) :
    value ctx p (scaleData ctx (scaleByMultiplier d (multiplier a fun _ => true) br)) nOut ch g t
      ≤ value ctx p (scaleData ctx (scaleByMultiplier d (multiplier b fun _ => true) br)) nOut ch g t := by
  have hm : ∀ s t, multiplier s (fun _ => true) t = s := by intro s t; simp [multiplier]
  have hpop : 0 ≤ ctx.population g := (hw.pop g).le
  cases ch with
  | media c =>
    obtain ⟨h0, hec, hs, -⟩ := hp
    simp only [value, scaleData, scaleByMultiplier, hm]
    apply adstockHillMedia_mono h0 hec hs
    · exact fun u => scaleMedia_nonneg (hd.mediaMedian c) hpop (mul_nonneg (hd.media _ _ _) ha)
    · exact fun u => scaleMedia_mono (hd.mediaMedian c) hpop
        (mul_le_mul_of_nonneg_left hab (hd.media _ _ _))
  | rf c =>
    obtain ⟨h0, hec, hs, -⟩ := hp
    simp only [value, scaleData, scaleByMultiplier, hm]
    apply adstockHillRf_mono h0 hec hs
    · intro u
      apply scaleMedia_nonneg (hd.reachMedian c) hpop
      cases br
      · simpa using hd.reach _ _ _
      · simpa using mul_nonneg (hd.reach _ _ _) ha
    · intro u
      apply scaleMedia_mono (hd.reachMedian c) hpop
      cases br
      · simp
      · simpa using mul_le_mul_of_nonneg_left hab (hd.reach _ _ _)
    · intro u
      cases br
      · simpa using mul_nonneg (hd.frequency _ _ _) ha
      · simpa using hd.frequency _ _ _
    · intro u
      cases br
      · simpa using mul_le_mul_of_nonneg_left hab (hd.frequency _ _ _)
      · simp
  | organicMedia c => exact hp.elim
  | organicRf c => exact hp.elim
  | nonMedia c => exact hp.elim

theorem unit_nonneg {ctx : Ctx} {d : Data} (hd : DataOk ctx d) (uk : Bool) (g t : ℕ) :
    0 ≤ unit ctx d true uk g t := by
  unfold unit
  simp only [if_true]
  apply mul_nonneg (mul_nonneg hd.std (hd.kpiPop g))
  split_ifs
  · norm_num
  · exact hd.revenue g t

theorem paid_mediaLike {ch : Chan} (h : Paid ch) : MediaLike ch := by
  cases ch <;> first | trivial | exact h.elim

theorem coef_nonneg {p : Params} {ch : Chan} (hp : ParamsOk p ch) (g : ℕ) : 0 ≤ coef p ch g := by
  cases ch with
  | media c => exact hp.2.2.2 g
  | rf c => exact hp.2.2.2 g
  | _ => exact hp.elim

theorem total_eq {s : Sel} {ctx : Ctx} {gi ti : Option (List ℕ)} (hs : s.Resolves ctx gi ti)
    (f : ℕ → ℕ → ℝ) : total ctx f gi ti = s.sum f := by
  unfold total
  rw [Metrics.Props.sum_axis hs]
  rfl

theorem mean_congr {D : Type} (draws : List D) (f h : D → ℝ) (he : ∀ p ∈ draws, f p = h p) :
    mean draws f = mean draws h := by
  unfold mean
  rw [List.map_congr_left he]

theorem mean_mono {D : Type} (draws : List D) (f h : D → ℝ) (hle : ∀ p ∈ draws, f p ≤ h p) :
    mean draws f ≤ mean draws h := by
  unfold mean
  apply div_le_div_of_nonneg_right _ (Nat.cast_nonneg _)
  exact List.sum_le_sum hle

end Verif.Curves
