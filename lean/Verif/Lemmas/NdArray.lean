import Verif.Spec.NdArray
import Verif.Props.Builder
import Verif.Props.InputData

/-!
# Lemmas about the builder for arrays without labels
-/

namespace Verif.NdArray

open Verif Verif.Builder Verif.Builder.Spec Verif.Builder.Props Wanted

variable {κ : Type}

/-- The coordinates are accepted. -/
structure Coords (env : Env κ) (p : Plan) : Prop where
  geos : p.labels.Nodup
  times : p.times.Nodup
  media : p.mediaTimes.Nodup
  regular : env.regular (sorted p.times) = true
  regularMedia : env.regular (sorted p.mediaTimes) = true
  lagged : Lagged p.mediaTimes p.times

/-- The array with labels. -/
def labelled (p : Plan) (a : Given) : DA where
  geos := p.labels
  times := if a.comp = .population then [] else p.timesOf a.comp
  channels := a.channels
  vals := fun i j k => a.nd.val (index a.comp i j k)

/-- The state after some calls, the last one first. -/
def st (kt : String) (p : Plan) (done : List Call) : St where
  comps := fun c => ((done.flatMap (arrays kt)).find? fun a => decide (a.comp = c)).map (labelled p)
  geos := if done = [] then p.geos else some p.labels
  times := some p.times
  mediaTimes := some p.mediaTimes

theorem lift_ok {α : Type} {x : Except Builder.Err α} {a : α} : lift x = .ok a ↔ x = .ok a := by
  cases x <;> simp [lift]

theorem coords_run (env : Env κ) (kt : String) (p : Plan) (s) :
    run env kt p.ops St.init = .ok s ↔ Coords env p ∧ run env kt (p.calls.map .call) (st kt p []) = .ok s := by
  have key : ∀ g : Option (List String), (∀ l, g = some l → l.Nodup) →
      (run env kt (.times p.times :: .mediaTimes p.mediaTimes :: p.calls.map .call) ⟨fun _ => none, g, none, none⟩ = .ok s ↔
        (p.times.Nodup ∧ p.mediaTimes.Nodup ∧ env.regular (sorted p.times) = true ∧
          env.regular (sorted p.mediaTimes) = true ∧ Lagged p.mediaTimes p.times) ∧
        run env kt (p.calls.map .call) ⟨fun _ => none, g, some p.times, some p.mediaTimes⟩ = .ok s) := by
    intro g hg
    rcases setTimes_cases env ⟨fun _ => none, g, none, none⟩ p.times with ⟨⟨h1, -, -, h2⟩, h3⟩ | ⟨h1, e, h2⟩
    · rcases setMediaTimes_cases env ⟨fun _ => none, g, some p.times, none⟩ p.mediaTimes with
        ⟨⟨k1, -, k2, k3⟩, k4⟩ | ⟨k1, e, k2⟩
      · have hl := k2 p.times rfl
        simp only [run, step, h3, k4, lift]
        refine (and_iff_right ⟨h1, k1, h2, k3, (laggedOk_iff k1 hl.1).1 hl.2⟩).symm
      · simp only [run, step, h3, k2, lift]
        refine ⟨fun h => (by cases h), fun h => ?_⟩
        refine absurd ⟨h.1.2.1, by simp, ?_, h.1.2.2.2.1⟩ k1
        intro t ht
        simp only [Option.some.injEq] at ht
        subst ht
        exact ⟨h.1.2.2.2.2.1, (laggedOk_iff h.1.2.1 h.1.2.2.2.2.1).2 h.1.2.2.2.2⟩
    · simp only [run, step, h2, lift]
      refine ⟨fun h => (by cases h), fun h => ?_⟩
      exact absurd ⟨h.1.1, by simp, by simp, h.1.2.2.1⟩ h1
  cases hg : p.geos with
  | none =>
    have e : p.ops = .times p.times :: .mediaTimes p.mediaTimes :: p.calls.map .call := by simp [Plan.ops, hg]
    rw [e, St.init, key none (by simp)]
    refine and_congr ⟨fun h => ⟨by simp [Plan.labels, hg], h.1, h.2.1, h.2.2.1, h.2.2.2.1, h.2.2.2.2⟩,
      fun h => ⟨h.times, h.media, h.regular, h.regularMedia, h.lagged⟩⟩ ?_
    simp [st, hg]
  | some l =>
    have e : p.ops = .geos l :: .times p.times :: .mediaTimes p.mediaTimes :: p.calls.map .call := by
      simp [Plan.ops, hg]
    have hl : p.labels = l := by simp [Plan.labels, hg]
    rw [e]
    rcases setGeos_cases St.init l with ⟨h1, -, h2⟩ | ⟨h1, e, h2⟩
    · have : run env kt (.geos l :: .times p.times :: .mediaTimes p.mediaTimes :: p.calls.map .call) St.init =
          run env kt (.times p.times :: .mediaTimes p.mediaTimes :: p.calls.map .call)
            ⟨fun _ => none, some l, none, none⟩ := by
        simp only [run, step, h2, lift]
        rfl
      rw [this, key (some l) (by rintro _ ⟨⟩; exact h1)]
      refine and_congr ⟨fun h => ⟨by rw [hl]; exact h1, h.1, h.2.1, h.2.2.1, h.2.2.2.1, h.2.2.2.2⟩,
        fun h => ⟨h.times, h.media, h.regular, h.regularMedia, h.lagged⟩⟩ ?_
      simp [st, hg]
    · simp only [run, step, h2, lift]
      refine ⟨fun h => (by cases h), fun h => ?_⟩
      exact absurd ⟨by rw [← hl]; exact h.1.geos, by simp [St.init]⟩ h1

theorem kind_timesOf (p : Plan) (c : Comp) : c ≠ .population →
    p.timesOf c = match c.kind with | .noTime => [] | .time => p.times | .mediaTime => p.mediaTimes := by
  cases c <;> simp [Plan.timesOf, Comp.kind]

theorem kind_noTime (c : Comp) : c.kind = .noTime ↔ c = .population := by cases c <;> simp [Comp.kind]

/-- One setter, with the coordinates of the builder. -/
theorem set_iff {env : Env κ} {p : Plan} (hc : Coords env p) {s : St} (hg : s.geos = some p.labels)
    (ht : s.times = some p.times) (hm : s.mediaTimes = some p.mediaTimes) (a : Given) :
    let P := s.comps a.comp = none ∧ (∀ q ∈ a.comp.peers, ∀ e, s.comps q = some e → e.channels = a.channels) ∧
      (a.comp ≠ .population → ∀ t ∈ p.timesOf a.comp, env.isDate t = true) ∧
      (p.labels.length = 1 → p.labels = [nationalGeo])
    (P ∧ Builder.set env a.comp (labelled p a) s = (none, s.put a.comp (some (labelled p a)))) ∨
      (¬ P ∧ ∃ e s', Builder.set env a.comp (labelled p a) s = (some e, s')) := by
  intro P
  have htimes : a.comp ≠ .population → (labelled p a).times = p.timesOf a.comp := fun h => by simp [labelled, h]
  have hacc : Accepts env (a.comp, labelled p a) s ↔ P := by
    constructor
    · intro h
      refine ⟨h.unset, h.channels, fun hp t htt => ?_, fun hl => ?_⟩
      · refine h.dates (by simpa [kind_noTime] using hp) t ?_
        rw [htimes hp]; exact htt
      · have := h.geos p.labels hg
        have e : geosOf (a.comp, labelled p a) = [nationalGeo] := by
          simp only [geosOf, normGeos, labelled, hl, if_true]
        rw [e] at this
        obtain ⟨x, hx⟩ := List.length_eq_one_iff.1 hl
        rw [hx] at this ⊢
        have := (this x).1 (by simp)
        simpa using this
    · rintro ⟨h1, h2, h3, h4⟩
      have e : geosOf (a.comp, labelled p a) = p.labels := by
        show (if p.labels.length = 1 then [nationalGeo] else p.labels) = p.labels
        by_cases hl : p.labels.length = 1
        · rw [if_pos hl]; exact (h4 hl).symm
        · rw [if_neg hl]
      have hk : ∀ {k}, a.comp.kind = k → k ≠ .noTime → a.comp ≠ .population := fun hk hn hp =>
        hn (hk ▸ (kind_noTime _).2 hp)
      refine ⟨h1, h2, fun hn t htt => ?_, by rw [e]; exact hc.geos, fun g hg' => ?_, fun hn => ?_, fun hn => ?_,
        fun hk' t htt => ?_, fun hk' m hmm => ?_, fun hk' m hmm => ?_, fun hk' t htt => ?_⟩
      · have hp : a.comp ≠ .population := hk rfl hn
        rw [htimes hp] at htt
        exact h3 hp t htt
      · rw [hg] at hg'
        cases hg'
        rw [e]; exact fun _ => Iff.rfl
      · have hp : a.comp ≠ .population := hk rfl hn
        rw [htimes hp, kind_timesOf p _ hp]
        cases hh : a.comp.kind with
        | noTime => exact absurd hh hn
        | time => exact hc.times
        | mediaTime => exact hc.media
      · have hp : a.comp ≠ .population := hk rfl hn
        rw [htimes hp, kind_timesOf p _ hp]
        cases hh : a.comp.kind with
        | noTime => exact absurd hh hn
        | time => exact hc.regular
        | mediaTime => exact hc.regularMedia
      all_goals
        have hk'' : a.comp.kind = _ := hk'
        have hp : a.comp ≠ .population := hk hk'' (by simp)
        have ht' : (labelled p a).times = _ := (htimes hp).trans (kind_timesOf p _ hp)
        rw [hk''] at ht'
        simp only at ht'
        simp only [ht']
      · rw [ht] at htt; cases htt; exact fun _ => Iff.rfl
      · rw [hm] at hmm; cases hmm
        exact ⟨hc.lagged.1, (laggedOk_iff hc.media hc.lagged.1).2 hc.lagged⟩
      · rw [hm] at hmm; cases hmm; exact fun _ => Iff.rfl
      · rw [ht] at htt; cases htt
        exact ⟨hc.lagged.1, (laggedOk_iff hc.media hc.lagged.1).2 hc.lagged⟩
  rcases set_cases env (a.comp, labelled p a) s with ⟨h1, h2⟩ | ⟨h1, h2⟩
  · left
    have hP := hacc.1 h1
    refine ⟨hP, h2.trans ?_⟩
    have e : normGeos p.labels = p.labels := by
      unfold normGeos
      split_ifs with hl
      · exact (hP.2.2.2 hl).symm
      · rfl
    have e1 : after (a.comp, labelled p a) s = s.put a.comp (some (labelled p a)) := by
      have ht' := kind_timesOf p a.comp
      unfold after St.put
      congr 1
      · funext c
        simp only [normalize, labelled, e]
      · rw [hg]; simp only [geosOf, labelled, e]
      · split_ifs with hk
        · have hp : a.comp ≠ .population := fun hp => by rw [hp] at hk; cases hk
          rw [ht, htimes hp, ht' hp, hk]
        · rfl
      · split_ifs with hk
        · have hp : a.comp ≠ .population := fun hp => by rw [hp] at hk; cases hk
          rw [hm, htimes hp, ht' hp, hk]
        · rfl
    rw [e1]
  · exact .inr ⟨fun h => h1 (hacc.2 h), h2⟩

/-- The array of a part of a call. -/
def given (chs : Option (List String)) (x : Comp × Nd) : Given := ⟨x.1, x.2, chs.getD []⟩

theorem label_eq {p : Plan} {s : St} (hg : s.geos = some p.labels) (ht : s.times = some p.times)
    (hm : s.mediaTimes = some p.mediaTimes) (chs : Option (List String)) (x : Comp × Nd) :
    label x.1 chs x.2 s = labelled p (given chs x) := by
  have : timesOf x.1.kind s = if x.1 = .population then [] else p.timesOf x.1 := by
    by_cases hp : x.1 = .population
    · rw [if_pos hp, hp]; rfl
    · rw [if_neg hp, kind_timesOf p _ hp]
      cases hk : x.1.kind with
      | noTime => exact absurd ((kind_noTime _).1 hk) hp
      | time => simp [timesOf, ht]
      | mediaTime => simp [timesOf, hm]
  unfold label labelled
  rw [this, hg]
  rfl

theorem channelDim_iff (c : Comp) : (channelDim c).isSome = true ↔ hasChannels c := by
  cases c <;> simp [channelDim, hasChannels]

theorem checkShape_iff {p : Plan} {s : St} (hg : s.geos = some p.labels) (ht : s.times = some p.times)
    (hm : s.mediaTimes = some p.mediaTimes) (chs : Option (List String)) (x : Comp × Nd)
    (hch : chs.isSome = true ↔ hasChannels x.1) :
    checkShape x.1.kind chs x.2 s = .ok () ↔ x.2.shape = p.shape (given chs x) ∧ (chs.getD []).Nodup := by
  by_cases hp : x.1 = .population
  · have hn : chs = none := by
      cases chs with
      | none => rfl
      | some l => exact absurd (hch.1 rfl) (by simp [hasChannels, hp])
    have hk : x.1.kind = .noTime := (kind_noTime _).2 hp
    rw [hk]
    simp only [checkShape, hg, Option.getD_some, hn, Plan.shape, given, hp, if_true, Option.getD_none, List.nodup_nil,
      and_true]
    split_ifs with h
    · exact ⟨fun h' => (by cases h'), fun h' => absurd h'.symm h⟩
    · exact ⟨fun _ => (not_not.1 h).symm, fun _ => rfl⟩
  · have hk : x.1.kind ≠ .noTime := fun h => hp ((kind_noTime _).1 h)
    have htimes : timesOf x.1.kind s = p.timesOf x.1 := by
      have := congrArg DA.times (label_eq hg ht hm chs x)
      simpa [label, labelled, given, hp] using this
    have e : ∀ o : Option (List String), checkShape x.1.kind o x.2 s = (match o with
      | none => if [p.labels.length, (p.timesOf x.1).length] ≠ x.2.shape then .error .shape else .ok ()
      | some l => if ¬ l.Nodup then .error .namesNotUnique
        else if [p.labels.length, (p.timesOf x.1).length, l.length] ≠ x.2.shape then .error .shape else .ok ()) := by
      intro o
      rw [← htimes]
      cases hh : x.1.kind with
      | noTime => exact absurd hh hk
      | time => cases o <;> simp only [checkShape, hg, Option.getD_some]
      | mediaTime => cases o <;> simp only [checkShape, hg, Option.getD_some]
    rw [e]
    cases chs with
    | none =>
      have hh : ¬ hasChannels x.1 := fun h => by simpa using hch.2 h
      simp only [Plan.shape, given, hp, hh, if_false, Option.getD_none, List.nodup_nil, and_true]
      split_ifs with h
      · exact ⟨fun h' => (by cases h'), fun h' => absurd h'.symm h⟩
      · exact ⟨fun _ => (not_not.1 h).symm, fun _ => rfl⟩
    | some l =>
      have hh : hasChannels x.1 := hch.1 rfl
      simp only [Plan.shape, given, hp, hh, if_false, if_true, Option.getD_some]
      by_cases h : l.Nodup
      · rw [if_neg (not_not.2 h)]
        by_cases h' : [p.labels.length, (p.timesOf x.1).length, l.length] = x.2.shape
        · rw [if_neg (not_not.2 h')]
          exact ⟨fun _ => ⟨h'.symm, h⟩, fun _ => rfl⟩
        · rw [if_pos h']
          exact ⟨fun h' => (by cases h'), fun h'' => absurd h''.1.symm h'⟩
      · rw [if_pos h]
        exact ⟨fun h' => (by cases h'), fun h' => absurd h'.2 h⟩

theorem checkShapes_iff {p : Plan} {s : St} (hg : s.geos = some p.labels) (ht : s.times = some p.times)
    (hm : s.mediaTimes = some p.mediaTimes) (chs : Option (List String)) : ∀ parts : List (Comp × Nd),
    (∀ x ∈ parts, (chs.isSome = true ↔ hasChannels x.1)) →
    (checkShapes chs s parts = .ok () ↔ ∀ x ∈ parts, x.2.shape = p.shape (given chs x) ∧ (chs.getD []).Nodup)
  | [], _ => by simp [checkShapes]
  | x :: l, h => by
    have h1 := checkShape_iff hg ht hm chs x (h x (by simp))
    have h2 := checkShapes_iff hg ht hm chs l fun y hy => h y (by simp [hy])
    rw [List.forall_mem_cons, ← h1, ← h2, checkShapes]
    cases checkShape x.1.kind chs x.2 s with
    | error e => simp
    | ok u => simp

theorem setAll_iff {env : Env κ} {p : Plan} (hc : Coords env p) (chs : Option (List String)) :
    ∀ (parts : List (Comp × Nd)) (s : St), s.geos = some p.labels → s.times = some p.times →
      s.mediaTimes = some p.mediaTimes → (parts.map Prod.fst).Nodup →
      (∀ x ∈ parts, ∀ q ∈ x.1.peers, q ∈ parts.map Prod.fst ∨ ∀ e, s.comps q = some e → e.channels = chs.getD []) →
      ∀ s', setAll env chs parts s = .ok s' ↔ (∀ x ∈ parts, s.comps x.1 = none) ∧
        (∀ x ∈ parts, x.1 ≠ .population → ∀ t ∈ p.timesOf x.1, env.isDate t = true) ∧
        (parts ≠ [] → p.labels.length = 1 → p.labels = [nationalGeo]) ∧
        s' = parts.foldl (fun s x => s.put x.1 (some (labelled p (given chs x)))) s
  | [], s, _, _, _, _, _, s' => by
    simp only [setAll, Except.ok.injEq, List.not_mem_nil, false_imp_iff, implies_true, ne_eq, not_true_eq_false,
      List.foldl_nil, true_and]
    exact eq_comm
  | x :: l, s, hg, ht, hm, hn, hp, s' => by
    rw [List.map_cons, List.nodup_cons] at hn
    have ih := setAll_iff hc chs l (s.put x.1 (some (labelled p (given chs x)))) hg ht hm hn.2 (by
      intro y hy q hq
      rcases hp y (by simp [hy]) q hq with h | h
      · rw [List.map_cons, List.mem_cons] at h
        rcases h with h | h
        · right
          intro e he
          simp only [St.put, h, if_true, Option.some.injEq] at he
          rw [← he]; rfl
        · exact .inl h
      · right
        intro e he
        simp only [St.put] at he
        split_ifs at he with hqx
        · rw [Option.some.injEq] at he; rw [← he]; rfl
        · exact h e he) s'
    have hne : ∀ y ∈ l, y.1 ≠ x.1 := fun y hy h => hn.1 (h ▸ List.mem_map_of_mem hy)
    simp only [setAll, label_eq hg ht hm chs x]
    rcases set_iff hc hg ht hm (given chs x) with ⟨⟨h1, h2, h3, h4⟩, h5⟩ | ⟨h1, e, s1, h2⟩
    · have h5' : Builder.set env x.1 (labelled p (given chs x)) s =
        (none, s.put x.1 (some (labelled p (given chs x)))) := h5
      rw [h5']
      simp only
      rw [ih]
      simp only [List.foldl_cons, List.forall_mem_cons]
      constructor
      · rintro ⟨k1, k2, k3, k4⟩
        refine ⟨⟨h1, fun y hy => ?_⟩, ⟨h3, k2⟩, fun _ => h4, k4⟩
        have := k1 y hy
        simpa [St.put, hne y hy] using this
      · rintro ⟨⟨-, k1⟩, ⟨-, k2⟩, k3, k4⟩
        refine ⟨fun y hy => ?_, k2, fun _ => h4, k4⟩
        simpa [St.put, hne y hy] using k1 y hy
    · have h2' : Builder.set env x.1 (labelled p (given chs x)) s = (some e, s1) := h2
      rw [h2']
      refine ⟨fun h => (by cases h), fun h => ?_⟩
      refine absurd ⟨h.1 x (by simp), ?_, h.2.1 x (by simp), h.2.2.1 (by simp)⟩ h1
      intro q hq e' he'
      rcases hp x (by simp) q hq with h' | h'
      · obtain ⟨y, hy, rfl⟩ := List.mem_map.1 h'
        rw [h.1 y hy] at he'; cases he'
      · exact h' e' he'

/-- The state a method works on. -/
def ready (p : Plan) (s : St) : St := { s with geos := some p.labels }

theorem needAll_ok {p : Plan} (kt : String) (done : List Call) (needs : List TimeKind) (hn : needs ≠ []) :
    needAll needs (st kt p done) = .ok (ready p (st kt p done)) := by
  have h0 : ∀ k (s : St), s.geos = some p.labels → s.times = some p.times → s.mediaTimes = some p.mediaTimes →
      needCoords k s = .ok s := by
    intro k s h1 h2 h3
    cases k <;> simp [needCoords, h1, h2, h3]
  have h1 : ∀ k, needCoords k (st kt p done) = .ok (ready p (st kt p done)) := by
    intro k
    by_cases hd : done = []
    · cases hg : p.geos with
      | some l =>
        have hl : p.labels = l := by simp [Plan.labels, hg]
        have : ready p (st kt p done) = st kt p done := by simp [ready, st, hd, hg, hl]
        rw [this]
        exact h0 k _ (by simp [st, hd, hg, hl]) rfl rfl
      | none =>
        have hl : p.labels = [nationalGeo] := by simp [Plan.labels, hg, nationalGeo]
        cases k <;> simp [needCoords, st, hd, hg, setGeos, ready, hl]
    · have : ready p (st kt p done) = st kt p done := by simp [ready, st, hd]
      rw [this]
      exact h0 k _ (by simp [st, hd]) rfl rfl
  have h2 : ∀ ks, needAll ks (ready p (st kt p done)) = .ok (ready p (st kt p done)) := by
    intro ks
    induction ks with
    | nil => rfl
    | cons k ks ih => rw [needAll, h0 k _ rfl rfl rfl]; exact ih
  cases needs with
  | nil => exact absurd rfl hn
  | cons k ks => rw [needAll, h1 k]; exact h2 ks

/-- An array of a call is acceptable on its own. -/
def ArrayOk (env : Env κ) (p : Plan) (a : Given) : Prop :=
  a.nd.shape = p.shape a ∧ a.channels.Nodup ∧ (a.comp ≠ .population → ∀ t ∈ p.timesOf a.comp, env.isDate t = true)

theorem find_none {kt : String} {p : Plan} {done : List Call} {c : Comp} :
    (st kt p done).comps c = none ↔ ∀ b ∈ done.flatMap (arrays kt), b.comp ≠ c := by
  simp only [st, Option.map_eq_none_iff, List.find?_eq_none, decide_eq_true_eq, ne_eq]

theorem add_iff {env : Env κ} {p : Plan} (hc : Coords env p) (kt : String) (done : List Call) (needs : List TimeKind)
    (hn : needs ≠ []) (chs : Option (List String)) (parts : List (Comp × Nd)) (hne : parts ≠ [])
    (hnd : (parts.map Prod.fst).Nodup) (hpe : ∀ x ∈ parts, ∀ q ∈ x.1.peers, q ∈ parts.map Prod.fst)
    (hch : ∀ x ∈ parts, (chs.isSome = true ↔ hasChannels x.1)) (s') :
    add env needs chs parts (st kt p done) = .ok s' ↔
      (∀ a ∈ parts.map (given chs), ArrayOk env p a ∧ ∀ b ∈ done.flatMap (arrays kt), b.comp ≠ a.comp) ∧
      (p.labels.length = 1 → p.labels = [nationalGeo]) ∧
      s' = parts.foldl (fun s x => s.put x.1 (some (labelled p (given chs x)))) (ready p (st kt p done)) := by
  have h1 := checkShapes_iff (p := p) (s := ready p (st kt p done)) rfl rfl rfl chs parts hch
  have h2 := setAll_iff hc chs parts (ready p (st kt p done)) rfl rfl rfl hnd
    (fun x hx q hq => .inl (hpe x hx q hq)) s'
  have hcomps : ∀ c, (ready p (st kt p done)).comps c = (st kt p done).comps c := fun _ => rfl
  simp only [hcomps, find_none] at h2
  have e : add env needs chs parts (st kt p done) = .ok s' ↔ checkShapes chs (ready p (st kt p done)) parts = .ok () ∧
      setAll env chs parts (ready p (st kt p done)) = .ok s' := by
    rw [add, needAll_ok kt done needs hn]
    simp only
    cases checkShapes chs (ready p (st kt p done)) parts with
    | error e => simp
    | ok u => simp
  rw [e, h1, h2]
  simp only [List.forall_mem_map, ArrayOk, given]
  constructor
  · rintro ⟨k1, k2, k3, k4, k5⟩
    exact ⟨fun x hx => ⟨⟨(k1 x hx).1, (k1 x hx).2, k3 x hx⟩, k2 x hx⟩, k4 hne, k5⟩
  · rintro ⟨k1, k2, k3⟩
    exact ⟨fun x hx => ⟨(k1 x hx).1.1, (k1 x hx).1.2.1⟩, fun x hx => (k1 x hx).2, fun x hx => (k1 x hx).1.2.2,
      fun _ => k2, k3⟩

theorem call_iff {env : Env κ} {p : Plan} (hc : Coords env p) (kt : String) (done : List Call) (x : Call) (s') :
    call env kt x (st kt p done) = .ok s' ↔
      (∀ a ∈ arrays kt x, ArrayOk env p a ∧ ∀ b ∈ done.flatMap (arrays kt), b.comp ≠ a.comp) ∧
      (p.labels.length = 1 → p.labels = [nationalGeo]) ∧ s' = st kt p (x :: done) := by
  have fin : ∀ (needs : List TimeKind) (chs : Option (List String)) (parts : List (Comp × Nd)),
      needs ≠ [] → parts ≠ [] → (parts.map Prod.fst).Nodup → (∀ x ∈ parts, ∀ q ∈ x.1.peers, q ∈ parts.map Prod.fst) →
      (∀ x ∈ parts, (chs.isSome = true ↔ hasChannels x.1)) → parts.map (given chs) = arrays kt x →
      (add env needs chs parts (st kt p done) = .ok s' ↔
      (∀ a ∈ arrays kt x, ArrayOk env p a ∧ ∀ b ∈ done.flatMap (arrays kt), b.comp ≠ a.comp) ∧
      (p.labels.length = 1 → p.labels = [nationalGeo]) ∧ s' = st kt p (x :: done)) := by
    intro needs chs parts h1 h2 h3 h4 h5 h6
    rw [add_iff hc kt done needs h1 chs parts h2 h3 h4 h5, h6]
    have e : parts.foldl (fun s x => s.put x.1 (some (labelled p (given chs x)))) (ready p (st kt p done)) =
        st kt p (x :: done) := by
      have key : ∀ (l : List (Comp × Nd)) (s : St), (l.map Prod.fst).Nodup →
          l.foldl (fun s x => s.put x.1 (some (labelled p (given chs x)))) s =
            { s with comps := fun c => match (l.map (given chs)).find? (fun a => decide (a.comp = c)) with
              | some a => some (labelled p a)
              | none => s.comps c } := by
        intro l
        induction l with
        | nil => intro s _; rfl
        | cons y l ih =>
          intro s hnd
          rw [List.map_cons, List.nodup_cons] at hnd
          rw [List.foldl_cons, ih _ hnd.2]
          congr 1
          funext c
          rw [List.map_cons, List.find?_cons]
          by_cases hy : y.1 = c
          · have : decide ((given chs y).comp = c) = true := decide_eq_true (show (given chs y).comp = c from hy)
            rw [this]
            have hnone : (l.map (given chs)).find? (fun a => decide (a.comp = c)) = none := by
              rw [List.find?_eq_none]
              intro a ha
              obtain ⟨z, hz, rfl⟩ := List.mem_map.1 ha
              intro hz'
              have hzc : z.1 = c := of_decide_eq_true hz'
              exact hnd.1 (by rw [hy, ← hzc]; exact List.mem_map_of_mem hz)
            rw [hnone]
            simp [St.put, hy]
          · have : decide ((given chs y).comp = c) = false := decide_eq_false (show (given chs y).comp ≠ c from hy)
            rw [this]
            simp only [St.put, Ne.symm hy, if_false]
      rw [key parts _ h3, h6]
      simp only [ready, st, List.flatMap_cons, List.find?_append]
      congr 1
      · funext c
        cases (arrays kt x).find? fun a => decide (a.comp = c) with
        | some a => rfl
        | none => rfl
    rw [e]
  cases x with
  | kpi nd =>
    exact fin [.time] none [(.kpi, nd)] (by simp) (by simp) (by simp) (by simp [Comp.peers])
      (by simp [hasChannels]) rfl
  | controls nd names =>
    exact fin [.time] (some names) [(.controls, nd)] (by simp) (by simp) (by simp)
      (by simp [Comp.peers]) (by simp [hasChannels]) rfl
  | population nd =>
    exact fin [.noTime] none [(.population, nd)] (by simp) (by simp) (by simp) (by simp [Comp.peers])
      (by simp [hasChannels]) rfl
  | revenuePerKpi nd =>
    exact fin [.time] none [(.revenuePerKpi, revenueDefault kt nd)] (by simp) (by simp) (by simp)
      (by simp [Comp.peers]) (by simp [hasChannels]) rfl
  | media m sp chs =>
    exact fin [.mediaTime, .time] (some chs) [(.media, m), (.mediaSpend, sp)] (by simp) (by simp)
      (by simp) (by simp [Comp.peers]) (by simp [hasChannels]) rfl
  | reach r f sp chs =>
    exact fin [.mediaTime, .time] (some chs) [(.reach, r), (.frequency, f), (.rfSpend, sp)]
      (by simp) (by simp) (by simp) (by simp [Comp.peers]) (by simp [hasChannels]) rfl
  | organicMedia nd chs =>
    exact fin [.mediaTime] (some chs) [(.organicMedia, nd)] (by simp) (by simp) (by simp)
      (by simp [Comp.peers]) (by simp [hasChannels]) rfl
  | organicReach r f chs =>
    exact fin [.mediaTime] (some chs) [(.organicReach, r), (.organicFrequency, f)] (by simp)
      (by simp) (by simp) (by simp [Comp.peers]) (by simp [hasChannels]) rfl
  | nonMedia nd chs =>
    exact fin [.time] (some chs) [(.nonMedia, nd)] (by simp) (by simp) (by simp)
      (by simp [Comp.peers]) (by simp [hasChannels]) rfl

theorem arrays_nodup (kt : String) (x : Call) : ((arrays kt x).map Given.comp).Nodup := by
  cases x <;> simp [arrays]

theorem arrays_ne (kt : String) (x : Call) : arrays kt x ≠ [] := by
  cases x <;> simp [arrays]

theorem calls_run {env : Env κ} {p : Plan} (hc : Coords env p) (kt : String) : ∀ (calls done : List Call) (s),
    run env kt (calls.map .call) (st kt p done) = .ok s ↔
      (∀ a ∈ calls.flatMap (arrays kt), ArrayOk env p a ∧ ∀ b ∈ done.flatMap (arrays kt), b.comp ≠ a.comp) ∧
      ((calls.flatMap (arrays kt)).map Given.comp).Nodup ∧
      (calls ≠ [] → p.labels.length = 1 → p.labels = [nationalGeo]) ∧ s = st kt p (calls.reverse ++ done)
  | [], done, s => by simp [run, eq_comm]
  | x :: l, done, s => by
    have hx := call_iff hc kt done x
    rw [List.map_cons, run]
    have e : step env kt (.call x) (st kt p done) = call env kt x (st kt p done) := rfl
    rw [e]
    cases hcall : call env kt x (st kt p done) with
    | error e =>
      refine ⟨fun h => (by cases h), fun h => ?_⟩
      have := (hx (st kt p (x :: done))).2 ⟨fun a ha => h.1 a (by simp [ha]), h.2.2.1 (by simp), rfl⟩
      rw [hcall] at this; cases this
    | ok s1 =>
      obtain ⟨h1, h2, rfl⟩ := (hx s1).1 hcall
      simp only
      rw [calls_run hc kt l (x :: done) s]
      simp only [List.flatMap_cons, List.map_append, List.nodup_append, List.mem_append, List.reverse_cons,
        List.append_assoc, List.singleton_append]
      constructor
      · rintro ⟨k1, k2, k3, k4⟩
        refine ⟨?_, ⟨arrays_nodup kt x, k2, ?_⟩, fun _ => h2, k4⟩
        · rintro a (ha | ha)
          · exact h1 a ha
          · exact ⟨(k1 a ha).1, fun b hb => (k1 a ha).2 b (.inr hb)⟩
        · intro c hc' d hd
          obtain ⟨a, ha, rfl⟩ := List.mem_map.1 hc'
          obtain ⟨b, hb, rfl⟩ := List.mem_map.1 hd
          exact (k1 b hb).2 a (.inl ha)
      · rintro ⟨k1, ⟨-, k2, k2'⟩, k3, k4⟩
        refine ⟨fun a ha => ⟨(k1 a (.inr ha)).1, ?_⟩, k2, fun _ => h2, k4⟩
        rintro b (hb | hb)
        · exact k2' _ (List.mem_map_of_mem hb) _ (List.mem_map_of_mem ha)
        · exact (k1 a (.inr ha)).2 b hb

theorem find_unique {l : List Given} (h : (l.map Given.comp).Nodup) {c : Comp} {a : Given} :
    (l.find? fun a => decide (a.comp = c)) = some a ↔ a ∈ l ∧ a.comp = c := by
  constructor
  · intro hf
    have hs := List.find?_some hf
    exact ⟨List.mem_of_find?_eq_some hf, of_decide_eq_true hs⟩
  · rintro ⟨hm, hc⟩
    cases hf : l.find? fun a => decide (a.comp = c) with
    | none => exact absurd (decide_eq_true hc) (List.find?_eq_none.1 hf a hm)
    | some b =>
      have hb := List.mem_of_find?_eq_some hf
      have hs := List.find?_some hf
      have hbc : b.comp = c := of_decide_eq_true hs
      rw [List.inj_on_of_nodup_map h hb hm (hbc.trans hc.symm)]

theorem filter_unique {l : List Given} (h : (l.map Given.comp).Nodup) (c : Comp) :
    (l.filter fun a => decide (a.comp = c)) = (l.find? fun a => decide (a.comp = c)).toList := by
  induction l with
  | nil => rfl
  | cons a l ih =>
    rw [List.map_cons, List.nodup_cons] at h
    rw [List.filter_cons, List.find?_cons]
    by_cases hac : a.comp = c
    · have hn : (l.filter fun b => decide (b.comp = c)) = [] := by
        rw [List.filter_eq_nil_iff]
        intro b hb hbc
        exact h.1 (by rw [hac, ← of_decide_eq_true hbc]; exact List.mem_map_of_mem hb)
      rw [decide_eq_true hac, hn]; rfl
    · rw [decide_eq_false hac]
      simpa using ih h.2

theorem comps_some {kt : String} {p : Plan} (h : ((p.arrays kt).map Given.comp).Nodup) {c : Comp} {d : DA} :
    (st kt p p.calls.reverse).comps c = some d ↔ ∃ a ∈ p.arrays kt, a.comp = c ∧ d = labelled p a := by
  have hp : (p.calls.reverse.flatMap (arrays kt)).Perm (p.arrays kt) :=
    List.Perm.flatMap_right _ (List.reverse_perm _)
  have h' : ((p.calls.reverse.flatMap (arrays kt)).map Given.comp).Nodup := (hp.map _).nodup_iff.2 h
  simp only [st, Option.map_eq_some_iff, find_unique h', hp.mem_iff]
  constructor
  · rintro ⟨a, ⟨h1, h2⟩, h3⟩
    exact ⟨a, h1, h2, h3.symm⟩
  · rintro ⟨a, h1, h2, h3⟩
    exact ⟨a, ⟨h1, h2⟩, h3.symm⟩

theorem comps_isSome {kt : String} {p : Plan} (h : ((p.arrays kt).map Given.comp).Nodup) {c : Comp} :
    ((st kt p p.calls.reverse).comps c).isSome = true ↔ ∃ a ∈ p.arrays kt, a.comp = c := by
  rw [Option.isSome_iff_exists]
  simp only [comps_some h]
  constructor
  · rintro ⟨d, a, h1, h2, -⟩; exact ⟨a, h1, h2⟩
  · rintro ⟨a, h1, h2⟩; exact ⟨_, a, h1, h2, rfl⟩

theorem mem_arrays {kt : String} {p : Plan} {a : Given} : a ∈ p.arrays kt ↔ ∃ x ∈ p.calls, a ∈ arrays kt x := by
  simp [Plan.arrays, List.mem_flatMap]

/-- Which calls bring which arrays. -/
theorem comp_call (kt : String) (x : Call) (c : Comp) : (∃ a ∈ arrays kt x, a.comp = c) ↔ match c with
    | .kpi => ∃ nd, x = .kpi nd
    | .controls => ∃ nd l, x = .controls nd l
    | .population => ∃ nd, x = .population nd
    | .revenuePerKpi => ∃ nd, x = .revenuePerKpi nd
    | .media => ∃ m s l, x = .media m s l
    | .mediaSpend => ∃ m s l, x = .media m s l
    | .reach => ∃ r f s l, x = .reach r f s l
    | .frequency => ∃ r f s l, x = .reach r f s l
    | .rfSpend => ∃ r f s l, x = .reach r f s l
    | .organicMedia => ∃ nd l, x = .organicMedia nd l
    | .organicReach => ∃ r f l, x = .organicReach r f l
    | .organicFrequency => ∃ r f l, x = .organicReach r f l
    | .nonMedia => ∃ nd l, x = .nonMedia nd l := by
  cases x <;> cases c <;> simp [arrays]

theorem has_iff (kt : String) (p : Plan) (c : Comp) : (∃ a ∈ p.arrays kt, a.comp = c) ↔
    ∃ x ∈ p.calls, ∃ a ∈ arrays kt x, a.comp = c := by
  simp only [mem_arrays]
  constructor
  · rintro ⟨a, ⟨x, hx, ha⟩, hc⟩; exact ⟨x, hx, a, ha, hc⟩
  · rintro ⟨x, hx, a, ha, hc⟩; exact ⟨a, ⟨x, hx, ha⟩, hc⟩

theorem complete_iff {kt : String} {p : Plan} (h : ((p.arrays kt).map Given.comp).Nodup) :
    Complete (fun c => ((st kt p p.calls.reverse).comps c).isSome = true) (p.labels.length = 1) ↔
      (∃ nd, .kpi nd ∈ p.calls) ∧ (p.labels.length ≠ 1 → ∃ nd, .population nd ∈ p.calls) ∧
      ((∃ m s chs, .media m s chs ∈ p.calls) ∨ ∃ r f s chs, .reach r f s chs ∈ p.calls) := by
  have e : ∀ c, ((st kt p p.calls.reverse).comps c).isSome = true ↔ ∃ x ∈ p.calls, ∃ a ∈ arrays kt x, a.comp = c :=
    fun c => (comps_isSome h).trans (has_iff kt p c)
  have s1 : ∀ f : Nd → Call, (∃ x ∈ p.calls, ∃ nd, x = f nd) ↔ ∃ nd, f nd ∈ p.calls := by
    intro f
    constructor
    · rintro ⟨x, hx, nd, rfl⟩; exact ⟨nd, hx⟩
    · rintro ⟨nd, h⟩; exact ⟨_, h, nd, rfl⟩
  have s3 : (∃ x ∈ p.calls, ∃ m s l, x = .media m s l) ↔ ∃ m s l, .media m s l ∈ p.calls := by
    constructor
    · rintro ⟨x, hx, m, s, l, rfl⟩; exact ⟨m, s, l, hx⟩
    · rintro ⟨m, s, l, h⟩; exact ⟨_, h, m, s, l, rfl⟩
  have s4 : (∃ x ∈ p.calls, ∃ r f s l, x = .reach r f s l) ↔ ∃ r f s l, .reach r f s l ∈ p.calls := by
    constructor
    · rintro ⟨x, hx, r, f, s, l, rfl⟩; exact ⟨r, f, s, l, hx⟩
    · rintro ⟨r, f, s, l, h⟩; exact ⟨_, h, r, f, s, l, rfl⟩
  constructor
  · intro hc
    refine ⟨?_, fun hl => ?_, ?_⟩
    · have := hc.kpi
      rw [e] at this
      simp only [comp_call] at this
      exact (s1 _).1 this
    · have := hc.population.resolve_left hl
      rw [e] at this
      simp only [comp_call] at this
      exact (s1 _).1 this
    · have := hc.paid
      simp only [e, comp_call] at this
      rw [s3, s4] at this
      exact this
  · rintro ⟨h1, h2, h3⟩
    refine ⟨?_, ?_, ?_, ⟨?_, ?_⟩, ?_, ?_⟩
    · simp only [e, comp_call]; exact (s1 _).2 h1
    · by_cases hl : p.labels.length = 1
      · exact .inl hl
      · right; simp only [e, comp_call]; exact (s1 _).2 (h2 hl)
    · simp only [e, comp_call]
    · simp only [e, comp_call]
    · simp only [e, comp_call]
    · simp only [e, comp_call]
    · simp only [e, comp_call]; rw [s3, s4]; exact h3

section build

variable [LinearOrder κ]

/-- The arrays handed to `InputData`. -/
def result (env : Env κ) (kt : String) (p : Plan) (c : Comp) : Option DA :=
  (((st kt p p.calls.reverse).withPopulation p.labels).comps c).map
    (align (natsorted env p.labels) (natsorted env p.times) (natsorted env p.mediaTimes) c)

theorem base_build {env : Env κ} {kt : String} {p : Plan} (hc : Coords env p)
    (h : ((p.arrays kt).map Given.comp).Nodup) (hne : p.calls ≠ []) :
    (Complete (fun c => ((st kt p p.calls.reverse).comps c).isSome = true) (p.labels.length = 1) ∧
      Builder.build env (st kt p p.calls.reverse) =
        .ok (result env kt p, (st kt p p.calls.reverse).withPopulation p.labels)) ∨
    (¬ Complete (fun c => ((st kt p p.calls.reverse).comps c).isSome = true) (p.labels.length = 1) ∧
      ∃ e, Builder.build env (st kt p p.calls.reverse) = .error e) := by
  have hg : (st kt p p.calls.reverse).geos = some p.labels := by simp [st, hne]
  rcases required_cases (st kt p p.calls.reverse) with ⟨g, hg', hcm, hr⟩ | ⟨hn, e, hr⟩
  · rw [hg] at hg'
    cases hg'
    refine .inl ⟨hcm, ?_⟩
    obtain ⟨r1, r2, r3⟩ := withPopulation_rest (st kt p p.calls.reverse) p.labels
    have ht : (st kt p p.calls.reverse).times = some p.times := rfl
    have hm : (st kt p p.calls.reverse).mediaTimes = some p.mediaTimes := rfl
    simp only [Builder.build, hr, r1, r2, r3, hg, ht, hm]
    refine if_pos ?_
    rw [List.all_eq_true]
    intro c _
    by_cases hcp : c = .population ∧ p.labels.length = 1
    · obtain ⟨rfl, hg1⟩ := hcp
      have : ((st kt p p.calls.reverse).withPopulation p.labels).comps .population =
          some (onesPopulation p.labels) := by
        simp [St.withPopulation, St.put, hg1]
      rw [this]
      simpa [reindexable, onesPopulation, Comp.kind] using hc.geos
    · have heq : ((st kt p p.calls.reverse).withPopulation p.labels).comps c = (st kt p p.calls.reverse).comps c := by
        by_cases h1 : c = .population
        · have h2 : ¬ p.labels.length = 1 := fun h => hcp ⟨h1, h⟩
          simp [St.withPopulation, h2]
        · exact withPopulation_comps h1
      rw [heq]
      cases hd : (st kt p p.calls.reverse).comps c with
      | none => rfl
      | some d =>
        obtain ⟨a, ha, rfl, rfl⟩ := (comps_some h).1 hd
        simp only [Option.all_some, reindexable, Bool.and_eq_true, Bool.or_eq_true, decide_eq_true_eq]
        refine ⟨hc.geos, ?_⟩
        by_cases hk : a.comp = .population
        · exact .inl ((kind_noTime _).2 hk)
        · right
          have : (labelled p a).times = p.timesOf a.comp := by simp [labelled, hk]
          rw [this, Plan.timesOf]
          split_ifs
          · exact hc.media
          · exact hc.times
  · exact .inr ⟨hn _ hg, e, by simp only [Builder.build, hr]⟩

/-- The array of the input data for an array that was handed over. -/
def out (env : Env κ) (p : Plan) (a : Given) : InputData.Arr :=
  toArr a.comp (align (natsorted env p.labels) (natsorted env p.times) (natsorted env p.mediaTimes) a.comp
    (labelled p a))

/-- The population of a national model. -/
def outOnes (env : Env κ) (p : Plan) : InputData.Arr :=
  toArr .population (align (natsorted env p.labels) (natsorted env p.times) (natsorted env p.mediaTimes) .population
    (onesPopulation p.labels))

/-- The array of a component. -/
def outOf (env : Env κ) (kt : String) (p : Plan) (c : Comp) : Option InputData.Arr :=
  (result env kt p c).map (toArr c)

theorem outOf_some {env : Env κ} {kt : String} {p : Plan} (h : ((p.arrays kt).map Given.comp).Nodup) (c : Comp) (r) :
    outOf env kt p c = some r ↔ (c = .population ∧ p.labels.length = 1 ∧ r = outOnes env p) ∨
      ∃ a, p.Used kt a ∧ a.comp = c ∧ r = out env p a := by
  unfold outOf result
  by_cases hcp : c = .population ∧ p.labels.length = 1
  · obtain ⟨rfl, hg1⟩ := hcp
    have : ((st kt p p.calls.reverse).withPopulation p.labels).comps .population = some (onesPopulation p.labels) := by
      simp [St.withPopulation, St.put, hg1]
    rw [this]
    simp only [Option.map_some, Option.some.injEq]
    constructor
    · intro h; exact .inl ⟨trivial, hg1, h.symm⟩
    · rintro (⟨-, -, h⟩ | ⟨a, ha, hc, -⟩)
      · exact h.symm
      · exact absurd ⟨hc, hg1⟩ ha.2
  · have heq : ((st kt p p.calls.reverse).withPopulation p.labels).comps c = (st kt p p.calls.reverse).comps c := by
      by_cases h1 : c = .population
      · have h2 : ¬ p.labels.length = 1 := fun h => hcp ⟨h1, h⟩
        simp [St.withPopulation, h2]
      · exact withPopulation_comps h1
    rw [heq]
    simp only [Option.map_map, Option.map_eq_some_iff, comps_some h]
    constructor
    · rintro ⟨d, ⟨a, ha, rfl, rfl⟩, rfl⟩
      exact .inr ⟨a, ⟨ha, hcp⟩, rfl, rfl⟩
    · rintro (⟨h1, h2, -⟩ | ⟨a, ha, rfl, rfl⟩)
      · exact absurd ⟨h1, h2⟩ hcp
      · exact ⟨_, ⟨a, ha.1, rfl, rfl⟩, rfl⟩

omit [LinearOrder κ] in
theorem flatMap_range {α β : Type} (g : α → List β) : ∀ (f : ℕ → List β) (l : List α),
    (∀ i a, l[i]? = some a → f i = g a) → (List.range l.length).flatMap f = l.flatMap g
  | _, [], _ => rfl
  | f, a :: l, h => by
    rw [List.length_cons, List.range_succ_eq_map, List.flatMap_cons, List.flatMap_cons, h 0 a rfl, List.flatMap_map]
    congr 1
    exact flatMap_range g (fun i => f (i + 1)) l fun i b hb => h (i + 1) b (by simpa using hb)

omit [LinearOrder κ] in
theorem map_range {α β : Type} (f : ℕ → β) (g : α → β) (l : List α)
    (h : ∀ i a, l[i]? = some a → f i = g a) : (List.range l.length).map f = l.map g := by
  have e1 := flatMap_range (fun a => [g a]) (fun i => [f i]) l (fun i a hi => by rw [h i a hi])
  have e2 : ∀ {γ : Type} (l : List γ) (f : γ → β), l.flatMap (fun i => [f i]) = l.map f := by
    intro γ l f
    induction l with
    | nil => rfl
    | cons a l ih => simp [List.flatMap_cons, ih]
  rw [e2, e2] at e1
  exact e1

omit [LinearOrder κ] in
theorem position_mem {l l' : List String} (hp : l'.Perm l) {i : ℕ} {g : String} (h : l'[i]? = some g) :
    position l l'[i]? = some (l.idxOf g) := by
  have : g ∈ l := hp.mem_iff.1 (List.mem_of_getElem? h)
  simp [h, position, this]

theorem arrayName_eq {c : Comp} (h : c ≠ .organicFrequency) : arrayName c = Wanted.name c := by
  cases c <;> simp_all [arrayName, Wanted.name]

/-- The array of the result holds what was handed over. -/
theorem out_holds {env : Env κ} {p : Plan} {a : Given} (hn : a.channels.Nodup) (ho : a.comp ≠ .organicFrequency) :
    Holds p (natsorted env p.labels) (natsorted env (p.timesOf a.comp)) a (out env p a) := by
  have hG := natsorted_perm env p.labels
  have hT := natsorted_perm env (p.timesOf a.comp)
  have hch : ∀ (k : ℕ) (c : String), a.channels[k]? = some c → a.channels.idxOf c = k := by
    intro k c hk
    obtain ⟨hlt, hc⟩ := List.getElem?_eq_some_iff.1 hk
    rw [← hc, hn.idxOf_getElem]
  have hval : a.comp ≠ .population → align (natsorted env p.labels) (natsorted env p.times) (natsorted env p.mediaTimes) a.comp
      (labelled p a) = reindex (labelled p a) (natsorted env p.labels) (natsorted env (p.timesOf a.comp)) true := by
    intro hp
    rw [kind_timesOf p _ hp]
    unfold align
    cases hk : a.comp.kind with
    | noTime => exact absurd ((kind_noTime _).1 hk) hp
    | time => rfl
    | mediaTime => rfl
  have htimes : a.comp ≠ .population → (labelled p a).times = p.timesOf a.comp := fun h => by simp [labelled, h]
  refine ⟨arrayName_eq ho, ?_, ?_, ?_⟩
  · show arrayDims a.comp = _
    obtain ⟨c, nd, chs⟩ := a
    cases c <;> simp [arrayDims, axes, timeDim, Comp.kind, channelDim, hasChannels, timeName, channelName]
  · intro x hx
    show coordOf a.comp _ x.1 = x.2
    by_cases hp : a.comp = .population
    · simp only [axes, hp, if_true, List.mem_singleton] at hx
      subst hx
      simp [coordOf, align, hp, Comp.kind, reindex]
    · rw [hval hp]
      have e1 : (reindex (labelled p a) (natsorted env p.labels) (natsorted env (p.timesOf a.comp)) true).geos =
        natsorted env p.labels := rfl
      have e2 : (reindex (labelled p a) (natsorted env p.labels) (natsorted env (p.timesOf a.comp)) true).times =
        natsorted env (p.timesOf a.comp) := rfl
      have e3 : (reindex (labelled p a) (natsorted env p.labels) (natsorted env (p.timesOf a.comp)) true).channels =
        a.channels := rfl
      generalize reindex (labelled p a) (natsorted env p.labels) (natsorted env (p.timesOf a.comp)) true = d at e1 e2 e3
      unfold coordOf
      rw [e1, e2, e3]
      clear e1 e2 e3 hval htimes hT
      generalize natsorted env (p.timesOf a.comp) = T at hx ⊢
      obtain ⟨c, nd, chs⟩ := a
      cases c <;> first
        | exact absurd rfl hp
        | (simp only [axes, hasChannels, timeName, channelName] at hx
           simp at hx
           rcases hx with rfl | rfl | rfl <;> simp [timeDim, Comp.kind, channelDim])
        | (simp only [axes, hasChannels, timeName, channelName] at hx
           simp at hx
           rcases hx with rfl | rfl <;> simp [timeDim, Comp.kind, channelDim])
  · show valuesOf a.comp _ = _
    by_cases hp : a.comp = .population
    · rw [if_pos hp]
      have hk : a.comp.kind = .noTime := (kind_noTime _).2 hp
      have hd : channelDim a.comp = none := by rw [hp]; rfl
      have e : align (natsorted env p.labels) (natsorted env p.times) (natsorted env p.mediaTimes) a.comp (labelled p a) =
        reindex (labelled p a) (natsorted env p.labels) [] false := by unfold align; rw [hk]
      rw [e]
      simp only [valuesOf, hk, hd, if_true, List.range_one, List.map_cons, List.map_nil, List.flatMap_cons,
        List.flatMap_nil, List.append_nil]
      have e2 : ∀ (l : List ℕ) (f : ℕ → Num), l.flatMap (fun i => [f i]) = l.map f := by
        intro l f
        induction l with
        | nil => rfl
        | cons a l ih => simp [List.flatMap_cons, ih]
      rw [e2]
      refine map_range _ _ _ ?_
      intro i g hi
      have h1 : position (labelled p a).geos (natsorted env p.labels)[i]? = some (p.labels.idxOf g) := position_mem hG hi
      simp only [reindex, Bool.false_eq_true, if_false]
      rw [h1]
      simp only [labelled, index, hk]
    · have hk : a.comp.kind ≠ .noTime := fun h => hp ((kind_noTime _).1 h)
      rw [if_neg hp, hval hp]
      have hcell : ∀ i j k g t, (natsorted env p.labels)[i]? = some g →
          (natsorted env (p.timesOf a.comp))[j]? = some t →
          (reindex (labelled p a) (natsorted env p.labels) (natsorted env (p.timesOf a.comp)) true).vals i j k =
            a.nd.val (index a.comp (p.labels.idxOf g) ((p.timesOf a.comp).idxOf t) k) := by
        intro i j k g t hi hj
        have h1 : position (labelled p a).geos (natsorted env p.labels)[i]? = some (p.labels.idxOf g) := position_mem hG hi
        have h2 : position (labelled p a).times (natsorted env (p.timesOf a.comp))[j]? =
            some ((p.timesOf a.comp).idxOf t) := by rw [htimes hp]; exact position_mem hT hj
        simp only [reindex, if_true]
        rw [h1, h2]
        rfl
      simp only [valuesOf, hk, if_false]
      by_cases hcd : hasChannels a.comp
      · have hd : channelDim a.comp ≠ none := fun h =>
          absurd hcd (by rw [← channelDim_iff, h]; simp)
        rw [if_pos hcd]
        simp only [hd, if_false]
        refine flatMap_range _ _ (natsorted env p.labels) ?_
        intro i g hi
        refine flatMap_range _ _ (natsorted env (p.timesOf a.comp)) ?_
        intro j t hj
        refine map_range _ _ a.channels ?_
        intro k c hkc
        rw [hcell i j k g t hi hj, hch k c hkc]
        congr 1
        unfold index
        cases hkk : a.comp.kind with
        | noTime => exact absurd hkk hk
        | time => cases hdd : channelDim a.comp with | none => exact absurd hdd hd | some _ => rfl
        | mediaTime => cases hdd : channelDim a.comp with | none => exact absurd hdd hd | some _ => rfl
      · have hd : channelDim a.comp = none := by
          cases hdd : channelDim a.comp with
          | none => rfl
          | some x => exact absurd ((channelDim_iff _).1 (by rw [hdd]; rfl)) hcd
        rw [if_neg hcd]
        simp only [hd, if_true, List.range_one, List.map_cons, List.map_nil]
        refine flatMap_range _ _ (natsorted env p.labels) ?_
        intro i g hi
        have e2 : ∀ (l : List ℕ) (f : ℕ → Num), l.flatMap (fun i => [f i]) = l.map f := by
          intro l f
          induction l with
          | nil => rfl
          | cons a l ih => simp [List.flatMap_cons, ih]
        rw [e2]
        refine map_range _ _ (natsorted env (p.timesOf a.comp)) ?_
        intro j t hj
        rw [hcell i j 0 g t hi hj]
        congr 1
        unfold index
        cases hkk : a.comp.kind with
        | noTime => exact absurd hkk hk
        | time => rw [hd]
        | mediaTime => rw [hd]

omit [LinearOrder κ] in
theorem mem_idx {l l' : List String} (hp : l'.Perm l) (hn : l.Nodup) (P : ℕ → Prop) :
    (∃ x ∈ l', P (l.idxOf x)) ↔ ∃ i, i < l.length ∧ P i := by
  constructor
  · rintro ⟨x, hx, h⟩
    exact ⟨_, List.idxOf_lt_length_iff.2 (hp.mem_iff.1 hx), h⟩
  · rintro ⟨i, hi, h⟩
    exact ⟨l[i], hp.mem_iff.2 (List.getElem_mem hi), by rw [hn.idxOf_getElem]; exact h⟩

/-- The values of the result are those handed over. -/
theorem holds_mem {p : Plan} {G T : List String} {a : Given} {r : InputData.Arr} (h : Holds p G T a r)
    (hG : G.Perm p.labels) (hGn : p.labels.Nodup) (hT : T.Perm (p.timesOf a.comp)) (hTn : (p.timesOf a.comp).Nodup)
    (hn : a.channels.Nodup) (hs : a.nd.shape = p.shape a) (v : Num) :
    v ∈ r.vals ↔ ∃ ix, Within a.nd.shape ix ∧ a.nd.val ix = v := by
  have w1 : ∀ (n : ℕ) (P : List ℕ → Prop), (∃ ix, Within [n] ix ∧ P ix) ↔ ∃ i, i < n ∧ P [i] := by
    intro n P
    simp only [Within, List.forall₂_cons_right_iff, List.forall₂_nil_right_iff]
    constructor
    · rintro ⟨ix, ⟨i, u, h1, rfl, rfl⟩, h2⟩; exact ⟨i, h1, h2⟩
    · rintro ⟨i, h1, h2⟩; exact ⟨_, ⟨i, [], h1, rfl, rfl⟩, h2⟩
  have w2 : ∀ (n m : ℕ) (P : List ℕ → Prop), (∃ ix, Within [n, m] ix ∧ P ix) ↔ ∃ i, i < n ∧ ∃ j, j < m ∧ P [i, j] := by
    intro n m P
    simp only [Within, List.forall₂_cons_right_iff, List.forall₂_nil_right_iff]
    constructor
    · rintro ⟨ix, ⟨i, u, h1, ⟨j, w, h3, rfl, rfl⟩, rfl⟩, h2⟩; exact ⟨i, h1, j, h3, h2⟩
    · rintro ⟨i, h1, j, h3, h2⟩; exact ⟨_, ⟨i, _, h1, ⟨j, _, h3, rfl, rfl⟩, rfl⟩, h2⟩
  have w3 : ∀ (n m l : ℕ) (P : List ℕ → Prop), (∃ ix, Within [n, m, l] ix ∧ P ix) ↔
      ∃ i, i < n ∧ ∃ j, j < m ∧ ∃ k, k < l ∧ P [i, j, k] := by
    intro n m l P
    simp only [Within, List.forall₂_cons_right_iff, List.forall₂_nil_right_iff]
    constructor
    · rintro ⟨ix, ⟨i, u, h1, ⟨j, w, h3, ⟨k, y, h4, rfl, rfl⟩, rfl⟩, rfl⟩, h2⟩; exact ⟨i, h1, j, h3, k, h4, h2⟩
    · rintro ⟨i, h1, j, h3, k, h4, h2⟩
      exact ⟨_, ⟨i, _, h1, ⟨j, _, h3, ⟨k, _, h4, rfl, rfl⟩, rfl⟩, rfl⟩, h2⟩
  rw [h.values, hs, Plan.shape]
  by_cases hp : a.comp = .population
  · rw [if_pos hp, if_pos hp, w1]
    rw [List.mem_map]
    exact mem_idx hG hGn fun i => a.nd.val [i] = v
  · rw [if_neg hp, if_neg hp]
    by_cases hcd : hasChannels a.comp
    · rw [if_pos hcd, if_pos hcd, w3]
      simp only [List.mem_flatMap, List.mem_map]
      rw [mem_idx hG hGn fun i => ∃ t ∈ T, ∃ c ∈ a.channels,
        a.nd.val [i, (p.timesOf a.comp).idxOf t, a.channels.idxOf c] = v]
      refine exists_congr fun i => and_congr_right fun _ => ?_
      rw [mem_idx hT hTn fun j => ∃ c ∈ a.channels, a.nd.val [i, j, a.channels.idxOf c] = v]
      refine exists_congr fun j => and_congr_right fun _ => ?_
      exact mem_idx (.refl _) hn fun k => a.nd.val [i, j, k] = v
    · rw [if_neg hcd, if_neg hcd, w2]
      simp only [List.mem_flatMap, List.mem_map]
      rw [mem_idx hG hGn fun i => ∃ t ∈ T, a.nd.val [i, (p.timesOf a.comp).idxOf t] = v]
      refine exists_congr fun i => and_congr_right fun _ => ?_
      exact mem_idx hT hTn fun j => a.nd.val [i, j] = v

/-- The population of a national model, as if it were handed over. -/
def onesGiven (p : Plan) : Given := ⟨.population, ⟨[p.labels.length], fun _ => some 1⟩, []⟩

/-- The arrays that reach the input data. -/
def Eff (kt : String) (p : Plan) (a : Given) : Prop := p.Used kt a ∨ (p.labels.length = 1 ∧ a = onesGiven p)

theorem outOf_eff {env : Env κ} {kt : String} {p : Plan} (h : ((p.arrays kt).map Given.comp).Nodup) (c : Comp) (r) :
    outOf env kt p c = some r ↔ ∃ a, Eff kt p a ∧ a.comp = c ∧ r = out env p a := by
  rw [outOf_some h]
  have e : outOnes env p = out env p (onesGiven p) := rfl
  rw [e]
  constructor
  · rintro (⟨rfl, h1, rfl⟩ | ⟨a, h1, h2, h3⟩)
    · exact ⟨onesGiven p, .inr ⟨h1, rfl⟩, rfl, rfl⟩
    · exact ⟨a, .inl h1, h2, h3⟩
  · rintro ⟨a, h1 | ⟨h1, rfl⟩, h2, h3⟩
    · exact .inr ⟨a, h1, h2, h3⟩
    · exact .inl ⟨h2.symm, h1, h3⟩

omit [LinearOrder κ] in
theorem eff_ok {env : Env κ} {kt : String} {p : Plan} (hok : ∀ a ∈ p.arrays kt, ArrayOk env p a) {a : Given}
    (h : Eff kt p a) : ArrayOk env p a := by
  rcases h with h | ⟨-, rfl⟩
  · exact hok a h.1
  · exact ⟨by simp [onesGiven, Plan.shape], List.nodup_nil, fun h => absurd rfl h⟩

theorem axes_geo (c : Comp) (G T chs : List String) : ("geo", G) ∈ axes c G T chs := by
  unfold axes; split_ifs <;> simp

theorem axes_time {c : Comp} (h : c ≠ .population) (G T chs : List String) : (timeName c, T) ∈ axes c G T chs := by
  unfold axes; rw [if_neg h]; split_ifs <;> simp

theorem axes_channel {c : Comp} (h : hasChannels c) (G T chs : List String) :
    (channelName c, chs) ∈ axes c G T chs := by
  unfold axes; rw [if_neg h.2.1, if_pos h]; simp

theorem dims_time {c : Comp} {G T chs : List String} {x : String} (hx : x ∈ ["time", "media_time"])
    (h : x ∈ (axes c G T chs).map Prod.fst) : c ≠ .population ∧ x = timeName c := by
  rw [List.mem_cons, List.mem_singleton] at hx
  rcases hx with rfl | rfl <;> cases c <;> simp_all [axes, hasChannels, timeName, channelName]

theorem table_rows (d : InputData.Input) : ∀ x ∈ InputData.Spec.table d, ∃ c, x.1 = component d c ∧
    x.2.1 = Wanted.name c ∧ ∀ G T chs, (axes c G T chs).map Prod.fst ∈ x.2.2 := by
  simp only [InputData.Spec.table, List.mem_cons, List.not_mem_nil, or_false, forall_eq_or_imp, forall_eq]
  refine ⟨⟨.kpi, ?_⟩, ⟨.population, ?_⟩, ⟨.controls, ?_⟩, ⟨.revenuePerKpi, ?_⟩, ⟨.media, ?_⟩, ⟨.mediaSpend, ?_⟩,
    ⟨.reach, ?_⟩, ⟨.frequency, ?_⟩, ⟨.rfSpend, ?_⟩, ⟨.organicMedia, ?_⟩, ⟨.organicReach, ?_⟩, ⟨.organicFrequency, ?_⟩,
    ⟨.nonMedia, ?_⟩⟩ <;>
  simp [component, Wanted.name, axes, hasChannels, timeName, channelName]

theorem present_iff (d : InputData.Input) (r) :
    InputData.Spec.Present (InputData.Spec.arrays d) r ↔ ∃ c, component d c = some r := by
  simp only [InputData.Spec.Present, InputData.Spec.arrays, InputData.Spec.table, List.map_cons, List.map_nil,
    List.mem_cons, List.not_mem_nil, or_false]
  constructor
  · rintro (h | h | h | h | h | h | h | h | h | h | h | h | h)
    exacts [⟨.kpi, h.symm⟩, ⟨.population, h.symm⟩, ⟨.controls, h.symm⟩, ⟨.revenuePerKpi, h.symm⟩, ⟨.media, h.symm⟩,
      ⟨.mediaSpend, h.symm⟩, ⟨.reach, h.symm⟩, ⟨.frequency, h.symm⟩, ⟨.rfSpend, h.symm⟩, ⟨.organicMedia, h.symm⟩,
      ⟨.organicReach, h.symm⟩, ⟨.organicFrequency, h.symm⟩, ⟨.nonMedia, h.symm⟩]
  · rintro ⟨c, h⟩
    cases c <;> simp only [component] at h <;> simp [h]

theorem component_used (d : InputData.Input) (c : Comp) : component (InputData.Spec.used d) c =
    if c = .revenuePerKpi ∧ d.kpiType = "revenue" then some (InputData.Spec.ones d.kpi) else component d c := by
  unfold InputData.Spec.used
  by_cases h : d.kpiType = "revenue"
  · rw [if_pos h]
    cases c <;> simp [component, h]
  · rw [if_neg h, if_neg fun x => h x.2]

theorem peer_in_call (kt : String) (x : Call) : ∀ b ∈ arrays kt x, ∀ q ∈ b.comp.peers,
    ∃ a ∈ arrays kt x, a.comp = q ∧ a.channels = b.channels := by
  cases x <;> simp [arrays, Comp.peers]

theorem same_channels {kt : String} {p : Plan} (h : ((p.arrays kt).map Given.comp).Nodup) {a b : Given}
    (ha : a ∈ p.arrays kt) (hb : b ∈ p.arrays kt) (hp : a.comp ∈ b.comp.peers) : a.channels = b.channels := by
  obtain ⟨x, hx, hbx⟩ := mem_arrays.1 hb
  obtain ⟨a', ha', h1, h2⟩ := peer_in_call kt x b hbx a.comp hp
  rw [← List.inj_on_of_nodup_map h (mem_arrays.2 ⟨x, hx, ha'⟩) ha h1]
  exact h2

theorem natsorted_eq_sorted {env : Env κ} {l : List String} (hn : l.Nodup)
    (hord : ∀ a ∈ l, ∀ b ∈ l, a < b → env.natKey a < env.natKey b) : natsorted env l = sorted l := by
  have h1 := natsorted_sorted env l
  have hp := natsorted_perm env l
  have hq : (sorted l).Perm l := List.perm_insertionSort _ _
  have h2 : (natsorted env l).Pairwise (· ≤ ·) := by
    refine List.Pairwise.imp_of_mem ?_ h1
    intro a b ha hb hab
    by_contra hlt
    exact absurd (hord b (hp.mem_iff.1 hb) a (hp.mem_iff.1 ha) (not_le.1 hlt)) (not_lt.2 hab)
  refine List.Perm.eq_of_pairwise (le := (· ≤ ·)) ?_ h2 (List.pairwise_insertionSort _ _) (hp.trans hq.symm)
  intro a b _ _ h3 h4
  exact le_antisymm h3 h4

theorem lagged_length {M T : List String} (hM : M.Nodup) (hT : T.Nodup) (h : Lagged M T) : T.length ≤ M.length :=
  (List.subperm_of_subset hT h.1).length_le

/-- What the checks of the input data amount to. -/
theorem consistent_iff {env : Env κ} {kt : String} {p : Plan} (hc : Coords env p)
    (hok : ∀ a ∈ p.arrays kt, ArrayOk env p a) (hn : ((p.arrays kt).map Given.comp).Nodup)
    (hkpi : ∃ nd, .kpi nd ∈ p.calls)
    (hpaid : (∃ m s chs, .media m s chs ∈ p.calls) ∨ ∃ r f s chs, .reach r f s chs ∈ p.calls)
    (hord : DatesOrdered env p) {d : InputData.Input} (hd : ∀ c, component d c = outOf env kt p c)
    (hkt : d.kpiType = kt) :
    InputData.Spec.Consistent env.isDate env.regular d ↔
      (∀ r f chs, .organicReach r f chs ∉ p.calls) ∧ (kt = "revenue" ∨ kt = "non_revenue") ∧
      (∀ a, p.Used kt a → ∀ ix, Within a.nd.shape ix → a.nd.val ix ≠ none) ∧
      (∀ a, p.Used kt a → a.comp ∈ [.kpi, .revenuePerKpi, .mediaSpend, .rfSpend, .reach, .frequency] →
        ∀ ix, Within a.nd.shape ix → ∀ q, a.nd.val ix = some q → 0 ≤ q) ∧
      (∀ a ∈ p.arrays kt, a.comp = .revenuePerKpi → ∃ ix, Within a.nd.shape ix ∧ a.nd.val ix ≠ some 0) ∧
      (p.channels kt).Nodup := by
  have hsome : ∀ c r, component d c = some r ↔ ∃ a, Eff kt p a ∧ a.comp = c ∧ r = out env p a := by
    intro c r; rw [hd, outOf_eff hn]
  by_cases hno : ∀ r f chs, .organicReach r f chs ∉ p.calls
  swap
  · -- organic frequency has the wrong name
    refine ⟨fun h => ?_, fun h => absurd h.1 hno⟩
    exfalso
    push_neg at hno
    obtain ⟨r, f, chs, hm⟩ := hno
    have ha : (⟨.organicFrequency, f, chs⟩ : Given) ∈ p.arrays kt := mem_arrays.2 ⟨_, hm, by simp [arrays]⟩
    have h1 : d.organicFrequency = some (out env p ⟨.organicFrequency, f, chs⟩) :=
      (hsome .organicFrequency _).2 ⟨_, .inl ⟨ha, by simp⟩, rfl, rfl⟩
    have h2 : (InputData.Spec.used d).organicFrequency = d.organicFrequency := by
      have := component_used d .organicFrequency
      simpa [component] using this
    have h3 := (h.shape (d.organicFrequency, "organic_frequency", [["geo", "media_time", "organic_rf_channel"]])
      (by simp [InputData.Spec.table, h2]) _ h1).1
    exact absurd (show "organic_reach" = "organic_frequency" from h3) (by decide)
  refine Iff.trans ?_ (and_iff_right hno).symm
  have hnf : ∀ a, Eff kt p a → a.comp ≠ .organicFrequency := by
    rintro a (⟨ha, -⟩ | ⟨-, rfl⟩) h
    · obtain ⟨x, hx, hax⟩ := mem_arrays.1 ha
      have := (comp_call kt x .organicFrequency).1 ⟨a, hax, h⟩
      obtain ⟨r, f, l, rfl⟩ := this
      exact hno _ _ _ hx
    · cases h
  have hnr : ∀ a, Eff kt p a → a.comp ≠ .organicReach := by
    rintro a (⟨ha, -⟩ | ⟨-, rfl⟩) h
    · obtain ⟨x, hx, hax⟩ := mem_arrays.1 ha
      have := (comp_call kt x .organicReach).1 ⟨a, hax, h⟩
      obtain ⟨r, f, l, rfl⟩ := this
      exact hno _ _ _ hx
    · cases h
  have hG := natsorted_perm env p.labels
  have hTn : ∀ c, (p.timesOf c).Nodup := fun c => by
    unfold Plan.timesOf; split_ifs
    · exact hc.media
    · exact hc.times
  have hH : ∀ a, Eff kt p a → Holds p (natsorted env p.labels) (natsorted env (p.timesOf a.comp)) a (out env p a) :=
    fun a ha => out_holds (eff_ok hok ha).2.1 (hnf a ha)
  have hvals : ∀ a, Eff kt p a → ∀ v, v ∈ (out env p a).vals ↔ ∃ ix, Within a.nd.shape ix ∧ a.nd.val ix = v :=
    fun a ha v => holds_mem (hH a ha) hG hc.geos (natsorted_perm _ _) (hTn _) (eff_ok hok ha).2.1 (eff_ok hok ha).1 v
  have hgeo : ∀ a, Eff kt p a → (out env p a).coord "geo" = natsorted env p.labels :=
    fun a ha => (hH a ha).coords _ (axes_geo _ _ _ _)
  have htime : ∀ a, Eff kt p a → a.comp ≠ .population →
      (out env p a).coord (timeName a.comp) = natsorted env (p.timesOf a.comp) :=
    fun a ha h => (hH a ha).coords _ (axes_time h _ _ _)
  have hchan : ∀ a, Eff kt p a → hasChannels a.comp → (out env p a).coord (channelName a.comp) = a.channels :=
    fun a ha h => (hH a ha).coords _ (axes_channel h _ _ _)
  have hmem : ∀ a, Eff kt p a → a.comp ≠ .population → a ∈ p.arrays kt := by
    rintro a (⟨ha, -⟩ | ⟨-, rfl⟩) h
    · exact ha
    · exact absurd rfl h
  obtain ⟨knd, hk⟩ := hkpi
  have hke : Eff kt p ⟨.kpi, knd, []⟩ := .inl ⟨mem_arrays.2 ⟨_, hk, by simp [arrays]⟩, by simp⟩
  have hkd : d.kpi = out env p ⟨.kpi, knd, []⟩ := by
    have := (hsome .kpi _).2 ⟨_, hke, rfl, rfl⟩
    simpa [component] using this
  have hkgeo : d.kpi.coord "geo" = natsorted env p.labels := by rw [hkd]; exact hgeo _ hke
  have hktime : d.kpi.coord "time" = natsorted env p.times := by
    rw [hkd]; exact htime _ hke (by simp)
  have eT : natsorted env p.times = sorted p.times :=
    natsorted_eq_sorted hc.times fun a ha b hb => hord a b (.inl ha) (.inl hb)
  have eM : natsorted env p.mediaTimes = sorted p.mediaTimes :=
    natsorted_eq_sorted hc.media fun a ha b hb => hord a b (.inr ha) (.inr hb)
  -- arrays of the used data
  have husome : ∀ c r, component (InputData.Spec.used d) c = some r →
      (c = .revenuePerKpi ∧ kt = "revenue" ∧ r = InputData.Spec.ones d.kpi) ∨
        ∃ a, Eff kt p a ∧ a.comp = c ∧ r = out env p a := by
    intro c r h
    rw [component_used, hkt] at h
    by_cases hcr : c = .revenuePerKpi ∧ kt = "revenue"
    · rw [if_pos hcr, Option.some.injEq] at h
      exact .inl ⟨hcr.1, hcr.2, h.symm⟩
    · rw [if_neg hcr] at h
      exact .inr ((hsome c r).1 h)
  have huc : ∀ c, c ≠ .revenuePerKpi → component (InputData.Spec.used d) c = component d c := by
    intro c h
    rw [component_used, if_neg fun x => h x.1]
  -- the names of the channels
  have hnames : ∀ c (dim : String), hasChannels c → dim = channelName c → c ≠ .organicFrequency →
      InputData.Spec.names (component d c) dim = p.namesOf kt c := by
    intro c dim h1 h2 h3
    subst h2
    rw [Plan.namesOf, filter_unique hn]
    cases hf : (p.arrays kt).find? fun a => decide (a.comp = c) with
    | none =>
      have : component d c = none := by
        cases hcd : component d c with
        | none => rfl
        | some r =>
          obtain ⟨a, ha, hac, -⟩ := (hsome c r).1 hcd
          have := List.find?_eq_none.1 hf a (hmem a ha (by rw [hac]; exact h1.2.1))
          exact absurd (decide_eq_true hac) this
      rw [this]; rfl
    | some a =>
      obtain ⟨ha, hac⟩ := (find_unique hn).1 hf
      have hae : Eff kt p a := .inl ⟨ha, fun x => h1.2.1 (by rw [← hac]; exact x.1)⟩
      have : component d c = some (out env p a) := (hsome c _).2 ⟨a, hae, hac, rfl⟩
      rw [this]
      subst hac
      simp [InputData.Spec.names, hchan a hae h1]
  have hchs : InputData.Spec.channels d = p.channels kt := by
    have e1 := hnames .media "media_channel" (by decide) rfl (by decide)
    have e2 := hnames .reach "rf_channel" (by decide) rfl (by decide)
    have e3 := hnames .organicMedia "organic_media_channel" (by decide) rfl (by decide)
    have e5 := hnames .nonMedia "non_media_channel" (by decide) rfl (by decide)
    have e4 : d.organicReach = none := by
      cases h : d.organicReach with
      | none => rfl
      | some r =>
        obtain ⟨a, ha, hac, -⟩ := (hsome .organicReach r).1 h
        exact absurd hac (hnr a ha)
    simp only [component] at e1 e2 e3 e5
    rw [InputData.Spec.channels, e1, e2, e3, e4, e5, Plan.channels]
    simp [InputData.Spec.names]
  constructor
  · intro h
    refine ⟨hkt ▸ h.kpiType, ?_, ?_, ?_, hchs ▸ h.channelsUnique⟩
    · intro a ha ix hix hv
      have := h.noNa (out env p a) ((present_iff _ _).2 ⟨a.comp, (hsome _ _).2 ⟨a, .inl ha, rfl, rfl⟩⟩)
      exact this ((hvals a (.inl ha) none).2 ⟨ix, hix, hv⟩)
    · intro a ha hac ix hix q hq
      have hae : Eff kt p a := .inl ha
      by_cases hrev : a.comp = .revenuePerKpi ∧ kt = "revenue"
      · -- ones
        obtain ⟨x, hx, hax⟩ := mem_arrays.1 ha.1
        obtain ⟨nd, rfl⟩ := (comp_call kt x .revenuePerKpi).1 ⟨a, hax, hrev.1⟩
        simp only [arrays, hrev.2, if_true, List.mem_singleton] at hax
        subst hax
        simp only [Option.some.injEq] at hq
        rw [← hq]; norm_num
      · have hcu : component (InputData.Spec.used d) a.comp = some (out env p a) := by
          rw [component_used, hkt, if_neg hrev]
          exact (hsome _ _).2 ⟨a, hae, rfl, rfl⟩
        have hcd : component d a.comp = some (out env p a) := (hsome _ _).2 ⟨a, hae, rfl, rfl⟩
        refine h.nonNegative (out env p a) ?_ q ((hvals a hae _).2 ⟨ix, hix, hq⟩)
        simp only [InputData.Spec.Present, List.mem_cons, List.not_mem_nil, or_false] at hac ⊢
        rcases hac with e | e | e | e | e | e <;> rw [e] at hcd hcu <;> simp only [component] at hcd hcu
        · exact .inl hcd.symm
        · exact .inr (.inl hcu.symm)
        · exact .inr (.inr (.inl hcd.symm))
        · exact .inr (.inr (.inr (.inl hcd.symm)))
        · exact .inr (.inr (.inr (.inr (.inl hcd.symm))))
        · exact .inr (.inr (.inr (.inr (.inr (.inl hcd.symm)))))
    · intro a ha hac
      have hae : Eff kt p a := .inl ⟨ha, by rw [hac]; simp⟩
      have hcd : component d a.comp = some (out env p a) := (hsome _ _).2 ⟨a, hae, rfl, rfl⟩
      rw [hac] at hcd
      obtain ⟨v, hv, hv0⟩ := h.revenue _ hcd
      obtain ⟨ix, hix, rfl⟩ := (hvals a hae v).1 hv
      exact ⟨ix, hix, hv0⟩
  · rintro ⟨hkind, hnum, hneg, hrev, hch⟩
    have hones : ∀ v ∈ (InputData.Spec.ones d.kpi).vals, v = some 1 := by
      intro v hv
      exact (List.mem_replicate.1 hv).2
    refine ⟨?_, hkt ▸ hkind, ?_, ?_, ?_, ?_, ?_, ?_, ?_, ?_, ?_, hchs ▸ hch, ?_, ?_, ?_, ?_, ?_⟩
    · intro r hr
      obtain ⟨c, hc'⟩ := (present_iff _ _).1 hr
      obtain ⟨a, ha, hac, rfl⟩ := (hsome c r).1 hc'
      intro hv
      obtain ⟨ix, hix, hv⟩ := (hvals a ha none).1 hv
      rcases ha with ha | ⟨-, rfl⟩
      · exact hnum a ha ix hix hv
      · cases hv
    · intro r hr
      obtain ⟨a, ha, hac, rfl⟩ := (hsome .revenuePerKpi r).1 hr
      obtain ⟨ix, hix, h0⟩ := hrev a (hmem a ha (by rw [hac]; simp)) hac
      exact ⟨_, (hvals a ha _).2 ⟨ix, hix, rfl⟩, h0⟩
    · intro x hx r hr
      obtain ⟨c, h1, h2, h3⟩ := table_rows _ x hx
      rw [h1] at hr
      rw [h2]
      rcases husome c r hr with ⟨rfl, -, rfl⟩ | ⟨a, ha, rfl, rfl⟩
      · refine ⟨rfl, _, h3 [] [] [], ?_⟩
        intro y
        simp [InputData.Spec.ones, axes, hasChannels, timeName]
      · refine ⟨(hH a ha).name, _, h3 (natsorted env p.labels) (natsorted env (p.timesOf a.comp)) a.channels, ?_⟩
        intro y
        rw [(hH a ha).dims]
    · intro x hx _ _ r hr
      obtain ⟨c, h1, h2, h3⟩ := table_rows _ x hx
      rw [h1] at hr
      rcases husome c r hr with ⟨rfl, -, rfl⟩ | ⟨a, ha, rfl, rfl⟩
      · rfl
      · rw [hgeo a ha, hkgeo]
    · rw [hkgeo]; exact hG.nodup_iff.2 hc.geos
    · intro r hr
      have : ∃ c, c ∈ [Comp.revenuePerKpi, .controls, .nonMedia] ∧ component (InputData.Spec.used d) c = some r := by
        simp only [InputData.Spec.Present, List.mem_cons, List.not_mem_nil, or_false] at hr
        rcases hr with h | h | h
        · exact ⟨.revenuePerKpi, by simp, h.symm⟩
        · exact ⟨.controls, by simp, by rw [huc _ (by simp)]; exact h.symm⟩
        · exact ⟨.nonMedia, by simp, by rw [huc _ (by simp)]; exact h.symm⟩
      obtain ⟨c, hcm, hcr⟩ := this
      rcases husome c r hcr with ⟨rfl, -, rfl⟩ | ⟨a, ha, rfl, rfl⟩
      · rfl
      · simp only [List.mem_cons, List.not_mem_nil, or_false] at hcm
        have h1 : a.comp ≠ .population := by rcases hcm with e | e | e <;> rw [e] <;> simp
        have h2 : timeName a.comp = "time" := by rcases hcm with e | e | e <;> rw [e] <;> simp [timeName]
        have h3 : p.timesOf a.comp = p.times := by rcases hcm with e | e | e <;> rw [e] <;> simp [Plan.timesOf]
        have := htime a ha h1
        rw [h2, h3] at this
        rw [this, hktime]
    · intro r r' hr hr'
      obtain ⟨a, ha, hac, rfl⟩ := (hsome .media r).1 hr
      obtain ⟨b, hb, hbc, rfl⟩ := (hsome .mediaSpend r').1 hr'
      have h1 := hchan a ha (by rw [hac]; decide)
      have h2 := hchan b hb (by rw [hbc]; decide)
      rw [hac] at h1; rw [hbc] at h2
      simp only [channelName] at h1 h2
      rw [h1, h2]
      exact same_channels hn (hmem a ha (by rw [hac]; simp)) (hmem b hb (by rw [hbc]; simp))
        (by rw [hac, hbc]; simp [Comp.peers])
    · have key : ∀ r, InputData.Spec.Present [d.reach, d.frequency, d.rfSpend] r →
          ∃ a, Eff kt p a ∧ a.comp ∈ [Comp.reach, .frequency, .rfSpend] ∧ r = out env p a := by
        intro r hr
        simp only [InputData.Spec.Present, List.mem_cons, List.not_mem_nil, or_false] at hr
        rcases hr with h | h | h
        · obtain ⟨a, ha, hac, e⟩ := (hsome .reach r).1 h.symm
          exact ⟨a, ha, by simp [hac], e⟩
        · obtain ⟨a, ha, hac, e⟩ := (hsome .frequency r).1 h.symm
          exact ⟨a, ha, by simp [hac], e⟩
        · obtain ⟨a, ha, hac, e⟩ := (hsome .rfSpend r).1 h.symm
          exact ⟨a, ha, by simp [hac], e⟩
      intro r r' hr hr'
      obtain ⟨a, ha, hac, rfl⟩ := key r hr
      obtain ⟨b, hb, hbc, rfl⟩ := key r' hr'
      have cn : ∀ c ∈ [Comp.reach, .frequency, .rfSpend], hasChannels c ∧ channelName c = "rf_channel" ∧ c ≠ .population := by
        intro c hc
        simp only [List.mem_cons, List.not_mem_nil, or_false] at hc
        rcases hc with rfl | rfl | rfl <;> refine ⟨by decide, rfl, by decide⟩
      have h1 := hchan a ha (cn _ hac).1
      have h2 := hchan b hb (cn _ hbc).1
      rw [(cn _ hac).2.1] at h1; rw [(cn _ hbc).2.1] at h2
      rw [h1, h2]
      have ha' := hmem a ha (cn _ hac).2.2
      have hb' := hmem b hb (cn _ hbc).2.2
      by_cases e : a.comp = b.comp
      · rw [List.inj_on_of_nodup_map hn ha' hb' e]
      · refine same_channels hn ha' hb' ?_
        simp only [List.mem_cons, List.not_mem_nil, or_false] at hac hbc
        rcases hac with e1 | e1 | e1 <;> rcases hbc with e2 | e2 | e2 <;> rw [e1, e2] at e <;>
          first
          | exact absurd rfl e
          | (rw [e1, e2]; simp [Comp.peers])
    · intro r r' hr _
      obtain ⟨a, ha, hac, -⟩ := (hsome .organicReach r).1 hr
      exact absurd hac (hnr a ha)
    · rcases hpaid with ⟨m, s, l, hm⟩ | ⟨r, f, s, l, hm⟩
      · left
        have : component d .media = some (out env p ⟨.media, m, l⟩) :=
          (hsome _ _).2 ⟨_, .inl ⟨mem_arrays.2 ⟨_, hm, by simp [arrays]⟩, by simp⟩, rfl, rfl⟩
        simp only [component] at this
        rw [this]; simp
      · right
        have : component d .reach = some (out env p ⟨.reach, r, l⟩) :=
          (hsome _ _).2 ⟨_, .inl ⟨mem_arrays.2 ⟨_, hm, by simp [arrays]⟩, by simp⟩, rfl, rfl⟩
        simp only [component] at this
        rw [this]; simp
    · intro r hr x hx hxd t ht
      have hkdates : ∀ t ∈ natsorted env p.times, env.isDate t = true := by
        intro t ht
        have := (eff_ok hok hke).2.2 (by simp) t
        exact this (by simpa [Plan.timesOf] using (natsorted_perm env p.times).mem_iff.1 ht)
      obtain ⟨c, hc'⟩ := (present_iff _ _).1 hr
      rcases husome c r hc' with ⟨rfl, -, rfl⟩ | ⟨a, ha, rfl, rfl⟩
      · have : x = "time" := by
          simp only [List.mem_cons, List.not_mem_nil, or_false] at hx
          rcases hx with rfl | rfl
          · rfl
          · simp [InputData.Spec.ones] at hxd
        subst this
        have ht' : t ∈ d.kpi.coord "time" := ht
        rw [hktime] at ht'
        exact hkdates t ht'
      · rw [(hH a ha).dims] at hxd
        obtain ⟨h1, rfl⟩ := dims_time hx hxd
        rw [htime a ha h1] at ht
        exact (eff_ok hok ha).2.2 h1 t ((natsorted_perm _ _).mem_iff.1 ht)
    · intro r hr
      have : ∃ c ∈ [Comp.media, .reach, .frequency, .organicMedia, .organicReach, .organicFrequency],
          component d c = some r := by
        simp only [InputData.Spec.Present, List.mem_cons, List.not_mem_nil, or_false] at hr
        rcases hr with h | h | h | h | h | h
        exacts [⟨.media, by simp, h.symm⟩, ⟨.reach, by simp, h.symm⟩, ⟨.frequency, by simp, h.symm⟩,
          ⟨.organicMedia, by simp, h.symm⟩, ⟨.organicReach, by simp, h.symm⟩, ⟨.organicFrequency, by simp, h.symm⟩]
      obtain ⟨c, hcm, hcr⟩ := this
      obtain ⟨a, ha, rfl, rfl⟩ := (hsome c r).1 hcr
      have h1 : a.comp ≠ .population := fun e => by rw [e] at hcm; simp at hcm
      have h2 := htime a ha h1
      have h3 : timeName a.comp = "media_time" := by unfold timeName; rw [if_pos hcm]
      have h4 : p.timesOf a.comp = p.mediaTimes := by unfold Plan.timesOf; rw [if_pos hcm]
      rw [h3, h4] at h2
      rw [h2, hktime, (natsorted_perm env _).length_eq, (natsorted_perm env _).length_eq]
      exact lagged_length hc.media hc.times hc.lagged
    · rw [hktime, eT]; exact hc.regular
    · have key : ∀ c ∈ [Comp.media, .reach], ∀ r, component d c = some r → r.coord "media_time" = natsorted env p.mediaTimes := by
        intro c hcm r hcr
        obtain ⟨a, ha, rfl, rfl⟩ := (hsome c r).1 hcr
        have h0 : a.comp ∈ [Comp.media, .reach, .frequency, .organicMedia, .organicReach, .organicFrequency] := by
          simp only [List.mem_cons, List.not_mem_nil, or_false] at hcm ⊢
          tauto
        have h1 : a.comp ≠ .population := fun e => by rw [e] at hcm; simp at hcm
        have h2 := htime a ha h1
        have h3 : timeName a.comp = "media_time" := by unfold timeName; rw [if_pos h0]
        have h4 : p.timesOf a.comp = p.mediaTimes := by unfold Plan.timesOf; rw [if_pos h0]
        rw [h3, h4] at h2
        exact h2
      rintro r (h | ⟨-, h⟩)
      · rw [key .media (by simp) r h, eM]; exact hc.regularMedia
      · rw [key .reach (by simp) r h, eM]; exact hc.regularMedia
    · intro r hr q hq
      have : ∃ c ∈ [Comp.kpi, .revenuePerKpi, .mediaSpend, .rfSpend, .reach, .frequency, .organicReach, .organicFrequency],
          component (InputData.Spec.used d) c = some r := by
        simp only [InputData.Spec.Present, List.mem_cons, List.not_mem_nil, or_false] at hr
        rcases hr with h | h | h | h | h | h | h | h
        · exact ⟨.kpi, by simp, by rw [huc _ (by simp)]; exact h.symm⟩
        · exact ⟨.revenuePerKpi, by simp, h.symm⟩
        · exact ⟨.mediaSpend, by simp, by rw [huc _ (by simp)]; exact h.symm⟩
        · exact ⟨.rfSpend, by simp, by rw [huc _ (by simp)]; exact h.symm⟩
        · exact ⟨.reach, by simp, by rw [huc _ (by simp)]; exact h.symm⟩
        · exact ⟨.frequency, by simp, by rw [huc _ (by simp)]; exact h.symm⟩
        · exact ⟨.organicReach, by simp, by rw [huc _ (by simp)]; exact h.symm⟩
        · exact ⟨.organicFrequency, by simp, by rw [huc _ (by simp)]; exact h.symm⟩
      obtain ⟨c, hcm, hcr⟩ := this
      rcases husome c r hcr with ⟨rfl, -, rfl⟩ | ⟨a, ha, rfl, rfl⟩
      · have := hones _ hq
        simp only [Option.some.injEq] at this
        rw [this]; norm_num
      · obtain ⟨ix, hix, hv⟩ := (hvals a ha _).1 hq
        have hap : a.comp ≠ .population := fun e => by rw [e] at hcm; simp at hcm
        have hau : p.Used kt a := ⟨hmem a ha hap, fun x => hap x.1⟩
        refine hneg a hau ?_ ix hix q hv
        have h1 := hnr a ha
        have h2 := hnf a ha
        simp only [List.mem_cons, List.not_mem_nil, or_false] at hcm ⊢
        tauto

end build

end Verif.NdArray
