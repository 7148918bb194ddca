import Verif.Spec.OldFiles
import Verif.Spec.Registry
import Verif.Props.Registry
import Mathlib.Tactic.SplitIfs
import Mathlib.Tactic.NormNum

/-!
# C112: priors and thresholds of saved models, files of earlier versions among them
-/

namespace Verif.OldFiles.Props

open Verif.OldFiles
open Verif.Registry (Fn Reg)
open Verif.Registry.Spec (IsDict ByIdentity)

variable {cast : Dbl → Dbl}

/-! ### Numbers -/

theorem sequence_at (cast : Dbl → Dbl) (l : List Dbl) (i : ℕ) :
    (sequence cast l).at i = (pick l i).map cast := by
  match l with
  | [] => simp [sequence, Param.at, pick]
  | [x] => simp [sequence, Param.at, pick]
  | x :: y :: l =>
    simp only [sequence, Param.at, pick, List.getElem?_map]
    rw [if_neg (by simp)]

theorem bound_at (cast : Dbl → Dbl) (f d : String) (s : Option Dbl) (l : List Dbl) (i : ℕ) :
    (boundOf cast f d s l).1.at i = (boundAt s l i).map cast := by
  cases l with
  | nil => simp [boundOf, boundAt, Param.at]
  | cons x l => simp only [boundOf, boundAt, reduceCtorEq, if_false, sequence_at]

theorem bij_at {b : BijMsg} {b' : Bij} (h : bijOf cast b = .ok b') (i : ℕ) :
    (b.at i).map (SingleBij.map cast) = some (b'.at i) := by
  cases b <;> simp only [bijOf] at h
  · cases h
  all_goals
    cases h
    simp [BijMsg.at, SingleBij.map, Bij.at, sequence_at]

/-! ### Prior messages of earlier versions -/

/-- C112: a prior of an earlier version is loaded as what the message says for every channel, whatever the
nesting, with every number converted to the float type of the backend. -/
theorem legacy_prior {m : Msg} {d : Dist} {w : List Warning} (h : distOf cast m = .ok (d, w))
    (i : ℕ) : (m.at i).map (Single.map cast) = some (d.at i) := by
  induction m generalizing d w with
  | unset n => simp [distOf] at h
  | batchBroadcast n m s ih =>
    unfold distOf at h
    cases hm : distOf cast m with
    | error e => simp [hm] at h
    | ok p =>
      obtain ⟨d0, w0⟩ := p
      simp only [hm, Except.ok.injEq, Prod.mk.injEq] at h
      obtain ⟨h1, -⟩ := h
      subst h1
      simpa [Dist.at, Msg.at] using ih hm
  | transformed n m b ih =>
    unfold distOf at h
    cases hm : distOf cast m with
    | error e => simp [hm] at h
    | ok p =>
      obtain ⟨d0, w0⟩ := p
      simp only [hm] at h
      cases hb : bijOf cast b with
      | error e => simp [hb] at h
      | ok b' =>
        simp only [hb, Except.ok.injEq, Prod.mk.injEq] at h
        obtain ⟨h1, -⟩ := h
        subst h1
        have h2 := ih hm
        cases hs : m.at i with
        | none => simp [hs] at h2
        | some s0 =>
          simp only [hs, Option.map_some, Option.some.injEq] at h2
          have h3 := bij_at hb i
          cases hbi : b.at i with
          | none => simp [hbi] at h3
          | some b0 =>
            simp only [hbi, Option.map_some, Option.some.injEq] at h3
            simp only [Msg.at, hs, hbi, Option.map_some, Single.map, h2, h3, Dist.at]
  | truncatedNormal n locs scales low high lows highs =>
    simp only [distOf, Except.ok.injEq, Prod.mk.injEq] at h
    obtain ⟨h1, -⟩ := h
    subst h1
    simp [Msg.at, Dist.at, Single.map, sequence_at, bound_at]
  | uniform n low high lows highs =>
    simp only [distOf, Except.ok.injEq, Prod.mk.injEq] at h
    obtain ⟨h1, -⟩ := h
    subst h1
    simp [Msg.at, Dist.at, Single.map, bound_at]
  | _ =>
    simp only [distOf, Except.ok.injEq, Prod.mk.injEq] at h
    obtain ⟨h1, -⟩ := h
    subst h1
    simp [Msg.at, Dist.at, Single.map, sequence_at]

/-- C112: the names and batch shapes are those of the message. -/
theorem legacy_labels {m : Msg} {d : Dist} {w : List Warning} (h : distOf cast m = .ok (d, w)) :
    d.labels = m.labels := by
  induction m generalizing d w with
  | unset n => simp [distOf] at h
  | batchBroadcast n m s ih =>
    unfold distOf at h
    cases hm : distOf cast m with
    | error e => simp [hm] at h
    | ok p =>
      obtain ⟨d0, w0⟩ := p
      simp only [hm, Except.ok.injEq, Prod.mk.injEq] at h
      obtain ⟨h1, -⟩ := h
      subst h1
      simp [Dist.labels, Msg.labels, ih hm]
  | transformed n m b ih =>
    unfold distOf at h
    cases hm : distOf cast m with
    | error e => simp [hm] at h
    | ok p =>
      obtain ⟨d0, w0⟩ := p
      simp only [hm] at h
      cases hb : bijOf cast b with
      | error e => simp [hb] at h
      | ok b' =>
        simp only [hb, Except.ok.injEq, Prod.mk.injEq] at h
        obtain ⟨h1, -⟩ := h
        subst h1
        simp [Dist.labels, Msg.labels, ih hm]
  | _ =>
    simp only [distOf, Except.ok.injEq, Prod.mk.injEq] at h
    obtain ⟨h1, -⟩ := h
    subst h1
    simp [Dist.labels, Msg.labels]

/-- C112: a message is refused exactly if somewhere in it a distribution or bijector has no type. -/
theorem legacy_loads_iff (m : Msg) : (∃ p, distOf cast m = .ok p) ↔ m.Typed := by
  induction m with
  | unset n => simp [distOf, Msg.Typed]
  | batchBroadcast n m s ih =>
    unfold distOf Msg.Typed
    rw [← ih]
    cases hm : distOf cast m with
    | error e => simp
    | ok p => simp
  | transformed n m b ih =>
    unfold distOf Msg.Typed
    rw [← ih]
    cases hm : distOf cast m with
    | error e => simp
    | ok p => cases b <;> simp [bijOf]
  | _ => simp [distOf, Msg.Typed]

theorem truthy_iff (x : Dbl) : x.truthy = true ↔ x ≠ .fin 0 := by
  cases x <;> simp [Dbl.truthy]

theorem bound_warning (f d f' d' : String) (s : Option Dbl) (l : List Dbl) :
    ⟨f', d'⟩ ∈ (boundOf cast f d s l).2 ↔ f' = f ∧ d' = d ∧ ∃ x, s = some x ∧ x ≠ .fin 0 ∧ l ≠ [] := by
  cases l with
  | nil => simp [boundOf]
  | cons y l =>
    simp only [boundOf]
    cases s with
    | none => simp [Dbl.truthy]
    | some x =>
      simp only [Option.getD_some, truthy_iff]
      by_cases hx : x = .fin 0
      · simp [hx]
      · simp [hx]

/-- C112: the deprecated field of a bound is reported exactly if it is given with a number other than zero and
the list is given too. -/
theorem legacy_warning_iff {m : Msg} {d : Dist} {w : List Warning} (h : distOf cast m = .ok (d, w))
    (field dist : String) : ⟨field, dist⟩ ∈ w ↔ Twice m field dist := by
  induction m generalizing d w with
  | unset n => simp [distOf] at h
  | batchBroadcast n m s ih =>
    unfold distOf at h
    cases hm : distOf cast m with
    | error e => simp [hm] at h
    | ok p =>
      obtain ⟨d0, w0⟩ := p
      simp only [hm, Except.ok.injEq, Prod.mk.injEq] at h
      obtain ⟨-, h1⟩ := h
      subst h1
      rw [ih hm]
      exact ⟨.broadcast, fun h => by cases h; assumption⟩
  | transformed n m b ih =>
    unfold distOf at h
    cases hm : distOf cast m with
    | error e => simp [hm] at h
    | ok p =>
      obtain ⟨d0, w0⟩ := p
      simp only [hm] at h
      cases hb : bijOf cast b with
      | error e => simp [hb] at h
      | ok b' =>
        simp only [hb, Except.ok.injEq, Prod.mk.injEq] at h
        obtain ⟨-, h1⟩ := h
        subst h1
        rw [ih hm]
        exact ⟨.transformed, fun h => by cases h; assumption⟩
  | truncatedNormal n locs scales low high lows highs =>
    simp only [distOf, Except.ok.injEq, Prod.mk.injEq] at h
    obtain ⟨-, h1⟩ := h
    subst h1
    rw [List.mem_append, bound_warning, bound_warning]
    constructor
    · rintro (⟨h1, h2, x, h3, h4, h5⟩ | ⟨h1, h2, x, h3, h4, h5⟩)
      · subst h1 h2 h3
        exact .truncatedLow h4 h5
      · subst h1 h2 h3
        exact .truncatedHigh h4 h5
    · intro h
      cases h with
      | truncatedLow h1 h2 => exact Or.inl ⟨rfl, rfl, _, rfl, h1, h2⟩
      | truncatedHigh h1 h2 => exact Or.inr ⟨rfl, rfl, _, rfl, h1, h2⟩
  | uniform n low high lows highs =>
    simp only [distOf, Except.ok.injEq, Prod.mk.injEq] at h
    obtain ⟨-, h1⟩ := h
    subst h1
    rw [List.mem_append, bound_warning, bound_warning]
    constructor
    · rintro (⟨h1, h2, x, h3, h4, h5⟩ | ⟨h1, h2, x, h3, h4, h5⟩)
      · subst h1 h2 h3
        exact .uniformLow h4 h5
      · subst h1 h2 h3
        exact .uniformHigh h4 h5
    · intro h
      cases h with
      | uniformLow h1 h2 => exact Or.inl ⟨rfl, rfl, _, rfl, h1, h2⟩
      | uniformHigh h1 h2 => exact Or.inr ⟨rfl, rfl, _, rfl, h1, h2⟩
  | _ =>
    simp only [distOf, Except.ok.injEq, Prod.mk.injEq] at h
    obtain ⟨-, h1⟩ := h
    subst h1
    constructor
    · intro h; cases h
    · intro h; cases h

/-- A prior of three channels, shifted and broadcast to two geos, with a bound given twice. -/
def sampleMsg : Msg :=
  .batchBroadcast "BatchBroadcast"
    (.transformed "Shifted" (.truncatedNormal "roi_m" [.fin (1/5), .fin (1/2), .fin 1] [.fin (9/10)]
      (some (.fin 1)) (some (.inf true)) [.fin 0, .fin (1/10), .fin (1/5)] []) (.shift [.fin 2])) [2, 3]

example : ∃ d, distOf id sampleMsg = .ok (d, [⟨"low", "TruncatedNormal"⟩]) ∧
    d.at 1 = .transformed (.truncatedNormal (some (.fin (1/2))) (some (.fin (9/10))) (some (.fin (1/10)))
      (some (.inf true))) (.shift (some (.fin 2))) ∧
    d.labels = [("BatchBroadcast", some [2, 3]), ("Shifted", none), ("roi_m", none)] := by
  refine ⟨_, rfl, ?_, rfl⟩
  rfl

example : sampleMsg.Typed ∧ ¬ (Msg.transformed "a" (.normal "b" [.fin 0] [.fin 1]) .unset).Typed := by
  simp [sampleMsg, Msg.Typed]

/-- Finding: a bound that is not given at all is read as 0, although the distribution without a bound is
unbounded: a normal prior truncated only from above at 1 becomes one on [0, 1], and without either
bound one on [0, 0]. -/
theorem absent_bound_is_zero (name : String) (locs scales : List Dbl) (high : Option Dbl)
    (highs : List Dbl) :
    ∃ l s h w, distOf cast (.truncatedNormal name locs scales none high [] highs) =
      .ok (.truncatedNormal name l s (.scalar (cast (.fin 0))) h, w) :=
  ⟨_, _, _, _, rfl⟩

/-- Finding: a deprecated bound of 0 that the list overrides is not reported. -/
theorem zero_bound_not_reported :
    ∃ d, distOf id (.uniform "alpha_m" (some (.fin 0)) none [.fin (1/4)] [.fin 1]) = .ok (d, []) ∧
      d.at 0 = .uniform (some (.fin (1/4))) (some (.fin 1)) :=
  ⟨_, rfl, rfl⟩

/-! ### The container -/

theorem loadLoop_spec {s : List (String × Msg)} {ps : List String} (hn : ps.Nodup)
    {l : List (String × Dist)} {w : List Warning} (h : loadLoop cast s ps = .ok (l, w)) (x : String) :
    (x ∈ ps → x ∈ DistSerde.messageFields → ∀ m, s.lookup x = some m →
      ∃ d w', distOf cast m = .ok (d, w') ∧ l.lookup x = some d ∧ w' ⊆ w) ∧
    ((x ∉ ps ∨ x ∉ DistSerde.messageFields ∨ s.lookup x = none) → l.lookup x = none) := by
  induction ps generalizing l w with
  | nil =>
    simp only [loadLoop, Except.ok.injEq, Prod.mk.injEq] at h
    obtain ⟨h1, h2⟩ := h
    subst h1
    simp
  | cons p ps ih =>
    rw [List.nodup_cons] at hn
    unfold loadLoop at h
    by_cases hp : p ∈ DistSerde.messageFields
    · rw [if_pos hp] at h
      cases hs : s.lookup p with
      | none =>
        rw [hs] at h
        obtain ⟨i1, i2⟩ := ih hn.2 h
        refine ⟨fun hx hf m hm => ?_, fun hx => i2 ?_⟩
        · rcases List.mem_cons.1 hx with rfl | hx
          · rw [hs] at hm; cases hm
          · exact i1 hx hf m hm
        · rcases hx with hx | hx
          · exact Or.inl fun hc => hx (List.mem_cons_of_mem _ hc)
          · exact Or.inr hx
      | some m0 =>
        simp only [hs] at h
        cases hd : distOf cast m0 with
        | error e => simp [hd] at h
        | ok q =>
          obtain ⟨d0, w0⟩ := q
          simp only [hd] at h
          cases hl : loadLoop cast s ps with
          | error e => simp [hl] at h
          | ok q =>
            obtain ⟨l1, w1⟩ := q
            simp only [hl, Except.ok.injEq, Prod.mk.injEq] at h
            obtain ⟨h1, h2⟩ := h
            subst h1 h2
            obtain ⟨i1, i2⟩ := ih hn.2 hl
            by_cases hxp : x = p
            · subst hxp
              refine ⟨fun _ _ m hm => ?_, fun hx => ?_⟩
              · rw [hs] at hm
                cases hm
                exact ⟨d0, w0, hd, by simp, by simp⟩
              · rcases hx with hx | hx | hx
                · exact absurd (List.mem_cons_self ..) hx
                · exact absurd hp hx
                · rw [hs] at hx; cases hx
            · have hxp' : (x == p) = false := by simpa using hxp
              refine ⟨fun hx hf m hm => ?_, fun hx => ?_⟩
              · obtain ⟨d, w', a, b, c⟩ := i1 ((List.mem_cons.1 hx).resolve_left hxp) hf m hm
                exact ⟨d, w', a, by simp [List.lookup_cons, hxp', b],
                  fun y hy => List.mem_append_right _ (c hy)⟩
              · rw [List.lookup_cons, hxp']
                refine i2 ?_
                rcases hx with hx | hx
                · exact Or.inl fun hc => hx (List.mem_cons_of_mem _ hc)
                · exact Or.inr hx
    · rw [if_neg hp] at h
      obtain ⟨i1, i2⟩ := ih hn.2 h
      refine ⟨fun hx hf m hm => ?_, fun hx => i2 ?_⟩
      · rcases List.mem_cons.1 hx with rfl | hx
        · exact absurd hf hp
        · exact i1 hx hf m hm
      · rcases hx with hx | hx
        · exact Or.inl fun hc => hx (List.mem_cons_of_mem _ hc)
        · exact Or.inr hx

theorem loadLoop_ok_iff (s : List (String × Msg)) (ps : List String) :
    (∃ p, loadLoop cast s ps = .ok p) ↔
      ∀ x ∈ ps, x ∈ DistSerde.messageFields → ∀ m, s.lookup x = some m → m.Typed := by
  induction ps with
  | nil => simp [loadLoop]
  | cons p ps ih =>
    rw [List.forall_mem_cons, ← ih]
    rw [loadLoop]
    by_cases hp : p ∈ DistSerde.messageFields
    · rw [if_pos hp]
      cases hs : s.lookup p with
      | none => simp
      | some m0 =>
        have hm := legacy_loads_iff (cast := cast) m0
        cases hd : distOf cast m0 with
        | error e =>
          rw [hd] at hm
          have : ¬ m0.Typed := fun h => by
            obtain ⟨p, h⟩ := hm.2 h
            cases h
          simp [hd, hp, this]
        | ok q =>
          have : m0.Typed := hm.1 ⟨q, hd⟩
          obtain ⟨d0, w0⟩ := q
          simp only [hp, this, Option.some.injEq, forall_const, forall_eq', true_and]
          cases hl : loadLoop cast s ps with
          | error e => simp [hd]
          | ok q => simp [hd]
    · rw [if_neg hp]
      simp [hp]

theorem loadLoop_warning {s : List (String × Msg)} {ps : List String}
    {l : List (String × Dist)} {w : List Warning} (h : loadLoop cast s ps = .ok (l, w))
    (field dist : String) : ⟨field, dist⟩ ∈ w ↔
      ∃ x ∈ ps, x ∈ DistSerde.messageFields ∧ ∃ m, s.lookup x = some m ∧ Twice m field dist := by
  induction ps generalizing l w with
  | nil =>
    simp only [loadLoop, Except.ok.injEq, Prod.mk.injEq] at h
    obtain ⟨h1, h2⟩ := h
    subst h2
    simp
  | cons p ps ih =>
    rw [loadLoop] at h
    by_cases hp : p ∈ DistSerde.messageFields
    · rw [if_pos hp] at h
      cases hs : s.lookup p with
      | none =>
        rw [hs] at h
        rw [ih h]
        simp [hs]
      | some m0 =>
        simp only [hs] at h
        cases hd : distOf cast m0 with
        | error e => simp [hd] at h
        | ok q =>
          obtain ⟨d0, w0⟩ := q
          simp only [hd] at h
          cases hl : loadLoop cast s ps with
          | error e => simp [hl] at h
          | ok q =>
            obtain ⟨l1, w1⟩ := q
            simp only [hl, Except.ok.injEq, Prod.mk.injEq] at h
            obtain ⟨h1, h2⟩ := h
            subst h2
            rw [List.mem_append, legacy_warning_iff hd, ih hl]
            simp [hs, hp]
    · rw [if_neg hp] at h
      rw [ih h]
      simp [hp]

variable {A P : Type} {hash : String → String} {env : DistSerde.Env A P}

/-- C112: the priors of a file of an earlier version: every prior that the file gives is loaded from its
message, every other one is the default, whatever else the file contains, and with any registry. -/
theorem legacy_file {reg : Reg} {force : Bool} {s : List (String × Msg)} {tfp : Option (DistSerde.Saved P)}
    {f : String → Loaded A} {w : List Warning}
    (h : loadPriors cast hash env reg force (some s) tfp = .ok (f, w)) {x : String}
    (hx : x ∈ DistSerde.priorFields) :
    (∀ m, s.lookup x = some m →
      ∃ d w', distOf cast m = .ok (d, w') ∧ f x = .legacy d) ∧
    (s.lookup x = none → f x = .default) := by
  unfold loadPriors at h
  cases hl : loadLoop cast s DistSerde.allParameters with
  | error e => simp [hl] at h
  | ok q =>
    obtain ⟨l, w1⟩ := q
    simp only [hl, Except.ok.injEq, Prod.mk.injEq] at h
    obtain ⟨h1, h2⟩ := h
    subst h1 h2
    have hall : ∀ y ∈ DistSerde.priorFields, y ∈ DistSerde.allParameters ∧ y ∈ DistSerde.messageFields := by
      decide
    obtain ⟨i1, i2⟩ := loadLoop_spec (by decide) hl x
    refine ⟨fun m hm => ?_, fun hn => ?_⟩
    · obtain ⟨d, w', a, b, c⟩ := i1 (hall x hx).1 (hall x hx).2 m hm
      exact ⟨d, w', a, by simp [b]⟩
    · simp [i2 (Or.inr (Or.inr hn))]

/-- C112: such a file is refused exactly if the message of one of the priors has a distribution or bijector
without a type. -/
theorem legacy_file_loads_iff {reg : Reg} {force : Bool} {s : List (String × Msg)}
    {tfp : Option (DistSerde.Saved P)} :
    (∃ p, loadPriors cast hash env reg force (some s) tfp = .ok p) ↔
      ∀ x ∈ DistSerde.priorFields, ∀ m, s.lookup x = some m → m.Typed := by
  have h := loadLoop_ok_iff (cast := cast) s DistSerde.allParameters
  have hall : ∀ x, x ∈ DistSerde.allParameters ∧ x ∈ DistSerde.messageFields ↔
      x ∈ DistSerde.priorFields := by
    have h1 : ∀ y ∈ DistSerde.priorFields,
        y ∈ DistSerde.allParameters ∧ y ∈ DistSerde.messageFields := by decide
    have h2 : ∀ y ∈ DistSerde.allParameters, y ∈ DistSerde.messageFields → y ∈ DistSerde.priorFields := by
      decide
    exact fun x => ⟨fun h => h2 x h.1 h.2, h1 x⟩
  have h' : (∃ p, loadLoop cast s DistSerde.allParameters = .ok p) ↔
      ∀ x ∈ DistSerde.priorFields, ∀ m, s.lookup x = some m → m.Typed := by
    rw [h]
    exact ⟨fun h x hx => h x ((hall x).2 hx).1 ((hall x).2 hx).2,
      fun h x h1 h2 => h x ((hall x).1 ⟨h1, h2⟩)⟩
  rw [← h']
  simp only [loadPriors]
  cases hl : loadLoop cast s DistSerde.allParameters with
  | error e => simp
  | ok q => simp

/-- C112: the warnings about deprecated bounds in such a file are those of its priors. -/
theorem legacy_file_warning_iff {reg : Reg} {force : Bool} {s : List (String × Msg)}
    {tfp : Option (DistSerde.Saved P)} {f : String → Loaded A} {w : List Warning}
    (h : loadPriors cast hash env reg force (some s) tfp = .ok (f, w)) (field dist : String) :
    ⟨field, dist⟩ ∈ w ↔
      ∃ x ∈ DistSerde.priorFields, ∃ m, s.lookup x = some m ∧ Twice m field dist := by
  unfold loadPriors at h
  cases hl : loadLoop cast s DistSerde.allParameters with
  | error e => simp [hl] at h
  | ok q =>
    obtain ⟨l, w1⟩ := q
    simp only [hl, Except.ok.injEq, Prod.mk.injEq] at h
    obtain ⟨-, h2⟩ := h
    subst h2
    have h1 : ∀ y ∈ DistSerde.priorFields,
        y ∈ DistSerde.allParameters ∧ y ∈ DistSerde.messageFields := by decide
    have h2 : ∀ y ∈ DistSerde.allParameters, y ∈ DistSerde.messageFields → y ∈ DistSerde.priorFields := by
      decide
    rw [loadLoop_warning hl]
    exact ⟨fun ⟨x, a, b, c⟩ => ⟨x, h2 x a b, c⟩, fun ⟨x, a, c⟩ => ⟨x, (h1 x a).1, (h1 x a).2, c⟩⟩

/-- C112: with the messages of an earlier version in a file, its other priors and the registry do not matter, and
a file with neither is refused. -/
theorem legacy_first (reg reg' : Reg) (force force' : Bool) (s : List (String × Msg))
    (tfp : Option (DistSerde.Saved P)) :
    loadPriors cast hash env reg force (some s) tfp = loadPriors cast hash env reg' force' (some s) none ∧
      loadPriors (A := A) (P := P) cast hash env reg force none none = .error .noPriors :=
  ⟨rfl, rfl⟩

/-- C112: without them the priors are those of the newer message. -/
theorem newer_file (reg : Reg) (force : Bool) (s : DistSerde.Saved P) (default : String → DistSerde.Prior A) :
    (∀ e, DistSerde.load hash env reg force default s = .error e →
      loadPriors cast hash env reg force none (some s) = .error (.tfp e)) ∧
    (∀ f, DistSerde.load hash env reg force default s = .ok f →
      ∃ g, loadPriors cast hash env reg force none (some s) = .ok (g, []) ∧
        ∀ x, f x = match g x with | .tfp p => p | _ => default x) := by
  simp only [DistSerde.load, loadPriors]
  cases hl : DistSerde.loadPriors hash env reg force s DistSerde.allParameters with
  | error e => simp
  | ok l =>
    refine ⟨by simp, fun f hf => ?_⟩
    simp only [Except.ok.injEq] at hf
    subst hf
    refine ⟨_, rfl, fun x => ?_⟩
    change (l.lookup x).getD _ = _
    cases l.lookup x <;> rfl

/-- Finding: the functions recorded in a file whose priors are all defaults are not checked against the
registry. -/
theorem empty_container_not_checked (reg : Reg) (hashes : List (String × String)) :
    loadPriors cast hash env reg false none (some ⟨[], hashes⟩) = .ok (fun _ => .default, []) := by
  have h : ∀ ps, DistSerde.loadPriors hash env reg false (⟨[], hashes⟩ : DistSerde.Saved P) ps = .ok [] := by
    intro ps
    induction ps with
    | nil => rfl
    | cons p ps ih =>
      unfold DistSerde.loadPriors
      simp [ih]
  simp only [loadPriors, h]
  rfl

example : ∃ f : String → Loaded ℚ, ∃ w, loadPriors (P := ℚ) id id
      ⟨fun _ => false, fun _ _ => none, id, id, some, some⟩ ⟨[], none⟩ false
      (some [("roi_m", sampleMsg), ("unknown", .unset "")]) none = .ok (f, w) ∧
    w = [⟨"low", "TruncatedNormal"⟩] ∧ f "sigma" = .default ∧ ∃ d, f "roi_m" = .legacy d :=
  ⟨_, _, rfl, rfl, rfl, _, rfl⟩

/-! ### The EDA specification -/

/-- C112: with the same registry, unused before, an EDA specification comes back exactly: every threshold,
whatever its value, and every aggregation function, if the functions are registered under names that are not
empty and their sources can be retrieved. -/
theorem eda_round_trip {r : Reg} (hd : IsDict r.items) (hc : r.cache = none)
    (hs : ∀ e ∈ r.items, e.2.source.isSome) (hk : ∀ e ∈ r.items, e.1 ≠ "") (e : Eda)
    (h1 : ∀ x ∈ e.agg.controls, ByIdentity r x.2 ∧ ∃ e' ∈ r.items, e'.2 = x.2)
    (h2 : ∀ x ∈ e.agg.nonMedia, ByIdentity r x.2 ∧ ∃ e' ∈ r.items, e'.2 = x.2) :
    ∃ m r', saveEda hash r e = .ok (m, r') ∧
      ∀ force, loadModelEda hash r force (some m) = .ok (e, false) := by
  obtain ⟨s1, r1, ha1, hb1⟩ := Registry.Props.aggregation_round_trip (hash := hash) hd hc hs hk _ h1
  obtain ⟨s2, r2, ha2, hb2⟩ := Registry.Props.aggregation_round_trip (hash := hash) hd hc hs hk _ h2
  unfold Registry.saveAggregation at ha1 ha2
  cases hk1 : Registry.toKeys r e.agg.controls with
  | error _ => simp [hk1] at ha1
  | ok k1 =>
  cases hk2 : Registry.toKeys r e.agg.nonMedia with
  | error _ => simp [hk2] at ha2
  | ok k2 =>
  cases hh : Registry.hashedRegistry hash r with
  | error _ => simp [hk1, hh] at ha1
  | ok p =>
  obtain ⟨hs', r'⟩ := p
  simp only [hk1, hh, Except.ok.injEq, Prod.mk.injEq] at ha1
  simp only [hk2, hh, Except.ok.injEq, Prod.mk.injEq] at ha2
  obtain ⟨ha1, -⟩ := ha1
  obtain ⟨ha2, -⟩ := ha2
  subst ha1 ha2
  refine ⟨_, r', by simp only [saveEda, toAgg, hk1, hk2, hh]; rfl, fun force => ?_⟩
  have c1 := hb1 force
  have c2 := hb2 force
  unfold Registry.loadAggregation at c1 c2
  simp only at c1 c2
  unfold loadModelEda loadEda
  simp only
  cases hv : (if force = true then Except.ok () else Registry.validate hash r hs') with
  | error _ => simp [hv] at c1
  | ok u =>
    simp only [hv] at c1 c2
    simp only [aggOf, fromAgg, c1, c2, orDefault, toKpi, fromKpi, toPairwise, fromPairwise, toStd, fromStd, toVif,
      fromVif, Option.map_some]

/-- C112: what a loaded EDA specification is, for a file of any version: a threshold that the file gives, and
the documented default for one that it does not. -/
theorem eda_loaded {r : Reg} {force : Bool} {m : EdaMsg} {e : Eda} (h : loadEda hash r force m = .ok e) :
    (e.kpi.std = (m.kpi.bind (·.std)).getD (1 / 10000)) ∧
    (e.std.geo = (m.std.bind (·.geo)).getD (1 / 10000) ∧
      e.std.national = (m.std.bind (·.national)).getD (1 / 10000)) ∧
    (e.pairwise.overall = (m.pairwise.bind (·.overall)).getD (999 / 1000) ∧
      e.pairwise.geo = (m.pairwise.bind (·.geo)).getD (999 / 1000) ∧
      e.pairwise.national = (m.pairwise.bind (·.national)).getD (999 / 1000)) ∧
    (e.vif.std = (m.vif.bind (·.std)).getD (1 / 10000)) ∧
    (∀ v, m.vif = some v → e.vif.geo = v.geo ∧ e.vif.overall = v.overall ∧ e.vif.national = v.national) ∧
    (m.vif = none → e.vif.geo = 1000 ∧ e.vif.overall = 1000 ∧ e.vif.national = 1000) ∧
    (m.agg = none → e.agg.controls = [] ∧ e.agg.nonMedia = []) ∧
    (∀ a, m.agg = some a → Registry.fromKeys r a.controls = .ok e.agg.controls ∧
      Registry.fromKeys r a.nonMedia = .ok e.agg.nonMedia) := by
  obtain ⟨magg, mvif, mh, mpair, mkpi, mstd⟩ := m
  unfold loadEda at h
  cases hv : (if force = true then Except.ok () else Registry.validate hash r mh) with
  | error _ => simp [hv] at h
  | ok u =>
    simp only [hv] at h
    cases ha : aggOf r magg with
    | error _ => rw [ha] at h; cases h
    | ok a0 =>
      rw [ha] at h
      simp only [Except.ok.injEq] at h
      subst h
      refine ⟨?_, ?_, ?_, ?_, ?_, ?_, ?_, ?_⟩
      · cases mkpi with
        | none => rfl
        | some k => obtain ⟨_ | x⟩ := k <;> rfl
      · cases mstd with
        | none => exact ⟨rfl, rfl⟩
        | some k => obtain ⟨_ | x, _ | y⟩ := k <;> exact ⟨rfl, rfl⟩
      · cases mpair with
        | none => exact ⟨rfl, rfl, rfl⟩
        | some k => obtain ⟨_ | x, _ | y, _ | z⟩ := k <;> exact ⟨rfl, rfl, rfl⟩
      · cases mvif with
        | none => rfl
        | some k => obtain ⟨a, b, c, _ | x⟩ := k <;> rfl
      · intro v hv
        simp only at hv
        subst hv
        obtain ⟨a, b, c, _ | x⟩ := v <;> exact ⟨rfl, rfl, rfl⟩
      · intro hv
        simp only at hv
        subst hv
        exact ⟨rfl, rfl, rfl⟩
      · intro hm
        simp only at hm
        subst hm
        simp only [aggOf, Except.ok.injEq] at ha
        subst ha
        exact ⟨rfl, rfl⟩
      · intro a hm
        simp only at hm
        subst hm
        simp only [aggOf, fromAgg] at ha
        cases hc : Registry.fromKeys r a.controls with
        | error _ => simp [hc] at ha
        | ok c =>
          cases hn : Registry.fromKeys r a.nonMedia with
          | error _ => simp [hc, hn] at ha
          | ok n =>
            simp only [hc, hn, Except.ok.injEq] at ha
            subst ha
            exact ⟨rfl, rfl⟩

/-- C112: a file without an EDA specification is loaded with the default one, and this is reported; no other
file is reported. -/
theorem eda_absent (r : Reg) (force : Bool) :
    loadModelEda hash r force none = .ok ({}, true) ∧
      ∀ m e b, loadModelEda hash r force (some m) = .ok (e, b) → b = false := by
  refine ⟨rfl, fun m e b h => ?_⟩
  unfold loadModelEda at h
  cases hm : loadEda hash r force m with
  | error _ => simp [hm] at h
  | ok e' =>
    simp only [hm, Except.ok.injEq, Prod.mk.injEq] at h
    exact h.2.symm

/-- Finding: the three thresholds of variance inflation have no presence in the message, so that a message
without them is loaded with thresholds of 0, not with the default of 1000, unlike all the other thresholds. -/
theorem absent_vif_threshold_is_zero (r : Reg) (force : Bool) :
    loadEda hash r force { vif := some {}, pairwise := some {} } =
      .ok { vif := { geo := 0, overall := 0, national := 0 } } := by
  unfold loadEda Registry.validate
  cases force <;> cases r.items <;> simp [Registry.checkAll, aggOf, orDefault, fromVif, fromPairwise]

/-- The specification of the examples: thresholds of 0 and one function. -/
def sampleEda : Eda :=
  { agg := { controls := [("temperature", ⟨1, some "mean"⟩)] }
    kpi := ⟨0⟩
    vif := { geo := 10, overall := 0 }
    pairwise := { geo := 0 } }

example : ∃ m r', saveEda id ⟨[("mean", ⟨1, some "mean"⟩)], none⟩ sampleEda = .ok (m, r') ∧
    loadEda id ⟨[("mean", ⟨1, some "mean"⟩)], none⟩ false m = .ok sampleEda ∧
    m.vif = some ⟨10, 0, 1000, some (1 / 10000)⟩ := by
  refine ⟨_, _, rfl, ?_, rfl⟩
  decide +kernel

/-! ### Pickling -/

theorem pop_set (x : Obj) : ∀ ps : Params, ps.Plain →
    (ps.set "distribution_type" x).pop "distribution_type" = some (x, ps)
  | .nil, _ => by simp [Params.set, Params.pop]
  | .cons k y l, h => by
    unfold Params.Plain at h
    rw [Params.set, if_neg h.1, Params.pop, if_neg h.1, pop_set x l h.2.2.2]

/-- A dictionary has no entry of this name. -/
def NoKey (key : String) : Params → Prop
  | .nil => True
  | .cons k _ l => k ≠ key ∧ NoKey key l

theorem noKey_of_plain : ∀ ps : Params, ps.Plain → NoKey "distribution_type" ps
  | .nil, _ => trivial
  | .cons _ _ l, h => by
    unfold Params.Plain at h
    exact ⟨h.1, noKey_of_plain l h.2.2.2⟩

theorem unpackParams_set (c : String) : ∀ ps qs : Params, NoKey "distribution_type" ps →
    unpackParams ps = some qs →
    unpackParams (ps.set "distribution_type" (.cls c)) = some (qs.set "distribution_type" (.cls c)) ∧
      NoKey "distribution_type" qs
  | .nil, qs, _, h => by
    simp only [unpackParams, Option.some.injEq] at h
    subst h
    simp [Params.set, unpackParams, NoKey]
  | .cons k x l, qs, hn, h => by
    obtain ⟨hk, hn⟩ := hn
    unfold unpackParams at h
    cases hx : (if k = "distribution" then unpack x else if k = "distributions" then unpackList x
        else some x) with
    | none => simp [hx] at h
    | some x' =>
      simp only [hx] at h
      cases hl : unpackParams l with
      | none => simp [hl] at h
      | some l' =>
        simp only [hl, Option.some.injEq] at h
        subst h
        obtain ⟨i1, i2⟩ := unpackParams_set c l l' hn hl
        refine ⟨?_, hk, i2⟩
        rw [Params.set, if_neg hk, Params.set, if_neg hk, unpackParams, hx]
        simp only [i1]

theorem pop_set' (x : Obj) : ∀ ps : Params, NoKey "distribution_type" ps →
    (ps.set "distribution_type" x).pop "distribution_type" = some (x, ps)
  | .nil, _ => by simp [Params.set, Params.pop]
  | .cons k y l, h => by
    rw [Params.set, if_neg h.1, Params.pop, if_neg h.1, pop_set' x l h.2]

mutual

theorem pack_unpack : ∀ x : Obj, x.Plain → ∃ s, pack x = some s ∧ unpack s = some x
  | .dist c ps, h => by
    unfold Obj.Plain at h
    obtain ⟨qs, h1, h2, h3⟩ := packParams_unpack ps h
    refine ⟨.dict (qs.set "distribution_type" (.cls c)), by simp [pack, h1], ?_⟩
    obtain ⟨i1, i2⟩ := unpackParams_set c qs ps h3 h2
    unfold unpack
    simp only [i1, pop_set' _ _ i2]
  | .opaque _, h => by simp [Obj.Plain] at h
  | .cls _, h => by simp [Obj.Plain] at h
  | .dict _, h => by simp [Obj.Plain] at h
  | .list _, h => by simp [Obj.Plain] at h

theorem packParams_unpack : ∀ ps : Params, ps.Plain →
    ∃ qs, packParams ps = some qs ∧ unpackParams qs = some ps ∧ NoKey "distribution_type" qs
  | .nil, _ => ⟨.nil, by simp [packParams], by simp [unpackParams], trivial⟩
  | .cons k x l, h => by
    unfold Params.Plain at h
    obtain ⟨hk, h1, h2, h3⟩ := h
    obtain ⟨l', i1, i2, i3⟩ := packParams_unpack l h3
    by_cases hd : k = "distribution"
    · obtain ⟨s, j1, j2⟩ := pack_unpack x (h1 hd)
      exact ⟨.cons k s l', by simp [packParams, hd, j1, i1], by simp [unpackParams, hd, j2, i2], hk, i3⟩
    · by_cases hds : k = "distributions"
      · obtain ⟨s, j1, j2⟩ := packList_unpack x (h2 hds)
        exact ⟨.cons k s l', by simp [packParams, hds, j1, i1], by simp [unpackParams, hds, j2, i2],
          hk, i3⟩
      · exact ⟨.cons k x l', by simp [packParams, hd, hds, i1], by simp [unpackParams, hd, hds, i2], hk, i3⟩

theorem packList_unpack : ∀ x : Obj, x.PlainList → ∃ s, packList x = some s ∧ unpackList s = some x
  | .list l, h => by
    unfold Obj.PlainList at h
    obtain ⟨l', i1, i2⟩ := packAll_unpack l h
    exact ⟨.list l', by simp [packList, i1], by simp [unpackList, i2]⟩
  | .opaque _, h => by simp [Obj.PlainList] at h
  | .cls _, h => by simp [Obj.PlainList] at h
  | .dict _, h => by simp [Obj.PlainList] at h
  | .dist _ _, h => by simp [Obj.PlainList] at h

theorem packAll_unpack : ∀ l : Objs, l.Plain → ∃ l', packAll l = some l' ∧ unpackAll l' = some l
  | .nil, _ => ⟨.nil, by simp [packAll], by simp [unpackAll]⟩
  | .cons x l, h => by
    unfold Objs.Plain at h
    obtain ⟨s, j1, j2⟩ := pack_unpack x h.1
    obtain ⟨l', i1, i2⟩ := packAll_unpack l h.2
    exact ⟨.cons s l', by simp [packAll, j1, i1], by simp [unpackAll, j2, i2]⟩

end

/-- C112: priors that are pickled and unpickled (copied, sent to another process) are the same ones, of the same
classes and with the same parameters in the same order, however deep distributions are nested. -/
theorem pickle_round_trip : ∀ l : List (String × Obj), (∀ p ∈ l, p.2.Plain) →
    ∃ s, getState l = some s ∧ setState s = some l
  | [], _ => ⟨[], rfl, rfl⟩
  | (a, x) :: l, h => by
    obtain ⟨s, h1, h2⟩ := pack_unpack x (h (a, x) (List.mem_cons_self ..))
    obtain ⟨l', i1, i2⟩ := pickle_round_trip l fun p hp => h p (List.mem_cons_of_mem _ hp)
    exact ⟨(a, s) :: l', by simp [getState, h1, i1], by simp [setState, h2, i2]⟩

theorem free_set {key : String} {x : Obj} (hx : x.Free) : ∀ ps : Params, ps.Free → (ps.set key x).Free
  | .nil, _ => by simp [Params.set, Params.Free, hx]
  | .cons k y l, h => by
    unfold Params.Free at h
    unfold Params.set
    split_ifs
    · exact ⟨hx, h.2⟩
    · exact ⟨h.1, free_set hx l h.2⟩

mutual

theorem pack_free : ∀ x s : Obj, x.Named → pack x = some s → s.Free
  | .dist c ps, s, h, hp => by
    unfold Obj.Named at h
    unfold pack at hp
    cases hq : packParams ps with
    | none => simp [hq] at hp
    | some qs =>
      simp only [hq, Option.some.injEq] at hp
      subst hp
      exact free_set (by simp [Obj.Free]) _ (packParams_free ps qs h hq)
  | .opaque _, _, h, _ => by simp [Obj.Named] at h
  | .cls _, _, h, _ => by simp [Obj.Named] at h
  | .dict _, _, h, _ => by simp [Obj.Named] at h
  | .list _, _, h, _ => by simp [Obj.Named] at h

theorem packParams_free : ∀ ps qs : Params, ps.Named → packParams ps = some qs → qs.Free
  | .nil, qs, _, hp => by
    simp only [packParams, Option.some.injEq] at hp
    subst hp
    simp [Params.Free]
  | .cons k x l, qs, h, hp => by
    unfold Params.Named at h
    obtain ⟨h1, h2, h3, h4⟩ := h
    unfold packParams at hp
    cases hx : (if k = "distribution" then pack x else if k = "distributions" then packList x
        else some x) with
    | none => simp [hx] at hp
    | some x' =>
      simp only [hx] at hp
      cases hl : packParams l with
      | none => simp [hl] at hp
      | some l' =>
        simp only [hl, Option.some.injEq] at hp
        subst hp
        refine ⟨?_, packParams_free l l' h4 hl⟩
        by_cases hd : k = "distribution"
        · rw [if_pos hd] at hx
          exact pack_free x x' (h1 hd) hx
        · rw [if_neg hd] at hx
          by_cases hds : k = "distributions"
          · rw [if_pos hds] at hx
            exact packList_free x x' (h2 hds) hx
          · rw [if_neg hds] at hx
            cases hx
            exact h3 hd hds

theorem packList_free : ∀ x s : Obj, x.NamedList → packList x = some s → s.Free
  | .list l, s, h, hp => by
    unfold Obj.NamedList at h
    unfold packList at hp
    cases hl : packAll l with
    | none => simp [hl] at hp
    | some l' =>
      simp only [hl, Option.some.injEq] at hp
      subst hp
      exact packAll_free l l' h hl
  | .opaque _, _, h, _ => by simp [Obj.NamedList] at h
  | .cls _, _, h, _ => by simp [Obj.NamedList] at h
  | .dict _, _, h, _ => by simp [Obj.NamedList] at h
  | .dist _ _, _, h, _ => by simp [Obj.NamedList] at h

theorem packAll_free : ∀ l l' : Objs, l.Named → packAll l = some l' → l'.Free
  | .nil, l', _, hp => by
    simp only [packAll, Option.some.injEq] at hp
    subst hp
    simp [Objs.Free]
  | .cons x l, l', h, hp => by
    unfold Objs.Named at h
    unfold packAll at hp
    cases hx : pack x with
    | none => simp [hx] at hp
    | some x' =>
      simp only [hx] at hp
      cases hl : packAll l with
      | none => simp [hl] at hp
      | some l1 =>
        simp only [hl, Option.some.injEq] at hp
        subst hp
        exact ⟨pack_free x x' h.1 hx, packAll_free l l1 h.2 hl⟩

end

/-- C112: the pickled state of priors has no distribution object in it, if distributions are nested only under
the names `distribution` and `distributions`. -/
theorem state_free : ∀ (l s : List (String × Obj)), (∀ p ∈ l, p.2.Named) → getState l = some s →
    ∀ p ∈ s, p.2.Free
  | [], s, _, h => by
    simp only [getState, Option.some.injEq] at h
    subst h
    simp
  | (a, x) :: l, s, hn, h => by
    unfold getState at h
    cases hx : pack x with
    | none => simp [hx] at h
    | some x' =>
      simp only [hx] at h
      cases hl : getState l with
      | none => simp [hl] at h
      | some l' =>
        simp only [hl, Option.some.injEq] at h
        subst h
        intro p hp
        rcases List.mem_cons.1 hp with rfl | hp
        · exact pack_free x x' (hn (a, x) (List.mem_cons_self ..)) hx
        · exact state_free l l' (fun p hp => hn p (List.mem_cons_of_mem _ hp)) hl p hp

/-- Finding: a distribution under any other name, as in a mixture, stays a distribution object in the
state. -/
theorem mixture_not_packed (c d : String) (k : String) (ps : Params) (hk : k ≠ "distribution")
    (hks : k ≠ "distributions") (hkt : k ≠ "distribution_type") : ∃ s, pack (.dist c (.cons k (.dist d ps) .nil)) = some s ∧ ¬ s.Free := by
  refine ⟨_, by simp [pack, packParams, hk, hks]; rfl, ?_⟩
  simp [Params.set, hkt, Obj.Free, Params.Free]

/-- A shifted distribution, broadcast, and a list of two. -/
def sampleState : List (String × Obj) :=
  [("roi_m", .dist "BatchBroadcast" (.cons "distribution"
      (.dist "Transformed" (.cons "distribution" (.dist "LogNormal" (.cons "loc" (.opaque 1) .nil))
        (.cons "bijector" (.opaque 2) .nil))) (.cons "with_shape" (.opaque 3) .nil))),
   ("beta_m", .dist "Independent" (.cons "distributions" (.list (.cons (.dist "Normal" .nil)
      (.cons (.dist "HalfNormal" (.cons "scale" (.opaque 4) .nil)) .nil))) .nil))]

example : (∀ p ∈ sampleState, p.2.Plain ∧ p.2.Named) ∧
    (getState sampleState).bind setState = some sampleState := by
  refine ⟨?_, ?_⟩
  · simp [sampleState, Obj.Plain, Params.Plain, Obj.PlainList, Objs.Plain, Obj.Named, Params.Named,
      Obj.NamedList, Objs.Named, Obj.Free]
  · rfl

end Verif.OldFiles.Props
