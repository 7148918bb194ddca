import Mathlib.Tactic.Ring
import Mathlib.Tactic.FinCases
import Mathlib.Data.Fin.VecNotation
import Mathlib.Algebra.BigOperators.Field
import Mathlib.Tactic.Linarith
import Mathlib.Tactic.FieldSimp
import Verif.Props.InputData
import Verif.Spec.DataObject

/-!
# C103: input data objects, their copies and the arrays they share
-/

namespace Verif.DataObject.Props

open Verif.DataObject Spec
open Verif.InputData (Arr Input)
open Verif.InputData.Spec (Consistent used ones)

variable {parse : String → Option Num} {isDate : String → Bool} {regular : List String → Bool}

/-! ### Views -/

theorem view_congr {st st' : Store} {o o' : Obj} (ht : o'.kpiType = o.kpiType)
    (hk : o.ref .kpi ≠ none) (hp : o.ref .population ≠ none)
    (h : ∀ f, (o'.ref f).map (fun a => toArr parse (st'.cell a)) =
      (o.ref f).map fun a => toArr parse (st.cell a)) : view parse st' o' = view parse st o := by
  have base : ∀ f, o.ref f ≠ none →
      toArr parse (st'.cell ((o'.ref f).getD 0)) = toArr parse (st.cell ((o.ref f).getD 0)) := by
    intro f hf
    have := h f
    cases h1 : o.ref f with
    | none => exact absurd h1 hf
    | some a =>
      cases h2 : o'.ref f with
      | none => rw [h1, h2] at this; cases this
      | some b =>
        rw [h1, h2] at this
        simpa using this
  unfold view
  simp only [h, ht, base _ hk, base _ hp]

theorem mapM_convert (l : List Val) :
    (l.mapM (convert parse) = none ↔ ¬ ∀ v ∈ l, ∀ s, v = .text s → parse s ≠ none) ∧
    ∀ xs, l.mapM (convert parse) = some xs → xs = l.map fun v => (convert parse v).getD none := by
  induction l with
  | nil => simp
  | cons v l ih =>
    simp only [List.mapM_cons, List.map_cons]
    cases hv : convert parse v with
    | none =>
      constructor
      · simp only [Option.bind_eq_bind, Option.bind_none, true_iff]
        intro h
        cases v with
        | num x => cases hv
        | text s => exact h _ (List.mem_cons_self ..) s rfl hv
      · intro xs h
        simp at h
    | some x =>
      cases hl : l.mapM (convert parse) with
      | none =>
        constructor
        · simp only [Option.bind_eq_bind, Option.bind_some, Option.bind_none, true_iff]
          intro h
          exact (ih.1.1 hl) fun w hw => h w (List.mem_cons_of_mem _ hw)
        · intro xs h
          simp at h
      | some ys =>
        constructor
        · simp only [Option.bind_eq_bind, Option.bind_some, Option.pure_def, reduceCtorEq, false_iff, not_not]
          intro w hw s hs
          rcases List.mem_cons.1 hw with rfl | hw
          · subst hs
            intro hn
            simp only [convert] at hv
            rw [hn] at hv
            cases hv
          · have : ∀ v ∈ l, ∀ s, v = .text s → parse s ≠ none := by
              by_contra hc
              rw [ih.1.2 hc] at hl
              cases hl
            exact this w hw s hs
        · intro xs h
          simp only [Option.bind_eq_bind, Option.bind_some, Option.pure_def, Option.some.injEq] at h
          rw [← h, ih.2 ys hl]
          simp

/-! ### Conversion of object arrays -/

/-- How an attribute after the conversion is related to the one before. -/
def Rel (parse : String → Option Num) (st0 : Store) (o0 : Obj) (st : Store) (o : Obj) (f : Field) : Prop :=
  (o0.ref f = none ∧ o.ref f = none) ∨
  ∃ a0 a, o0.ref f = some a0 ∧ o.ref f = some a ∧ a < st.next ∧
    toArr parse (st.cell a) = toArr parse (st0.cell a0) ∧ (st.cell a).geo = (st0.cell a0).geo ∧
    (a = a0 ∨ (st0.next ≤ a ∧ Readable parse (st0.cell a0) ∧ Floats (st.cell a) ∧ ¬ Floats (st0.cell a0)))

structure After (parse : String → Option Num) (st0 : Store) (o0 : Obj) (s : Store × Obj) : Prop where
  next : st0.next ≤ s.1.next
  old : ∀ a, a < st0.next → s.1.cell a = st0.cell a
  type : s.2.kpiType = o0.kpiType
  rel : ∀ f, Rel parse st0 o0 s.1 s.2 f

theorem After.refl {st : Store} {o : Obj} (h : Exists st o) : After parse st o (st, o) := by
  refine ⟨le_refl _, fun _ _ => rfl, rfl, fun f => ?_⟩
  cases hf : o.ref f with
  | none => exact Or.inl ⟨hf, hf⟩
  | some a => exact Or.inr ⟨a, a, hf, hf, h.made f a hf, rfl, rfl, Or.inl rfl⟩

theorem coerceField_spec {st0 : Store} {o0 : Obj} (h0 : Exists st0 o0) {s : Store × Obj}
    (h : After parse st0 o0 s) (f : Field) :
    (coerceField parse s f = none ↔ ∃ c, shows st0 o0 f = some c ∧ ¬ Readable parse c) ∧
    ∀ s', coerceField parse s f = some s' → After parse st0 o0 s' ∧
      (∀ c, shows s'.1 s'.2 f = some c → Floats c) ∧
      ∀ g, (∀ c, shows s.1 s.2 g = some c → Floats c) → ∀ c, shows s'.1 s'.2 g = some c → Floats c := by
  unfold coerceField
  rcases h.rel f with ⟨h1, h2⟩ | ⟨a0, a, h1, h2, hlt, ht, hg, hor⟩
  · simp only [h2]
    refine ⟨by simp [shows, h1], ?_⟩
    intro s' hs'
    cases hs'
    refine ⟨h, ?_, fun g hg => hg⟩
    intro c hc
    simp [shows, h2] at hc
  · simp only [h2]
    cases hv : (s.1.cell a).vals with
    | floats l =>
      simp only
      constructor
      · simp only [reduceCtorEq, shows, h1, Option.map_some, Option.some.injEq, false_iff, not_exists, not_and,
          not_not]
        rintro c rfl
        rcases hor with rfl | ⟨_, hr, _⟩
        · rw [h.old a (h0.made f a h1)] at hv
          unfold Readable
          rw [hv]
          trivial
        · exact hr
      · intro s' hs'
        cases hs'
        refine ⟨h, ?_, fun g hg => hg⟩
        intro c hc
        simp only [shows, h2, Option.map_some, Option.some.injEq] at hc
        exact ⟨l, hc ▸ hv⟩
    | objects l =>
      simp only
      have haa : a = a0 := by
        rcases hor with h | ⟨_, _, ⟨l', hf⟩, _⟩
        · exact h
        · rw [hv] at hf; cases hf
      subst haa
      have hcell := h.old a (h0.made f a h1)
      have hv0 : (st0.cell a).vals = .objects l := hcell ▸ hv
      obtain ⟨m1, m2⟩ := mapM_convert (parse := parse) l
      cases hm : l.mapM (convert parse) with
      | none =>
        refine ⟨?_, by simp⟩
        simp only [true_iff, shows, h1, Option.map_some, Option.some.injEq]
        refine ⟨_, rfl, ?_⟩
        unfold Readable
        rw [hv0]
        exact m1.1 hm
      | some xs =>
        have hread : Readable parse (st0.cell a) := by
          unfold Readable
          rw [hv0]
          by_contra hc
          rw [m1.2 hc] at hm
          cases hm
        refine ⟨?_, ?_⟩
        · simp only [Store.alloc, reduceCtorEq, shows, h1, Option.map_some, Option.some.injEq, false_iff, not_exists,
            not_and, not_not]
          rintro c rfl
          exact hread
        · intro s' hs'
          simp only [Store.alloc, Option.some.injEq] at hs'
          subst hs'
          refine ⟨⟨h.next.trans (Nat.le_succ _), ?_, h.type, ?_⟩, ?_, ?_⟩
          · intro b hb
            show (if b = s.1.next then _ else _) = _
            rw [if_neg (by have := h.next; omega)]
            exact h.old b hb
          · intro g
            by_cases hgf : g = f
            · subst hgf
              refine Or.inr ⟨a, s.1.next, h1, ?_, Nat.lt_succ_self _, ?_, ?_, Or.inr ⟨h.next, hread, ?_, ?_⟩⟩
              · simp [Obj.set]
              · show toArr parse (if s.1.next = s.1.next then _ else _) = _
                rw [if_pos rfl, ← hcell]
                unfold toArr
                simp only [hv]
                rw [m2 xs hm]
              · show (if s.1.next = s.1.next then _ else _ : Cell).geo = _
                rw [if_pos rfl, ← hcell]
              · show Floats (if s.1.next = s.1.next then _ else _)
                rw [if_pos rfl]
                exact ⟨xs, rfl⟩
              · rintro ⟨l', hl'⟩
                rw [hv0] at hl'
                cases hl'
            · rcases h.rel g with ⟨g1, g2⟩ | ⟨b0, b, g1, g2, g3, g4, g5, g6⟩
              · exact Or.inl ⟨g1, by simp [Obj.set, hgf, g2]⟩
              · have hb : b ≠ s.1.next := by omega
                refine Or.inr ⟨b0, b, g1, by simp [Obj.set, hgf, g2], g3.trans (Nat.lt_succ_self _), ?_, ?_, ?_⟩
                all_goals simp only [if_neg hb]
                · exact g4
                · exact g5
                · exact g6
          · intro c hc
            simp only [shows, Obj.set, if_true, Option.map_some, Option.some.injEq] at hc
            subst hc
            exact ⟨xs, rfl⟩
          · intro g hfl c hc
            by_cases hgf : g = f
            · subst hgf
              simp only [shows, Obj.set, if_true, Option.map_some, Option.some.injEq] at hc
              subst hc
              exact ⟨xs, rfl⟩
            · rcases h.rel g with ⟨g1, g2⟩ | ⟨b0, b, g1, g2, g3, _⟩
              · simp [shows, Obj.set, hgf, g2] at hc
              · have hb : b ≠ s.1.next := by omega
                simp only [shows, Obj.set, if_neg hgf, g2, Option.map_some, Option.some.injEq, if_neg hb] at hc
                subst hc
                exact hfl _ (by simp [shows, g2])

theorem coerce_spec {st0 : Store} {o0 : Obj} (h0 : Exists st0 o0) (fs : List Field) :
    ∀ s : Store × Obj, After parse st0 o0 s →
      (coerce parse fs s = none ↔ ∃ f ∈ fs, ∃ c, shows st0 o0 f = some c ∧ ¬ Readable parse c) ∧
      ∀ s', coerce parse fs s = some s' → After parse st0 o0 s' ∧
        ∀ g, (g ∈ fs ∨ ∀ c, shows s.1 s.2 g = some c → Floats c) → ∀ c, shows s'.1 s'.2 g = some c → Floats c := by
  induction fs with
  | nil =>
    intro s h
    refine ⟨by simp [coerce], ?_⟩
    intro s' hs'
    cases hs'
    refine ⟨h, ?_⟩
    rintro g (hg | hg)
    · cases hg
    · exact hg
  | cons f fs ih =>
    intro s h
    obtain ⟨c1, c2⟩ := coerceField_spec h0 h f
    unfold coerce
    cases hc : coerceField parse s f with
    | none =>
      obtain ⟨c, hc1, hc2⟩ := c1.1 hc
      refine ⟨by simp only [true_iff]; exact ⟨f, List.mem_cons_self .., c, hc1, hc2⟩, by simp⟩
    | some s1 =>
      obtain ⟨d1, d2, d3⟩ := c2 s1 hc
      obtain ⟨e1, e2⟩ := ih s1 d1
      refine ⟨?_, ?_⟩
      · simp only
        rw [e1]
        constructor
        · rintro ⟨g, hg, r⟩
          exact ⟨g, List.mem_cons_of_mem _ hg, r⟩
        · rintro ⟨g, hg, r⟩
          rcases List.mem_cons.1 hg with rfl | hg
          · rw [c1.2 r] at hc
            cases hc
          · exact ⟨g, hg, r⟩
      · intro s' hs'
        simp only at hs'
        obtain ⟨r1, r2⟩ := e2 s' hs'
        refine ⟨r1, ?_⟩
        rintro g (hg | hg)
        · rcases List.mem_cons.1 hg with rfl | hg
          · exact r2 g (Or.inr d2)
          · exact r2 g (Or.inl hg)
        · exact r2 g (Or.inr (d3 g hg))

theorem mem_fields (f : Field) : f ∈ fields := by cases f <;> decide

theorem After.exists {st0 : Store} {o0 : Obj} (h0 : Exists st0 o0) {s : Store × Obj}
    (h : After parse st0 o0 s) : Exists s.1 s.2 := by
  have hn : ∀ f, o0.ref f ≠ none → s.2.ref f ≠ none := by
    intro f hf
    rcases h.rel f with ⟨h1, _⟩ | ⟨_, _, _, h2, _⟩
    · exact absurd h1 hf
    · rw [h2]; simp
  refine ⟨?_, hn _ h0.kpi, hn _ h0.population⟩
  intro f a hf
  rcases h.rel f with ⟨_, h2⟩ | ⟨_, b, _, h2, h3, _⟩
  · rw [h2] at hf; cases hf
  · rw [h2] at hf; cases hf; exact h3

theorem After.view {st0 : Store} {o0 : Obj} (h0 : Exists st0 o0) {s : Store × Obj}
    (h : After parse st0 o0 s) : view parse s.1 s.2 = view parse st0 o0 := by
  refine view_congr h.type h0.kpi h0.population fun f => ?_
  rcases h.rel f with ⟨h1, h2⟩ | ⟨a0, a, h1, h2, _, h3, _⟩
  · rw [h1, h2]; rfl
  · rw [h1, h2]
    simp only [Option.map_some, h3]

/-! ### Labels -/

theorem stringGeos_idem (c : Cell) : stringGeos (stringGeos c) = stringGeos c := by
  unfold stringGeos
  simp [List.map_map, Function.comp_def, Label.str]

theorem toArr_stringGeos (c : Cell) : toArr parse (stringGeos c) = toArr parse c := by
  unfold toArr stringGeos
  have h : (c.geo.map fun l => Label.text l.str).map Label.str = c.geo.map Label.str := by
    rw [List.map_map]
    rfl
  simp only [h]

theorem relabel_cell (o : Obj) (fs : List Field) : ∀ (st : Store),
    (relabel o fs st).next = st.next ∧ ∀ a,
      (((∃ f ∈ fs, o.ref f = some a) ∧ "geo" ∈ (st.cell a).dims) →
        (relabel o fs st).cell a = stringGeos (st.cell a)) ∧
      (¬ ((∃ f ∈ fs, o.ref f = some a) ∧ "geo" ∈ (st.cell a).dims) →
        (relabel o fs st).cell a = st.cell a) := by
  induction fs with
  | nil => intro st; simp [relabel]
  | cons f fs ih =>
    intro st
    unfold relabel
    cases hf : o.ref f with
    | none =>
      simp only
      refine ⟨(ih st).1, fun a => ?_⟩
      have : (∃ g ∈ f :: fs, o.ref g = some a) ↔ ∃ g ∈ fs, o.ref g = some a := by
        constructor
        · rintro ⟨g, hg, hr⟩
          rcases List.mem_cons.1 hg with rfl | hg
          · rw [hf] at hr; cases hr
          · exact ⟨g, hg, hr⟩
        · rintro ⟨g, hg, hr⟩
          exact ⟨g, List.mem_cons_of_mem _ hg, hr⟩
      rw [this]
      exact (ih st).2 a
    | some b =>
      simp only
      have hiff : ∀ a, (∃ g ∈ f :: fs, o.ref g = some a) ↔ a = b ∨ ∃ g ∈ fs, o.ref g = some a := by
        intro a
        constructor
        · rintro ⟨g, hg, hr⟩
          rcases List.mem_cons.1 hg with rfl | hg
          · rw [hf] at hr; cases hr; exact Or.inl rfl
          · exact Or.inr ⟨g, hg, hr⟩
        · rintro (rfl | ⟨g, hg, hr⟩)
          · exact ⟨f, List.mem_cons_self .., hf⟩
          · exact ⟨g, List.mem_cons_of_mem _ hg, hr⟩
      by_cases hd : "geo" ∈ (st.cell b).dims
      · rw [if_pos hd]
        obtain ⟨i1, i2⟩ := ih (st.write b (stringGeos (st.cell b)))
        refine ⟨i1, fun a => ?_⟩
        rw [hiff]
        by_cases hab : a = b
        · subst hab
          have hcell : (st.write a (stringGeos (st.cell a))).cell a = stringGeos (st.cell a) := by
            simp [Store.write]
          have hdims : "geo" ∈ (stringGeos (st.cell a)).dims := hd
          have := i2 a
          rw [hcell] at this
          constructor
          · intro _
            by_cases hg : ∃ g ∈ fs, o.ref g = some a
            · rw [this.1 ⟨hg, hdims⟩, stringGeos_idem]
            · exact this.2 fun h => hg h.1
          · intro h
            exact absurd ⟨Or.inl rfl, hd⟩ h
        · have hcell : (st.write b (stringGeos (st.cell b))).cell a = st.cell a := by
            simp [Store.write, hab]
          have := i2 a
          rw [hcell] at this
          simpa [hab] using this
      · rw [if_neg hd]
        obtain ⟨i1, i2⟩ := ih st
        refine ⟨i1, fun a => ?_⟩
        rw [hiff]
        by_cases hab : a = b
        · subst hab
          constructor
          · rintro ⟨_, h⟩
            exact absurd h hd
          · intro _
            exact (i2 a).2 fun h => hd h.2
        · simpa [hab] using i2 a

theorem relabel_toArr (o : Obj) (fs : List Field) (st : Store) (a : ℕ) :
    toArr parse ((relabel o fs st).cell a) = toArr parse (st.cell a) := by
  by_cases h : (∃ f ∈ fs, o.ref f = some a) ∧ "geo" ∈ (st.cell a).dims
  · rw [((relabel_cell o fs st).2 a).1 h, toArr_stringGeos]
  · rw [((relabel_cell o fs st).2 a).2 h]

theorem relabel_view (o : Obj) (fs : List Field) (st : Store) :
    view parse (relabel o fs st) o = view parse st o := by
  unfold view
  simp only [relabel_toArr]

theorem toArr_ones (c : Cell) : toArr parse (onesCell c) = ones (toArr parse c) := by
  unfold toArr onesCell ones
  simp

/-! ### Construction -/

/-- All that a construction does, in one statement. -/
theorem construct_all {st : Store} {o : Obj} (h0 : Exists st o) :
    (∃ f c, shows st o f = some c ∧ ¬ Readable parse c) ∧
        construct parse isDate regular st o = (st, .error .convert) ∨
    (∀ f c, shows st o f = some c → Readable parse c) ∧ ∃ st1 o1, After parse st o (st1, o1) ∧
      (∀ f c, shows st1 o1 f = some c → Floats c) ∧
      ((∃ e, construct parse isDate regular st o = (st1, .error (.data e)) ∧ ¬ Consistent isDate regular (view parse st o)) ∨
       (∃ e, construct parse isDate regular st o = (relabel o1 fields st1, .error (.data e)) ∧
          ¬ Consistent isDate regular (view parse st o)) ∨
       (Consistent isDate regular (view parse st o) ∧ o.kpiType ≠ "revenue" ∧
          construct parse isDate regular st o = (relabel o1 fields st1, .ok o1)) ∨
       (Consistent isDate regular (view parse st o) ∧ o.kpiType = "revenue" ∧
          construct parse isDate regular st o =
            (((relabel o1 fields st1).alloc (onesCell ((relabel o1 fields st1).cell ((o1.ref .kpi).getD 0)))).1,
              .ok (o1.set .revenuePerKpi st1.next)))) := by
  obtain ⟨c1, c2⟩ := coerce_spec h0 fields (st, o) (After.refl (parse := parse) h0)
  unfold construct
  cases hc : coerce parse fields (st, o) with
  | none =>
    left
    obtain ⟨f, _, c, h1, h2⟩ := c1.1 hc
    exact ⟨⟨f, c, h1, h2⟩, rfl⟩
  | some s =>
    obtain ⟨st1, o1⟩ := s
    right
    obtain ⟨ha, hfl⟩ := c2 _ hc
    refine ⟨?_, st1, o1, ha, fun f => hfl f (Or.inl (mem_fields f)), ?_⟩
    · intro f c hs
      by_contra hr
      rw [c1.2 ⟨f, mem_fields f, c, hs, hr⟩] at hc
      cases hc
    have hview : view parse st1 o1 = view parse st o := ha.view h0
    have hval : ∀ e, InputData.validate isDate regular (view parse st o) = .error e →
        ¬ Consistent isDate regular (view parse st o) := by
      intro e he hcon
      rw [(InputData.Props.accepted_iff _ _ _ _).2 ⟨hcon, rfl⟩] at he
      cases he
    simp only
    rw [hview]
    by_cases hna : InputData.anyNa (view parse st o) = true
    · left
      rw [if_pos hna]
      refine ⟨_, rfl, hval .na ?_⟩
      unfold InputData.validate
      rw [if_pos hna]
    · right
      rw [if_neg hna, relabel_view, hview]
      cases hv : InputData.validate isDate regular (view parse st o) with
      | error e => exact Or.inl ⟨e, rfl, hval e hv⟩
      | ok d =>
        right
        have hcon := ((InputData.Props.accepted_iff _ _ _ _).1 hv).1
        have ht : o1.kpiType = o.kpiType := ha.type
        simp only
        by_cases hk : o.kpiType = "revenue"
        · right
          refine ⟨hcon, hk, ?_⟩
          rw [if_pos (ht.trans hk)]
          simp only [Store.alloc, (relabel_cell o1 fields st1).1]
        · left
          refine ⟨hcon, hk, ?_⟩
          rw [if_neg (fun h => hk (ht.symm.trans h))]

/-- **C103.** An object is made exactly if all values can be read as numbers and the data are consistent. -/
theorem construct_iff {st : Store} {o : Obj} (h0 : Exists st o) :
    (∃ st' o', construct parse isDate regular st o = (st', .ok o')) ↔
      (∀ f c, shows st o f = some c → Readable parse c) ∧ Consistent isDate regular (view parse st o) := by
  rcases construct_all (parse := parse) (isDate := isDate) (regular := regular) h0 with
    ⟨⟨f, c, h1, h2⟩, he⟩ | ⟨hr, st1, o1, _, _, h | h | h | h⟩
  · rw [he]
    constructor
    · rintro ⟨_, _, h⟩; cases h
    · rintro ⟨h, _⟩; exact absurd (h f c h1) h2
  · obtain ⟨e, he, hn⟩ := h
    rw [he]
    constructor
    · rintro ⟨_, _, h⟩; cases h
    · rintro ⟨_, h⟩; exact absurd h hn
  · obtain ⟨e, he, hn⟩ := h
    rw [he]
    constructor
    · rintro ⟨_, _, h⟩; cases h
    · rintro ⟨_, h⟩; exact absurd h hn
  · obtain ⟨hcon, _, he⟩ := h
    rw [he]
    exact ⟨fun _ => ⟨hr, hcon⟩, fun _ => ⟨_, _, rfl⟩⟩
  · obtain ⟨hcon, _, he⟩ := h
    rw [he]
    exact ⟨fun _ => ⟨hr, hcon⟩, fun _ => ⟨_, _, rfl⟩⟩

theorem relabel_shows {o : Obj} {st : Store} {f : Field} {c : Cell} (h : shows (relabel o fields st) o f = some c) :
    ∃ c0, shows st o f = some c0 ∧ (("geo" ∈ c0.dims ∧ c = stringGeos c0) ∨ ("geo" ∉ c0.dims ∧ c = c0)) := by
  unfold shows at *
  cases hf : o.ref f with
  | none => rw [hf] at h; cases h
  | some a =>
    rw [hf] at h
    simp only [Option.map_some, Option.some.injEq] at h ⊢
    refine ⟨_, rfl, ?_⟩
    by_cases hd : "geo" ∈ (st.cell a).dims
    · left
      exact ⟨hd, by rw [← h, ((relabel_cell o fields st).2 a).1 ⟨⟨f, mem_fields f, hf⟩, hd⟩]⟩
    · right
      exact ⟨hd, by rw [← h, ((relabel_cell o fields st).2 a).2 fun h => hd h.2]⟩

theorem relabel_good {o : Obj} {st : Store} (hfl : ∀ f c, shows st o f = some c → Floats c) :
    ∀ f c, shows (relabel o fields st) o f = some c → Floats c ∧ ("geo" ∈ c.dims → Strings c) := by
  intro f c h
  obtain ⟨c0, h0, h1 | h1⟩ := relabel_shows h
  · obtain ⟨hd, rfl⟩ := h1
    refine ⟨hfl f c0 h0, fun _ l hl => ?_⟩
    obtain ⟨l', _, rfl⟩ := List.mem_map.1 hl
    exact ⟨_, rfl⟩
  · obtain ⟨hd, rfl⟩ := h1
    exact ⟨hfl f c h0, fun h => absurd h hd⟩

/-- **C103.** The object shows the data given, with revenue per KPI of one if the KPI is revenue; its
values are floats and its geos strings. -/
theorem construct_view {st st' : Store} {o o' : Obj} (h0 : Exists st o)
    (h : construct parse isDate regular st o = (st', .ok o')) :
    Exists st' o' ∧ view parse st' o' = used (view parse st o) ∧
      ∀ f c, shows st' o' f = some c → Floats c ∧ ("geo" ∈ c.dims → Strings c) := by
  rcases construct_all (parse := parse) (isDate := isDate) (regular := regular) h0 with
    ⟨_, he⟩ | ⟨hr, st1, o1, ha, hfl, h1 | h1 | h1 | h1⟩
  · rw [he] at h; cases h
  · obtain ⟨e, he, _⟩ := h1
    rw [he] at h; cases h
  · obtain ⟨e, he, _⟩ := h1
    rw [he] at h; cases h
  · obtain ⟨_, hk, he⟩ := h1
    rw [he] at h
    cases h
    have hex := ha.exists h0
    refine ⟨⟨fun f a hf => ?_, hex.kpi, hex.population⟩, ?_, relabel_good hfl⟩
    · rw [(relabel_cell _ fields st1).1]
      exact hex.made f a hf
    · have hv := ha.view h0
      simp only at hv
      rw [relabel_view, hv]
      unfold used
      rw [if_neg (show ¬ (view parse st o).kpiType = "revenue" from hk)]
  · obtain ⟨_, hk, he⟩ := h1
    rw [he] at h
    cases h
    have hex := ha.exists h0
    have hnext : (relabel o1 fields st1).next = st1.next := (relabel_cell o1 fields st1).1
    have hgood := relabel_good hfl
    refine ⟨⟨?_, ?_, ?_⟩, ?_, ?_⟩
    · intro f a hf
      simp only [Store.alloc, hnext]
      simp only [Obj.set] at hf
      split_ifs at hf
      · cases hf; omega
      · exact (hex.made f a hf).trans (Nat.lt_succ_self _)
    · simpa [Obj.set] using hex.kpi
    · simpa [Obj.set] using hex.population
    · have hold : ∀ f, f ≠ .revenuePerKpi → ((o1.set .revenuePerKpi st1.next).ref f).map
          (fun a => toArr parse (((relabel o1 fields st1).alloc
            (onesCell ((relabel o1 fields st1).cell ((o1.ref .kpi).getD 0)))).1.cell a)) =
          (o1.ref f).map fun a => toArr parse (st1.cell a) := by
        intro f hf
        simp only [Obj.set, if_neg hf]
        cases hr1 : o1.ref f with
        | none => rfl
        | some a =>
          have : a ≠ (relabel o1 fields st1).next := by
            have := hex.made f a hr1
            rw [hnext]; show a ≠ st1.next; simp only at this; omega
          simp only [Option.map_some, Store.alloc, if_neg this, relabel_toArr]
      have hkpi : ∀ f, o1.ref f ≠ none → f ≠ .revenuePerKpi →
          toArr parse (((relabel o1 fields st1).alloc
            (onesCell ((relabel o1 fields st1).cell ((o1.ref .kpi).getD 0)))).1.cell
              (((o1.set .revenuePerKpi st1.next).ref f).getD 0)) = toArr parse (st1.cell ((o1.ref f).getD 0)) := by
        intro f hn hf
        have := hold f hf
        simp only [Obj.set, if_neg hf] at this ⊢
        cases hr1 : o1.ref f with
        | none => exact absurd hr1 hn
        | some a =>
          rw [hr1] at this
          simpa using this
      have hv := ha.view h0
      simp only at hv
      unfold used
      rw [show (view parse st o).kpiType = "revenue" from hk, if_pos rfl, ← hv]
      have hrev : ((o1.set .revenuePerKpi st1.next).ref .revenuePerKpi).map
          (fun a => toArr parse (((relabel o1 fields st1).alloc
            (onesCell ((relabel o1 fields st1).cell ((o1.ref .kpi).getD 0)))).1.cell a)) =
          some (ones (toArr parse (st1.cell ((o1.ref .kpi).getD 0)))) := by
        simp [Obj.set, Store.alloc, hnext, toArr_ones, relabel_toArr]
      unfold view
      simp only [hold _ (by decide : Field.controls ≠ .revenuePerKpi), hold _ (by decide : Field.media ≠ .revenuePerKpi),
        hold _ (by decide : Field.mediaSpend ≠ .revenuePerKpi), hold _ (by decide : Field.reach ≠ .revenuePerKpi),
        hold _ (by decide : Field.frequency ≠ .revenuePerKpi), hold _ (by decide : Field.rfSpend ≠ .revenuePerKpi),
        hold _ (by decide : Field.organicMedia ≠ .revenuePerKpi),
        hold _ (by decide : Field.organicReach ≠ .revenuePerKpi),
        hold _ (by decide : Field.organicFrequency ≠ .revenuePerKpi),
        hold _ (by decide : Field.nonMedia ≠ .revenuePerKpi), hrev,
        hkpi _ hex.kpi (by decide), hkpi _ hex.population (by decide)]
      simp [Obj.set]
      exact ha.type.trans hk
    · intro f c hc
      by_cases hf : f = .revenuePerKpi
      · subst hf
        simp only [shows, Obj.set, if_true, Option.map_some, Option.some.injEq, Store.alloc, hnext] at hc
        subst hc
        refine ⟨⟨_, rfl⟩, fun _ => ?_⟩
        intro l hl
        cases hkr : o1.ref .kpi with
        | none => exact absurd hkr hex.kpi
        | some k =>
          rw [hkr] at hl
          have hs : shows (relabel o1 fields st1) o1 .kpi = some ((relabel o1 fields st1).cell k) := by
            simp [shows, hkr]
          obtain ⟨c0, h0', h2 | h2⟩ := relabel_shows hs
          · have := (hgood .kpi _ hs).2 (by rw [h2.2]; exact h2.1)
            exact this l hl
          · exfalso
            -- the KPI of consistent data has the dimension geo
            have hcon : Consistent isDate regular (view parse st o) := ‹_›
            obtain ⟨_, ds, hds, hd⟩ := hcon.shape (some (used (view parse st o)).kpi, "kpi", [["geo", "time"]])
              (by simp [InputData.Spec.table]) _ rfl
            simp only [List.mem_singleton] at hds
            subst hds
            have hg := (hd "geo").2 (by simp)
            have hk2 : (used (view parse st o)).kpi = (view parse st o).kpi := by
              unfold used; split_ifs <;> rfl
            rw [hk2, ← ha.view h0] at hg
            simp only [view, toArr, hkr, Option.getD_some] at hg
            simp only [shows, hkr, Option.map_some, Option.some.injEq] at h0'
            exact h2.1 (h0' ▸ hg)
      · apply hgood f c
        simp only [shows, Obj.set, if_neg hf] at hc ⊢
        cases hr1 : o1.ref f with
        | none => rw [hr1] at hc; cases hc
        | some a =>
          have hne : a ≠ (relabel o1 fields st1).next := by
            have := hex.made f a hr1
            rw [hnext]; simp only at this; omega
          rw [hr1] at hc
          simpa [Store.alloc, hne] using hc

/-- **C103.** Whether or not it raises, a construction changes nothing about the arrays that exist but the
labels of geos, of arrays that were given to it and hold floats, and these only to the strings of the same
labels; and an object made refers to these arrays or to new ones. -/
theorem caller_arrays {st : Store} {o : Obj} (h0 : Exists st o) :
    st.next ≤ (construct parse isDate regular st o).1.next ∧
    (∀ a, a < st.next → (construct parse isDate regular st o).1.cell a = st.cell a ∨
      ((construct parse isDate regular st o).1.cell a =
        { st.cell a with geo := (st.cell a).geo.map fun l => .text l.str } ∧
        (∃ f, o.ref f = some a) ∧ Floats (st.cell a) ∧ "geo" ∈ (st.cell a).dims)) ∧
    ∀ o', (construct parse isDate regular st o).2 = .ok o' → ∀ f a, o'.ref f = some a →
      o.ref f = some a ∨ st.next ≤ a := by
  have hcells : ∀ st1 o1, After parse st o (st1, o1) → (∀ f c, shows st1 o1 f = some c → Floats c) →
      ∀ a, a < st.next → (relabel o1 fields st1).cell a = st.cell a ∨
        ((relabel o1 fields st1).cell a = stringGeos (st.cell a) ∧
          (∃ f, o.ref f = some a) ∧ Floats (st.cell a) ∧ "geo" ∈ (st.cell a).dims) := by
    intro st1 o1 ha hfl a hlt
    have hold := ha.old a hlt
    simp only at hold
    by_cases h : (∃ f ∈ fields, o1.ref f = some a) ∧ "geo" ∈ (st1.cell a).dims
    · right
      rw [((relabel_cell o1 fields st1).2 a).1 h, hold]
      obtain ⟨⟨f, _, hf⟩, hd⟩ := h
      refine ⟨rfl, ⟨f, ?_⟩, ?_, hold ▸ hd⟩
      · rcases ha.rel f with ⟨_, h2⟩ | ⟨a0, b, h1, h2, _, _, _, h3 | ⟨h3, _⟩⟩
        · simp only at h2; rw [h2] at hf; cases hf
        · simp only at h2; rw [h2] at hf; cases hf; rw [h1, h3]
        · simp only at h2; rw [h2] at hf; cases hf; omega
      · rw [← hold]
        exact hfl f _ (by simp [shows, hf])
    · left
      rw [((relabel_cell o1 fields st1).2 a).2 h, hold]
  have hrefs : ∀ st1 o1, After parse st o (st1, o1) → ∀ f a, o1.ref f = some a →
      o.ref f = some a ∨ st.next ≤ a := by
    intro st1 o1 ha f a hf
    rcases ha.rel f with ⟨_, h2⟩ | ⟨a0, b, h1, h2, _, _, _, h3 | ⟨h3, _⟩⟩
    · simp only at h2; rw [h2] at hf; cases hf
    · simp only at h2; rw [h2] at hf; cases hf; left; rw [h1, h3]
    · simp only at h2; rw [h2] at hf; cases hf; right; exact h3
  rcases construct_all (parse := parse) (isDate := isDate) (regular := regular) h0 with
    ⟨_, he⟩ | ⟨hr, st1, o1, ha, hfl, h1 | h1 | h1 | h1⟩
  · rw [he]
    exact ⟨le_refl _, fun a _ => Or.inl rfl, fun o' h => by cases h⟩
  · obtain ⟨e, he, _⟩ := h1
    rw [he]
    exact ⟨ha.next, fun a hlt => Or.inl (ha.old a hlt), fun o' h => by cases h⟩
  · obtain ⟨e, he, _⟩ := h1
    rw [he]
    refine ⟨?_, hcells st1 o1 ha hfl, fun o' h => by cases h⟩
    rw [(relabel_cell o1 fields st1).1]
    exact ha.next
  · obtain ⟨_, _, he⟩ := h1
    rw [he]
    refine ⟨?_, hcells st1 o1 ha hfl, ?_⟩
    · rw [(relabel_cell o1 fields st1).1]
      exact ha.next
    · intro o' h
      cases h
      exact hrefs st1 _ ha
  · obtain ⟨_, _, he⟩ := h1
    have hnext : (relabel o1 fields st1).next = st1.next := (relabel_cell o1 fields st1).1
    have hn := ha.next
    simp only at hn
    rw [he]
    refine ⟨?_, ?_, ?_⟩
    · simp only [Store.alloc, hnext]
      omega
    · intro a hlt
      have hne : a ≠ (relabel o1 fields st1).next := by rw [hnext]; omega
      simp only [Store.alloc, if_neg hne]
      exact hcells st1 o1 ha hfl a hlt
    · intro o' h
      cases h
      intro f a hf
      simp only [Obj.set] at hf
      split_ifs at hf
      · cases hf; right; exact hn
      · exact hrefs st1 o1 ha f a hf

/-- **C103.** An object made from an array of floats shows this very array: what is changed in the array
later is changed in the object. Exempt is the revenue per KPI if the KPI is revenue. -/
theorem constructed_shares {st st' : Store} {o o' : Obj} (h0 : Exists st o)
    (h : construct parse isDate regular st o = (st', .ok o')) (f : Field) (a : ℕ) (hf : o.ref f = some a)
    (hfl : Floats (st.cell a)) (hr : f = .revenuePerKpi → o.kpiType ≠ "revenue") :
    o'.ref f = some a ∧ ∀ c, shows (st'.write a c) o' f = some c := by
  suffices hs : o'.ref f = some a by
    refine ⟨hs, fun c => ?_⟩
    simp [shows, hs, Store.write]
  have key : ∀ st1 o1, After parse st o (st1, o1) → o1.ref f = some a := by
    intro st1 o1 ha
    rcases ha.rel f with ⟨h1, _⟩ | ⟨a0, b, h1, h2, _, _, _, h3 | ⟨_, _, _, h3⟩⟩
    · rw [h1] at hf; cases hf
    · rw [h1] at hf; cases hf; rw [h2, h3]
    · rw [h1] at hf; cases hf; exact absurd hfl h3
  rcases construct_all (parse := parse) (isDate := isDate) (regular := regular) h0 with
    ⟨_, he⟩ | ⟨_, st1, o1, ha, _, h1 | h1 | h1 | h1⟩
  · rw [he] at h; cases h
  · obtain ⟨e, he, _⟩ := h1
    rw [he] at h; cases h
  · obtain ⟨e, he, _⟩ := h1
    rw [he] at h; cases h
  · obtain ⟨_, hk, he⟩ := h1
    rw [he] at h
    cases h
    exact key st1 _ ha
  · obtain ⟨_, hk, he⟩ := h1
    rw [he] at h
    cases h
    have hne : f ≠ .revenuePerKpi := fun h => hr h hk
    simp only [Obj.set, if_neg hne]
    exact key st1 o1 ha

/-! ### Isolation -/

/-- Two objects without a common array. -/
def Apart (o o' : Obj) : Prop := ∀ f g a, o.ref f = some a → o'.ref g ≠ some a

theorem Apart.symm {o o' : Obj} (h : Apart o o') : Apart o' o := fun f g a h1 h2 => h g f a h2 h1

theorem step_isolated {st : Store} {o o' : Obj} (h : Exists st o) (h' : Exists st o') (ha : Apart o o') (op : Op) :
    Exists (step (st, o) op).1 (step (st, o) op).2 ∧ Exists (step (st, o) op).1 o' ∧
      Apart (step (st, o) op).2 o' ∧ ∀ f, shows (step (st, o) op).1 o' f = shows st o' f := by
  cases op with
  | edit f g =>
    unfold step
    simp only
    cases hf : o.ref f with
    | none => exact ⟨h, h', ha, fun _ => rfl⟩
    | some a =>
      simp only
      refine ⟨⟨h.made, h.kpi, h.population⟩, ⟨h'.made, h'.kpi, h'.population⟩, ha, ?_⟩
      intro q
      unfold shows
      cases hq : o'.ref q with
      | none => rfl
      | some b =>
        have : b ≠ a := by
          rintro rfl
          exact ha f q b hf hq
        simp [Store.write, this]
  | assign f c =>
    unfold step
    simp only [Store.alloc]
    have lift : ∀ p : Obj, Exists st p → ∀ q b, p.ref q = some b → b < st.next + 1 := fun p hp q b hb =>
      (hp.made q b hb).trans (Nat.lt_succ_self _)
    refine ⟨⟨?_, ?_, ?_⟩, ⟨lift o' h', h'.kpi, h'.population⟩, ?_, ?_⟩
    · intro q b hb
      simp only [Obj.set] at hb
      split_ifs at hb
      · cases hb; exact Nat.lt_succ_self _
      · exact lift o h q b hb
    · simp only [Obj.set]; split_ifs <;> simp [h.kpi]
    · simp only [Obj.set]; split_ifs <;> simp [h.population]
    · intro q r b hb hb'
      simp only [Obj.set] at hb
      split_ifs at hb
      · cases hb
        exact absurd (h'.made r _ hb') (lt_irrefl _)
      · exact ha q r b hb hb'
    · intro q
      unfold shows
      cases hq : o'.ref q with
      | none => rfl
      | some b =>
        have : b ≠ st.next := by have := h'.made q b hq; omega
        simp [this]

theorem run_isolated {st : Store} {o o' : Obj} (h : Exists st o) (h' : Exists st o') (ha : Apart o o')
    (ops : List Op) : Exists (run (st, o) ops).1 o' ∧ ∀ f, shows (run (st, o) ops).1 o' f = shows st o' f := by
  induction ops generalizing st o with
  | nil => exact ⟨h', fun _ => rfl⟩
  | cons op ops ih =>
    obtain ⟨h1, h2, h3, h4⟩ := step_isolated h h' ha op
    obtain ⟨i1, i2⟩ := ih h1 h2 h3
    refine ⟨i1, fun f => ?_⟩
    rw [← h4 f]
    exact i2 f

theorem history_apart {st : Store} {o o' : Obj} (h : Exists st o) (h' : Exists st o') (ha : Apart o o')
    (hs : List (Bool × Op)) :
    Exists (history st o o' hs).1 (history st o o' hs).2.1 ∧
      Exists (history st o o' hs).1 (history st o o' hs).2.2 ∧
      Apart (history st o o' hs).2.1 (history st o o' hs).2.2 := by
  induction hs generalizing st o o' with
  | nil => exact ⟨h, h', ha⟩
  | cons x hs ih =>
    obtain ⟨b, op⟩ := x
    cases b with
    | false =>
      obtain ⟨h1, h2, h3, _⟩ := step_isolated h h' ha op
      exact ih h1 h2 h3
    | true =>
      obtain ⟨h1, h2, h3, _⟩ := step_isolated h' h ha.symm op
      exact ih h2 h1 h3.symm

/-! ### Copies -/

structure Copied (st0 : Store) (o0 : Obj) (s : Store × Obj) : Prop where
  next : st0.next ≤ s.1.next
  old : ∀ a, a < st0.next → s.1.cell a = st0.cell a
  type : s.2.kpiType = o0.kpiType
  rel : ∀ f, (o0.ref f = none ∧ s.2.ref f = none) ∨
    ∃ a b, o0.ref f = some a ∧ s.2.ref f = some b ∧ b < s.1.next ∧ s.1.cell b = st0.cell a

theorem copyFields_spec {st0 : Store} {o0 : Obj} (h0 : Exists st0 o0) (fs : List Field) :
    ∀ s : Store × Obj, Copied st0 o0 s → Copied st0 o0 (copyFields o0 fs s) ∧
      ∀ f, (f ∈ fs ∨ ∀ b, s.2.ref f = some b → st0.next ≤ b) →
        ∀ b, (copyFields o0 fs s).2.ref f = some b → st0.next ≤ b := by
  induction fs with
  | nil =>
    intro s h
    refine ⟨h, ?_⟩
    rintro f (hf | hf)
    · cases hf
    · exact hf
  | cons g fs ih =>
    intro s h
    unfold copyFields
    cases hg : o0.ref g with
    | none =>
      simp only
      obtain ⟨i1, i2⟩ := ih s h
      refine ⟨i1, ?_⟩
      rintro f (hf | hf)
      · rcases List.mem_cons.1 hf with rfl | hf
        · apply i2
          right
          intro b hb
          rcases h.rel f with ⟨_, h2⟩ | ⟨a, _, h1, _⟩
          · rw [h2] at hb; cases hb
          · rw [hg] at h1; cases h1
        · exact i2 f (Or.inl hf)
      · exact i2 f (Or.inr hf)
    | some a =>
      simp only [Store.alloc]
      have hlt := h0.made g a hg
      have hs : Copied st0 o0 (⟨s.1.next + 1, fun b => if b = s.1.next then s.1.cell a else s.1.cell b⟩,
          s.2.set g s.1.next) := by
        have hn := h.next
        refine ⟨by simp only; omega, ?_, h.type, ?_⟩
        · intro b hb
          have : b ≠ s.1.next := by omega
          simp only [if_neg this]
          exact h.old b hb
        · intro f
          by_cases hf : f = g
          · subst hf
            right
            refine ⟨a, s.1.next, hg, by simp [Obj.set], Nat.lt_succ_self _, ?_⟩
            simp only [if_true]
            exact h.old a hlt
          · rcases h.rel f with ⟨h1, h2⟩ | ⟨x, b, h1, h2, h3, h4⟩
            · left
              exact ⟨h1, by simp [Obj.set, hf, h2]⟩
            · right
              have : b ≠ s.1.next := by omega
              refine ⟨x, b, h1, by simp [Obj.set, hf, h2], h3.trans (Nat.lt_succ_self _), ?_⟩
              simp only [if_neg this]
              exact h4
      obtain ⟨i1, i2⟩ := ih _ hs
      refine ⟨i1, ?_⟩
      have hfresh : ∀ b, (s.2.set g s.1.next).ref g = some b → st0.next ≤ b := by
        intro b hb
        simp only [Obj.set, if_true, Option.some.injEq] at hb
        exact hb ▸ h.next
      intro f hf
      by_cases hfg : f = g
      · subst hfg
        exact i2 f (Or.inr hfresh)
      · apply i2
        rcases hf with hf | hf
        · rcases List.mem_cons.1 hf with rfl | hf
          · exact absurd rfl hfg
          · exact Or.inl hf
        · right
          intro b hb
          simp only [Obj.set, if_neg hfg] at hb
          exact hf b hb

/-- What the loop of a deep copy makes. -/
theorem copied {st : Store} {o : Obj} (h0 : Exists st o) :
    Exists (copyFields o fields (st, o)).1 (copyFields o fields (st, o)).2 ∧
    Copied st o (copyFields o fields (st, o)) ∧
    (∀ f, shows (copyFields o fields (st, o)).1 (copyFields o fields (st, o)).2 f = shows st o f) ∧
    (∀ f b, (copyFields o fields (st, o)).2.ref f = some b → st.next ≤ b) ∧
    view parse (copyFields o fields (st, o)).1 (copyFields o fields (st, o)).2 = view parse st o := by
  have hc : Copied st o (st, o) := by
    refine ⟨le_refl _, fun _ _ => rfl, rfl, fun f => ?_⟩
    cases hf : o.ref f with
    | none => exact Or.inl ⟨rfl, rfl⟩
    | some a => exact Or.inr ⟨a, a, rfl, rfl, h0.made f a hf, rfl⟩
  obtain ⟨h1, h2⟩ := copyFields_spec h0 fields (st, o) hc
  have hn : ∀ f, o.ref f ≠ none → (copyFields o fields (st, o)).2.ref f ≠ none := by
    intro f hf
    rcases h1.rel f with ⟨h, _⟩ | ⟨_, _, _, h, _⟩
    · exact absurd h hf
    · rw [h]; simp
  have hshow : ∀ f, shows (copyFields o fields (st, o)).1 (copyFields o fields (st, o)).2 f = shows st o f := by
    intro f
    unfold shows
    rcases h1.rel f with ⟨h, h'⟩ | ⟨a, b, h, h', _, h3⟩
    · rw [h, h']; rfl
    · rw [h, h']; simp [h3]
  refine ⟨⟨?_, hn _ h0.kpi, hn _ h0.population⟩, h1, hshow, fun f => h2 f (Or.inl (mem_fields f)), ?_⟩
  · intro f b hb
    rcases h1.rel f with ⟨_, h'⟩ | ⟨a, c, _, h', h3, _⟩
    · rw [h'] at hb; cases hb
    · rw [h'] at hb; cases hb; exact h3
  · refine view_congr h1.type h0.kpi h0.population fun f => ?_
    have := congrArg (Option.map (toArr parse)) (hshow f)
    simpa [shows, Option.map_map, Function.comp_def] using this

/-- **C103.** A copy, deep or not, is made exactly if the data are consistent at the time of the copy, and
shows the same data, with revenue per KPI of one if the KPI is revenue. -/
theorem copies_exact {st : Store} {o : Obj} (h0 : Exists st o) :
    ((∃ st' o', deepCopy parse isDate regular st o = (st', .ok o')) ↔
      (∀ f c, shows st o f = some c → Readable parse c) ∧ Consistent isDate regular (view parse st o)) ∧
    ((∃ st' o', shallowCopy parse isDate regular st o = (st', .ok o')) ↔
      (∀ f c, shows st o f = some c → Readable parse c) ∧ Consistent isDate regular (view parse st o)) ∧
    ∀ st' o', deepCopy parse isDate regular st o = (st', .ok o') ∨
        shallowCopy parse isDate regular st o = (st', .ok o') →
      Exists st' o' ∧ view parse st' o' = used (view parse st o) := by
  obtain ⟨c1, c2, c3, c4, c5⟩ := copied (parse := parse) h0
  refine ⟨?_, construct_iff h0, ?_⟩
  · unfold deepCopy
    simp only
    rw [construct_iff c1, c5]
    simp only [c3]
  · rintro st' o' (h | h)
    · unfold deepCopy at h
      simp only at h
      obtain ⟨r1, r2, _⟩ := construct_view c1 h
      exact ⟨r1, r2.trans (by rw [c5])⟩
    · obtain ⟨r1, r2, _⟩ := construct_view h0 h
      exact ⟨r1, r2⟩

/-- **C103.** A deep copy changes no array of the original, and after any history of changes to both, what
is done to one does not show in the other. -/
theorem deep_isolated {st st' : Store} {o o' : Obj} (h0 : Exists st o)
    (h : deepCopy parse isDate regular st o = (st', .ok o')) :
    (∀ f, shows st' o f = shows st o f) ∧
    ∀ hs ops, let s := history st' o o' hs
      (∀ f, shows (run (s.1, s.2.1) ops).1 s.2.2 f = shows s.1 s.2.2 f) ∧
      ∀ f, shows (run (s.1, s.2.2) ops).1 s.2.1 f = shows s.1 s.2.1 f := by
  obtain ⟨c1, c2, c3, c4, c5⟩ := copied (parse := parse) h0
  unfold deepCopy at h
  simp only at h
  obtain ⟨k1, k2, k3⟩ := caller_arrays (parse := parse) (isDate := isDate) (regular := regular) c1
  rw [h] at k1 k2 k3
  simp only at k1 k2
  have hcell : ∀ a, a < st.next → st'.cell a = st.cell a := by
    intro a ha
    rcases k2 a (by have := c2.next; omega) with hk | ⟨_, ⟨f, hf⟩, _⟩
    · rw [hk]; exact c2.old a ha
    · have := c4 f a hf
      omega
  have hshow : ∀ f, shows st' o f = shows st o f := by
    intro f
    unfold shows
    cases hf : o.ref f with
    | none => rfl
    | some a => simp [hcell a (h0.made f a hf)]
  refine ⟨hshow, ?_⟩
  have hex : Exists st' o := by
    refine ⟨fun f a hf => ?_, h0.kpi, h0.population⟩
    have h1 := h0.made f a hf
    have h2 := c2.next
    omega
  have hex' := (construct_view c1 h).1
  have hap : Apart o o' := by
    intro f g a hf hg
    have h1 := h0.made f a hf
    rcases k3 o' rfl g a hg with h2 | h2
    · have := c4 g a h2
      omega
    · have h3 := c2.next
      omega
  intro hs ops
  obtain ⟨h1, h2, h3⟩ := history_apart hex hex' hap hs
  exact ⟨(run_isolated h1 h2 h3 ops).2, (run_isolated h2 h1 h3.symm ops).2⟩

/-- **C103, not so for shallow copies**: an array of floats of the original is the array of the copy, and
what is changed in place in one is changed in the other; only the revenue per KPI of data with revenue as
KPI is another array. -/
theorem shallow_shared {st st' : Store} {o o' : Obj} (h0 : Exists st o)
    (h : shallowCopy parse isDate regular st o = (st', .ok o')) (f : Field) (c : Cell)
    (hs : shows st o f = some c) (hfl : Floats c) (hr : f = .revenuePerKpi → o.kpiType ≠ "revenue") (g : Cell → Cell) :
    shows (step (st', o') (.edit f g)).1 o f = shows (step (st', o') (.edit f g)).1 o' f ∧
    shows (step (st', o') (.edit f g)).1 o' f = (shows st' o' f).map g ∧
    shows (step (st', o) (.edit f g)).1 o' f = (shows st' o' f).map g := by
  unfold shows at hs
  cases hf : o.ref f with
  | none => rw [hf] at hs; cases hs
  | some a =>
    rw [hf] at hs
    simp only [Option.map_some, Option.some.injEq] at hs
    have hs' := (constructed_shares h0 h f a hf (hs ▸ hfl) hr).1
    unfold step shows
    simp [hf, hs', Store.write]

/-- Constructed again, consistent data are consistent. -/
theorem consistent_used {d : Input} (h : Consistent isDate regular d) (hg : 0 < (d.kpi.coord "geo").length)
    (ht : 0 < (d.kpi.coord "time").length) : Consistent isDate regular (used d) ∧ used (used d) = used d := by
  by_cases hk : d.kpiType = "revenue"
  · have hu : used d = { d with revenuePerKpi := some (ones d.kpi) } := by unfold used; rw [if_pos hk]
    have huu : used (used d) = used d := by
      rw [hu]
      unfold used
      simp [hk]
    refine ⟨⟨?_, ?_, ?_, ?_, ?_, ?_, ?_, ?_, ?_, ?_, ?_, ?_, ?_, ?_, ?_, ?_, ?_⟩, huu⟩
    · intro a ha hn
      have hcase : a = ones d.kpi ∨ InputData.Spec.Present (InputData.Spec.arrays d) a := by
        rw [hu] at ha
        simp only [InputData.Spec.Present, InputData.Spec.arrays, InputData.Spec.table, List.map_cons, List.map_nil,
          List.mem_cons, List.not_mem_nil, or_false, Option.some.injEq] at ha ⊢
        tauto
      rcases hcase with rfl | hp
      · simp only [ones] at hn
        exact absurd (List.eq_of_mem_replicate hn) (by simp)
      · exact h.noNa a hp hn
    · rw [hu]; exact h.kpiType
    · intro r hr
      rw [hu] at hr
      simp only [Option.some.injEq] at hr
      subst hr
      refine ⟨some 1, ?_, by simp⟩
      simp only [ones, List.mem_replicate, ne_eq, and_true]
      exact (Nat.mul_pos hg ht).ne'
    · rw [huu]; exact h.shape
    · rw [huu]
      have := h.geos
      rw [hu] at this ⊢
      exact this
    · rw [hu]; exact h.geosUnique
    · rw [huu]
      have := h.times
      rw [hu] at this ⊢
      exact this
    · rw [hu]; exact h.mediaChannels
    · rw [hu]; exact h.rfChannels
    · rw [hu]; exact h.organicRfChannels
    · rw [hu]; exact h.paid
    · have := h.channelsUnique
      rw [hu]
      exact this
    · rw [huu]; exact h.dates
    · rw [hu]; exact h.mediaTimes
    · rw [hu]; exact h.regularTimes
    · rw [hu]; exact h.regularMediaTimes
    · rw [huu]
      have := h.nonNegative
      rw [hu] at this ⊢
      exact this
  · have hu : used d = d := by unfold used; rw [if_neg hk]
    rw [hu, hu]
    exact ⟨h, rfl⟩

/-- **C103.** An object with at least one geo and one time can be copied, deep or not, and the copy shows
what it shows. -/
theorem copy_of_made {st st' : Store} {o o' : Obj} (h0 : Exists st o)
    (h : construct parse isDate regular st o = (st', .ok o'))
    (hg : 0 < ((view parse st o).kpi.coord "geo").length) (ht : 0 < ((view parse st o).kpi.coord "time").length) :
    (∃ s p, deepCopy parse isDate regular st' o' = (s, .ok p) ∧ view parse s p = view parse st' o') ∧
    ∃ s p, shallowCopy parse isDate regular st' o' = (s, .ok p) ∧ view parse s p = view parse st' o' := by
  obtain ⟨hex, hv, hgood⟩ := construct_view h0 h
  obtain ⟨_, hcon⟩ := (construct_iff h0).1 ⟨st', o', h⟩
  obtain ⟨hc, hu⟩ := consistent_used hcon hg ht
  have hread : ∀ f c, shows st' o' f = some c → Readable parse c := by
    intro f c hs
    obtain ⟨l, hl⟩ := (hgood f c hs).1
    unfold Readable
    rw [hl]
    trivial
  obtain ⟨d1, d2, d3⟩ := copies_exact (parse := parse) (isDate := isDate) (regular := regular) hex
  rw [hv] at d1 d2 d3
  constructor
  · obtain ⟨s, p, hp⟩ := d1.2 ⟨hread, hc⟩
    exact ⟨s, p, hp, by rw [(d3 s p (Or.inl hp)).2, hu, hv]⟩
  · obtain ⟨s, p, hp⟩ := d2.2 ⟨hread, hc⟩
    exact ⟨s, p, hp, by rw [(d3 s p (Or.inr hp)).2, hu, hv]⟩

/-! ### A case, and what is not so -/

/-- Coordinates of a small program. -/
private def coords : String → List String := fun c =>
  if c = "time" then ["2024-01-08", "2024-01-15"]
  else if c = "media_time" then ["2024-01-08", "2024-01-15"]
  else if c = "media_channel" then ["tv"]
  else if c = "rf_channel" then ["video"]
  else []

private def mk (name : String) (dims : List String) (vals : Vals) : Cell := ⟨name, dims, [.int 1, .text "b"], coords, vals⟩

/-- Arrays 0 to 3: KPI, population given as strings, media and spend. -/
private def demo : Store where
  next := 4
  cell a := match a with
    | 0 => mk "kpi" ["geo", "time"] (.floats [some 1, some 2, some 3, some 4])
    | 1 => mk "population" ["geo"] (.objects [.text "10", .num (some 20)])
    | 2 => mk "media" ["geo", "media_time", "media_channel"] (.floats [some 1, some 2, some 3, some 4])
    | _ => mk "media_spend" ["media_channel"] (.floats [some 7])

private def demoObj (type : String) : Obj where
  kpiType := type
  ref f := match f with
    | .kpi => some 0
    | .population => some 1
    | .media => some 2
    | .mediaSpend => some 3
    | _ => none

private def floatOf (s : String) : Option Num := if s = "10" then some (some 10) else none

private def date (s : String) : Bool := s.length == 10

private def two (l : List String) : Bool := decide (2 ≤ l.length)

private def isOk (r : Store × Except Err Obj) : Bool := match r.2 with
  | .ok _ => true
  | .error _ => false

private def get (r : Store × Except Err Obj) (f : Field) : Option (List Label × Vals) := match r.2 with
  | .ok o => (shows r.1 o f).map fun c => (c.geo, c.vals)
  | .error _ => none

private theorem demo_exists (t : String) : Exists demo (demoObj t) := by
  refine ⟨?_, by simp [demoObj], by simp [demoObj]⟩
  intro f a h
  cases f <;> simp [demoObj] at h <;> subst h <;> decide

/-- The object is made, as are its copies; the strings of the population are numbers and the label 1 is a
string; the caller's population is as it was. -/
example : isOk (construct floatOf date two demo (demoObj "revenue")) = true ∧
    isOk (deepCopy floatOf date two demo (demoObj "revenue")) = true ∧
    get (construct floatOf date two demo (demoObj "revenue")) .population =
      some ([.text "1", .text "b"], .floats [some 10, some 20]) ∧
    get (construct floatOf date two demo (demoObj "revenue")) .revenuePerKpi =
      some ([.text "1", .text "b"], .floats [some 1, some 1, some 1, some 1]) ∧
    ((construct floatOf date two demo (demoObj "revenue")).1.cell 1).geo = [.int 1, .text "b"] ∧
    ((deepCopy floatOf date two demo (demoObj "revenue")).1.cell 0).geo = [.int 1, .text "b"] ∧
    isOk (construct (fun _ => none) date two demo (demoObj "revenue")) = false ∧
    isOk (construct floatOf date two demo (demoObj "sales")) = false := by
  decide +kernel

/-- **C103, not so**: the constructor changes the labels of arrays of its caller, also if it raises. -/
theorem refused_yet_relabelled : ∃ (st : Store) (o : Obj) (a : ℕ), Exists st o ∧ a < st.next ∧
    (∃ e, (construct floatOf date two st o).2 = .error e) ∧
    (construct floatOf date two st o).1.cell a ≠ st.cell a := by
  refine ⟨demo, demoObj "sales", 0, demo_exists _, by decide, ⟨.data .kpiType, ?_⟩, ?_⟩
  · have : (match (construct floatOf date two demo (demoObj "sales")).2 with
      | .ok _ => none
      | .error e => some e) = some (Err.data .kpiType) := by decide +kernel
    split at this
    · cases this
    · rename_i e he
      cases this
      exact he
  · intro h
    have := congrArg Cell.geo h
    revert this
    decide +kernel

/-- **C103, not so**: if the KPI is revenue, an edit of the revenue per KPI is lost in a copy, whatever it was. -/
theorem copy_resets_revenue {st st' : Store} {o o' : Obj} (h0 : Exists st o)
    (h : deepCopy parse isDate regular st o = (st', .ok o')) (hk : o.kpiType = "revenue") :
    (view parse st' o').revenuePerKpi = some (ones (view parse st o).kpi) := by
  have hv := ((copies_exact (parse := parse) (isDate := isDate) (regular := regular) h0).2.2 st' o' (Or.inl h)).2
  rw [hv]
  unfold used
  rw [if_pos (show (view parse st o).kpiType = "revenue" from hk)]

/-! ### The single dataset -/

theorem mapM_id {α : Type} (l : List (Option α)) (r : List α) :
    l.mapM id = some r ↔ l = r.map some := by
  induction l generalizing r with
  | nil =>
    cases r <;> simp
  | cons x l ih =>
    rw [List.mapM_cons]
    cases x with
    | none => cases r <;> simp
    | some a =>
      cases hl : l.mapM id with
      | none =>
        constructor
        · intro h; simp at h
        · intro h
          cases r with
          | nil => simp at h
          | cons b r =>
            simp only [List.map_cons, List.cons.injEq] at h
            rw [(ih r).2 h.2] at hl
            cases hl
      | some ys =>
        have hy := (ih ys).1 hl
        constructor
        · intro h
          simp only [id, Option.bind_eq_bind, Option.bind_some, Option.pure_def, Option.some.injEq] at h
          rw [← h, List.map_cons, hy]
        · intro h
          cases r with
          | nil => simp at h
          | cons b r =>
            simp only [List.map_cons, List.cons.injEq, Option.some.injEq] at h
            have : ys = r := by
              have h2 := hy.symm.trans h.2
              exact List.map_injective_iff.2 (Option.some_injective _) h2
            simp [h.1, this]

/-- **C103.** The data can be turned into one dataset exactly if media has spend, reach has frequency and
spend, and organic reach has frequency; and it has all arrays of the data, if there is no spend or frequency
without media or reach. -/
theorem dataset_exact (d : Input) :
    ((∃ l, asDataset d = some l) ↔ (d.media.isSome → d.mediaSpend.isSome) ∧
      (d.reach.isSome → d.frequency.isSome ∧ d.rfSpend.isSome) ∧
      (d.organicReach.isSome → d.organicFrequency.isSome)) ∧
    ∀ l, asDataset d = some l →
      (∀ a ∈ l, InputData.Spec.Present (InputData.Spec.arrays d) a) ∧
      ((d.mediaSpend.isSome → d.media.isSome) → (d.frequency.isSome → d.reach.isSome) →
        (d.rfSpend.isSome → d.reach.isSome) → (d.organicFrequency.isSome → d.organicReach.isSome) →
        ∀ a, InputData.Spec.Present (InputData.Spec.arrays d) a → a ∈ l) := by
  have hite : ∀ (c : Bool) (x : Option Arr) (m : List (Option Arr)), x ∈ (if c then m else []) ↔ c = true ∧ x ∈ m := by
    intro c x m
    cases c <;> simp
  have hd : ∀ x, x ∈ datasetArrays d ↔ x = some d.kpi ∨ x = some d.population ∨
      (d.controls.isSome = true ∧ x = d.controls) ∨ (d.revenuePerKpi.isSome = true ∧ x = d.revenuePerKpi) ∨
      (d.media.isSome = true ∧ (x = d.media ∨ x = d.mediaSpend)) ∨
      (d.reach.isSome = true ∧ (x = d.reach ∨ x = d.frequency ∨ x = d.rfSpend)) ∨
      (d.organicMedia.isSome = true ∧ x = d.organicMedia) ∨
      (d.organicReach.isSome = true ∧ (x = d.organicReach ∨ x = d.organicFrequency)) ∨
      (d.nonMedia.isSome = true ∧ x = d.nonMedia) := by
    intro x
    unfold datasetArrays
    simp only [List.mem_append, hite, List.mem_cons, List.not_mem_nil, or_false, or_assoc]
  have hsome : ∀ x : List (Option Arr), (∃ l, x.mapM id = some l) ↔ ∀ y ∈ x, y.isSome = true := by
    intro x
    constructor
    · rintro ⟨l, hl⟩ y hy
      rw [mapM_id] at hl
      rw [hl] at hy
      obtain ⟨a, _, rfl⟩ := List.mem_map.1 hy
      rfl
    · intro hx
      simp only [mapM_id]
      induction x with
      | nil => exact ⟨[], rfl⟩
      | cons y x ih =>
        obtain ⟨l, hl⟩ := ih fun z hz => hx z (List.mem_cons_of_mem _ hz)
        obtain ⟨b, hb⟩ := Option.isSome_iff_exists.1 (hx y (List.mem_cons_self ..))
        exact ⟨b :: l, by rw [hb, hl]; rfl⟩
  constructor
  · unfold asDataset
    rw [hsome]
    constructor
    · intro h
      refine ⟨fun h1 => ?_, fun h1 => ⟨?_, ?_⟩, fun h1 => ?_⟩
      · exact h _ ((hd _).2 (by simp [h1]))
      · exact h _ ((hd _).2 (by simp [h1]))
      · exact h _ ((hd _).2 (by simp [h1]))
      · exact h _ ((hd _).2 (by simp [h1]))
    · rintro ⟨h1, h2, h3⟩ y hy
      rcases (hd y).1 hy with rfl | rfl | ⟨h, rfl⟩ | ⟨h, rfl⟩ | ⟨h, rfl | rfl⟩ | ⟨h, rfl | rfl | rfl⟩ | ⟨h, rfl⟩ |
        ⟨h, rfl | rfl⟩ | ⟨h, rfl⟩
      all_goals first | rfl | exact h | exact h1 h | exact (h2 h).1 | exact (h2 h).2 | exact h3 h
  · intro l hl
    have hmem : ∀ a, a ∈ l ↔ some a ∈ datasetArrays d := by
      intro a
      unfold asDataset at hl
      rw [mapM_id] at hl
      rw [hl]
      simp
    have hpres : ∀ a, InputData.Spec.Present (InputData.Spec.arrays d) a ↔
        some a = some d.kpi ∨ some a = some d.population ∨ some a = d.controls ∨ some a = d.revenuePerKpi ∨
        some a = d.media ∨ some a = d.mediaSpend ∨ some a = d.reach ∨ some a = d.frequency ∨ some a = d.rfSpend ∨
        some a = d.organicMedia ∨ some a = d.organicReach ∨ some a = d.organicFrequency ∨ some a = d.nonMedia := by
      intro a
      simp only [InputData.Spec.Present, InputData.Spec.arrays, InputData.Spec.table, List.map_cons, List.map_nil,
          List.mem_cons, List.not_mem_nil, or_false]
    constructor
    · intro a ha
      rw [hmem, hd] at ha
      rw [hpres]
      rcases ha with h | h | ⟨_, h⟩ | ⟨_, h⟩ | ⟨_, h | h⟩ | ⟨_, h | h | h⟩ | ⟨_, h⟩ | ⟨_, h | h⟩ | ⟨_, h⟩ <;>
        simp only [← h, true_or, or_true]
    · intro h1 h2 h3 h4 a ha
      rw [hmem, hd]
      have hs : ∀ x : Option Arr, some a = x → x.isSome = true := by rintro x rfl; rfl
      rcases (hpres a).1 ha with h | h | h | h | h | h | h | h | h | h | h | h | h
      all_goals have hx := hs _ h
      · exact Or.inl h
      · exact Or.inr (Or.inl h)
      · simp only [← h, Option.isSome_some, true_and, true_or, or_true]
      · simp only [← h, Option.isSome_some, true_and, true_or, or_true]
      · simp only [← h, Option.isSome_some, true_and, true_or, or_true]
      · simp only [h1 hx, ← h, true_and, true_or, or_true]
      · simp only [← h, Option.isSome_some, true_and, true_or, or_true]
      · simp only [h2 hx, ← h, true_and, true_or, or_true]
      · simp only [h3 hx, ← h, true_and, true_or, or_true]
      · simp only [← h, Option.isSome_some, true_and, true_or, or_true]
      · simp only [← h, Option.isSome_some, true_and, true_or, or_true]
      · simp only [h4 hx, ← h, true_and, true_or, or_true]
      · simp only [← h, Option.isSome_some, true_and, true_or, or_true]

private def shown : Arr := toArr floatOf (demo.cell 3)

private def spendOnly : Input where
  kpi := toArr floatOf (demo.cell 0)
  kpiType := "non_revenue"
  population := toArr floatOf (demo.cell 1)
  mediaSpend := some shown

private def mediaOnly : Input where
  kpi := toArr floatOf (demo.cell 0)
  kpiType := "non_revenue"
  population := toArr floatOf (demo.cell 1)
  media := some (toArr floatOf (demo.cell 2))

private def accepted (d : Input) : Bool := match InputData.validate date two d with
  | .ok _ => true
  | .error _ => false

/-- **C103, not so**: spend without media is left out, and media without spend, which is accepted, cannot be
turned into one dataset. -/
theorem dataset_of_odd_data :
    (∃ d l, asDataset d = some l ∧ d.mediaSpend = some shown ∧ ∀ a ∈ l, a.name ≠ shown.name) ∧
    ∃ d, asDataset d = none ∧ Consistent date two d := by
  refine ⟨⟨spendOnly, _, rfl, rfl, by decide +kernel⟩, mediaOnly, rfl, ?_⟩
  have h : accepted mediaOnly = true := by decide +kernel
  unfold accepted at h
  split at h
  · rename_i d e
    exact ((InputData.Props.accepted_iff _ _ _ _).1 e).1
  · cases h

/-! ### The scaled and centred KPI -/

/-- **C103.** The scaled and centred KPI has mean zero in each geo; it is the deviation of the KPI per head
from its mean in the geo, in units of the standard deviation over all geos and times, and zero if there is
no variation. -/
theorem scaled_exact {G T : ℕ} (hT : 0 < T) (kpi : Fin G → Fin T → ℝ) (population : Fin G → ℝ)
    (hp : ∀ g, population g ≠ 0) (g : Fin G) :
    ∑ t, scaledCentered kpi population g t = 0 ∧
    ∀ t, (overallStd (fun g t => kpi g t / population g) = 0 → scaledCentered kpi population g t = 0) ∧
      scaledCentered kpi population g t * overallStd (fun g t => kpi g t / population g) =
        if overallStd (fun g t => kpi g t / population g) = 0 then 0
        else kpi g t / population g - (∑ s, kpi g s / population g) / T := by
  have hx : perHead kpi population = fun g t => kpi g t / population g := by
    funext g t
    unfold perHead
    rw [if_pos (hp g)]
  have hT' : (T : ℝ) ≠ 0 := by exact_mod_cast hT.ne'
  constructor
  · unfold scaledCentered
    simp only
    rw [Finset.sum_sub_distrib, Finset.sum_const, Finset.card_univ, Fintype.card_fin, nsmul_eq_mul]
    field_simp
    ring
  · intro t
    unfold scaledCentered
    rw [hx]
    by_cases hs : overallStd (fun g t => kpi g t / population g) = 0
    · simp [hs]
    · simp only [ne_eq, hs, not_false_eq_true, if_true, if_false]
      refine ⟨fun h => h.elim, ?_⟩
      generalize overallMean (fun g t => kpi g t / population g) = m at *
      generalize overallStd (fun g t => kpi g t / population g) = d at *
      rw [sub_mul, div_mul_cancel₀ _ hs]
      rw [← Finset.sum_div, Finset.sum_sub_distrib, Finset.sum_const, Finset.card_univ, Fintype.card_fin,
        nsmul_eq_mul]
      field_simp
      ring

example : ∑ t, scaledCentered (fun _ : Fin 2 => ![1, 3]) ![2, 4] 0 t = 0 :=
  (scaled_exact (by decide) _ _ (by intro g; fin_cases g <;> norm_num) 0).1

end Verif.DataObject.Props
