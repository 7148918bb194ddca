import Mathlib.Data.List.Pairwise
import Verif.Spec.Builder

/-!
# The builder
-/

namespace Verif.Builder.Props

open Verif Verif.Builder Verif.Builder.Spec

variable {κ : Type}

/-! ## Helpers -/

theorem sameSet_iff {a b : List String} : sameSet a b = true ↔ ∀ x, x ∈ a ↔ x ∈ b := by
  simp only [sameSet, Bool.and_eq_true, List.all_eq_true, decide_eq_true_eq]
  exact ⟨fun h x => ⟨h.1 x, h.2 x⟩, fun h => ⟨fun x => (h x).1, fun x => (h x).2⟩⟩

theorem subset_iff {a b : List String} : subset a b = true ↔ ∀ x ∈ a, x ∈ b := by
  simp [subset]

theorem sorted_perm (l : List String) : (sorted l).Perm l := List.perm_insertionSort _ _

theorem sorted_sorted (l : List String) : (sorted l).Pairwise (· ≤ ·) :=
  List.pairwise_insertionSort _ _

theorem sorted_lt {l : List String} (h : l.Nodup) : (sorted l).Pairwise (· < ·) := by
  have h1 := sorted_sorted l
  have h2 : (sorted l).Nodup := (sorted_perm l).nodup_iff.2 h
  exact (h1.and h2).imp fun ⟨a, b⟩ => lt_of_le_of_ne a b

/-- The lagged media check. -/
theorem laggedOk_iff {m t : List String} (hm : m.Nodup) (hs : ∀ x ∈ t, x ∈ m) :
    laggedOk m t = true ↔ Lagged m t := by
  have hperm : ((m.filter fun x => decide (x ∉ t)) ++ (m.filter fun x => decide (x ∈ t))).Perm m := by
    have := List.filter_append_perm (fun x => decide (x ∉ t)) m
    simpa using this
  simp only [laggedOk, decide_eq_true_eq]
  constructor
  · intro h
    refine ⟨hs, fun a ha hat b hb => ?_⟩
    have hlt := sorted_lt hm
    have hsplit := List.take_append_drop (sorted (m.filter fun x => decide (x ∉ t))).length (sorted m)
    rw [← h] at hsplit
    rw [← hsplit, List.pairwise_append] at hlt
    refine hlt.2.2 a ((sorted_perm _).mem_iff.2 (by simp [ha, hat])) b ?_
    have hb' : b ∈ sorted m := (sorted_perm _).mem_iff.2 (hs b hb)
    rw [← hsplit, List.mem_append] at hb'
    rcases hb' with hb' | hb'
    · have := (sorted_perm _).mem_iff.1 hb'
      simp [hb] at this
    · exact hb'
  · intro ⟨_, h⟩
    have key : sorted m = sorted (m.filter fun x => decide (x ∉ t)) ++
        sorted (m.filter fun x => decide (x ∈ t)) := by
      refine List.Perm.eq_of_pairwise (le := (· ≤ ·)) (fun a b _ _ h1 h2 => le_antisymm h1 h2)
        (sorted_sorted m) ?_ ?_
      · rw [List.pairwise_append]
        refine ⟨sorted_sorted _, sorted_sorted _, fun a ha b hb => ?_⟩
        have ha' := (sorted_perm _).mem_iff.1 ha
        have hb' := (sorted_perm _).mem_iff.1 hb
        simp only [List.mem_filter, decide_eq_true_eq] at ha' hb'
        exact le_of_lt (h a ha'.1 ha'.2 b hb'.2)
      · exact (sorted_perm m).trans (hperm.symm.trans
          ((sorted_perm _).symm.append (sorted_perm _).symm))
    rw [key, List.take_left]


/-- What a setter checks. -/
structure Accepts (env : Env κ) (x : Comp × DA) (s : St) : Prop where
  unset : s.comps x.1 = none
  channels : ∀ p ∈ x.1.peers, ∀ e, s.comps p = some e → e.channels = x.2.channels
  dates : x.1.kind ≠ .noTime → ∀ t ∈ x.2.times, env.isDate t = true
  geos_nodup : (geosOf x).Nodup
  geos : ∀ g, s.geos = some g → ∀ a, a ∈ g ↔ a ∈ geosOf x
  times_nodup : x.1.kind ≠ .noTime → x.2.times.Nodup
  regular : x.1.kind ≠ .noTime → env.regular (sorted x.2.times) = true
  times : x.1.kind = .time → ∀ t, s.times = some t → ∀ a, a ∈ t ↔ a ∈ x.2.times
  lagged : x.1.kind = .time → ∀ m, s.mediaTimes = some m →
    (∀ a ∈ x.2.times, a ∈ m) ∧ laggedOk m x.2.times = true
  mediaTimes : x.1.kind = .mediaTime → ∀ m, s.mediaTimes = some m → ∀ a, a ∈ m ↔ a ∈ x.2.times
  lagged' : x.1.kind = .mediaTime → ∀ t, s.times = some t →
    (∀ a ∈ t, a ∈ x.2.times) ∧ laggedOk x.2.times t = true

/-- The state after an accepted call. -/
def after (x : Comp × DA) (s : St) : St where
  comps := fun c => if c = x.1 then some (normalize x.2) else s.comps c
  geos := some (geosOf x)
  times := if x.1.kind = .time then some x.2.times else s.times
  mediaTimes := if x.1.kind = .mediaTime then some x.2.times else s.mediaTimes

theorem any_not_iff {o : Option (List String)} {f : List String → Bool} :
    (o.any fun g => !f g) = true ↔ ¬ ∀ g, o = some g → f g = true := by
  cases o <;> simp

theorem setGeos_cases (s : St) (v : List String) :
    (v.Nodup ∧ (∀ g, s.geos = some g → ∀ a, a ∈ g ↔ a ∈ v) ∧
        setGeos s v = .ok { s with geos := some v }) ∨
      (¬ (v.Nodup ∧ ∀ g, s.geos = some g → ∀ a, a ∈ g ↔ a ∈ v) ∧ ∃ e, setGeos s v = .error e) := by
  have h2 : (s.geos.any fun g => !sameSet g v) = true ↔
      ¬ ∀ g, s.geos = some g → ∀ a, a ∈ g ↔ a ∈ v := by
    rw [any_not_iff]; simp only [sameSet_iff]
  unfold setGeos
  by_cases a : v.Nodup
  swap
  · exact Or.inr ⟨fun h => a h.1, _, if_pos a⟩
  rw [if_neg (not_not.2 a)]
  by_cases b : (s.geos.any fun g => !sameSet g v) = true
  · exact Or.inr ⟨fun h => h2.1 b h.2, _, if_pos b⟩
  · exact Or.inl ⟨a, not_not.1 fun h => b (h2.2 h), if_neg b⟩

theorem setTimes_cases (env : Env κ) (s : St) (v : List String) :
    let P := v.Nodup ∧ (∀ t, s.times = some t → ∀ a, a ∈ t ↔ a ∈ v) ∧
      (∀ m, s.mediaTimes = some m → (∀ a ∈ v, a ∈ m) ∧ laggedOk m v = true) ∧
      env.regular (sorted v) = true
    (P ∧ setTimes env s v = .ok { s with times := some v }) ∨
      (¬ P ∧ ∃ e, setTimes env s v = .error e) := by
  intro P
  have h1 : (s.times.any fun g => !sameSet g v) = true ↔
      ¬ ∀ g, s.times = some g → ∀ a, a ∈ g ↔ a ∈ v := by
    rw [any_not_iff]; simp only [sameSet_iff]
  have h2 : (s.mediaTimes.any fun g => !subset v g) = true ↔
      ¬ ∀ g, s.mediaTimes = some g → ∀ a ∈ v, a ∈ g := by
    rw [any_not_iff]; simp only [subset_iff]
  have h3 : (s.mediaTimes.any fun g => !laggedOk g v) = true ↔
      ¬ ∀ g, s.mediaTimes = some g → laggedOk g v = true := any_not_iff
  unfold setTimes
  by_cases a : v.Nodup
  swap
  · exact Or.inr ⟨fun h => a h.1, _, if_pos a⟩
  rw [if_neg (not_not.2 a)]
  by_cases b : (s.times.any fun t => !sameSet t v) = true
  · exact Or.inr ⟨fun h => h1.1 b h.2.1, _, if_pos b⟩
  rw [if_neg b]
  by_cases c : (s.mediaTimes.any fun m => !subset v m) = true
  · exact Or.inr ⟨fun h => h2.1 c fun g hg => (h.2.2.1 g hg).1, _, if_pos c⟩
  rw [if_neg c]
  by_cases d : (s.mediaTimes.any fun m => !laggedOk m v) = true
  · exact Or.inr ⟨fun h => h3.1 d fun g hg => (h.2.2.1 g hg).2, _, if_pos d⟩
  rw [if_neg d]
  by_cases e : env.regular (sorted v) = true
  swap
  · exact Or.inr ⟨fun h => e h.2.2.2, _, if_pos e⟩
  rw [if_neg (not_not.2 e)]
  refine Or.inl ⟨⟨a, not_not.1 fun h => b (h1.2 h), fun m hm => ⟨?_, ?_⟩, e⟩, rfl⟩
  · exact (not_not.1 fun h => c (h2.2 h)) m hm
  · exact (not_not.1 fun h => d (h3.2 h)) m hm

theorem setMediaTimes_cases (env : Env κ) (s : St) (v : List String) :
    let P := v.Nodup ∧ (∀ t, s.mediaTimes = some t → ∀ a, a ∈ t ↔ a ∈ v) ∧
      (∀ t, s.times = some t → (∀ a ∈ t, a ∈ v) ∧ laggedOk v t = true) ∧
      env.regular (sorted v) = true
    (P ∧ setMediaTimes env s v = .ok { s with mediaTimes := some v }) ∨
      (¬ P ∧ ∃ e, setMediaTimes env s v = .error e) := by
  intro P
  have h1 : (s.mediaTimes.any fun g => !sameSet g v) = true ↔
      ¬ ∀ g, s.mediaTimes = some g → ∀ a, a ∈ g ↔ a ∈ v := by
    rw [any_not_iff]; simp only [sameSet_iff]
  have h2 : (s.times.any fun g => !subset g v) = true ↔
      ¬ ∀ g, s.times = some g → ∀ a ∈ g, a ∈ v := by
    rw [any_not_iff]; simp only [subset_iff]
  have h3 : (s.times.any fun g => !laggedOk v g) = true ↔
      ¬ ∀ g, s.times = some g → laggedOk v g = true := any_not_iff
  unfold setMediaTimes
  by_cases a : v.Nodup
  swap
  · exact Or.inr ⟨fun h => a h.1, _, if_pos a⟩
  rw [if_neg (not_not.2 a)]
  by_cases b : (s.mediaTimes.any fun m => !sameSet m v) = true
  · exact Or.inr ⟨fun h => h1.1 b h.2.1, _, if_pos b⟩
  rw [if_neg b]
  by_cases c : (s.times.any fun t => !subset t v) = true
  · exact Or.inr ⟨fun h => h2.1 c fun g hg => (h.2.2.1 g hg).1, _, if_pos c⟩
  rw [if_neg c]
  by_cases d : (s.times.any fun t => !laggedOk v t) = true
  · exact Or.inr ⟨fun h => h3.1 d fun g hg => (h.2.2.1 g hg).2, _, if_pos d⟩
  rw [if_neg d]
  by_cases e : env.regular (sorted v) = true
  swap
  · exact Or.inr ⟨fun h => e h.2.2.2, _, if_pos e⟩
  rw [if_neg (not_not.2 e)]
  refine Or.inl ⟨⟨a, not_not.1 fun h => b (h1.2 h), fun m hm => ⟨?_, ?_⟩, e⟩, rfl⟩
  · exact (not_not.1 fun h => c (h2.2 h)) m hm
  · exact (not_not.1 fun h => d (h3.2 h)) m hm

theorem channelsOk_iff {s : St} {x : Comp × DA} : channelsOk s x.1 x.2 = true ↔
    ∀ p ∈ x.1.peers, ∀ e, s.comps p = some e → e.channels = x.2.channels := by
  simp only [channelsOk, List.all_eq_true]
  refine forall₂_congr fun p _ => ?_
  cases s.comps p <;> simp

/-- A setter succeeds exactly if its checks do, with the expected state. -/
theorem set_cases (env : Env κ) (x : Comp × DA) (s : St) :
    (Accepts env x s ∧ set env x.1 x.2 s = (none, after x s)) ∨
      (¬ Accepts env x s ∧ ∃ e s', set env x.1 x.2 s = (some e, s')) := by
  unfold set
  by_cases h1 : (s.comps x.1).isSome = true
  · refine Or.inr ⟨fun h => ?_, _, _, by rw [if_pos h1]⟩
    rw [h.unset] at h1; cases h1
  rw [if_neg h1]
  by_cases h2 : channelsOk s x.1 x.2 = true
  swap
  · exact Or.inr ⟨fun h => h2 (channelsOk_iff.2 h.channels), _, _, by rw [if_pos h2]⟩
  rw [if_neg (not_not.2 h2)]
  by_cases h3 : x.1.kind ≠ .noTime ∧ ¬ x.2.times.all env.isDate
  · refine Or.inr ⟨fun h => h3.2 ?_, _, _, by rw [if_pos h3]⟩
    simpa using h.dates h3.1
  rw [if_neg h3]
  have h3' : x.1.kind ≠ .noTime → ∀ t ∈ x.2.times, env.isDate t = true := by
    intro hk
    by_contra hc
    exact h3 ⟨hk, by simpa using hc⟩
  simp only
  rcases setGeos_cases (s.put x.1 (some (normalize x.2))) (normalize x.2).geos with
    ⟨g1, g2, g3⟩ | ⟨g1, e, g3⟩
  swap
  · refine Or.inr ⟨fun h => g1 ⟨h.geos_nodup, h.geos⟩, e, _, by rw [g3]⟩
  rw [g3]
  simp only
  unfold setKind
  have hun : s.comps x.1 = none := by simpa using h1
  cases hk : x.1.kind with
  | noTime =>
    refine Or.inl ⟨⟨hun, channelsOk_iff.1 h2, h3', g1, g2, ?_, ?_, ?_, ?_, ?_, ?_⟩, ?_⟩ <;>
      simp [hk, after, St.put, geosOf, normalize]
  | time =>
    simp only
    rcases setTimes_cases env { s.put x.1 (some (normalize x.2)) with
        geos := some (normalize x.2).geos } (normalize x.2).times with ⟨⟨t1, t2, t3, t4⟩, t5⟩ | ⟨t1, e, t5⟩
    · rw [t5]
      refine Or.inl ⟨⟨hun, channelsOk_iff.1 h2, h3', g1, g2, fun _ => t1, fun _ => t4, fun _ => t2,
        fun _ => t3, ?_, ?_⟩, ?_⟩ <;>
      simp [hk, after, St.put, geosOf, normalize]
    · rw [t5]
      have hk' : x.1.kind ≠ .noTime := by simp [hk]
      exact Or.inr ⟨fun h => t1 ⟨h.times_nodup hk', h.times hk, h.lagged hk, h.regular hk'⟩, e, _, rfl⟩
  | mediaTime =>
    simp only
    rcases setMediaTimes_cases env { s.put x.1 (some (normalize x.2)) with
        geos := some (normalize x.2).geos } (normalize x.2).times with ⟨⟨t1, t2, t3, t4⟩, t5⟩ | ⟨t1, e, t5⟩
    · rw [t5]
      refine Or.inl ⟨⟨hun, channelsOk_iff.1 h2, h3', g1, g2, fun _ => t1, fun _ => t4, ?_, ?_,
        fun _ => t2, fun _ => t3⟩, ?_⟩ <;>
      simp [hk, after, St.put, geosOf, normalize]
    · rw [t5]
      have hk' : x.1.kind ≠ .noTime := by simp [hk]
      exact Or.inr ⟨fun h => t1 ⟨h.times_nodup hk', h.mediaTimes hk, h.lagged' hk, h.regular hk'⟩, e, _,
        rfl⟩

/-! ## The state as a function of the components set so far -/

/-- The state after the components of `q` were set, the last one first. -/
def rep (q : List (Comp × DA)) : St where
  comps := fun c => (q.find? fun y => decide (y.1 = c)).map fun y => normalize y.2
  geos := q.head?.map geosOf
  times := (q.find? fun y => decide (y.1.kind = .time)).map fun y => y.2.times
  mediaTimes := (q.find? fun y => decide (y.1.kind = .mediaTime)).map fun y => y.2.times

theorem rep_nil : rep [] = St.init := rfl

theorem after_rep (x : Comp × DA) (q : List (Comp × DA)) : after x (rep q) = rep (x :: q) := by
  simp only [after, rep, List.head?_cons, Option.map_some, St.mk.injEq, true_and]
  refine ⟨?_, ?_, ?_⟩
  · funext c
    by_cases h : c = x.1
    · subst h; simp
    · have : ¬ x.1 = c := fun e => h e.symm
      simp [h, this]
  · by_cases h : x.1.kind = .time <;> simp [h]
  · by_cases h : x.1.kind = .mediaTime <;> simp [h]

theorem lagged_congr {m m' t t' : List String} (hm : ∀ a, a ∈ m ↔ a ∈ m') (ht : ∀ a, a ∈ t ↔ a ∈ t') :
    Lagged m t ↔ Lagged m' t' := by
  simp only [Lagged, hm, ht]

theorem peers_symm {c d : Comp} : c ∈ d.peers ↔ d ∈ c.peers := by
  cases c <;> cases d <;> decide

theorem compatible_symm {x y : Comp × DA} (h : Compatible x y) : Compatible y x where
  different := fun e => h.different e.symm
  geos := fun g => (h.geos g).symm
  times := fun e hn t => (h.times e.symm (e ▸ hn) t).symm
  lagged := fun a b => h.lagged' b a
  lagged' := fun a b => h.lagged b a
  channels := fun e => (h.channels (peers_symm.1 e)).symm

instance : Std.Symm Compatible := ⟨fun _ _ h => compatible_symm h⟩

theorem mem_find {q : List (Comp × DA)} {p : Comp × DA → Prop} [DecidablePred p] {y : Comp × DA}
    (hy : y ∈ q) (hp : p y) :
    ∃ z, q.find? (fun y => decide (p y)) = some z ∧ z ∈ q ∧ p z := by
  cases h : q.find? (fun y => decide (p y)) with
  | none => rw [List.find?_eq_none] at h; exact absurd (by simpa using hp) (h y hy)
  | some z => exact ⟨z, rfl, List.mem_of_find?_eq_some h, by simpa using List.find?_some h⟩

theorem eq_or_compatible {q : List (Comp × DA)} (hq : q.Pairwise Compatible) {y z : Comp × DA}
    (hy : y ∈ q) (hz : z ∈ q) : y = z ∨ Compatible y z := by
  by_cases h : y = z
  · exact Or.inl h
  · exact Or.inr (hq.forall hy hz h)

/-- A setter accepts a component exactly if it fits to the ones set so far. -/
theorem accepts_rep_iff {env : Env κ} {q : List (Comp × DA)} (hq : Consistent env q)
    (x : Comp × DA) :
    Accepts env x (rep q) ↔ WellFormed env x ∧ ∀ y ∈ q, Compatible x y := by
  constructor
  · intro h
    refine ⟨⟨h.geos_nodup, h.dates, h.times_nodup, h.regular⟩, fun y hy => ?_⟩
    have hsame : ∀ z ∈ q, z.1.kind = y.1.kind → y.1.kind ≠ .noTime →
        ∀ t, t ∈ z.2.times ↔ t ∈ y.2.times := by
      intro z hz hk hn t
      rcases eq_or_compatible hq.2 hz hy with rfl | hc
      · rfl
      · exact hc.times hk (hk ▸ hn) t
    refine ⟨?_, ?_, ?_, ?_, ?_, ?_⟩
    · intro e
      have := h.unset
      simp only [rep, Option.map_eq_none_iff, List.find?_eq_none, decide_eq_true_eq] at this
      exact this y hy e.symm
    · intro g
      cases q with
      | nil => cases hy
      | cons z q =>
        have h1 := h.geos (geosOf z) rfl g
        rcases eq_or_compatible hq.2 (List.mem_cons_self ..) hy with rfl | hc
        · exact h1.symm
        · exact h1.symm.trans (hc.geos g)
    · intro e hn t
      cases hk : y.1.kind with
      | noTime => exact absurd (e.trans hk) hn
      | time =>
        obtain ⟨z, hz, hzq, hzk⟩ := mem_find (p := fun y => y.1.kind = .time) hy hk
        have h1 := h.times (e.trans hk) z.2.times (by simp [rep, hz]) t
        exact h1.symm.trans (hsame z hzq (hzk.trans hk.symm) (by simp [hk]) t)
      | mediaTime =>
        obtain ⟨z, hz, hzq, hzk⟩ := mem_find (p := fun y => y.1.kind = .mediaTime) hy hk
        have h1 := h.mediaTimes (e.trans hk) z.2.times (by simp [rep, hz]) t
        exact h1.symm.trans (hsame z hzq (hzk.trans hk.symm) (by simp [hk]) t)
    · intro hx hyk
      obtain ⟨z, hz, hzq, hzk⟩ := mem_find (p := fun y => y.1.kind = .time) hy hyk
      have h1 := h.lagged' hx z.2.times (by simp [rep, hz])
      have h2 := (laggedOk_iff (h.times_nodup (by simp [hx])) h1.1).1 h1.2
      exact (lagged_congr (fun _ => Iff.rfl)
        (hsame z hzq (hzk.trans hyk.symm) (by simp [hyk]))).1 h2
    · intro hx hyk
      obtain ⟨z, hz, hzq, hzk⟩ := mem_find (p := fun y => y.1.kind = .mediaTime) hy hyk
      have h1 := h.lagged hx z.2.times (by simp [rep, hz])
      have h2 := (laggedOk_iff ((hq.1 z hzq).times_distinct (by simp [hzk])) h1.1).1 h1.2
      exact (lagged_congr (hsame z hzq (hzk.trans hyk.symm) (by simp [hyk]))
        (fun _ => Iff.rfl)).1 h2
    · intro hp
      obtain ⟨z, hz, hzq, hzk⟩ := mem_find (p := fun z => z.1 = y.1) hy rfl
      have hzy : z = y := by
        rcases eq_or_compatible hq.2 hzq hy with rfl | hc
        · rfl
        · exact absurd hzk hc.different
      subst hzy
      exact (h.channels z.1 (peers_symm.1 hp) (normalize z.2) (by simp [rep, hz])).symm
  · intro ⟨hw, hc⟩
    have hfind : ∀ {p : Comp × DA → Prop} [DecidablePred p] {o : List String},
        (q.find? fun y => decide (p y)).map (fun y => y.2.times) = some o →
        ∃ z ∈ q, p z ∧ z.2.times = o := by
      intro p _ o ho
      rw [Option.map_eq_some_iff] at ho
      obtain ⟨z, hz, rfl⟩ := ho
      exact ⟨z, List.mem_of_find?_eq_some hz, by simpa using List.find?_some hz, rfl⟩
    refine ⟨?_, ?_, hw.dates, hw.geos_distinct, ?_, hw.times_distinct, hw.times_regular, ?_, ?_, ?_,
      ?_⟩
    · simp only [rep, Option.map_eq_none_iff, List.find?_eq_none, decide_eq_true_eq]
      exact fun y hy e => (hc y hy).different e.symm
    · intro p hp e he
      simp only [rep, Option.map_eq_some_iff] at he
      obtain ⟨z, hz, rfl⟩ := he
      have hzp : z.1 = p := by simpa using List.find?_some hz
      exact ((hc z (List.mem_of_find?_eq_some hz)).channels (peers_symm.1 (hzp ▸ hp))).symm
    · intro g hg a
      cases q with
      | nil => cases hg
      | cons z q =>
        simp only [rep, List.head?_cons, Option.map_some, Option.some.injEq] at hg
        subst hg
        exact ((hc z (List.mem_cons_self ..)).geos a).symm
    · intro hk t ht a
      obtain ⟨z, hz, hzk, rfl⟩ := hfind ht
      exact ((hc z hz).times (hk.trans hzk.symm) (by simp [hk]) a).symm
    · intro hk m hm
      obtain ⟨z, hz, hzk, rfl⟩ := hfind hm
      have hl := (hc z hz).lagged' hk hzk
      exact ⟨hl.1, (laggedOk_iff ((hq.1 z hz).times_distinct (by simp [hzk])) hl.1).2 hl⟩
    · intro hk t ht a
      obtain ⟨z, hz, hzk, rfl⟩ := hfind ht
      exact ((hc z hz).times (hk.trans hzk.symm) (by simp [hk]) a).symm
    · intro hk t ht
      obtain ⟨z, hz, hzk, rfl⟩ := hfind ht
      have hl := (hc z hz).lagged hk hzk
      exact ⟨hl.1, (laggedOk_iff (hw.times_distinct (by simp [hk])) hl.1).2 hl⟩

theorem run_rep (env : Env κ) (l : List (Comp × DA)) : ∀ q, Consistent env q →
    (Consistent env (l.reverse ++ q) ∧ run env l (rep q) = .ok (rep (l.reverse ++ q))) ∨
      (¬ Consistent env (l.reverse ++ q) ∧ ∃ e, run env l (rep q) = .error e) := by
  induction l with
  | nil => exact fun q hq => Or.inl ⟨hq, rfl⟩
  | cons x l ih =>
    intro q hq
    rcases set_cases env x (rep q) with ⟨ha, hs⟩ | ⟨ha, e, s', hs⟩
    · rw [accepts_rep_iff hq] at ha
      have hq' : Consistent env (x :: q) :=
        ⟨List.forall_mem_cons.2 ⟨ha.1, hq.1⟩, List.pairwise_cons.2 ⟨ha.2, hq.2⟩⟩
      have := ih (x :: q) hq'
      simp only [run, hs, after_rep, List.reverse_cons, List.append_assoc, List.singleton_append]
      exact this
    · refine Or.inr ⟨fun hc => ha ((accepts_rep_iff hq x).2 ⟨?_, ?_⟩), e, by simp only [run, hs]⟩
      · exact hc.1 x (by simp)
      · have h2 := hc.2
        simp only [List.reverse_cons, List.append_assoc, List.singleton_append] at h2
        exact (List.pairwise_cons.1 (List.pairwise_append.1 h2).2.1).1

theorem consistent_perm {env : Env κ} {l l' : List (Comp × DA)} (h : l.Perm l') :
    Consistent env l ↔ Consistent env l' := by
  unfold Consistent
  rw [h.pairwise_iff (fun hab => compatible_symm hab)]
  simp only [h.mem_iff]

theorem consistent_nil (env : Env κ) : Consistent env [] := ⟨by simp, List.Pairwise.nil⟩

theorem run_init (env : Env κ) (l : List (Comp × DA)) :
    (Consistent env l ∧ run env l St.init = .ok (rep l.reverse)) ∨
      (¬ Consistent env l ∧ ∃ e, run env l St.init = .error e) := by
  have := run_rep env l [] (consistent_nil env)
  rw [List.append_nil, rep_nil, consistent_perm (List.reverse_perm l)] at this
  exact this

/-! ## Building -/

section build

variable [LinearOrder κ]

instance natTotal (env : Env κ) :
    Std.Total fun a b : String => env.natKey a ≤ env.natKey b := ⟨fun _ _ => le_total _ _⟩

instance natTrans (env : Env κ) :
    IsTrans String fun a b : String => env.natKey a ≤ env.natKey b := ⟨fun _ _ _ => le_trans⟩

theorem natsorted_perm (env : Env κ) (l : List String) : (natsorted env l).Perm l :=
  List.perm_insertionSort _ _

theorem natsorted_sorted (env : Env κ) (l : List String) :
    (natsorted env l).Pairwise fun a b => env.natKey a ≤ env.natKey b :=
  List.pairwise_insertionSort _ _

theorem natsorted_congr {env : Env κ} {l l' : List String} (h : l.Perm l')
    (hinj : ∀ a ∈ l, ∀ b ∈ l, env.natKey a = env.natKey b → a = b) :
    natsorted env l = natsorted env l' := by
  refine List.Perm.eq_of_pairwise (le := fun a b => env.natKey a ≤ env.natKey b) ?_
    (natsorted_sorted env l) (natsorted_sorted env l')
    ((natsorted_perm env l).trans (h.trans (natsorted_perm env l').symm))
  intro a b ha hb h1 h2
  exact hinj a ((natsorted_perm env l).mem_iff.1 ha) b
    (h.mem_iff.2 ((natsorted_perm env l').mem_iff.1 hb)) (le_antisymm h1 h2)

omit [LinearOrder κ] in
theorem missing_iff (has : Comp → Bool) : missing has = none ↔
    has .population = true ∧ has .media = has .mediaSpend ∧
      (has .reach = has .frequency ∧ has .reach = has .rfSpend) ∧
      has .organicReach = has .organicFrequency ∧ (has .media = true ∨ has .reach = true) := by
  unfold missing
  generalize has .population = a
  generalize has .media = b
  generalize has .mediaSpend = c
  generalize has .reach = d
  generalize has .frequency = e
  generalize has .rfSpend = f
  generalize has .organicReach = g
  generalize has .organicFrequency = h
  revert a b c d e f g h
  decide

omit [LinearOrder κ] in
theorem withPopulation_comps {s : St} {g : List String} {c : Comp} (hc : c ≠ .population) :
    (s.withPopulation g).comps c = s.comps c := by
  unfold St.withPopulation
  split_ifs with h
  · simp [St.put, hc]
  · rfl

omit [LinearOrder κ] in
/-- The final checks succeed exactly if the needed components are there. -/
theorem required_cases (s : St) :
    (∃ g, s.geos = some g ∧ Complete (fun c => (s.comps c).isSome = true) (g.length = 1) ∧
      required s = .ok (s.withPopulation g)) ∨
    ((∀ g, s.geos = some g → ¬ Complete (fun c => (s.comps c).isSome = true) (g.length = 1)) ∧
      ∃ e, required s = .error e) := by
  unfold required
  by_cases hk : (s.comps .kpi).isNone = true
  · rw [if_pos hk]
    refine Or.inr ⟨fun g _ h => ?_, _, rfl⟩
    have := h.kpi
    simp only [Option.isNone_iff_eq_none] at hk
    rw [hk] at this; cases this
  rw [if_neg hk]
  have hk' : (s.comps .kpi).isSome = true := by
    cases h : s.comps .kpi <;> simp_all
  cases hg : s.geos with
  | none => exact Or.inr ⟨fun g h => by simp at h, _, rfl⟩
  | some g =>
    simp only
    have hpop : ((s.withPopulation g).comps .population).isSome = true ↔
        g.length = 1 ∨ (s.comps .population).isSome = true := by
      unfold St.withPopulation
      split_ifs with h <;> simp [St.put, h]
    have hiff : (missing fun c => ((s.withPopulation g).comps c).isSome) = none ↔
        Complete (fun c => (s.comps c).isSome = true) (g.length = 1) := by
      rw [missing_iff]
      simp only [hpop, withPopulation_comps (s := s) (g := g) (c := .media) (by decide),
        withPopulation_comps (s := s) (g := g) (c := .mediaSpend) (by decide),
        withPopulation_comps (s := s) (g := g) (c := .reach) (by decide),
        withPopulation_comps (s := s) (g := g) (c := .frequency) (by decide),
        withPopulation_comps (s := s) (g := g) (c := .rfSpend) (by decide),
        withPopulation_comps (s := s) (g := g) (c := .organicReach) (by decide),
        withPopulation_comps (s := s) (g := g) (c := .organicFrequency) (by decide)]
      exact ⟨fun ⟨a, b, c, d, e⟩ => ⟨hk', a, Bool.eq_iff_iff.1 b,
          ⟨Bool.eq_iff_iff.1 c.1, Bool.eq_iff_iff.1 c.2⟩, Bool.eq_iff_iff.1 d, e⟩,
        fun h => ⟨h.population, Bool.eq_iff_iff.2 h.media,
          ⟨Bool.eq_iff_iff.2 h.rf.1, Bool.eq_iff_iff.2 h.rf.2⟩, Bool.eq_iff_iff.2 h.organic, h.paid⟩⟩
    cases hm : missing fun c => ((s.withPopulation g).comps c).isSome with
    | none => exact Or.inl ⟨g, rfl, hiff.1 hm, rfl⟩
    | some e =>
      refine Or.inr ⟨fun g' h h' => ?_, e, rfl⟩
      cases h
      rw [hiff.2 h'] at hm; cases hm

/-! ## The theorems -/

omit [LinearOrder κ] in
theorem rep_comps_some {env : Env κ} {q : List (Comp × DA)} (hq : Consistent env q) {x : Comp × DA}
    (hx : x ∈ q) : (rep q).comps x.1 = some (normalize x.2) := by
  obtain ⟨z, hz, hzq, hzk⟩ := mem_find (p := fun z => z.1 = x.1) hx rfl
  rcases eq_or_compatible hq.2 hzq hx with rfl | hc
  · simp [rep, hz]
  · exact absurd hzk hc.different

omit [LinearOrder κ] in
theorem rep_comps_isSome {q : List (Comp × DA)} {c : Comp} :
    ((rep q).comps c).isSome = true ↔ ∃ x ∈ q, x.1 = c := by
  simp [rep]

omit [LinearOrder κ] in
theorem rep_comps_mem {q : List (Comp × DA)} {c : Comp} {d : DA} (h : (rep q).comps c = some d) :
    ∃ x ∈ q, x.1 = c ∧ d = normalize x.2 := by
  simp only [rep, Option.map_eq_some_iff] at h
  obtain ⟨z, hz, rfl⟩ := h
  exact ⟨z, List.mem_of_find?_eq_some hz, by simpa using List.find?_some hz, rfl⟩

omit [LinearOrder κ] in
theorem rep_geos_some {env : Env κ} {q : List (Comp × DA)} (hq : Consistent env q) {x : Comp × DA}
    (hx : x ∈ q) : ∃ g, (rep q).geos = some g ∧ g.Nodup ∧ ∀ a, a ∈ g ↔ a ∈ geosOf x := by
  cases q with
  | nil => cases hx
  | cons z q =>
    refine ⟨geosOf z, rfl, (hq.1 z (List.mem_cons_self ..)).geos_distinct, ?_⟩
    rcases eq_or_compatible hq.2 (List.mem_cons_self ..) hx with rfl | hc
    · exact fun _ => Iff.rfl
    · exact hc.geos

omit [LinearOrder κ] in
theorem rep_times_some {env : Env κ} {q : List (Comp × DA)} (hq : Consistent env q) {x : Comp × DA}
    (hx : x ∈ q) (hk : x.1.kind = .time) :
    ∃ t, (rep q).times = some t ∧ t.Nodup ∧ ∀ a, a ∈ t ↔ a ∈ x.2.times := by
  obtain ⟨z, hz, hzq, hzk⟩ := mem_find (p := fun y => y.1.kind = .time) hx hk
  refine ⟨z.2.times, by simp [rep, hz], (hq.1 z hzq).times_distinct (by simp [hzk]), ?_⟩
  rcases eq_or_compatible hq.2 hzq hx with rfl | hc
  · exact fun _ => Iff.rfl
  · exact hc.times (hzk.trans hk.symm) (by simp [hzk])

omit [LinearOrder κ] in
theorem rep_mediaTimes_some {env : Env κ} {q : List (Comp × DA)} (hq : Consistent env q)
    {x : Comp × DA} (hx : x ∈ q) (hk : x.1.kind = .mediaTime) :
    ∃ t, (rep q).mediaTimes = some t ∧ t.Nodup ∧ ∀ a, a ∈ t ↔ a ∈ x.2.times := by
  obtain ⟨z, hz, hzq, hzk⟩ := mem_find (p := fun y => y.1.kind = .mediaTime) hx hk
  refine ⟨z.2.times, by simp [rep, hz], (hq.1 z hzq).times_distinct (by simp [hzk]), ?_⟩
  rcases eq_or_compatible hq.2 hzq hx with rfl | hc
  · exact fun _ => Iff.rfl
  · exact hc.times (hzk.trans hk.symm) (by simp [hzk])

omit [LinearOrder κ] in
theorem withPopulation_rest (s : St) (g : List String) :
    (s.withPopulation g).geos = s.geos ∧ (s.withPopulation g).times = s.times ∧
      (s.withPopulation g).mediaTimes = s.mediaTimes := by
  unfold St.withPopulation
  split_ifs <;> exact ⟨rfl, rfl, rfl⟩

/-- Two geo lists with the same elements. -/
theorem perm_of_nodup {a b : List String} (ha : a.Nodup) (hb : b.Nodup) (h : ∀ x, x ∈ a ↔ x ∈ b) :
    a.Perm b := (List.perm_ext_iff_of_nodup ha hb).2 h

/-- The result of building from a consistent set of components. -/
theorem build_cases {env : Env κ} {l : List (Comp × DA)} (hl : Consistent env l) :
    let q := l.reverse
    (∃ g t m, (rep q).geos = some g ∧ (rep q).times = some t ∧ (rep q).mediaTimes = some m ∧
      Complete (fun c => ∃ x ∈ l, x.1 = c) (g.length = 1) ∧
      build env (rep q) = .ok (fun c => (((rep q).withPopulation g).comps c).map
        (align (natsorted env g) (natsorted env t) (natsorted env m) c),
        (rep q).withPopulation g)) ∨
    ((∀ g, (rep q).geos = some g → ¬ Complete (fun c => ∃ x ∈ l, x.1 = c) (g.length = 1)) ∧
      ∃ e, build env (rep q) = .error e) := by
  intro q
  have hq : Consistent env q := (consistent_perm (List.reverse_perm l)).2 hl
  have hmem : ∀ {x}, x ∈ q ↔ x ∈ l := List.mem_reverse
  have hhas : (fun c => ((rep q).comps c).isSome = true) = fun c => ∃ x ∈ l, x.1 = c := by
    funext c
    simp only [rep_comps_isSome, hmem]
  have hreq := required_cases (rep q)
  rw [hhas] at hreq
  rcases hreq with ⟨g, hg, hc, hr⟩ | ⟨hn, e, hr⟩
  swap
  · exact Or.inr ⟨hn, e, by simp only [build, hr]⟩
  obtain ⟨xk, hxk, hxk'⟩ := hc.kpi
  obtain ⟨t, ht, -⟩ := rep_times_some hq (hmem.2 hxk) (by rw [hxk']; rfl)
  have hm : ∃ m, (rep q).mediaTimes = some m := by
    rcases hc.paid with ⟨x, hx, hx'⟩ | ⟨x, hx, hx'⟩ <;>
    · obtain ⟨m, hm, -⟩ := rep_mediaTimes_some hq (hmem.2 hx) (by rw [hx']; rfl)
      exact ⟨m, hm⟩
  obtain ⟨m, hm⟩ := hm
  refine Or.inl ⟨g, t, m, hg, ht, hm, hc, ?_⟩
  obtain ⟨r1, r2, r3⟩ := withPopulation_rest (rep q) g
  simp only [build, hr, r1, r2, r3, hg, ht, hm]
  refine if_pos ?_
  simp only [List.all_eq_true]
  intro c _
  by_cases hcp : c = .population ∧ g.length = 1
  · obtain ⟨rfl, hg1⟩ := hcp
    obtain ⟨g0, rfl⟩ := List.length_eq_one_iff.1 hg1
    simp [St.withPopulation, St.put, onesPopulation, reindexable, Comp.kind]
  · have heq : ((rep q).withPopulation g).comps c = (rep q).comps c := by
      by_cases h1 : c = .population
      · have h2 : ¬ g.length = 1 := fun h => hcp ⟨h1, h⟩
        simp [St.withPopulation, h2]
      · exact withPopulation_comps h1
    rw [heq]
    cases hd : (rep q).comps c with
    | none => rfl
    | some d =>
      obtain ⟨x, hx, rfl, rfl⟩ := rep_comps_mem hd
      have hw := hq.1 x hx
      simp only [Option.all_some, reindexable, Bool.and_eq_true, Bool.or_eq_true,
        decide_eq_true_eq]
      refine ⟨hw.geos_distinct, ?_⟩
      by_cases hk : x.1.kind = .noTime
      · exact Or.inl hk
      · exact Or.inr (hw.times_distinct hk)

omit [LinearOrder κ] in
/-- Whether the data are national: some component has a single geo. -/
theorem national_iff {env : Env κ} {l : List (Comp × DA)} (hl : Consistent env l) {g : List String}
    (hg : (rep l.reverse).geos = some g) {x : Comp × DA} (hx : x ∈ l) :
    g.length = 1 ↔ x.2.geos.length = 1 := by
  have hq : Consistent env l.reverse := (consistent_perm (List.reverse_perm l)).2 hl
  obtain ⟨g', hg', hn, hm⟩ := rep_geos_some hq (List.mem_reverse.2 hx)
  rw [hg] at hg'
  cases hg'
  have hp := (perm_of_nodup hn (hl.1 x hx).geos_distinct hm).length_eq
  rw [hp, geosOf, normGeos]
  split_ifs with h <;> simp [h]

/-- Setting components on a new builder and building succeeds exactly if the components fit
together and those a model needs are there. -/
theorem accepted_iff (env : Env κ) (l : List (Comp × DA)) :
    (∃ b, buildFrom env l = .ok b) ↔ Consistent env l ∧
      Complete (fun c => ∃ x ∈ l, x.1 = c) (∃ x ∈ l, x.2.geos.length = 1) := by
  unfold buildFrom
  rcases run_init env l with ⟨hl, hr⟩ | ⟨hl, e, hr⟩
  swap
  · simp [hr, hl]
  rw [hr]
  simp only [hl, true_and]
  have hnat : ∀ g, (rep l.reverse).geos = some g → ((g.length = 1) ↔ ∃ x ∈ l, x.2.geos.length = 1) := by
    intro g hg
    constructor
    · intro h
      cases hh : l.reverse with
      | nil => rw [hh] at hg; cases hg
      | cons x q =>
        have hx : x ∈ l := List.mem_reverse.1 (hh ▸ List.mem_cons_self ..)
        exact ⟨x, hx, (national_iff hl hg hx).1 h⟩
    · rintro ⟨x, hx, h⟩
      exact (national_iff hl hg hx).2 h
  rcases build_cases hl with ⟨g, t, m, hg, ht, hm, hc, hb⟩ | ⟨hn, e, hb⟩
  · rw [hb]
    refine ⟨fun _ => ?_, fun _ => ⟨_, rfl⟩⟩
    rw [← hnat g hg]; exact hc
  · rw [hb]
    refine ⟨fun ⟨b, hb'⟩ => (by cases hb'), fun hc => ?_⟩
    obtain ⟨x, hx, -⟩ := hc.kpi
    have hq : Consistent env l.reverse := (consistent_perm (List.reverse_perm l)).2 hl
    obtain ⟨g, hg, -⟩ := rep_geos_some hq (List.mem_reverse.2 hx)
    rw [← hnat g hg] at hc
    exact absurd hc (hn g hg)

omit [LinearOrder κ] in
theorem rep_same {env : Env κ} {l l' : List (Comp × DA)} (h : l.Perm l') (hl : Consistent env l) :
    (rep l.reverse).comps = (rep l'.reverse).comps := by
  have hp : l.reverse.Perm l'.reverse :=
    (List.reverse_perm l).trans (h.trans (List.reverse_perm l').symm)
  have hq : Consistent env l.reverse := (consistent_perm (List.reverse_perm l)).2 hl
  have hq' : Consistent env l'.reverse := (consistent_perm hp).1 hq
  funext c
  cases hc : (rep l.reverse).comps c with
  | some d =>
    obtain ⟨x, hx, rfl, rfl⟩ := rep_comps_mem hc
    rw [rep_comps_some hq' (hp.mem_iff.1 hx)]
  | none =>
    cases hc' : (rep l'.reverse).comps c with
    | none => rfl
    | some d =>
      obtain ⟨x, hx, rfl, rfl⟩ := rep_comps_mem hc'
      rw [rep_comps_some hq (hp.mem_iff.2 hx)] at hc
      cases hc

/-- The result does not depend on the order in which the components were set, provided that
`natsort` tells the labels apart. -/
theorem order_irrelevant (env : Env κ) {l l' : List (Comp × DA)} (h : l.Perm l')
    (hinj : Set.InjOn env.natKey {a | ∃ x ∈ l, a ∈ geosOf x ∨ a ∈ x.2.times}) :
    (buildFrom env l).toOption = (buildFrom env l').toOption := by
  by_cases hacc : Consistent env l ∧
      Complete (fun c => ∃ x ∈ l, x.1 = c) (∃ x ∈ l, x.2.geos.length = 1)
  swap
  · have hacc' : ¬ (Consistent env l' ∧
        Complete (fun c => ∃ x ∈ l', x.1 = c) (∃ x ∈ l', x.2.geos.length = 1)) := by
      simpa only [consistent_perm h, h.mem_iff] using hacc
    rw [← accepted_iff] at hacc hacc'
    cases h1 : buildFrom env l with
    | ok b => exact absurd ⟨b, h1⟩ hacc
    | error e =>
      cases h2 : buildFrom env l' with
      | ok b => exact absurd ⟨b, h2⟩ hacc'
      | error e' => rfl
  have hl := hacc.1
  have hl' := (consistent_perm h).1 hl
  have hq : Consistent env l.reverse := (consistent_perm (List.reverse_perm l)).2 hl
  have hq' : Consistent env l'.reverse := (consistent_perm (List.reverse_perm l')).2 hl'
  unfold buildFrom
  rcases run_init env l with ⟨-, hr⟩ | ⟨hn, -⟩
  swap
  · exact absurd hl hn
  rcases run_init env l' with ⟨-, hr'⟩ | ⟨hn, -⟩
  swap
  · exact absurd hl' hn
  rw [hr, hr']
  have hsame := rep_same h hl
  obtain ⟨xk, hxk, hxk'⟩ := hacc.2.kpi
  obtain ⟨G, hG, hGn, hGm⟩ := rep_geos_some hq (List.mem_reverse.2 hxk)
  obtain ⟨G', hG', hGn', hGm'⟩ := rep_geos_some hq' (List.mem_reverse.2 (h.mem_iff.1 hxk))
  have hGp : G.Perm G' := perm_of_nodup hGn hGn' fun a => (hGm a).trans (hGm' a).symm
  have hk : xk.1.kind = .time := by rw [hxk']; rfl
  obtain ⟨T, hT, hTn, hTm⟩ := rep_times_some hq (List.mem_reverse.2 hxk) hk
  obtain ⟨T', hT', hTn', hTm'⟩ := rep_times_some hq' (List.mem_reverse.2 (h.mem_iff.1 hxk)) hk
  have hTp : T.Perm T' := perm_of_nodup hTn hTn' fun a => (hTm a).trans (hTm' a).symm
  obtain ⟨xm, hxm, hxm'⟩ : ∃ x ∈ l, x.1.kind = .mediaTime := by
    rcases hacc.2.paid with ⟨x, hx, hx'⟩ | ⟨x, hx, hx'⟩ <;> exact ⟨x, hx, by rw [hx']; rfl⟩
  obtain ⟨M, hM, hMn, hMm⟩ := rep_mediaTimes_some hq (List.mem_reverse.2 hxm) hxm'
  obtain ⟨M', hM', hMn', hMm'⟩ := rep_mediaTimes_some hq' (List.mem_reverse.2 (h.mem_iff.1 hxm)) hxm'
  have hMp : M.Perm M' := perm_of_nodup hMn hMn' fun a => (hMm a).trans (hMm' a).symm
  have e1 : natsorted env G = natsorted env G' := natsorted_congr hGp fun a ha b hb hab =>
    hinj ⟨xk, hxk, Or.inl ((hGm a).1 ha)⟩ ⟨xk, hxk, Or.inl ((hGm b).1 hb)⟩ hab
  have e2 : natsorted env T = natsorted env T' := natsorted_congr hTp fun a ha b hb hab =>
    hinj ⟨xk, hxk, Or.inr ((hTm a).1 ha)⟩ ⟨xk, hxk, Or.inr ((hTm b).1 hb)⟩ hab
  have e3 : natsorted env M = natsorted env M' := natsorted_congr hMp fun a ha b hb hab =>
    hinj ⟨xm, hxm, Or.inr ((hMm a).1 ha)⟩ ⟨xm, hxm, Or.inr ((hMm b).1 hb)⟩ hab
  have e4 : ((rep l.reverse).withPopulation G).comps = ((rep l'.reverse).withPopulation G').comps := by
    unfold St.withPopulation
    rw [hGp.length_eq]
    split_ifs with h1
    · obtain ⟨g0, rfl⟩ := List.length_eq_one_iff.1 h1
      rw [List.perm_singleton.1 hGp]
      simp only [St.put, hsame]
    · exact hsame
  rcases build_cases hl with ⟨g, t, m, hg, ht, hm, hc, hb⟩ | ⟨hn, e, hb⟩
  swap
  · obtain ⟨b, hb'⟩ := (accepted_iff env l).2 hacc
    simp only [buildFrom, hr, hb] at hb'
    cases hb'
  rcases build_cases hl' with ⟨g', t', m', hg', ht', hm', hc', hb'⟩ | ⟨hn, e, hb'⟩
  swap
  · have hacc' : Consistent env l' ∧
        Complete (fun c => ∃ x ∈ l', x.1 = c) (∃ x ∈ l', x.2.geos.length = 1) := by
      simpa only [consistent_perm h, h.mem_iff] using hacc
    obtain ⟨b, hb2⟩ := (accepted_iff env l').2 hacc'
    simp only [buildFrom, hr', hb'] at hb2
    cases hb2
  rw [hg] at hG; rw [ht] at hT; rw [hm] at hM
  rw [hg'] at hG'; rw [ht'] at hT'; rw [hm'] at hM'
  cases hG; cases hT; cases hM; cases hG'; cases hT'; cases hM'
  simp only [hb, hb', e1, e2, e3, e4]
  rfl

theorem idx_lookup {l : List String} (hn : l.Nodup) {i : ℕ} {x : String} (h : l[i]? = some x) :
    position l (some x) = some i := by
  have hi : i < l.length := (List.getElem?_eq_some_iff.1 h).1
  have hx : l[i] = x := (List.getElem?_eq_some_iff.1 h).2
  have hmem : x ∈ l := hx ▸ List.getElem_mem hi
  simp only [position, hmem, if_true, Option.some.injEq]
  rw [← hx, hn.idxOf_getElem]

omit [LinearOrder κ] in
theorem align_sameValues {env : Env κ} {x : Comp × DA} (hw : WellFormed env x)
    {G T M : List String} (hG : ∀ a, a ∈ G ↔ a ∈ geosOf x)
    (hT : x.1.kind = .time → ∀ a, a ∈ T ↔ a ∈ x.2.times)
    (hM : x.1.kind = .mediaTime → ∀ a, a ∈ M ↔ a ∈ x.2.times) :
    SameValues (decide (x.1.kind ≠ .noTime)) x.2 (align G T M x.1 (normalize x.2)) := by
  have key : ∀ U : List String, (∀ a, a ∈ U ↔ a ∈ x.2.times) → x.1.kind ≠ .noTime →
      SameValues true x.2 (reindex (normalize x.2) G U true) := by
    intro U hU hk
    refine ⟨hG, fun _ => hU, rfl, ?_⟩
    intro i i' j j' k g t hg hg' ht
    simp only [reindex, normalize, if_true] at hg ht ⊢
    have h1 : position (normGeos x.2.geos) (some g) = some i' := idx_lookup hw.geos_distinct hg'
    rw [hg, ht.1, h1, idx_lookup (hw.times_distinct hk) ht.2]
  unfold align
  cases hk : x.1.kind with
  | noTime =>
    refine ⟨hG, by simp, rfl, ?_⟩
    intro i i' j j' k g t hg hg' ht
    simp only [ne_eq, not_true_eq_false, decide_false, Bool.false_eq_true, if_false] at ht
    subst ht
    simp only [reindex, normalize, Bool.false_eq_true, if_false] at hg ⊢
    have h1 : position (normGeos x.2.geos) (some g) = some i' := idx_lookup hw.geos_distinct hg'
    rw [hg, h1]
  | time => exact key T (hT hk) (by simp [hk])
  | mediaTime => exact key M (hM hk) (by simp [hk])

/-- The arrays given to `InputData` share their geos, times and media times, these are sorted, and
the times are the last media times. -/
theorem aligned (env : Env κ) {l : List (Comp × DA)} {b : Comp → Option DA}
    (h : buildFrom env l = .ok b)
    (hord : ∀ x ∈ l, ∀ a ∈ x.2.times, ∀ y ∈ l, ∀ c ∈ y.2.times, a < c →
      env.natKey a < env.natKey c) :
    ∃ G T M : List String,
      G.Pairwise (fun a c => env.natKey a ≤ env.natKey c) ∧ G.Nodup ∧
      T.Pairwise (· < ·) ∧ M.Pairwise (· < ·) ∧ (∃ k, T = M.drop k) ∧
      ∀ c d, b c = some d → d.geos = G ∧ (c.kind = .time → d.times = T) ∧
        (c.kind = .mediaTime → d.times = M) := by
  obtain ⟨hl, hcomp⟩ := (accepted_iff env l).1 ⟨b, h⟩
  have hq : Consistent env l.reverse := (consistent_perm (List.reverse_perm l)).2 hl
  unfold buildFrom at h
  rcases run_init env l with ⟨-, hr⟩ | ⟨hn, -⟩
  swap
  · exact absurd hl hn
  rw [hr] at h
  simp only at h
  rcases build_cases hl with ⟨g, t, m, hg, ht, hm, hc, hb⟩ | ⟨hn, e, hb⟩
  swap
  · rw [hb] at h; cases h
  rw [hb] at h
  simp only [Except.map, Except.ok.injEq] at h
  obtain ⟨xk, hxk, hxk'⟩ := hcomp.kpi
  obtain ⟨xm, hxm, hxm'⟩ : ∃ x ∈ l, x.1.kind = .mediaTime := by
    rcases hcomp.paid with ⟨x, hx, hx'⟩ | ⟨x, hx, hx'⟩ <;> exact ⟨x, hx, by rw [hx']; rfl⟩
  have hk : xk.1.kind = .time := by rw [hxk']; rfl
  obtain ⟨g', hg', hgn, hgm⟩ := rep_geos_some hq (List.mem_reverse.2 hxk)
  obtain ⟨t', ht', htn, htm⟩ := rep_times_some hq (List.mem_reverse.2 hxk) hk
  obtain ⟨m', hm', hmn, hmm⟩ := rep_mediaTimes_some hq (List.mem_reverse.2 hxm) hxm'
  rw [hg] at hg'; rw [ht] at ht'; rw [hm] at hm'
  cases hg'; cases ht'; cases hm'
  have hlag : Lagged m t := by
    have h0 : Compatible xm xk := by
      rcases eq_or_compatible hl.2 hxm hxk with rfl | h0
      · rw [hk] at hxm'; cases hxm'
      · exact h0
    exact (lagged_congr (fun a => (hmm a).symm) (fun a => (htm a).symm)).1 (h0.lagged hxm' hk)
  have strict : ∀ {u : List String} {x : Comp × DA}, x ∈ l → u.Nodup → (∀ a, a ∈ u ↔ a ∈ x.2.times) →
      (natsorted env u).Pairwise (· < ·) := by
    intro u x hx hu hux
    have h1 := natsorted_sorted env u
    have h2 : (natsorted env u).Nodup := (natsorted_perm env u).nodup_iff.2 hu
    refine List.Pairwise.imp_of_mem ?_ (h1.and h2)
    intro a c ha hc hac
    rcases lt_trichotomy a c with h3 | h3 | h3
    · exact h3
    · exact absurd h3 hac.2
    · have := hord x hx c ((hux c).1 ((natsorted_perm env u).mem_iff.1 hc)) x hx a
        ((hux a).1 ((natsorted_perm env u).mem_iff.1 ha)) h3
      exact absurd hac.1 (not_le.2 this)
  have hTs := strict hxk htn htm
  have hMs := strict hxm hmn hmm
  refine ⟨natsorted env g, natsorted env t, natsorted env m, natsorted_sorted env g,
    (natsorted_perm env g).nodup_iff.2 hgn, hTs, hMs, ?_, ?_⟩
  · -- the sorted media times are the extra ones followed by the times
    have hperm : ((m.filter fun x => decide (x ∉ t)) ++ t).Perm m := by
      refine perm_of_nodup ?_ hmn ?_
      · refine List.Nodup.append (hmn.filter _) htn ?_
        intro a ha hat
        simp [hat] at ha
      · intro a
        simp only [List.mem_append, List.mem_filter, decide_eq_true_eq]
        constructor
        · rintro (h1 | h1)
          · exact h1.1
          · exact hlag.1 a h1
        · intro h1
          by_cases h2 : a ∈ t
          · exact Or.inr h2
          · exact Or.inl ⟨h1, h2⟩
    have heq : natsorted env m =
        sorted (m.filter fun x => decide (x ∉ t)) ++ natsorted env t := by
      refine List.Perm.eq_of_pairwise (le := (· ≤ ·)) (fun a c _ _ h1 h2 => le_antisymm h1 h2)
        (hMs.imp le_of_lt) ?_ ?_
      · rw [List.pairwise_append]
        refine ⟨sorted_sorted _, hTs.imp le_of_lt, fun a ha c hc => ?_⟩
        have ha' := (sorted_perm _).mem_iff.1 ha
        simp only [List.mem_filter, decide_eq_true_eq] at ha'
        exact le_of_lt (hlag.2 a ha'.1 ha'.2 c ((natsorted_perm env t).mem_iff.1 hc))
      · exact (natsorted_perm env m).trans (hperm.symm.trans
          ((sorted_perm _).symm.append (natsorted_perm env t).symm))
    exact ⟨(sorted (m.filter fun x => decide (x ∉ t))).length, by rw [heq, List.drop_left]⟩
  · intro c d hd
    subst h
    rw [Option.map_eq_some_iff] at hd
    obtain ⟨e, -, rfl⟩ := hd
    refine ⟨?_, ?_, ?_⟩
    · unfold align; cases c.kind <;> rfl
    · intro hk; simp only [align, hk, reindex, if_true]
    · intro hk; simp only [align, hk, reindex, if_true]

/-- Every component is given to `InputData` with its own values under its own labels; other
components are absent; the population of a national model is one. -/
theorem values_kept (env : Env κ) {l : List (Comp × DA)} {b : Comp → Option DA}
    (h : buildFrom env l = .ok b) :
    (∀ x ∈ l, (x.1 = .population → x.2.geos.length ≠ 1) →
      ∃ d, b x.1 = some d ∧ SameValues (decide (x.1.kind ≠ .noTime)) x.2 d) ∧
    (∀ c d, b c = some d → (∃ x ∈ l, x.1 = c) ∨ c = .population ∧ ∃ x ∈ l, x.2.geos.length = 1) ∧
    ((∃ x ∈ l, x.2.geos.length = 1) → ∃ d, b .population = some d ∧ d.geos = [nationalGeo] ∧
      ∀ j k, d.vals 0 j k = some 1) := by
  obtain ⟨hl, hcomp⟩ := (accepted_iff env l).1 ⟨b, h⟩
  have hq : Consistent env l.reverse := (consistent_perm (List.reverse_perm l)).2 hl
  unfold buildFrom at h
  rcases run_init env l with ⟨-, hr⟩ | ⟨hn, -⟩
  swap
  · exact absurd hl hn
  rw [hr] at h
  simp only at h
  rcases build_cases hl with ⟨g, t, m, hg, ht, hm, hc, hb⟩ | ⟨hn, e, hb⟩
  swap
  · rw [hb] at h; cases h
  rw [hb] at h
  simp only [Except.map, Except.ok.injEq] at h
  subst h
  have hgx : ∀ x ∈ l, ∀ a, a ∈ g ↔ a ∈ geosOf x := by
    intro x hx
    obtain ⟨g', hg', -, hgm⟩ := rep_geos_some hq (List.mem_reverse.2 hx)
    rw [hg] at hg'; cases hg'
    exact hgm
  refine ⟨?_, ?_, ?_⟩
  · intro x hx hpop
    have heq : ((rep l.reverse).withPopulation g).comps x.1 = some (normalize x.2) := by
      rw [← rep_comps_some hq (List.mem_reverse.2 hx)]
      by_cases h1 : x.1 = .population
      · have h2 : ¬ g.length = 1 := fun h2 => hpop h1 ((national_iff hl hg hx).1 h2)
        simp [St.withPopulation, h2]
      · exact withPopulation_comps h1
    refine ⟨_, by simp only [heq]; rfl, align_sameValues (hl.1 x hx) ?_ ?_ ?_⟩
    · intro a
      rw [(natsorted_perm env g).mem_iff]; exact hgx x hx a
    · intro hk a
      obtain ⟨t', ht', -, htm⟩ := rep_times_some hq (List.mem_reverse.2 hx) hk
      rw [ht] at ht'; cases ht'
      rw [(natsorted_perm env t).mem_iff]; exact htm a
    · intro hk a
      obtain ⟨t', ht', -, htm⟩ := rep_mediaTimes_some hq (List.mem_reverse.2 hx) hk
      rw [hm] at ht'; cases ht'
      rw [(natsorted_perm env m).mem_iff]; exact htm a
  · intro c d hd
    rw [Option.map_eq_some_iff] at hd
    obtain ⟨e, he, -⟩ := hd
    by_cases h1 : c = .population ∧ g.length = 1
    · obtain ⟨x, hx, -⟩ := hcomp.kpi
      exact Or.inr ⟨h1.1, x, hx, (national_iff hl hg hx).1 h1.2⟩
    · have heq : ((rep l.reverse).withPopulation g).comps c = (rep l.reverse).comps c := by
        by_cases h2 : c = .population
        · have h3 : ¬ g.length = 1 := fun h => h1 ⟨h2, h⟩
          simp [St.withPopulation, h3]
        · exact withPopulation_comps h2
      rw [heq] at he
      obtain ⟨x, hx, hxc, -⟩ := rep_comps_mem he
      exact Or.inl ⟨x, List.mem_reverse.1 hx, hxc⟩
  · rintro ⟨x, hx, hx1⟩
    have h1 := (national_iff hl hg hx).2 hx1
    obtain ⟨g0, rfl⟩ := List.length_eq_one_iff.1 h1
    have h2 := (hgx x hx nationalGeo).2 (by simp [geosOf, normGeos, hx1])
    simp only [List.mem_singleton] at h2
    subst h2
    simp only [St.withPopulation, List.length_singleton, if_true, St.put, Option.map_some]
    refine ⟨_, rfl, ?_, ?_⟩
    · simp [align, Comp.kind, reindex, natsorted]
    · intro j k
      simp [align, Comp.kind, reindex, natsorted, onesPopulation, position]

/-- Building twice gives the same arrays. -/
theorem build_twice (env : Env κ) {s s' : St} {b : Comp → Option DA}
    (h : build env s = .ok (b, s')) : build env s' = .ok (b, s') := by
  unfold build at h
  rcases required_cases s with ⟨g, hg, hc, hr⟩ | ⟨-, e, hr⟩
  swap
  · rw [hr] at h; cases h
  have hidem : (s.withPopulation g).withPopulation g = s.withPopulation g := by
    unfold St.withPopulation
    split_ifs with h1
    · simp only [St.put, St.mk.injEq, and_true]
      funext x
      split_ifs <;> rfl
    · rfl
  have hr2 : required (s.withPopulation g) = .ok (s.withPopulation g) := by
    have hg2 : (s.withPopulation g).geos = some g := by rw [(withPopulation_rest s g).1, hg]
    rcases required_cases (s.withPopulation g) with ⟨g', hg', -, hr'⟩ | ⟨hn, -⟩
    · rw [hg2] at hg'; cases hg'
      rw [hr', hidem]
    · refine absurd ?_ (hn g hg2)
      refine ⟨?_, ?_, ?_, ?_, ?_, ?_⟩
      · rw [withPopulation_comps (by decide)]; exact hc.kpi
      · by_cases h1 : g.length = 1
        · exact Or.inl h1
        · rcases hc.population with h2 | h2
          · exact absurd h2 h1
          · simp only [St.withPopulation, h1, if_false]
            exact Or.inr h2
      · rw [withPopulation_comps (by decide), withPopulation_comps (by decide)]; exact hc.media
      · rw [withPopulation_comps (by decide), withPopulation_comps (by decide),
          withPopulation_comps (by decide)]
        exact hc.rf
      · rw [withPopulation_comps (by decide), withPopulation_comps (by decide)]; exact hc.organic
      · rw [withPopulation_comps (by decide), withPopulation_comps (by decide)]; exact hc.paid
  rw [hr] at h
  simp only at h
  have hs : s' = s.withPopulation g := by
    split at h
    · split_ifs at h with h2
      cases h
      rfl
    · cases h
  subst hs
  unfold build
  rw [hr2]
  exact h

/-- If two geos have the same `natsort` key, the order of the geos depends on the order of the
calls. -/
theorem tied_labels_order_dependent (env : Env κ) {a b : String} {u : List String} (hab : a ≠ b)
    (hkey : env.natKey a = env.natKey b) (hu : u.Nodup) (hd : ∀ t ∈ u, env.isDate t = true)
    (hreg : env.regular (sorted u) = true) :
    ∃ l l' : List (Comp × DA), l.Perm l' ∧ ∃ r r' d d', buildFrom env l = .ok r ∧
      buildFrom env l' = .ok r' ∧ r .kpi = some d ∧ r' .kpi = some d' ∧
      d.geos = [b, a] ∧ d'.geos = [a, b] := by
  set v : ℕ → ℕ → ℕ → Num := fun _ _ _ => some 1
  set kpi : Comp × DA := (.kpi, ⟨[a, b], u, [], v⟩)
  set pop : Comp × DA := (.population, ⟨[b, a], [], [], v⟩)
  set med : Comp × DA := (.media, ⟨[a, b], u, ["c"], v⟩)
  set spend : Comp × DA := (.mediaSpend, ⟨[a, b], u, ["c"], v⟩)
  have hlag : Lagged u u := ⟨fun _ h => h, fun m hm hn => absurd hm hn⟩
  have hl : Consistent env [kpi, med, spend, pop] := by
    refine ⟨?_, ?_⟩
    · intro x hx
      simp only [List.mem_cons, List.not_mem_nil, or_false] at hx
      rcases hx with rfl | rfl | rfl | rfl
      · exact ⟨by simp [geosOf, kpi, normGeos, hab], fun _ => hd, fun _ => hu, fun _ => hreg⟩
      · exact ⟨by simp [geosOf, med, normGeos, hab], fun _ => hd, fun _ => hu, fun _ => hreg⟩
      · exact ⟨by simp [geosOf, spend, normGeos, hab], fun _ => hd, fun _ => hu, fun _ => hreg⟩
      · exact ⟨by simp [geosOf, pop, normGeos, hab.symm], by simp [pop, Comp.kind],
          by simp [pop, Comp.kind], by simp [pop, Comp.kind]⟩
    · simp only [List.pairwise_cons, List.mem_cons, List.not_mem_nil, or_false, forall_eq_or_imp,
        forall_eq, false_imp_iff, implies_true, List.Pairwise.nil, and_true]
      refine ⟨⟨?_, ?_, ?_⟩, ⟨?_, ?_⟩, ?_⟩ <;>
      refine ⟨?_, ?_, ?_, ?_, ?_, ?_⟩ <;>
      simp [kpi, med, spend, pop, Comp.kind, Comp.peers, geosOf, normGeos, hlag, or_comm]
  have hp : [kpi, med, spend, pop].Perm [med, spend, pop, kpi] :=
    (List.perm_append_comm (l₁ := [kpi]) (l₂ := [med, spend, pop]))
  have hl' := (consistent_perm hp).1 hl
  have hcomp : ∀ P, Complete (fun c => ∃ x ∈ [kpi, med, spend, pop], x.1 = c) P := by
    intro P
    refine ⟨?_, Or.inr ?_, ?_, ?_, ?_, Or.inl ?_⟩ <;> simp [kpi, med, spend, pop]
  have hcomp' : ∀ P, Complete (fun c => ∃ x ∈ [med, spend, pop, kpi], x.1 = c) P := by
    simpa only [hp.mem_iff] using hcomp
  have hsort : ∀ x y : String, env.natKey x = env.natKey y → natsorted env [x, y] = [x, y] := by
    intro x y h
    simp [natsorted, h]
  refine ⟨_, _, hp, ?_⟩
  rcases build_cases hl with ⟨g, t, m, hg, ht, hm, hc, hb⟩ | ⟨hn, e, hb⟩
  swap
  · exact absurd (hcomp _) (hn [b, a] (by simp [rep, geosOf, pop, normGeos]))
  rcases build_cases hl' with ⟨g', t', m', hg', ht', hm', hc', hb'⟩ | ⟨hn, e, hb'⟩
  swap
  · exact absurd (hcomp' _) (hn [a, b] (by simp [rep, geosOf, kpi, normGeos]))
  have hgv : g = [b, a] := by
    have : (rep [kpi, med, spend, pop].reverse).geos = some [b, a] := by
      simp [rep, geosOf, pop, normGeos]
    rw [this] at hg; exact (Option.some.inj hg).symm
  have hgv' : g' = [a, b] := by
    have : (rep [med, spend, pop, kpi].reverse).geos = some [a, b] := by
      simp [rep, geosOf, kpi, normGeos]
    rw [this] at hg'; exact (Option.some.inj hg').symm
  subst hgv hgv'
  rcases run_init env [kpi, med, spend, pop] with ⟨-, hr⟩ | ⟨hn, -⟩
  swap
  · exact absurd hl hn
  rcases run_init env [med, spend, pop, kpi] with ⟨-, hr'⟩ | ⟨hn, -⟩
  swap
  · exact absurd hl' hn
  refine ⟨_, _, align (natsorted env [b, a]) (natsorted env t) (natsorted env m) .kpi (normalize kpi.2),
    align (natsorted env [a, b]) (natsorted env t') (natsorted env m') .kpi (normalize kpi.2),
    by simp only [buildFrom, hr, hb]; rfl, by simp only [buildFrom, hr', hb']; rfl, ?_, ?_, ?_, ?_⟩
  · simp only
    rw [withPopulation_comps (by decide), rep_comps_some (x := kpi)
      ((consistent_perm (List.reverse_perm _)).2 hl) (by simp)]
    rfl
  · simp only
    rw [withPopulation_comps (by decide), rep_comps_some (x := kpi)
      ((consistent_perm (List.reverse_perm _)).2 hl') (by simp)]
    rfl
  · simp [align, Comp.kind, reindex, hsort b a hkey.symm]
  · simp [align, Comp.kind, reindex, hsort a b hkey]

end build

/-- A component rejected for its geos or times stays in the builder: it cannot be replaced. -/
theorem rejected_component_kept (env : Env κ) {c : Comp} {d : DA} {s s' : St} {e : Err}
    (h : set env c d s = (some e, s')) (he : e ≠ .alreadySet ∧ e ≠ .channelMismatch ∧
      e ≠ .timeFormat) :
    s'.comps c = some (normalize d) ∧ ∀ d', set env c d' s' = (some .alreadySet, s') := by
  have h1 : s'.comps c = some (normalize d) := by
    unfold set at h
    by_cases h1 : (s.comps c).isSome = true
    · rw [if_pos h1] at h; cases h; exact absurd rfl he.1
    rw [if_neg h1] at h
    by_cases h2 : ¬ channelsOk s c d = true
    · rw [if_pos h2] at h; cases h; exact absurd rfl he.2.1
    rw [if_neg h2] at h
    by_cases h3 : c.kind ≠ .noTime ∧ ¬ d.times.all env.isDate = true
    · rw [if_pos h3] at h; cases h; exact absurd rfl he.2.2
    · rw [if_neg h3] at h
      simp only at h
      cases hg : setGeos (s.put c (some (normalize d))) (normalize d).geos with
      | error e' => rw [hg] at h; cases h; simp [St.put]
      | ok s2 =>
        rw [hg] at h
        simp only at h
        have h2 : s2.comps c = some (normalize d) := by
          unfold setGeos at hg
          split_ifs at hg
          cases hg
          simp [St.put]
        cases hk : setKind env s2 c (normalize d) with
        | error e' => rw [hk] at h; cases h; exact h2
        | ok s3 => rw [hk] at h; cases h
  refine ⟨h1, fun d' => ?_⟩
  simp [set, h1]

/-- Setting components and going on after a rejection. -/
def runCatching (env : Env κ) (l : List (Comp × DA)) (s : St) : St :=
  l.foldl (fun s x => (set env x.1 x.2 s).2) s

/-- Weekly dates in January; `natsort` by the string itself. -/
def env0 : Env String where
  isDate := fun _ => true
  regular := fun l => decide (l ≠ [])
  natKey := fun s => s

/-- The components of a small geo model, with one extra media week. -/
def kpi0 : Comp × DA := (.kpi, ⟨["b", "a"], ["2024-01-15", "2024-01-08"], [], fun i j _ => some (10 * i + j : ℕ)⟩)
@[inherit_doc kpi0] def pop0 : Comp × DA := (.population, ⟨["a", "b"], [], [], fun i _ _ => some (i + 1 : ℕ)⟩)
@[inherit_doc kpi0] def media0 : Comp × DA :=
  (.media, ⟨["a", "b"], ["2024-01-01", "2024-01-08", "2024-01-15"], ["tv"], fun _ _ _ => some 1⟩)
@[inherit_doc kpi0] def spend0 : Comp × DA :=
  (.mediaSpend, ⟨["a", "b"], ["2024-01-08", "2024-01-15"], ["tv"], fun _ _ _ => some 2⟩)

/-- Media spend for one more geo. -/
def extraSpend : Comp × DA :=
  (.mediaSpend, ⟨["a", "b", "c"], ["2024-01-08", "2024-01-15"], ["tv"], fun i _ _ => some (i : ℕ)⟩)

/-- Summary of a result: the geos and times of the arrays. -/
def shape {ε : Type} (r : Except ε (Comp → Option DA)) (c : Comp) :
    Option (List String × List String × List Num) :=
  match r with
  | .error _ => none
  | .ok b => (b c).map fun d => (d.geos, d.times,
      (List.range d.geos.length).flatMap fun i => (List.range d.times.length).map fun j => d.vals i j 0)

-- the components fit together: their build succeeds, sorted and aligned, with the values moved
-- along
example : shape (buildFrom env0 [kpi0, pop0, media0, spend0]) .kpi =
    some (["a", "b"], ["2024-01-08", "2024-01-15"], [some 11, some 10, some 1, some 0]) := by
  decide +kernel
example : shape (buildFrom env0 [media0, spend0, kpi0, pop0]) .kpi =
    shape (buildFrom env0 [kpi0, pop0, media0, spend0]) .kpi := by decide +kernel
example : (shape (buildFrom env0 [kpi0, pop0, media0, spend0]) .media).map (fun d => d.2.1) =
    some ["2024-01-01", "2024-01-08", "2024-01-15"] := by decide +kernel

/-- A rejected component is used all the same: media spend for an unknown geo is rejected with an
error, cannot be corrected, and a later build silently drops the extra geo. -/
theorem rejected_component_used :
    let s := runCatching env0 [kpi0, pop0, media0] St.init
    (set env0 extraSpend.1 extraSpend.2 s).1 = some .geosMismatch ∧
    (set env0 spend0.1 spend0.2 (set env0 extraSpend.1 extraSpend.2 s).2).1 = some .alreadySet ∧
    shape ((build env0 (set env0 extraSpend.1 extraSpend.2 s).2).map Prod.fst) .mediaSpend =
      some (["a", "b"], ["2024-01-08", "2024-01-15"], [some 0, some 0, some 1, some 1]) := by
  decide +kernel

-- the hypotheses of `tied_labels_order_dependent`
example : ∃ (env : Env ℕ) (a b : String) (u : List String), a ≠ b ∧ env.natKey a = env.natKey b ∧
    u.Nodup ∧ (∀ t ∈ u, env.isDate t = true) ∧ env.regular (sorted u) = true :=
  ⟨⟨fun _ => true, fun _ => true, fun s => s.toList.foldl (fun n c => 10 * n + (c.toNat - 48)) 0⟩, "01", "1", ["2024-01-01", "2024-01-08"],
    by decide, by decide +kernel, by decide, by simp, rfl⟩

end Verif.Builder.Props
