import Verif.Spec.Archive
import Verif.Props.Rhat

/-!
# The samples and the convergence information of a saved model
-/

namespace Verif.Archive.Props

open Verif.Archive Verif.Archive.Spec
open Verif.Accuracy (Fl)
open Verif.Rhat (Tensor)
open Verif.Rhat.Spec (values known Below)

variable {V : Type} {cd : Codec V} {normal : Dataset V → Dataset V}

theorem bind_ok {ε α β : Type} {x : Except ε α} {f : α → Except ε β} {b : β} :
    x.bind f = .ok b ↔ ∃ a, x = .ok a ∧ f a = .ok b := by
  cases x <;> simp [Except.bind]

theorem map_ok {ε α β : Type} {x : Except ε α} {f : α → β} {b : β} :
    x.map f = .ok b ↔ ∃ a, x = .ok a ∧ f a = b := by
  cases x <;> simp [Except.map]

theorem removeCreatedAt_kept (hl : Lawful cd normal) (d : Dataset V) : Kept normal d (normal (removeCreatedAt d)) := by
  refine ⟨⟨removeCreatedAt d, rfl, rfl, (hl.attrs _).symm⟩, ?_, ?_⟩
  · intro v hv
    rw [hl.attrs] at hv
    simp [removeCreatedAt] at hv
  · intro k v hk
    rw [hl.attrs]
    simp [removeCreatedAt, hk]

/-- The groups that are neither prior nor posterior. -/
def others (g : Groups V) : Groups V := g.filter fun e => ¬ (e.1 = "prior" ∨ e.1 = "posterior")

theorem writeOthers_ok {g : Groups V} {l : List (String × List ℕ)} :
    writeOthers cd g = .ok l ↔
      List.Forall₂ (fun e b => b.1 = e.1 ∧ cd.write (removeCreatedAt e.2) = .ok b.2) (others g) l := by
  induction g generalizing l with
  | nil => simp [writeOthers, others, eq_comm]
  | cons e g ih =>
    obtain ⟨name, d⟩ := e
    unfold writeOthers
    by_cases h : name = "prior" ∨ name = "posterior"
    · rw [if_pos h, ih]
      have e1 : others ((name, d) :: g) = others g := by
        unfold others
        rw [List.filter_cons_of_neg (by simpa [imp_iff_not_or] using h)]
      rw [e1]
    · rw [if_neg h]
      have e1 : others ((name, d) :: g) = (name, d) :: others g := by
        unfold others
        rw [List.filter_cons_of_pos (by simpa using h)]
      rw [e1]
      simp only [bind, pure, Except.pure, bind_ok, List.forall₂_cons_left_iff]
      constructor
      · rintro ⟨b, hb, l', hl', h3⟩
        cases h3
        exact ⟨(name, b), l', ⟨rfl, hb⟩, ih.1 hl', rfl⟩
      · rintro ⟨⟨n', b⟩, l', ⟨rfl, hb⟩, h2, rfl⟩
        exact ⟨b, hb, l', ih.2 h2, rfl⟩

theorem put_new {g : Groups V} {name : String} (d : Dataset V) (h : name ∉ g.map (·.1)) : put g name d = g ++ [(name, d)] := by
  unfold put
  rw [if_neg]
  intro hh
  simp only [List.any_eq_true, beq_iff_eq] at hh
  obtain ⟨e, he, rfl⟩ := hh
  exact h (List.mem_map_of_mem he)

theorem readOthers_ok {g : Groups V} {l : List (String × List ℕ)} {ds : List (Dataset V)}
    (hr : List.Forall₂ (fun b d => cd.read b.2 = .ok d) l ds) (hnd : (g.map (·.1) ++ l.map (·.1)).Nodup) :
    readOthers cd g l = .ok (g ++ (l.map (·.1)).zip ds) := by
  induction hr generalizing g with
  | nil => simp [readOthers]
  | @cons b d l ds hb _ ih =>
    obtain ⟨name, b⟩ := b
    unfold readOthers
    simp only [bind]
    rw [hb]
    simp only [Except.bind]
    have hn : name ∉ g.map (·.1) := by
      intro h
      rw [List.nodup_append] at hnd
      exact hnd.2.2 _ h _ (by simp) rfl
    rw [put_new d hn, ih]
    · simp
    · simpa using hnd

/-- What is read from a message whose entries are distinct and readable. -/
theorem deserialize_ok {m : Message} {p q : Option (Dataset V)} {ds : List (Dataset V)}
    (hp : m.prior.elim (p = none) fun b => ∃ d, cd.read b = .ok d ∧ p = some d)
    (hq : m.posterior.elim (q = none) fun b => ∃ d, cd.read b = .ok d ∧ q = some d)
    (hr : List.Forall₂ (fun b d => cd.read b.2 = .ok d) m.auxiliary ds)
    (hnd : ("prior" :: "posterior" :: m.auxiliary.map (·.1)).Nodup) :
    deserialize cd m = .ok ((p.toList.map fun d => ("prior", d)) ++ (q.toList.map fun d => ("posterior", d)) ++
      (m.auxiliary.map (·.1)).zip ds) := by
  obtain ⟨mp, mq, aux⟩ := m
  have hn1 := (List.nodup_cons.1 hnd).1
  have hn2 := (List.nodup_cons.1 (List.nodup_cons.1 hnd).2).1
  have hn3 := (List.nodup_cons.1 (List.nodup_cons.1 hnd).2).2
  simp only [List.mem_cons, not_or] at hn1
  unfold deserialize
  simp only [bind] at *
  cases mp <;> cases mq
  all_goals
    simp only [Option.elim] at hp hq
  · subst hp; subst hq
    simp only [readGroup, Except.bind]
    rw [readOthers_ok hr (by simpa using hn3)]
    simp
  · subst hp
    obtain ⟨d, hd, rfl⟩ := hq
    simp only [readGroup, Except.bind, hd, Except.map]
    rw [put_new d (by simp), readOthers_ok hr (by exact List.nodup_cons.2 ⟨hn2, hn3⟩)]
    simp
  · subst hq
    obtain ⟨d, hd, rfl⟩ := hp
    simp only [readGroup, Except.bind, hd, Except.map]
    rw [put_new d (by simp), readOthers_ok hr (by exact List.nodup_cons.2 ⟨hn1.2, hn3⟩)]
    simp
  · obtain ⟨d, hd, rfl⟩ := hp
    obtain ⟨d', hd', rfl⟩ := hq
    simp only [readGroup, Except.bind, hd, hd', Except.map]
    rw [put_new d (by simp), put_new d' (by simp), readOthers_ok hr (by exact hnd)]
    simp

theorem writeGroup_ok {g : Groups V} {name : String} {p : Option (List ℕ)} :
    writeGroup cd g name = .ok p ↔
      (g.lookup name = none ∧ p = none) ∨ ∃ d b, g.lookup name = some d ∧ cd.write (removeCreatedAt d) = .ok b ∧ p = some b := by
  unfold writeGroup
  cases h : g.lookup name with
  | none => simp [eq_comm]
  | some d =>
    simp only [map_ok]
    constructor
    · rintro ⟨b, hb, rfl⟩
      exact Or.inr ⟨d, b, rfl, hb, rfl⟩
    · rintro (⟨h1, -⟩ | ⟨d', b, h1, hb, rfl⟩)
      · cases h1
      · cases h1
        exact ⟨b, hb, rfl⟩

theorem serialize_ok {g : Groups V} {m : Message} : serialize cd g = .ok m ↔
    writeGroup cd g "prior" = .ok m.prior ∧ writeGroup cd g "posterior" = .ok m.posterior ∧
      writeOthers cd g = .ok m.auxiliary := by
  unfold serialize
  simp only [bind, pure, Except.pure, bind_ok, Except.ok.injEq]
  constructor
  · rintro ⟨p, hp, q, hq, l, hl, rfl⟩
    exact ⟨hp, hq, hl⟩
  · rintro ⟨hp, hq, hl⟩
    exact ⟨_, hp, _, hq, _, hl, rfl⟩

theorem mem_of_lookup {g : Groups V} {name : String} {d : Dataset V} (h : g.lookup name = some d) : (name, d) ∈ g := by
  induction g with
  | nil => cases h
  | cons e g ih =>
    obtain ⟨n, d'⟩ := e
    rw [List.lookup_cons] at h
    split at h
    · next hh =>
      cases h
      rw [beq_iff_eq.1 hh]
      simp
    · exact List.mem_cons_of_mem _ (ih h)

theorem lookup_of_mem {g : Groups V} (hd : Distinct g) {name : String} {d : Dataset V} (h : (name, d) ∈ g) :
    g.lookup name = some d := by
  induction g with
  | nil => cases h
  | cons e g ih =>
    obtain ⟨n, d'⟩ := e
    have hd' : n ∉ g.map (·.1) ∧ Distinct g := by
      unfold Distinct at hd ⊢
      simpa using List.nodup_cons.1 hd
    rw [List.lookup_cons]
    rcases List.mem_cons.1 h with h | h
    · cases h; simp
    · have : ¬ name = n := fun hh => hd'.1 (hh ▸ List.mem_map_of_mem (f := (·.1)) h)
      have : (name == n) = false := by simpa using this
      rw [this]
      exact ih hd'.2 h

theorem lookup_none {g : Groups V} {name : String} (h : g.lookup name = none) (d : Dataset V) : (name, d) ∉ g := by
  intro hm
  induction g with
  | nil => cases hm
  | cons e g ih =>
    obtain ⟨n, d'⟩ := e
    rw [List.lookup_cons] at h
    split at h
    · cases h
    · next hh =>
      rcases List.mem_cons.1 hm with h' | h'
      · cases h'; simp at hh
      · exact ih h h'

theorem mem_others {g : Groups V} {e : String × Dataset V} :
    e ∈ others g ↔ e ∈ g ∧ e.1 ≠ "prior" ∧ e.1 ≠ "posterior" := by
  simp [others, not_or]

theorem others_distinct {g : Groups V} (h : Distinct g) : Distinct (others g) :=
  List.Nodup.sublist (List.Sublist.map _ (List.filter_sublist)) h

theorem exists_forall₂ {α β : Type} {P : α → β → Prop} (l : List α) (h : ∀ a ∈ l, ∃ b, P a b) : ∃ bs, List.Forall₂ P l bs := by
  induction l with
  | nil => exact ⟨[], .nil⟩
  | cons a l ih =>
    obtain ⟨b, hb⟩ := h a (by simp)
    obtain ⟨bs, hbs⟩ := ih fun x hx => h x (by simp [hx])
    exact ⟨b :: bs, .cons hb hbs⟩

theorem mem_zip_of_forall₂ {l : List (String × List ℕ)} {ds : List (Dataset V)} {P : String × List ℕ → Dataset V → Prop}
    (h : List.Forall₂ P l ds) {name : String} {d : Dataset V} (hm : (name, d) ∈ (l.map (·.1)).zip ds) :
    ∃ b, (name, b) ∈ l ∧ P (name, b) d := by
  induction h with
  | nil => cases hm
  | @cons e d' l ds hp _ ih =>
    simp only [List.map_cons, List.zip_cons_cons, List.mem_cons] at hm
    rcases hm with hm | hm
    · cases hm
      exact ⟨e.2, by simp, hp⟩
    · obtain ⟨b, hb, hb2⟩ := ih hm
      exact ⟨b, by simp [hb], hb2⟩

theorem map_zip_fst {α β γ : Type} {P : α → β → Prop} {f : α → γ} {l : List α} {ds : List β} (h : List.Forall₂ P l ds) :
    ((l.map f).zip ds).map (·.1) = l.map f := by
  induction h with
  | nil => rfl
  | cons _ _ ih => simp [ih]

theorem forall₂_names {g : Groups V} {l : List (String × List ℕ)}
    (h : List.Forall₂ (fun e b => b.1 = e.1 ∧ cd.write (removeCreatedAt e.2) = .ok b.2) g l) :
    l.map (·.1) = g.map (·.1) := by
  induction h with
  | nil => rfl
  | cons hp _ ih => simp [hp.1, ih]

theorem forall₂_mem {g : Groups V} {l : List (String × List ℕ)}
    (h : List.Forall₂ (fun e b => b.1 = e.1 ∧ cd.write (removeCreatedAt e.2) = .ok b.2) g l) {name : String} {b : List ℕ}
    (hb : (name, b) ∈ l) : ∃ d, (name, d) ∈ g ∧ cd.write (removeCreatedAt d) = .ok b := by
  induction h with
  | nil => cases hb
  | @cons e b' _ _ hp _ ih =>
    rcases List.mem_cons.1 hb with h | h
    · subst h
      obtain ⟨h1, h2⟩ := hp
      exact ⟨e.2, by simp [show name = e.1 from h1], h2⟩
    · obtain ⟨d, hd, hw⟩ := ih h
      exact ⟨d, by simp [hd], hw⟩

theorem remove_normal (hl : Lawful cd normal) (d : Dataset V) :
    cd.write (removeCreatedAt (normal (removeCreatedAt d))) = cd.write (removeCreatedAt d) := by
  have : removeCreatedAt (normal (removeCreatedAt d)) = normal (removeCreatedAt d) := by
    have h := hl.attrs (removeCreatedAt d)
    cases hh : normal (removeCreatedAt d) with
    | mk a b =>
      rw [hh] at h
      simp only at h
      unfold removeCreatedAt
      simp only [Dataset.mk.injEq, and_true]
      rw [h]
      simp [removeCreatedAt]
  rw [this, hl.again]

/-- The groups of samples of a saved model come back, in whatever order the entries of the map are visited: the same
names, each with its data and all attributes but the time of creation.  What was loaded is saved with the same bytes. -/
theorem samples_kept (hl : Lawful cd normal) (g : Groups V) (hd : Distinct g) (m : Message) (h : serialize cd g = .ok m)
    (visited : List (String × List ℕ)) (hv : visited.Perm m.auxiliary) :
    ∃ g', deserialize cd ⟨m.prior, m.posterior, visited⟩ = .ok g' ∧ Distinct g' ∧ SameGroups (Kept normal) g g' ∧
      serialize cd g' = .ok ⟨m.prior, m.posterior, visited⟩ := by
  obtain ⟨hp, hq, ho⟩ := serialize_ok.1 h
  rw [writeOthers_ok] at ho
  have hnames := forall₂_names ho
  have hrd : ∀ b ∈ visited, ∃ d, cd.read b.2 = .ok d ∧ ∃ e, (b.1, e) ∈ others g ∧ cd.write (removeCreatedAt e) = .ok b.2 ∧
      d = normal (removeCreatedAt e) := by
    intro b hb
    obtain ⟨e, he, hw⟩ := forall₂_mem ho (name := b.1) (b := b.2) (hv.mem_iff.1 hb)
    exact ⟨_, hl.read _ _ hw, e, he, hw, rfl⟩
  obtain ⟨ds, hds⟩ := exists_forall₂ visited hrd
  have hds1 : List.Forall₂ (fun b d => cd.read b.2 = .ok d) visited ds := hds.imp fun _ _ h => h.1
  have hvn : (visited.map (·.1)).Perm ((others g).map (·.1)) := hnames ▸ hv.map _
  have hnd : ("prior" :: "posterior" :: visited.map (·.1)).Nodup := by
    have h1 : ∀ n ∈ visited.map (·.1), n ≠ "prior" ∧ n ≠ "posterior" := by
      intro n hn
      obtain ⟨e, he, rfl⟩ := List.mem_map.1 (hvn.mem_iff.1 hn)
      exact (mem_others.1 he).2
    refine List.nodup_cons.2 ⟨?_, List.nodup_cons.2 ⟨fun hh => (h1 _ hh).2 rfl, ?_⟩⟩
    · intro hh
      rcases List.mem_cons.1 hh with hh | hh
      · exact absurd hh (by decide)
      · exact (h1 _ hh).1 rfl
    · exact hvn.nodup_iff.2 (others_distinct hd)
  have one : ∀ {name : String} {x : Option (List ℕ)}, writeGroup cd g name = .ok x → ∃ p : Option (Dataset V),
      (x.elim (p = none) fun b => ∃ d, cd.read b = .ok d ∧ p = some d) ∧
      p = (g.lookup name).map fun d => normal (removeCreatedAt d) := by
    intro name x hx
    rcases writeGroup_ok.1 hx with ⟨h1, rfl⟩ | ⟨d, b, h1, h2, rfl⟩
    · exact ⟨none, rfl, by rw [h1]; rfl⟩
    · exact ⟨some (normal (removeCreatedAt d)), ⟨_, hl.read _ _ h2, rfl⟩, by rw [h1]; rfl⟩
  obtain ⟨p, hp1, hp2⟩ := one hp
  obtain ⟨q, hq1, hq2⟩ := one hq
  have hres := deserialize_ok (m := ⟨m.prior, m.posterior, visited⟩) hp1 hq1 hds1 hnd
  simp only at hres
  set g' := (p.toList.map fun d => ("prior", d)) ++ (q.toList.map fun d => ("posterior", d)) ++ (visited.map (·.1)).zip ds
    with hg'
  have hn' : g'.map (·.1) = (p.toList.map fun _ => "prior") ++ (q.toList.map fun _ => "posterior") ++ visited.map (·.1) := by
    rw [hg', List.map_append, List.map_append, map_zip_fst hds]
    simp [List.map_map, Function.comp_def]
  have hdist : Distinct g' := by
    unfold Distinct
    rw [hn']
    refine List.Nodup.sublist (l₂ := "prior" :: "posterior" :: visited.map (·.1)) ?_ hnd
    cases p <;> cases q <;> simp
  -- the data of each group
  have hmem : ∀ name d', (name, d') ∈ g' → ∃ d, (name, d) ∈ g ∧ d' = normal (removeCreatedAt d) := by
    intro name d' hm
    rw [hg', List.mem_append, List.mem_append] at hm
    rcases hm with (hm | hm) | hm
    · obtain ⟨x, hx, he⟩ := List.mem_map.1 hm
      cases he
      rw [hp2, Option.mem_toList] at hx
      obtain ⟨d, h1, h2⟩ := Option.map_eq_some_iff.1 hx
      exact ⟨d, mem_of_lookup h1, h2.symm⟩
    · obtain ⟨x, hx, he⟩ := List.mem_map.1 hm
      cases he
      rw [hq2, Option.mem_toList] at hx
      obtain ⟨d, h1, h2⟩ := Option.map_eq_some_iff.1 hx
      exact ⟨d, mem_of_lookup h1, h2.symm⟩
    · obtain ⟨b, -, -, e, he, -, h3⟩ := mem_zip_of_forall₂ hds hm
      exact ⟨e, (mem_others.1 he).1, h3⟩
  refine ⟨g', hres, hdist, ⟨?_, ?_⟩, ?_⟩
  · rw [List.perm_ext_iff_of_nodup hd hdist]
    intro name
    rw [hn']
    constructor
    · intro hm
      obtain ⟨⟨n, d⟩, he, rfl⟩ := List.mem_map.1 hm
      simp only [List.mem_append, List.mem_map]
      by_cases h1 : n = "prior"
      · subst h1
        left; left
        exact ⟨normal (removeCreatedAt d), by rw [hp2, lookup_of_mem hd he]; simp, rfl⟩
      · by_cases h2 : n = "posterior"
        · subst h2
          left; right
          exact ⟨normal (removeCreatedAt d), by rw [hq2, lookup_of_mem hd he]; simp, rfl⟩
        · right
          have : n ∈ visited.map (·.1) := hvn.mem_iff.2 (List.mem_map.2 ⟨(n, d), mem_others.2 ⟨he, h1, h2⟩, rfl⟩)
          simpa using this
    · intro hm
      rw [← hn'] at hm
      obtain ⟨⟨n, d'⟩, he, rfl⟩ := List.mem_map.1 hm
      obtain ⟨d, h1, -⟩ := hmem _ _ he
      exact List.mem_map.2 ⟨_, h1, rfl⟩
  · intro name d d' h1 h2
    obtain ⟨d0, h3, rfl⟩ := hmem _ _ h2
    have : d = d0 := by
      have a := lookup_of_mem hd h1
      rw [lookup_of_mem hd h3] at a
      exact (Option.some.inj a).symm
    subst this
    exact removeCreatedAt_kept hl d
  · rw [serialize_ok]
    have grp : ∀ {name : String} {x : Option (List ℕ)} {p : Option (Dataset V)}, writeGroup cd g name = .ok x →
        p = ((g.lookup name).map fun d => normal (removeCreatedAt d)) → g'.lookup name = p → writeGroup cd g' name = .ok x := by
      intro name x p hx hp hl'
      rw [writeGroup_ok, hl', hp]
      rcases writeGroup_ok.1 hx with ⟨h1, rfl⟩ | ⟨d, b, h1, h2, rfl⟩
      · left; exact ⟨by rw [h1]; rfl, rfl⟩
      · right
        exact ⟨_, b, by rw [h1]; rfl, (remove_normal hl d).trans h2, rfl⟩
    refine ⟨grp hp hp2 ?_, grp hq hq2 ?_, ?_⟩
    · cases p with
      | some d => exact lookup_of_mem hdist (by rw [hg']; simp)
      | none =>
        cases hh : g'.lookup "prior" with
        | none => rfl
        | some d =>
          obtain ⟨d0, h1, -⟩ := hmem _ _ (mem_of_lookup hh)
          rw [lookup_of_mem hd h1] at hp2
          cases hp2
    · cases q with
      | some d => exact lookup_of_mem hdist (by rw [hg']; simp)
      | none =>
        cases hh : g'.lookup "posterior" with
        | none => rfl
        | some d =>
          obtain ⟨d0, h1, -⟩ := hmem _ _ (mem_of_lookup hh)
          rw [lookup_of_mem hd h1] at hq2
          cases hq2
    · rw [writeOthers_ok]
      have e1 : others g' = (visited.map (·.1)).zip ds := by
        have h1 : ∀ e ∈ (visited.map (·.1)).zip ds, ¬ (e.1 = "prior" ∨ e.1 = "posterior") := by
          rintro ⟨n, d⟩ he
          obtain ⟨b, -, -, x, hx, -⟩ := mem_zip_of_forall₂ hds he
          have := (mem_others.1 hx).2
          simp only at this
          simp [this.1, this.2]
        rw [hg']
        unfold others
        have h2 : ((visited.map (·.1)).zip ds).filter (fun e => ¬ (e.1 = "prior" ∨ e.1 = "posterior")) =
            (visited.map (·.1)).zip ds := List.filter_eq_self.2 fun e he => by simpa using h1 e he
        rw [List.filter_append, List.filter_append, h2]
        cases p <;> cases q <;> simp
      rw [e1]
      clear_value g'
      clear hres hdist hmem hn' e1 hvn hnd hds1 hg' hv hrd
      induction hds with
      | nil => exact .nil
      | @cons b d l ds hb _ ih =>
        refine .cons ⟨rfl, ?_⟩ ih
        obtain ⟨-, e, -, hw, rfl⟩ := hb
        exact (remove_normal hl e).trans hw

/-- A model is refused only if one of its groups cannot be written. -/
theorem refused_iff (g : Groups V) (hd : Distinct g) :
    (∃ m, serialize cd g = .ok m) ↔ ∀ name d, (name, d) ∈ g → ∃ b, cd.write (removeCreatedAt d) = .ok b := by
  constructor
  · rintro ⟨m, h⟩ name d hm
    obtain ⟨hp, hq, ho⟩ := serialize_ok.1 h
    have grp : ∀ {x}, writeGroup cd g name = .ok x → ∃ b, cd.write (removeCreatedAt d) = .ok b := by
      intro x hx
      rcases writeGroup_ok.1 hx with ⟨h1, -⟩ | ⟨d', b, h1, h2, -⟩
      · exact absurd hm (lookup_none h1 d)
      · rw [lookup_of_mem hd hm] at h1
        cases h1
        exact ⟨b, h2⟩
    by_cases h1 : name = "prior"
    · subst h1; exact grp hp
    · by_cases h2 : name = "posterior"
      · subst h2; exact grp hq
      · rw [writeOthers_ok] at ho
        have hin : (name, d) ∈ others g := mem_others.2 ⟨hm, h1, h2⟩
        clear hp hq h grp
        generalize others g = o at ho hin
        generalize m.auxiliary = aux at ho
        induction ho with
        | nil => cases hin
        | cons hb _ ih =>
          rcases List.mem_cons.1 hin with hh | hh
          · subst hh; exact ⟨_, hb.2⟩
          · exact ih hh
  · intro h
    have grp : ∀ name, ∃ x, writeGroup cd g name = .ok x := by
      intro name
      cases hh : g.lookup name with
      | none => exact ⟨none, writeGroup_ok.2 (Or.inl ⟨hh, rfl⟩)⟩
      | some d =>
        obtain ⟨b, hb⟩ := h _ _ (mem_of_lookup hh)
        exact ⟨some b, writeGroup_ok.2 (Or.inr ⟨d, b, hh, hb, rfl⟩)⟩
    obtain ⟨p, hp⟩ := grp "prior"
    obtain ⟨q, hq⟩ := grp "posterior"
    obtain ⟨l, hl⟩ := exists_forall₂ (P := fun (e : String × Dataset V) (b : String × List ℕ) =>
      b.1 = e.1 ∧ cd.write (removeCreatedAt e.2) = .ok b.2) (others g) (by
        rintro ⟨n, d⟩ he
        obtain ⟨b, hb⟩ := h n d (mem_others.1 he).1
        exact ⟨(n, b), rfl, hb⟩)
    exact ⟨⟨p, q, l⟩, serialize_ok.2 ⟨hp, hq, writeOthers_ok.2 hl⟩⟩

/-! ## Convergence -/

/-- The convergence information is there exactly if it was asked for and the model has posterior samples; then it has
the R-hat values of all parameters and the trace of the sampler, if there is one. -/
theorem info_present {T : Type} (wanted : Bool) (rhat : Option (List (String × Tensor))) (trace : Option T) :
    ((convergenceInfo wanted rhat trace).isSome ↔ wanted = true ∧ rhat.isSome) ∧
    ∀ c, convergenceInfo wanted rhat trace = some c → rhat = some c.rhats ∧ c.trace = trace := by
  unfold convergenceInfo
  cases wanted <;> cases rhat <;> simp

/-- The model is recorded as converged exactly if no R-hat value that is a number is above 10 billion. -/
theorem converged_iff {T : Type} (r : List (String × Tensor)) (trace : Option T) (c : Convergence T)
    (h : convergenceInfo true (some r) trace = some c) :
    c.converged = true ↔ ∀ x ∈ known (values r), ¬ Below (.fin (10 ^ 10)) x := by
  simp only [convergenceInfo, if_true, Option.some.injEq] at h
  subst h
  simp only [samplingFailed, Bool.not_eq_true', List.any_eq_false]
  constructor
  · intro h x hx
    have := h x (Rhat.Props.mem_known.1 hx).1
    rwa [Rhat.Props.gt_iff] at this
  · intro h x hx
    rw [Rhat.Props.gt_iff]
    by_cases hn : x.isNan = true
    · cases x <;> simp_all [Fl.isNan, Below, failure]
    · exact h x (Rhat.Props.mem_known.2 ⟨hx, by simpa using hn⟩)

/-- If the health check finds convergence, the saved model says so too (if the first parameter has an R-hat value). -/
theorem agrees_with_check {T : Type} (p : String × Tensor) (l : List (String × Tensor)) (hp : known p.2.flat ≠ [])
    (trace : Option T) (c : Convergence T) (h : convergenceInfo true (some (p :: l)) trace = some c)
    (hc : (Rhat.check ⟨.fin (6 / 5), .fin 10⟩ (p :: l)).case = .converged) : c.converged = true := by
  rw [converged_iff _ _ _ h]
  have := (Rhat.Props.check_spec (cfg := ⟨.fin (6 / 5), .fin 10⟩) rfl (by simp [Below]; norm_num) rfl (p := p) (l := l) hp).2.2.1.1 hc
  intro x hx
  have hb := this x hx
  cases x with
  | nan => simp [Below]
  | pinf => simp [Below] at hb
  | ninf => simp [Below]
  | fin q =>
    simp only [Below] at hb ⊢
    rw [not_lt]
    exact hb.le.trans (by norm_num)

/-- Finding: a model whose R-hat values are all a million, which the health check calls not converged, is recorded as
converged; so is one without any R-hat value. -/
theorem diverged_recorded_converged :
    (∃ c : Convergence Unit, convergenceInfo true (some [("beta_m", .vec [.fin 1000000, .fin 1000000])]) none = some c ∧
      c.converged = true) ∧
    (Rhat.check ⟨.fin (6 / 5), .fin 10⟩ [("beta_m", .vec [.fin 1000000, .fin 1000000])]).case = .notConverged ∧
    ∀ r : List (String × Tensor), known (values r) = [] →
      ∃ c : Convergence Unit, convergenceInfo true (some r) none = some c ∧ c.converged = true := by
  refine ⟨⟨_, rfl, by decide +kernel⟩, by decide +kernel, fun r hr => ⟨_, rfl, ?_⟩⟩
  rw [converged_iff r none _ rfl, hr]
  simp

/-! ## Cases that meet the hypotheses -/

/-- A format that writes the number in the body. -/
def demoCodec : Codec ℕ where
  write d := .ok (d.body :: d.attrs.map fun _ => 0)
  read b := .ok ⟨(b.drop 1).map fun _ => ("a", "b"), b.headD 0⟩

example : serialize demoCodec [("posterior", ⟨[("created_at", "now")], 5⟩), ("trace", ⟨[], 7⟩), ("prior", ⟨[("a", "b")], 3⟩)] =
    .ok ⟨some [3, 0], some [5], [("trace", [7])]⟩ := by decide +kernel

example : deserialize demoCodec ⟨some [3, 0], some [5], [("trace", [7])]⟩ =
    .ok [("prior", ⟨[("a", "b")], 3⟩), ("posterior", ⟨[], 5⟩), ("trace", ⟨[], 7⟩)] := by decide +kernel

example : Distinct ([("posterior", ⟨[], 5⟩), ("trace", ⟨[], 7⟩)] : Groups ℕ) := by unfold Distinct; decide +kernel

/-- A lawful format: it writes one data set only. -/
example : ∃ cd : Codec Unit, (∃ d, d.attrs = [("a", "b")] ∧ ∃ b, cd.write d = .ok b) ∧ Lawful cd id := by
  refine ⟨⟨fun d => if d = ⟨[("a", "b")], ()⟩ then .ok [1] else .error .write, fun b => if b = [1] then .ok ⟨[("a", "b")], ()⟩
    else .error .read⟩, ⟨⟨[("a", "b")], ()⟩, rfl, [1], by simp⟩, ?_, fun _ => rfl, fun _ => rfl⟩
  intro d b h
  simp only at h
  split_ifs at h with hd
  cases h
  simp [hd]

end Verif.Archive.Props
