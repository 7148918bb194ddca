import Verif.Spec.Consumer
import Mathlib.Tactic

/-!
# C86: running analyses on a trained model
-/

namespace Verif.Consumer.Props

open Verif.Consumer Verif.Consumer.Spec

section Generic

variable {τ α ε ρ ο : Type} [DecidableEq τ]

theorem keys_insert (s : Consumer.Spec τ α) (l : List (τ × List (Consumer.Spec τ α))) :
    (insertSpec s l).map Prod.fst = if s.cls ∈ l.map Prod.fst then l.map Prod.fst else l.map Prod.fst ++ [s.cls] := by
  induction l with
  | nil => simp [insertSpec]
  | cons p l ih =>
    obtain ⟨t, v⟩ := p
    simp only [insertSpec]
    by_cases h : t = s.cls
    · rw [if_pos h]; simp [h]
    · rw [if_neg h]
      have h' : ¬ s.cls = t := fun e => h e.symm
      simp only [List.map_cons, ih, List.mem_cons, h', false_or]
      split_ifs <;> simp

theorem nodup_insert (s : Consumer.Spec τ α) {l : List (τ × List (Consumer.Spec τ α))}
    (h : (l.map Prod.fst).Nodup) : ((insertSpec s l).map Prod.fst).Nodup := by
  rw [keys_insert]
  split_ifs with hc
  · exact h
  · rw [List.nodup_append]
    exact ⟨h, by simp, by rintro a ha b hb rfl; simp at hb; subst hb; exact hc ha⟩

/-- After inserting, the entry of a class is the old one, with the spec at the end if it is its class. -/
theorem mem_insert (s : Consumer.Spec τ α) {l : List (τ × List (Consumer.Spec τ α))}
    (h : (l.map Prod.fst).Nodup) (t : τ) (v : List (Consumer.Spec τ α)) :
    (t, v) ∈ insertSpec s l ↔
      (t ≠ s.cls ∧ (t, v) ∈ l) ∨
      (t = s.cls ∧ ((∃ w, (t, w) ∈ l ∧ v = w ++ [s]) ∨ (t ∉ l.map Prod.fst ∧ v = [s]))) := by
  induction l with
  | nil => simp [insertSpec]
  | cons p l ih =>
    obtain ⟨u, w⟩ := p
    simp only [List.map_cons, List.nodup_cons] at h
    have ih := ih h.2
    simp only [insertSpec]
    by_cases hu : u = s.cls
    · rw [if_pos hu]
      subst hu
      have hnot : ∀ x, (s.cls, x) ∉ l := fun x hx => h.1 (List.mem_map.2 ⟨_, hx, rfl⟩)
      simp only [List.mem_cons, Prod.mk.injEq, List.map_cons]
      constructor
      · rintro (⟨rfl, rfl⟩ | hm)
        · exact .inr ⟨rfl, .inl ⟨w, .inl ⟨rfl, rfl⟩, rfl⟩⟩
        · refine .inl ⟨?_, .inr hm⟩
          rintro rfl; exact hnot _ hm
      · rintro (⟨h1, ⟨h2, -⟩ | h2⟩ | ⟨rfl, ⟨x, ⟨-, rfl⟩ | hx, rfl⟩ | ⟨hx, -⟩⟩)
        · exact absurd h2 h1
        · exact .inr h2
        · exact .inl ⟨rfl, rfl⟩
        · exact absurd hx (hnot _)
        · simp at hx
    · rw [if_neg hu]
      simp only [List.mem_cons, Prod.mk.injEq, ih, List.map_cons]
      constructor
      · rintro (⟨rfl, rfl⟩ | ⟨h1, h2⟩ | ⟨rfl, ⟨x, hx, rfl⟩ | ⟨hx, rfl⟩⟩)
        · exact .inl ⟨hu, .inl ⟨rfl, rfl⟩⟩
        · exact .inl ⟨h1, .inr h2⟩
        · exact .inr ⟨rfl, .inl ⟨x, .inr hx, rfl⟩⟩
        · refine .inr ⟨rfl, .inr ⟨?_, rfl⟩⟩
          rintro (h | h)
          · exact hu h.symm
          · exact hx h
      · rintro (⟨h1, ⟨rfl, rfl⟩ | h2⟩ | ⟨rfl, ⟨x, ⟨rfl, rfl⟩ | hx, rfl⟩ | ⟨hx, rfl⟩⟩)
        · exact .inl ⟨rfl, rfl⟩
        · exact .inr (.inl ⟨h1, h2⟩)
        · exact absurd rfl hu
        · exact .inr (.inr ⟨rfl, .inl ⟨x, hx, rfl⟩⟩)
        · exact .inr (.inr ⟨rfl, .inr ⟨fun h => hx (.inr h), rfl⟩⟩)

/-- **C86 (grouping).** The classes of the specs appear once each; the group of a class is exactly the specs
of that class, in the order given. -/
theorem groups_exact (specs : List (Consumer.Spec τ α)) :
    ((group specs).map Prod.fst).Nodup ∧
    ∀ t l, (t, l) ∈ group specs ↔ l = ofClass t specs ∧ l ≠ [] := by
  induction specs using List.reverseRecOn with
  | nil =>
    refine ⟨by simp [group], fun t l => ?_⟩
    simp only [group, List.foldl_nil, List.not_mem_nil, ofClass, List.filter_nil, false_iff]
    rintro ⟨rfl, h⟩; exact h rfl
  | append_singleton specs s ih =>
    obtain ⟨i1, i2⟩ := ih
    have e : group (specs ++ [s]) = insertSpec s (group specs) := by simp [group]
    rw [e]
    refine ⟨nodup_insert s i1, fun t l => ?_⟩
    rw [mem_insert s i1]
    have hf : ofClass t (specs ++ [s]) = ofClass t specs ++ (if s.cls = t then [s] else []) := by
      unfold ofClass
      rw [List.filter_append]
      by_cases h : s.cls = t <;> simp [h]
    rw [hf]
    by_cases ht : t = s.cls
    · subst ht
      simp only [ne_eq, not_true_eq_false, false_and, true_and, false_or, if_pos]
      constructor
      · rintro (⟨w, hw, rfl⟩ | ⟨hn, rfl⟩)
        · obtain ⟨rfl, -⟩ := (i2 _ _).1 hw
          exact ⟨rfl, by simp⟩
        · have : ofClass s.cls specs = [] := by
            by_contra hc
            exact hn (List.mem_map.2 ⟨_, (i2 s.cls _).2 ⟨rfl, hc⟩, rfl⟩)
          rw [this]; exact ⟨rfl, by simp⟩
      · rintro ⟨rfl, -⟩
        by_cases hc : ofClass s.cls specs = []
        · right
          refine ⟨?_, by rw [hc]; rfl⟩
          rintro hm
          obtain ⟨⟨t', l'⟩, hp, rfl⟩ := List.mem_map.1 hm
          obtain ⟨rfl, h⟩ := (i2 _ _).1 hp
          exact h hc
        · exact .inl ⟨_, (i2 _ _).2 ⟨rfl, hc⟩, rfl⟩
    · have ht' : ¬ s.cls = t := fun e => ht e.symm
      rw [if_neg ht', List.append_nil, i2]
      simp [ht]

/-- **C86 (each spec once).** Together the groups hold every spec exactly as often as it was given. -/
theorem groups_partition (specs : List (Consumer.Spec τ α)) :
    ((group specs).flatMap Prod.snd).Perm specs := by
  have step : ∀ (s : Consumer.Spec τ α) (l : List (τ × List (Consumer.Spec τ α))),
      ((insertSpec s l).flatMap Prod.snd).Perm (l.flatMap Prod.snd ++ [s]) := by
    intro s l
    induction l with
    | nil => simp [insertSpec]
    | cons p l ih =>
      obtain ⟨t, v⟩ := p
      simp only [insertSpec]
      split_ifs
      · simp only [List.flatMap_cons, List.append_assoc]
        exact List.Perm.append_left _ List.perm_append_comm
      · simp only [List.flatMap_cons, List.append_assoc]
        exact List.Perm.append_left _ ih
  induction specs using List.reverseRecOn with
  | nil => simp [group]
  | append_singleton specs s ih =>
    have e : group (specs ++ [s]) = insertSpec s (group specs) := by simp [group]
    rw [e]
    exact (step s _).trans (List.Perm.append_right _ ih)

/-- **C86 (order of classes).** The classes are run in the order of their first specs. -/
theorem groups_order (specs : List (Consumer.Spec τ α)) :
    ((group specs).map Prod.fst).Pairwise fun a b =>
      (specs.map (·.cls)).idxOf a < (specs.map (·.cls)).idxOf b := by
  have hmem : ∀ specs : List (Consumer.Spec τ α), ∀ t ∈ (group specs).map Prod.fst, t ∈ specs.map (·.cls) := by
    intro specs t ht
    obtain ⟨⟨t', l⟩, hp, rfl⟩ := List.mem_map.1 ht
    obtain ⟨rfl, hne⟩ := ((groups_exact specs).2 _ _).1 hp
    obtain ⟨s, hs⟩ := List.exists_mem_of_ne_nil _ hne
    have := List.mem_filter.1 hs
    exact List.mem_map.2 ⟨s, this.1, by simpa using this.2⟩
  induction specs using List.reverseRecOn with
  | nil => simp [group]
  | append_singleton specs s ih =>
    have e : group (specs ++ [s]) = insertSpec s (group specs) := by simp [group]
    rw [e, keys_insert, List.map_append]
    have ih' : ((group specs).map Prod.fst).Pairwise fun a b =>
        (specs.map (·.cls) ++ [s].map (·.cls)).idxOf a < (specs.map (·.cls) ++ [s].map (·.cls)).idxOf b := by
      refine ih.imp_of_mem ?_
      intro a b ha hb h
      rw [List.idxOf_append_of_mem (hmem specs a ha), List.idxOf_append_of_mem (hmem specs b hb)]
      exact h
    split_ifs with hc
    · exact ih'
    · rw [List.pairwise_append]
      refine ⟨ih', by simp, ?_⟩
      intro a ha b hb
      rw [List.mem_singleton] at hb
      subst hb
      have hn : s.cls ∉ specs.map (·.cls) := by
        intro hm
        obtain ⟨s', hs', he⟩ := List.mem_map.1 hm
        have hne : ofClass s.cls specs ≠ [] :=
          List.ne_nil_of_mem (List.mem_filter.2 ⟨hs', by simpa using he⟩ : s' ∈ ofClass s.cls specs)
        exact hc (List.mem_map.2 ⟨_, ((groups_exact specs).2 _ _).2 ⟨rfl, hne⟩, rfl⟩)
      rw [List.idxOf_append_of_mem (hmem specs a ha), List.idxOf_append_of_notMem hn]
      have := List.idxOf_lt_length_of_mem (hmem specs a ha)
      omega

/-- **C86 (parameters).** A processor is constructed with exactly those of the parameters that its
constructor names, or with all of them if it takes any keyword. -/
theorem params_exact {β : Type} (params : List (String × β)) (sig : List String) (varKw : Bool) (p : String × β) :
    p ∈ createParams params sig varKw ↔ p ∈ params ∧ (varKw = true ∨ p.1 ∈ sig) := by
  unfold createParams
  cases varKw <;> simp

/-- **C86, finding.** Two processors for one spec type are refused only if there is a spec: without specs
the call succeeds. -/
theorem duplicate_only_with_specs (sub : τ → τ → Bool) (procs : List (Proc τ α ε ρ ο))
    (h : ¬ (procs.map (·.specType)).Nodup) (specs : List (Consumer.Spec τ α)) (start : ο) :
    call sub procs ⟨true, true⟩ specs start =
      if specs = [] then .ok start else .error .duplicate := by
  have hc : call sub procs ⟨true, true⟩ specs start = loop sub procs (group specs) start := by
    simp [call, trained]
  rw [hc]
  cases specs with
  | nil => simp [group, loop]
  | cons s l =>
    cases hg : group (s :: l) with
    | nil =>
      have := (groups_partition (s :: l)).length_eq
      rw [hg] at this; simp at this
    | cons p rest =>
      obtain ⟨t, v⟩ := p
      simp [loop, table, h]

end Generic

section Standard

variable {α ε ρ : Type}

theorem table_standard (exec : Cls → List (Consumer.Spec Cls α) → Except ε ρ) :
    table (standard exec) = .ok (standard exec) := by
  unfold table
  rw [if_pos]
  simp [standard]

theorem sub_refl (a : Cls) : a.sub a = true := by unfold Cls.sub; simp

theorem find_standard (exec : Cls → List (Consumer.Spec Cls α) → Except ε ρ) (t : Cls) :
    (t ∈ known ∧ ∃ p, (standard exec).find? (fun p => decide (p.specType = t)) = some p ∧ p.specType = t ∧
      p.execute = exec t ∧ ∀ r o u, field (p.set r o) u = (if u = t then some r else field o u) ∧
        (p.set r o).kernel = o.kernel) ∨
    (t ∉ known ∧ (standard exec).find? (fun p => decide (p.specType = t)) = none) := by
  cases t with
  | modelFit => left; refine ⟨by simp [known], _, rfl, rfl, rfl, fun r o u => ⟨?_, rfl⟩⟩; cases u <;> simp [field]
  | marketing => left; refine ⟨by simp [known], _, rfl, rfl, rfl, fun r o u => ⟨?_, rfl⟩⟩; cases u <;> simp [field]
  | budget => left; refine ⟨by simp [known], _, rfl, rfl, rfl, fun r o u => ⟨?_, rfl⟩⟩; cases u <;> simp [field]
  | reachFrequency =>
    left; refine ⟨by simp [known], _, rfl, rfl, rfl, fun r o u => ⟨?_, rfl⟩⟩; cases u <;> simp [field]
  | derived c => right; simp [known, standard]
  | other n => right; simp [known, standard]

/-- The loop over groups of known, distinct classes. -/
theorem loop_ok_iff (exec : Cls → List (Consumer.Spec Cls α) → Except ε ρ)
    (gs : List (Cls × List (Consumer.Spec Cls α))) (hn : (gs.map Prod.fst).Nodup)
    (hc : ∀ t l, (t, l) ∈ gs → ∀ s ∈ l, s.cls = t) (o out : Mmm ρ) :
    loop Cls.sub (standard exec) gs o = .ok out ↔
      (∀ t l, (t, l) ∈ gs → t ∈ known ∧ ∃ r, exec t l = .ok r) ∧ out.kernel = o.kernel ∧
      ∀ u ∈ known, field out u = match gs.find? (fun p => decide (p.1 = u)) with
        | some p => (exec u p.2).toOption
        | none => field o u := by
  induction gs generalizing o with
  | nil =>
    simp only [loop, Except.ok.injEq, List.not_mem_nil, false_implies, implies_true, List.find?_nil, true_and]
    constructor
    · rintro rfl; exact ⟨rfl, fun _ _ => rfl⟩
    · rintro ⟨h1, h2⟩
      obtain ⟨k, a, b, c, d⟩ := o
      obtain ⟨k', a', b', c', d'⟩ := out
      have e1 := h2 .modelFit (by simp [known])
      have e2 := h2 .marketing (by simp [known])
      have e3 := h2 .budget (by simp [known])
      have e4 := h2 .reachFrequency (by simp [known])
      simp only [field] at e1 e2 e3 e4
      simp only at h1
      rw [h1, e1, e2, e3, e4]
  | cons p gs ih =>
    obtain ⟨t, l⟩ := p
    simp only [List.map_cons, List.nodup_cons] at hn
    have ih := ih hn.2 (fun t l h => hc t l (List.mem_cons_of_mem _ h))
    simp only [loop, table_standard]
    rcases find_standard exec t with ⟨hk, p, hp, hpt, hpe, hps⟩ | ⟨hk, hp⟩
    · rw [hp]
      have hall : (l.all fun s => s.cls.sub p.specType) = true := by
        rw [List.all_eq_true]
        intro s hs
        rw [hpt, hc t l (by simp) s hs]; exact sub_refl t
      simp only [Proc.call, hall, if_true, hpe]
      cases hx : exec t l with
      | error e =>
        simp only [reduceCtorEq, false_iff]
        rintro ⟨h, -⟩
        obtain ⟨-, r, hr⟩ := h t l (by simp)
        rw [hx] at hr; cases hr
      | ok r =>
        simp only
        rw [ih (p.set r o)]
        have hfind : gs.find? (fun p => decide (p.1 = t)) = none := by
          rw [List.find?_eq_none]
          intro q hq
          simp only [decide_eq_true_eq]
          rintro rfl
          exact hn.1 (List.mem_map.2 ⟨q, hq, rfl⟩)
        constructor
        · rintro ⟨h1, h2, h3⟩
          refine ⟨?_, by rw [h2]; exact (hps r o t).2, ?_⟩
          · intro t' l' hm
            rcases List.mem_cons.1 hm with he | hm
            · cases he; exact ⟨hk, r, hx⟩
            · exact h1 t' l' hm
          · intro u hu
            rw [h3 u hu]
            by_cases hut : t = u
            · subst hut
              rw [hfind, List.find?_cons_of_pos (by simp)]
              simp only [hx]
              rw [(hps r o t).1, if_pos rfl]; rfl
            · rw [List.find?_cons_of_neg (by simpa using hut)]
              cases gs.find? (fun p => decide (p.1 = u)) with
              | some q => rfl
              | none => simp only; rw [(hps r o u).1, if_neg (fun e => hut e.symm)]
        · rintro ⟨h1, h2, h3⟩
          refine ⟨fun t' l' hm => h1 t' l' (List.mem_cons_of_mem _ hm), by rw [h2]; exact (hps r o t).2.symm, ?_⟩
          intro u hu
          rw [h3 u hu]
          by_cases hut : t = u
          · subst hut
            rw [hfind, List.find?_cons_of_pos (by simp)]
            simp only [hx]
            rw [(hps r o t).1, if_pos rfl]; rfl
          · rw [List.find?_cons_of_neg (by simpa using hut)]
            cases gs.find? (fun p => decide (p.1 = u)) with
            | some q => rfl
            | none => simp only; rw [(hps r o u).1, if_neg (fun e => hut e.symm)]
    · rw [hp]
      simp only [reduceCtorEq, false_iff]
      rintro ⟨h, -⟩
      exact hk (h t l (by simp)).1

/-- **C86 (result).** `create_mmm_proto` succeeds exactly if the model is fitted, every spec is of one of
the four classes, and each class that has specs can be executed on its specs.  The message then has the
kernel, and for each class the result of executing *all* specs of that class together, in the order given;
a class without specs has no result. -/
theorem proto_exact (exec : Cls → List (Consumer.Spec Cls α) → Except ε ρ) (kernel : String) (g : Groups)
    (specs : List (Consumer.Spec Cls α)) (out : Mmm ρ) :
    createProto exec kernel g specs = .ok out ↔
      g.prior = true ∧ g.posterior = true ∧ (∀ s ∈ specs, s.cls ∈ known) ∧ out.kernel = kernel ∧
      ∀ t ∈ known, (ofClass t specs = [] ∧ field out t = none) ∨
        (ofClass t specs ≠ [] ∧ ∃ r, exec t (ofClass t specs) = .ok r ∧ field out t = some r) := by
  obtain ⟨gp, gq⟩ := g
  unfold createProto call trained
  cases gp with
  | false => simp
  | true =>
  cases gq with
  | false => simp
  | true =>
  simp only [not_true_eq_false, if_false, true_and]
  obtain ⟨g1, g2⟩ := groups_exact specs
  have hcl : ∀ t l, (t, l) ∈ group specs → ∀ s ∈ l, s.cls = t := by
    intro t l h s hs
    obtain ⟨rfl, -⟩ := (g2 t l).1 h
    simpa using (List.mem_filter.1 hs).2
  rw [loop_ok_iff exec (group specs) g1 hcl]
  have hfind : ∀ u, (group specs).find? (fun p => decide (p.1 = u)) =
      if ofClass u specs = [] then none else some (u, ofClass u specs) := by
    intro u
    by_cases h : ofClass u specs = []
    · rw [if_pos h, List.find?_eq_none]
      rintro ⟨t, l⟩ hm
      simp only [decide_eq_true_eq]
      rintro rfl
      obtain ⟨rfl, hne⟩ := (g2 _ _).1 hm
      exact hne h
    · rw [if_neg h]
      have hm := (g2 u _).2 ⟨rfl, h⟩
      cases hf : (group specs).find? (fun p => decide (p.1 = u)) with
      | none => exact absurd (List.find?_eq_none.1 hf _ hm) (by simp)
      | some q =>
        obtain ⟨t, l⟩ := q
        have ht : t = u := by simpa using List.find?_some hf
        subst ht
        obtain ⟨rfl, -⟩ := (g2 _ _).1 (List.mem_of_find?_eq_some hf)
        rfl
  constructor
  · rintro ⟨h1, h2, h3⟩
    refine ⟨?_, h2, ?_⟩
    · intro s hs
      have hne : ofClass s.cls specs ≠ [] :=
        List.ne_nil_of_mem (List.mem_filter.2 ⟨hs, by simp⟩ : s ∈ ofClass s.cls specs)
      exact (h1 _ _ ((g2 _ _).2 ⟨rfl, hne⟩)).1
    · intro t ht
      have e := h3 t ht
      rw [hfind] at e
      by_cases h : ofClass t specs = []
      · rw [if_pos h] at e
        refine .inl ⟨h, ?_⟩
        rw [e]; cases t <;> rfl
      · rw [if_neg h] at e
        obtain ⟨-, r, hr⟩ := h1 _ _ ((g2 _ _).2 ⟨rfl, h⟩)
        exact .inr ⟨h, r, hr, by rw [e]; simp [hr, Except.toOption]⟩
  · rintro ⟨h1, h2, h3⟩
    refine ⟨?_, h2, ?_⟩
    · intro t l hm
      obtain ⟨rfl, hne⟩ := (g2 _ _).1 hm
      obtain ⟨s, hs⟩ := List.exists_mem_of_ne_nil _ hne
      have hs' := List.mem_filter.1 hs
      have hk : t ∈ known := by
        have := h1 s hs'.1
        rwa [show s.cls = t by simpa using hs'.2] at this
      rcases h3 t hk with ⟨h, -⟩ | ⟨-, r, hr, -⟩
      · exact absurd h hne
      · exact ⟨hk, r, hr⟩
    · intro u hu
      rw [hfind]
      rcases h3 u hu with ⟨h, e⟩ | ⟨h, r, hr, e⟩
      · rw [if_pos h, e]; cases u <;> rfl
      · rw [if_neg h, e]; simp [hr, Except.toOption]

example : createProto (ε := String) (fun _ l => .ok (l.map (·.body))) "k" ⟨true, true⟩
    [⟨.budget, 1⟩, ⟨.modelFit, 2⟩, ⟨.budget, 3⟩] =
    .ok { kernel := "k", budget := some [1, 3], modelFit := some [2] } := by decide +kernel

/-- **C86 (order).** The order of specs of different classes does not matter: lists with the same specs of
each class, in the same order within the class, give the same message. -/
theorem order_between_classes (exec : Cls → List (Consumer.Spec Cls α) → Except ε ρ) (kernel : String) (g : Groups)
    (s₁ s₂ : List (Consumer.Spec Cls α)) (h : ∀ t, ofClass t s₁ = ofClass t s₂) (out : Mmm ρ) :
    createProto exec kernel g s₁ = .ok out ↔ createProto exec kernel g s₂ = .ok out := by
  have hk : ∀ l₁ l₂ : List (Consumer.Spec Cls α), (∀ t, ofClass t l₁ = ofClass t l₂) →
      (∀ s ∈ l₁, s.cls ∈ known) → ∀ s ∈ l₂, s.cls ∈ known := by
    intro l₁ l₂ h h1 s hs
    have : s ∈ ofClass s.cls l₁ := by rw [h]; exact List.mem_filter.2 ⟨hs, by simp⟩
    exact h1 s (List.mem_filter.1 this).1
  rw [proto_exact, proto_exact]
  simp only [h]
  constructor
  · rintro ⟨a, b, c, d⟩; exact ⟨a, b, hk s₁ s₂ h c, d⟩
  · rintro ⟨a, b, c, d⟩; exact ⟨a, b, hk s₂ s₁ (fun t => (h t).symm) c, d⟩

example : ∀ t, ofClass t [(⟨.budget, 1⟩ : Consumer.Spec Cls ℕ), ⟨.modelFit, 2⟩, ⟨.budget, 3⟩] =
    ofClass t [⟨.modelFit, 2⟩, ⟨.budget, 1⟩, ⟨.budget, 3⟩] := by
  intro t; cases t <;> simp [ofClass]

/-- **C86, finding.** A spec of a class derived from a supported one passes the type check of the processor
but is refused by the consumer: the class is looked up exactly. -/
theorem derived_spec_refused (exec : Cls → List (Consumer.Spec Cls α) → Except ε ρ) (kernel : String)
    (c : Cls) (b : α) :
    (Cls.derived c).sub c = true ∧
    createProto exec kernel ⟨true, true⟩ [⟨.derived c, b⟩] = .error .unknownSpec := by
  constructor
  · unfold Cls.sub
    simp [sub_refl]
  · simp only [createProto, call, trained, not_true_eq_false, if_false, group, List.foldl_cons, List.foldl_nil,
      insertSpec, loop, table_standard]
    rcases find_standard exec (.derived c) with ⟨h, -⟩ | ⟨-, h⟩
    · simp [known] at h
    · rw [h]

/-- **C86, finding.** A model that was not fitted gives an attribute error; the documented `ValueError`
("MMM model has not been fitted") is raised for no model. -/
theorem not_fitted_never_said (exec : Cls → List (Consumer.Spec Cls α) → Except ε ρ) (kernel : String)
    (g : Groups) (specs : List (Consumer.Spec Cls α)) :
    createProto exec kernel g specs ≠ .error .notFitted ∧
    (g.posterior = false → createProto exec kernel g specs = .error .attribute) := by
  obtain ⟨gp, gq⟩ := g
  unfold createProto call trained
  have hl : ∀ gs o, loop Cls.sub (standard exec) gs o ≠ .error .notFitted := by
    intro gs
    induction gs with
    | nil => intro o; simp [loop]
    | cons p gs ih =>
      intro o
      obtain ⟨t, l⟩ := p
      simp only [loop, table_standard]
      cases (standard exec).find? fun p => decide (p.specType = t) with
      | none => simp
      | some p =>
        simp only
        unfold Proc.call
        split_ifs
        · cases p.execute l with
          | error e => simp
          | ok r => simp only; exact ih _
        · simp
  cases gp <;> cases gq <;> simp [hl]

end Standard

end Verif.Consumer.Props
