import Verif.Lemmas.UiSpecs

/-!
# C93: the specs behind the dashboard
-/

namespace Verif.UiSpecs.Props

open Verif Verif.Calendar Verif.UiSpecs Verif.UiSpecs.Wanted
open Verif.DateBuckets (Cadence)
open Verif.BudgetProto (BSpec Scenario)
open Verif.ReachProto (RSpec)
open Verif.MarketingProto (MSpec)
open Verif.TimeCoordinates.Spec (Increasing Within Next days)
open Verif.DatedSpec.Spec (Every InRange)

variable {δ γ : Type} {dates : List CDate} {k : ℕ}

/-- Whether the admission checks pass. -/
theorem admit_ok (hne : dates ≠ []) (hv : ∀ d ∈ dates, d.Valid) (hk : DatedSpec.interval dates = .ok k)
    (s : UiSpec δ γ) (hr : RealDates s) :
    admit dates s = .ok () ↔ (s ≠ .other ∧ ∀ r, s ≠ .reach r) ∧ ∀ d ∈ s.dated?, InSample dates k d := by
  have hcd := fun d hd => checkDates_ok hne hv hk (hr d hd).1 (hr d hd).2
  cases s with
  | fit f => simp [admit, UiSpec.allowed, UiSpec.dated?]
  | other => simp [admit, UiSpec.allowed]
  | reach r => simp [admit, UiSpec.allowed]
  | marketing m =>
    have := hcd m.dated rfl
    simp only [admit, UiSpec.allowed, UiSpec.dated?, not_true_eq_false, if_false]
    rw [this]
    simp
  | budget b =>
    have := hcd b.dated rfl
    simp only [admit, UiSpec.allowed, UiSpec.dated?, not_true_eq_false, if_false]
    rw [this]
    simp

/-- **C93 (admission).** A single spec of model fit, marketing analysis or budget optimization passes the
first checks exactly if its start lies in the history and its end is after the beginning and not after the
end of the last period; no other spec passes. -/
theorem admission_iff (hne : dates ≠ []) (hv : ∀ d ∈ dates, d.Valid) (hk : DatedSpec.interval dates = .ok k)
    (s : UiSpec δ γ) (hr : RealDates s) :
    admit dates s = .ok () ↔ (s ≠ .other ∧ ∀ r, s ≠ .reach r) ∧ ∀ d ∈ s.dated?, InSample dates k d :=
  admit_ok hne hv hk s hr

/-- The complete description of the output. -/
theorem generate_ok (hne : dates ≠ []) (hv : ∀ d ∈ dates, d.Valid) (hinc : Increasing dates) (hpos : 0 < k)
    (hk : DatedSpec.interval dates = .ok k) (rf : Bool) (fresh : ℕ → String) (gens : List Cadence)
    (specs : List (UiSpec δ γ)) (hs : ∀ s ∈ specs, Constructed s) (hr : ∀ s ∈ specs, RealDates s) (r) :
    generate dates rf fresh gens specs = .ok r ↔ Accepted dates k rf specs ∧
      r = specs.zipIdx.flatMap fun p => (unit rf fresh p.2 p.1).flatMap (expanded dates k gens) := by
  have hg := gather_ok dates rf fresh specs hs 0 []
  have hunit : ∀ (i : ℕ) (s : UiSpec δ γ), Constructed s → (rf = true → ∀ b, .budget b = s → ∀ f ∈ b.maxFrequency, 1 ≤ f) →
      RealDates s → ∀ x ∈ unit rf fresh i s, Constructed x ∧ RealDates x ∧ x.dated? = s.dated? := by
    intro i s h1 h2 h3 x hx
    cases s with
    | budget b =>
      simp only [unit, List.mem_cons] at hx
      rcases hx with rfl | hx
      · exact ⟨withGroup_valid fresh i h1, h3, rfl⟩
      · cases rf with
        | false => simp at hx
        | true =>
          simp only [if_true, List.mem_singleton] at hx
          subst hx
          exact ⟨(derived_valid (withGroup_valid fresh i h1)).2 (h2 rfl b rfl), h3, rfl⟩
    | _ =>
      simp only [unit, List.mem_singleton] at hx
      subst hx
      exact ⟨h1, h3, rfl⟩
  have hself : ∀ (i : ℕ) (s : UiSpec δ γ), ∃ x ∈ unit rf fresh i s, x.dated? = s.dated? := by
    intro i s
    cases s with
    | budget b => exact ⟨_, List.mem_cons_self, rfl⟩
    | _ => exact ⟨_, List.mem_singleton.2 rfl, rfl⟩
  have hzip : ∀ s ∈ specs, ∃ i, (s, i) ∈ specs.zipIdx := by
    intro s hs'
    obtain ⟨i, hi, rfl⟩ := List.getElem_of_mem hs'
    exact ⟨i, by rw [List.mem_zipIdx_iff_getElem?]; simp [hi]⟩
  have hzip' : ∀ p ∈ specs.zipIdx, p.1 ∈ specs := by
    intro p hp
    rw [List.mem_zipIdx_iff_getElem?] at hp
    exact List.mem_of_getElem? hp
  have hres : (∀ s ∈ specs, ∀ d ∈ s.dated?, Resolves dates k d) →
      ((∀ s ∈ specs, admit dates s = .ok ()) ↔ ∀ s ∈ specs, s ≠ .other ∧ ∀ r, s ≠ .reach r) := by
    intro hR
    refine forall₂_congr fun s hs' => ?_
    rw [admit_ok hne hv hk s (hr s hs')]
    exact and_iff_left fun d hd => resolves_inSample hpos (hR s hs' d hd)
  unfold generate Accepted
  cases hx : gather dates rf fresh 0 [] specs with
  | error e =>
    simp only [reduceCtorEq, false_iff]
    rintro ⟨⟨h1, h2, h3, h4⟩, -⟩
    have := (hg _).2 ⟨⟨(hres h2).2 h1, h3, by simp, h4⟩, rfl⟩
    rw [hx] at this; cases this
  | ok l =>
    obtain ⟨⟨a1, a2, -, a4⟩, rfl⟩ := (hg l).1 hx
    simp only
    have hbasic : ∀ p ∈ specs.zipIdx, ∀ x ∈ unit rf fresh p.2 p.1,
        Constructed x ∧ RealDates x ∧ x.dated? = p.1.dated? := fun p hp =>
      hunit p.2 p.1 (hs _ (hzip' p hp)) (fun hrf b hb => a4 hrf b (hb ▸ hzip' p hp)) (hr _ (hzip' p hp))
    have hm := fun r => mapE_iff (f := expand dates gens) (P := fun s : UiSpec δ γ => ∀ d ∈ s.dated?, Resolves dates k d)
      (g := expanded dates k gens) (l := specs.zipIdx.flatMap fun p => unit rf fresh p.2 p.1) (r := r) (by
        intro x hx' b
        obtain ⟨p, hp, hxp⟩ := List.mem_flatMap.1 hx'
        obtain ⟨c1, c2, -⟩ := hbasic p hp x hxp
        exact expand_ok hne hv hinc hpos hk gens x c1 c2 b)
    have hall : (∀ x ∈ specs.zipIdx.flatMap fun p => unit rf fresh p.2 p.1, ∀ d ∈ x.dated?, Resolves dates k d) ↔
        ∀ s ∈ specs, ∀ d ∈ s.dated?, Resolves dates k d := by
      constructor
      · intro h s hs' d hd
        obtain ⟨i, hi⟩ := hzip s hs'
        obtain ⟨x, hxu, hxd⟩ := hself i s
        exact h x (List.mem_flatMap.2 ⟨(s, i), hi, hxu⟩) d (by rw [hxd]; exact hd)
      · intro h x hx' d hd
        obtain ⟨p, hp, hxp⟩ := List.mem_flatMap.1 hx'
        rw [(hbasic p hp x hxp).2.2] at hd
        exact h p.1 (hzip' p hp) d hd
    have hflat : ((specs.zipIdx.flatMap fun p => unit rf fresh p.2 p.1).map (expanded dates k gens)).flatten =
        specs.zipIdx.flatMap fun p => (unit rf fresh p.2 p.1).flatMap (expanded dates k gens) := by
      rw [← List.flatMap_def, List.flatMap_assoc]
    have hacc : (∀ s ∈ specs, s ≠ .other ∧ ∀ r, s ≠ .reach r) := fun s hs' =>
      ((admit_ok hne hv hk s (hr s hs')).1 (a1 s hs')).1
    cases hy : mapE (expand dates gens) (specs.zipIdx.flatMap fun p => unit rf fresh p.2 p.1) with
    | error e =>
      simp only [reduceCtorEq, false_iff]
      rintro ⟨⟨-, h2, -⟩, -⟩
      have := (hm _).2 ⟨hall.2 h2, rfl⟩
      rw [hy] at this; cases this
    | ok q =>
      obtain ⟨b1, rfl⟩ := (hm q).1 hy
      refine Iff.trans ?_ (and_iff_right ⟨hacc, hall.1 b1, a2, a4⟩).symm
      simp only [hflat, Except.ok.injEq]
      exact eq_comm

/-- **C93 (acceptance).** Specs that could be constructed are accepted exactly if they are of model fit,
marketing analysis or budget optimization, each start is a date of the data and each end comes one period
after one, no two budget specs have the same given group and, if there are reach and frequency channels, no
budget spec limits the frequency below one. -/
theorem accepted_iff (hne : dates ≠ []) (hv : ∀ d ∈ dates, d.Valid) (hinc : Increasing dates) (hpos : 0 < k)
    (hk : DatedSpec.interval dates = .ok k) (rf : Bool) (fresh : ℕ → String) (gens : List Cadence)
    (specs : List (UiSpec δ γ)) (hs : ∀ s ∈ specs, Constructed s) (hr : ∀ s ∈ specs, RealDates s) :
    (∃ r, generate dates rf fresh gens specs = .ok r) ↔ Accepted dates k rf specs := by
  have h := generate_ok hne hv hinc hpos hk rf fresh gens specs hs hr
  constructor
  · rintro ⟨r, hr'⟩; exact ((h r).1 hr').1
  · intro ha; exact ⟨_, (h _).2 ⟨ha, rfl⟩⟩

theorem historical_part (s : Scenario) : PartScenario s (historical s) := by
  unfold PartScenario historical
  split
  · exact ⟨fun _ _ => rfl, fun h => absurd rfl (h _)⟩
  · rename_i h
    exact ⟨fun x hx => absurd hx (h x), fun _ => rfl⟩

theorem block_ok (hne : dates ≠ []) (hv : ∀ d ∈ dates, d.Valid) (hinc : Increasing dates) (hpos : 0 < k)
    (hk : DatedSpec.interval dates = .ok k) (rf : Bool) (fresh : ℕ → String) (gens : List Cadence) (i : ℕ)
    (s : UiSpec δ γ) (hr : RealDates s) (ha : s ≠ .other ∧ ∀ r, s ≠ .reach r)
    (hd : ∀ d ∈ s.dated?, Resolves dates k d) :
    IsBlock dates k gens rf (groupOf fresh i s) s ((unit rf fresh i s).flatMap (expanded dates k gens)) := by
  cases s with
  | other => exact absurd rfl ha.1
  | reach r => exact absurd rfl (ha.2 r)
  | fit f => rfl
  | marketing m =>
    refine ⟨_, isParts hne hv hinc hpos hk (hr m.dated rfl).2 (hd m.dated rfl) gens, ?_⟩
    simp [unit, expanded, UiSpec.dated?, placed]
  | budget b =>
    refine ⟨_, _, isParts hne hv hinc hpos hk (hr b.dated rfl).2 (hd b.dated rfl) gens, historical_part b.scenario, ?_⟩
    have e1 : ∀ p, placed true (UiSpec.budget (withGroup fresh i b)) p =
        .budget (budgetFor b (groupOf fresh i (UiSpec.budget b)) (historical b.scenario) p) := by
      intro p
      simp [placed, budgetFor, withGroup, tagGroup, tagName, tagGrid, underscored, joined]
      rfl
    have e2 : ∀ p, placed false (UiSpec.budget (withGroup fresh i b)) p =
        .budget (budgetFor b (groupOf fresh i (UiSpec.budget b)) b.scenario p) := by
      intro p
      simp [placed, budgetFor, withGroup, tagGroup, tagName, tagGrid, underscored, joined]
      rfl
    have e3 : ∀ q p, placed (γ := γ) (δ := δ) q (UiSpec.reach (derived (withGroup fresh i b))) p =
        .reach (reachFor b (groupOf fresh i (UiSpec.budget b)) p) := by
      intro q p
      simp [placed, reachFor, derived, withGroup, tagGroup, tagName, tagGrid, underscored, joined]
      rfl
    have e4 : (withGroup fresh i b).dated = b.dated := rfl
    have e5 : (derived (withGroup fresh i b)).dated = b.dated := rfl
    have e6 : placed true (UiSpec.budget (withGroup fresh i b)) = fun p =>
        .budget (budgetFor b (groupOf fresh i (UiSpec.budget b)) (historical b.scenario) p) := funext e1
    have e7 : placed (γ := γ) (δ := δ) true (UiSpec.reach (derived (withGroup fresh i b))) = fun p =>
        .reach (reachFor b (groupOf fresh i (UiSpec.budget b)) p) := funext (e3 true)
    cases rf <;> simp [unit, expanded, UiSpec.dated?, e2, e3, e4, e5, e6, e7]

/-- **C93 (breakdown).** The output is the concatenation, in the order of the input, of the blocks of the
specs: a model fit spec itself; a marketing spec for its whole period, tagged `ALL`, and for every period of
every generator; a budget spec likewise, with group, name and grid name extended by the tag and amounts
replaced by historical spend except for the whole period, followed (if there are reach and frequency
channels) by the reach and frequency specs for the same periods. -/
theorem blocks_exact (hne : dates ≠ []) (hv : ∀ d ∈ dates, d.Valid) (hinc : Increasing dates) (hpos : 0 < k)
    (hk : DatedSpec.interval dates = .ok k) (rf : Bool) (fresh : ℕ → String) (gens : List Cadence)
    (specs : List (UiSpec δ γ)) (hs : ∀ s ∈ specs, Constructed s) (hr : ∀ s ∈ specs, RealDates s) (r)
    (h : generate dates rf fresh gens specs = .ok r) :
    ∃ blocks, List.Forall₂ (fun p out => IsBlock dates k gens rf (groupOf fresh p.2 p.1) p.1 out)
      specs.zipIdx blocks ∧ r = blocks.flatten := by
  obtain ⟨⟨a1, a2, -, -⟩, rfl⟩ := (generate_ok hne hv hinc hpos hk rf fresh gens specs hs hr r).1 h
  refine ⟨specs.zipIdx.map fun p => (unit rf fresh p.2 p.1).flatMap (expanded dates k gens), ?_, ?_⟩
  · rw [List.forall₂_map_right_iff, List.forall₂_same]
    intro p hp
    rw [List.mem_zipIdx_iff_getElem?] at hp
    have hm := List.mem_of_getElem? hp
    exact block_ok hne hv hinc hpos hk rf fresh gens p.2 p.1 (hr _ hm) (a1 _ hm) (a2 _ hm)
  · rw [List.flatMap_def]

/-- **C93 (pairs).** With reach and frequency channels the budget specs and the reach and frequency specs
of the output agree one by one in group, dates and tag; without such channels there are none of the
latter. -/
theorem paired (hne : dates ≠ []) (hv : ∀ d ∈ dates, d.Valid) (hinc : Increasing dates) (hpos : 0 < k)
    (hk : DatedSpec.interval dates = .ok k) (rf : Bool) (fresh : ℕ → String) (gens : List Cadence)
    (specs : List (UiSpec δ γ)) (hs : ∀ s ∈ specs, Constructed s) (hr : ∀ s ∈ specs, RealDates s) (r)
    (h : generate dates rf fresh gens specs = .ok r) :
    reachKeys r = if rf then budgetKeys r else [] := by
  obtain ⟨blocks, hb, rfl⟩ := blocks_exact hne hv hinc hpos hk rf fresh gens specs hs hr r h
  have hone : ∀ (g : String) (s : UiSpec δ γ) out, IsBlock dates k gens rf g s out →
      reachKeys out = if rf then budgetKeys out else [] := by
    intro g s out hblock
    cases s with
    | fit f => cases hblock; cases rf <;> rfl
    | other => exact absurd hblock (by simp [IsBlock])
    | reach r => exact absurd hblock (by simp [IsBlock])
    | marketing m =>
      obtain ⟨parts, -, rfl⟩ := hblock
      have e1 : reachKeys ((whole m.dated :: parts).map fun p => (.marketing { m with dated := p } : UiSpec δ γ)) = [] := by
        simp [reachKeys]
      have e2 : budgetKeys ((whole m.dated :: parts).map fun p => (.marketing { m with dated := p } : UiSpec δ γ)) = [] := by
        simp [budgetKeys]
      rw [e1, e2]; simp
    | budget b =>
      obtain ⟨parts, sc, -, -, rfl⟩ := hblock
      cases rf with
      | false =>
        simp [reachKeys]
      | true =>
        have f1 : ∀ l : List DatedSpec.Spec, l.filterMap ((fun s : UiSpec δ γ => match s with
            | .reach b => some (b.group, b.dated)
            | _ => none) ∘ fun p => UiSpec.reach (reachFor b g p)) = l.map fun p => (some s!"{g}:{p.tag}", p) := by
          intro l; rw [← List.filterMap_eq_map]; rfl
        have f2 : ∀ l : List DatedSpec.Spec, l.filterMap ((fun s : UiSpec δ γ => match s with
            | .budget b => some (b.group, b.dated)
            | _ => none) ∘ fun p => UiSpec.budget (budgetFor b g sc p)) = l.map fun p => (some s!"{g}:{p.tag}", p) := by
          intro l; rw [← List.filterMap_eq_map]; rfl
        have f3 : ∀ l : List DatedSpec.Spec, l.filterMap ((fun s : UiSpec δ γ => match s with
            | .reach b => some (b.group, b.dated)
            | _ => none) ∘ fun p => UiSpec.budget (budgetFor b g sc p)) = [] := by
          intro l; simp
        have f4 : ∀ l : List DatedSpec.Spec, l.filterMap ((fun s : UiSpec δ γ => match s with
            | .budget b => some (b.group, b.dated)
            | _ => none) ∘ fun p => UiSpec.reach (reachFor b g p)) = [] := by
          intro l; simp
        simp only [reachKeys, budgetKeys, if_true, List.filterMap_append, List.map_cons, List.filterMap_cons,
          List.filterMap_map, f1, f2, f3, f4]
        simp [reachFor, budgetFor]
  clear h
  generalize specs.zipIdx = z at hb
  induction hb with
  | nil => cases rf <;> rfl
  | @cons p out ps outs hp _ ih =>
    have h1 := hone _ _ _ hp
    have ea : ∀ a b : List (UiSpec δ γ), reachKeys (a ++ b) = reachKeys a ++ reachKeys b := fun a b =>
      List.filterMap_append
    have eb : ∀ a b : List (UiSpec δ γ), budgetKeys (a ++ b) = budgetKeys a ++ budgetKeys b := fun a b =>
      List.filterMap_append
    rw [List.flatten_cons, ea, eb, h1, ih]
    cases rf <;> simp

theorem keys_append (a b : List (UiSpec δ γ)) : budgetKeys (a ++ b) = budgetKeys a ++ budgetKeys b :=
  List.filterMap_append

theorem block_keys (hv : ∀ d ∈ dates, d.Valid) {gens : List Cadence} (hg : gens.Nodup) {rf : Bool} {g : String}
    {s : UiSpec δ γ} {out} (h : IsBlock dates k gens rf g s out) :
    ∃ tags : List String, tags.Nodup ∧ (∀ t ∈ tags, ':' ∉ t.toList) ∧
      (budgetKeys out).map Prod.fst = tags.map (fun t => some s!"{g}:{t}") ∧ (tags ≠ [] → ∃ b, s = .budget b) := by
  cases s with
  | fit f => cases h; exact ⟨[], by simp, by simp, rfl, by simp⟩
  | other => exact absurd h (by simp [IsBlock])
  | reach r => exact absurd h (by simp [IsBlock])
  | marketing m =>
    obtain ⟨parts, -, rfl⟩ := h
    exact ⟨[], by simp, by simp, by simp [budgetKeys], by simp⟩
  | budget b =>
    obtain ⟨parts, sc, hp, -, rfl⟩ := h
    obtain ⟨t1, t2⟩ := tags_nodup hv hg hp
    refine ⟨(whole b.dated :: parts).map fun p => p.tag, t1, ?_, ?_, fun _ => ⟨b, rfl⟩⟩
    · intro t ht
      obtain ⟨p, hp', rfl⟩ := List.mem_map.1 ht
      exact t2 p hp'
    · have e : budgetKeys (if rf then (whole b.dated :: parts).map fun p => (.reach (reachFor b g p) : UiSpec δ γ)
          else []) = [] := by
        cases rf
        · rfl
        · simp [budgetKeys]
      rw [keys_append, e, List.append_nil]
      have f2 : ∀ l : List DatedSpec.Spec, l.filterMap ((fun s : UiSpec δ γ => match s with
          | .budget b => some (b.group, b.dated)
          | _ => none) ∘ fun p => UiSpec.budget (budgetFor b g sc p)) = l.map fun p => (some s!"{g}:{p.tag}", p) := by
        intro l; rw [← List.filterMap_eq_map]; rfl
      simp only [budgetKeys, List.filterMap_cons, List.filterMap_map, f2]
      simp [budgetFor]

/-- **C93 (groups).** If the new identifiers differ from each other and from the given groups, and no
generator is listed twice, all budget specs of the output have different groups (and by `paired` so have
the reach and frequency specs). -/
theorem groups_distinct (hne : dates ≠ []) (hv : ∀ d ∈ dates, d.Valid) (hinc : Increasing dates) (hpos : 0 < k)
    (hk : DatedSpec.interval dates = .ok k) (rf : Bool) (fresh : ℕ → String) (gens : List Cadence)
    (hg : gens.Nodup) (specs : List (UiSpec δ γ)) (hs : ∀ s ∈ specs, Constructed s)
    (hr : ∀ s ∈ specs, RealDates s) (hf : ∀ i j, fresh i = fresh j → i = j)
    (hn : ∀ i, fresh i ∉ givenGroups specs) (r) (h : generate dates rf fresh gens specs = .ok r) :
    ((budgetKeys r).map Prod.fst).Nodup := by
  have hacc := ((generate_ok hne hv hinc hpos hk rf fresh gens specs hs hr r).1 h).1.2.2.1
  obtain ⟨blocks, hb, rfl⟩ := blocks_exact hne hv hinc hpos hk rf fresh gens specs hs hr r h
  have hpair : specs.zipIdx.Pairwise fun p q => ∀ b c, p.1 = .budget b → q.1 = .budget c →
      groupOf fresh p.2 p.1 ≠ groupOf fresh q.2 q.1 := by
    have hgiven := List.pairwise_filterMap.1 hacc
    refine List.pairwise_iff_getElem.2 fun i j hi hj hij => ?_
    simp only [List.length_zipIdx] at hi hj
    have hij' := List.pairwise_iff_getElem.1 hgiven i j hi hj hij
    simp only [List.getElem_zipIdx, Nat.zero_add]
    intro b c hbi hcj
    have hgb : ∀ (i : ℕ) (hi : i < specs.length) (b : BSpec δ γ), specs[i] = .budget b →
        ¬ (b.group = none ∨ b.group = some "") → b.group.getD "" ∈ givenGroups specs ∧
          (if b.group = some "" then none else b.group) = some (b.group.getD "") := by
      intro i hi b hbi hc
      have e : (if b.group = some "" then none else b.group) = some (b.group.getD "") := by
        rw [if_neg fun h => hc (.inr h)]
        cases hgr : b.group with
        | none => exact absurd (.inl hgr) hc
        | some g => rfl
      exact ⟨List.mem_filterMap.2 ⟨specs[i], List.getElem_mem _, by rw [hbi]; exact e⟩, e⟩
    rw [hbi, hcj] at hij' ⊢
    simp only [groupOf]
    by_cases c1 : b.group = none ∨ b.group = some ""
    · by_cases c2 : c.group = none ∨ c.group = some ""
      · rw [if_pos c1, if_pos c2]
        intro hc
        have := hf _ _ hc
        omega
      · rw [if_pos c1, if_neg c2]
        intro hc
        exact hn i (hc ▸ (hgb j hj c hcj c2).1)
    · by_cases c2 : c.group = none ∨ c.group = some ""
      · rw [if_neg c1, if_pos c2]
        intro hc
        exact hn j (hc ▸ (hgb i hi b hbi c1).1)
      · rw [if_neg c1, if_neg c2]
        exact hij' _ (hgb i hi b hbi c1).2 _ (hgb j hj c hcj c2).2
  clear h hacc
  generalize specs.zipIdx = z at hb hpair
  induction hb with
  | nil => simp [budgetKeys]
  | @cons p out ps outs hp hrest ih =>
    obtain ⟨hp1, hp2⟩ := List.pairwise_cons.1 hpair
    obtain ⟨tags, t1, t2, t3, t4⟩ := block_keys hv hg hp
    rw [List.flatten_cons, keys_append, List.map_append, List.nodup_append]
    refine ⟨?_, ih hp2, ?_⟩
    · rw [t3]
      refine List.Nodup.map_on ?_ t1
      intro x hx y hy hxy
      rw [Option.some.injEq] at hxy
      exact (colon_inj (t2 x hx) (t2 y hy) hxy).2
    · rintro x hx y hy rfl
      have hmem : ∀ {ps : List (UiSpec δ γ × ℕ)} {outs}, List.Forall₂ (fun p out => IsBlock dates k gens rf
          (groupOf fresh p.2 p.1) p.1 out) ps outs → x ∈ (budgetKeys outs.flatten).map Prod.fst →
          ∃ q ∈ ps, ∃ c, q.1 = .budget c ∧ ∃ t : String, ':' ∉ t.toList ∧ x = some s!"{groupOf fresh q.2 q.1}:{t}" := by
        intro ps outs hf
        induction hf with
        | nil => simp [budgetKeys]
        | @cons q o qs os hq _ ih' =>
          intro hx
          rw [List.flatten_cons, keys_append, List.map_append, List.mem_append] at hx
          rcases hx with hx | hx
          · obtain ⟨tags, u1, u2, u3, u4⟩ := block_keys hv hg hq
            rw [u3] at hx
            obtain ⟨t, ht, rfl⟩ := List.mem_map.1 hx
            obtain ⟨c, hc⟩ := u4 (List.ne_nil_of_mem ht)
            exact ⟨q, by simp, c, hc, t, u2 t ht, rfl⟩
          · obtain ⟨q', hq', rest⟩ := ih' hx
            exact ⟨q', by simp [hq'], rest⟩
      rw [t3] at hx
      obtain ⟨t, ht, rfl⟩ := List.mem_map.1 hx
      obtain ⟨b, hb⟩ := t4 (List.ne_nil_of_mem ht)
      obtain ⟨q, hq, c, hc, t', ht', heq⟩ := hmem hrest hy
      rw [Option.some.injEq] at heq
      exact hp1 q hq b c hb hc (colon_inj (t2 t ht) ht' heq).1

/-- **C93 (parts).** If the dates of the data are `k < 270` days apart, every part of a spec resolves: it
selects exactly the dates of the data from its start to its end, there are such dates, they are in the
range of the spec, and all of them lie in the month (quarter, year) of the start. -/
theorem parts_resolve (hne : dates ≠ []) (hv : ∀ d ∈ dates, d.Valid) (hinc : Increasing dates) (hpos : 0 < k)
    (hlt : k < 270) (hev : Every k dates) (hk : DatedSpec.interval dates = .ok k) (gens : List Cadence)
    (d : DatedSpec.Spec) (he : ∀ b ∈ d.stop, b.Valid) (hres : Resolves dates k d) (parts)
    (hparts : IsParts dates k gens d parts) (p) (hp : p ∈ parts) :
    ∃ c ∈ gens, ∃ a b, p = ⟨some a, some b, label c a⟩ ∧
      (∃ r, DatedSpec.selectedTimes dates p = .ok r ∧
        r.getD dates = dates.filter fun x => decide (InRange (some a) (some b) x)) ∧
      (∃ x ∈ dates, InRange (some a) (some b) x) ∧
      ∀ x ∈ dates, InRange (some a) (some b) x → InRange d.start d.stop x ∧ DateBuckets.Props.SameBucket c a x := by
  obtain ⟨range, lists, hrange, hf, rfl⟩ := hparts
  obtain ⟨c, hc, a, b, rfl, hper, hab⟩ := breakdown_mem hf hp
  have hrv : ∀ x ∈ range, x.Valid := by
    obtain ⟨e, hev, hl, -⟩ := hrange
    intro x hx
    rw [hl] at hx
    rcases List.mem_append.1 hx with hx | hx
    · exact hv x (selected_mem hx)
    · rw [List.mem_singleton.1 hx]; exact hev
  have hsi : Increasing (selected dates k d) := List.Pairwise.sublist List.filter_sublist hinc
  have hsn := selected_ne hne hv hinc hk he hres
  have hri : Increasing range := by
    obtain ⟨e, -, rfl, -, h3⟩ := hrange
    refine List.pairwise_append.2 ⟨hsi, by simp, ?_⟩
    intro x hx y hy
    rw [List.mem_singleton.1 hy]
    have hm := (DatedSpec.Props.last_max hsi hsn ⟨1, 1, 1⟩).2 x hx
    rw [List.getLastD_eq_getLast?, List.getLast?_eq_some_getLast hsn, Option.getD_some] at hm
    have := h3 _ (List.getLast?_eq_some_getLast hsn)
    omega
  have hrne : range ≠ [] := List.ne_nil_of_mem (period_mem hper).1
  have hper' := hper
  obtain ⟨⟨i, j, hij, hi, hj, -⟩, -⟩ := hper
  obtain ⟨m1, -, m2⟩ := range_cases hpos hinc hrange hij hi hj
  have hbv : b.Valid := hrv b (List.mem_of_getElem? hj)
  have hstep : (∃ z ∈ dates, z.ordinal + k = b.ordinal) ∧ a.ordinal + k ≤ b.ordinal := by
    rcases m2 with h | ⟨z, hz, haz, hbz, -⟩
    · obtain ⟨⟨z, hz, h1, h2⟩, h3⟩ := successor hinc hev (selected_mem m1) (selected_mem h) hab
      exact ⟨h3, by omega⟩
    · exact ⟨⟨z, selected_mem hz, hbz.symm⟩, by omega⟩
  have hsel : ∀ x ∈ dates, a.ordinal ≤ x.ordinal → x.ordinal < b.ordinal → x ∈ selected dates k d := by
    intro x hx hax hxb
    have ha' := (List.mem_filter.1 m1).2
    simp only [decide_eq_true_eq] at ha'
    refine List.mem_filter.2 ⟨hx, ?_⟩
    simp only [decide_eq_true_eq]
    refine ⟨fun s hs => by have := ha'.1 s hs; omega, fun t ht => ?_⟩
    rcases m2 with h | ⟨z, hz, -, hbz, hzm⟩
    · have hb' := (List.mem_filter.1 h).2
      simp only [decide_eq_true_eq] at hb'
      have := hb'.2 t ht
      omega
    · have hz' := (List.mem_filter.1 hz).2
      simp only [decide_eq_true_eq] at hz'
      have := hz'.2 t ht
      rcases Nat.lt_or_ge z.ordinal x.ordinal with h | h
      · obtain ⟨⟨w, hw, h1, h2⟩, -⟩ := successor hinc hev (selected_mem hz) hx h
        omega
      · omega
  have hres' : (∀ s ∈ (some a : Option CDate), s ∈ dates) ∧
      (∀ t ∈ (some b : Option CDate), ∃ x ∈ dates, x.ordinal + k = t.ordinal) ∧
      ∀ s ∈ (some a : Option CDate), ∀ t ∈ (some b : Option CDate), s.ordinal + k ≤ t.ordinal := by
    simpa using ⟨selected_mem m1, hstep.1, hstep.2⟩
  obtain ⟨r, hr⟩ := (DatedSpec.Props.resolves_iff dates hne hv k hk ⟨some a, some b, label c a⟩
    (by simpa using hbv)).2 hres'
  refine ⟨c, hc, a, b, rfl, ⟨r, hr, ?_⟩, ⟨a, selected_mem m1, by simpa [InRange] using hab⟩, ?_⟩
  · exact DatedSpec.Props.selection_half_open dates hne hv k hpos hev hk _ (by simpa using hbv) r hr
  · intro x hx hin
    have hin' : a.ordinal ≤ x.ordinal ∧ x.ordinal < b.ordinal := by simpa [InRange] using hin
    have hxs := hsel x hx hin'.1 hin'.2
    constructor
    · have := (List.mem_filter.1 hxs).2
      simp only [decide_eq_true_eq] at this
      exact ⟨this.1, fun t ht => by have := this.2 t ht; omega⟩
    · obtain ⟨l, hl⟩ := (DateBuckets.Props.buckets_accepted_iff c range hrv).2 ⟨hrne, hri⟩
      have hgap : ∀ x y, Next range x y → days x y < 270 := by
        intro x y hxy
        have := range_step hpos hinc hev hrange hri hxy
        unfold days
        omega
      have hmem : x ∈ range := by
        obtain ⟨e, -, rfl, -⟩ := hrange
        exact List.mem_append.2 (.inl hxs)
      exact (DateBuckets.Props.buckets_one_calendar_bucket c range hrv hgap l hl a b
        ((period_iff hrv hl a b).2 hper')).2 x hmem hin'.1 hin'.2

/-! ### A concrete case -/

/-- Mondays from 1 January to 1 April 2024. -/
def mondays : List CDate := [⟨2024, 1, 1⟩, ⟨2024, 1, 8⟩, ⟨2024, 1, 15⟩, ⟨2024, 1, 22⟩, ⟨2024, 1, 29⟩, ⟨2024, 2, 5⟩,
  ⟨2024, 2, 12⟩, ⟨2024, 2, 19⟩, ⟨2024, 2, 26⟩, ⟨2024, 3, 4⟩, ⟨2024, 3, 11⟩, ⟨2024, 3, 18⟩, ⟨2024, 3, 25⟩, ⟨2024, 4, 1⟩]

/-- A budget of 100 to be spent from January to March. -/
def winter : BSpec Unit Unit where
  dated := ⟨some ⟨2024, 1, 1⟩, some ⟨2024, 4, 1⟩, ""⟩
  name := "winter".toList
  gridName := "grid".toList
  group := some "w"
  scenario := .fixed (some 100)
  revenue := false

/-- The same without a group, for any dates. -/
def always : BSpec Unit Unit := { winter with dated := ⟨none, none, ""⟩, group := none }

/-- A marketing analysis. -/
def analysis : MSpec Unit where
  dated := ⟨none, none, "mine"⟩
  media := some {}
  level := 9 / 10

/-- A model fit. -/
def fit : UiSpec Unit Unit := .fit { level := 9 / 10 }

/-- What is asked for. -/
def wanted : List (UiSpec Unit Unit) := [fit, .marketing analysis, .budget winter, .budget always]

/-- New identifiers. -/
def ids (i : ℕ) : String := s!"id{i}"

/-- Group, dates and tag of a spec of the output. -/
def summary : UiSpec Unit Unit → String × Option CDate × Option CDate × Bool
  | .fit _ => ("fit", none, none, false)
  | .marketing m => ("marketing " ++ m.dated.tag, m.dated.start, m.dated.stop, false)
  | .budget b => ("budget " ++ b.group.getD "", b.dated.start, b.dated.stop, b.scenario == .fixed none)
  | .reach b => ("reach " ++ b.group.getD "", b.dated.start, b.dated.stop, b.revenue)
  | .other => ("", none, none, false)

example : mondays ≠ [] ∧ (∀ d ∈ mondays, d.Valid) ∧ Increasing mondays ∧ Every 7 mondays ∧
    DatedSpec.interval mondays = .ok 7 := by
  refine ⟨by simp [mondays], by decide +kernel, ?_, ?_, by decide +kernel⟩
  · unfold Increasing mondays; decide +kernel
  · unfold Every mondays; decide +kernel

example : (∀ s ∈ wanted, Constructed s) ∧ (∀ s ∈ wanted, RealDates s) := by
  constructor
  · intro s hs
    simp only [wanted, fit, List.mem_cons, List.not_mem_nil, or_false] at hs
    rcases hs with rfl | rfl | rfl | rfl
    · show FitProto.FitSpec.validate _ = _
      decide +kernel
    · show MSpec.validate _ = _
      exact (marketing_valid analysis).2 ⟨rfl, by norm_num [analysis], by norm_num [analysis], by simp [analysis],
        by simp [analysis]⟩
    · show BSpec.validate _ = _
      exact (budget_valid winter).2 ⟨by decide +kernel, by norm_num [winter], rfl, by decide +kernel⟩
    · show BSpec.validate _ = _
      exact (budget_valid always).2 ⟨by decide +kernel, by norm_num [always, winter], rfl, by decide +kernel⟩
  · intro s hs
    simp only [wanted, fit, List.mem_cons, List.not_mem_nil, or_false] at hs
    rcases hs with rfl | rfl | rfl | rfl <;> intro d hd <;> simp only [UiSpec.dated?, Option.mem_def, reduceCtorEq,
      Option.some.injEq] at hd <;> subst hd <;> constructor <;> intro a ha <;>
      simp only [analysis, winter, always, Option.mem_def, reduceCtorEq, Option.some.injEq] at ha <;> subst ha <;> decide

example : (match generate mondays true ids [.month, .quarter] wanted with
    | .ok r => r.map summary
    | .error _ => []) =
    [("fit", none, none, false),
     ("marketing ALL", none, none, false),
     ("marketing Y2024 Jan", some ⟨2024, 1, 1⟩, some ⟨2024, 2, 5⟩, false),
     ("marketing Y2024 Feb", some ⟨2024, 2, 5⟩, some ⟨2024, 3, 4⟩, false),
     ("marketing Y2024 Mar", some ⟨2024, 3, 4⟩, some ⟨2024, 4, 1⟩, false),
     ("marketing Y2024 Q1", some ⟨2024, 1, 1⟩, some ⟨2024, 4, 1⟩, false),
     ("budget w:ALL", some ⟨2024, 1, 1⟩, some ⟨2024, 4, 1⟩, false),
     ("budget w:Y2024 Jan", some ⟨2024, 1, 1⟩, some ⟨2024, 2, 5⟩, true),
     ("budget w:Y2024 Feb", some ⟨2024, 2, 5⟩, some ⟨2024, 3, 4⟩, true),
     ("budget w:Y2024 Mar", some ⟨2024, 3, 4⟩, some ⟨2024, 4, 1⟩, true),
     ("budget w:Y2024 Q1", some ⟨2024, 1, 1⟩, some ⟨2024, 4, 1⟩, true),
     ("reach w:ALL", some ⟨2024, 1, 1⟩, some ⟨2024, 4, 1⟩, true),
     ("reach w:Y2024 Jan", some ⟨2024, 1, 1⟩, some ⟨2024, 2, 5⟩, true),
     ("reach w:Y2024 Feb", some ⟨2024, 2, 5⟩, some ⟨2024, 3, 4⟩, true),
     ("reach w:Y2024 Mar", some ⟨2024, 3, 4⟩, some ⟨2024, 4, 1⟩, true),
     ("reach w:Y2024 Q1", some ⟨2024, 1, 1⟩, some ⟨2024, 4, 1⟩, true),
     ("budget id3:ALL", none, none, false),
     ("budget id3:Y2024 Jan", some ⟨2024, 1, 1⟩, some ⟨2024, 2, 5⟩, true),
     ("budget id3:Y2024 Feb", some ⟨2024, 2, 5⟩, some ⟨2024, 3, 4⟩, true),
     ("budget id3:Y2024 Mar", some ⟨2024, 3, 4⟩, some ⟨2024, 4, 1⟩, true),
     ("budget id3:Y2024 Q1", some ⟨2024, 1, 1⟩, some ⟨2024, 4, 1⟩, true),
     ("reach id3:ALL", none, none, true),
     ("reach id3:Y2024 Jan", some ⟨2024, 1, 1⟩, some ⟨2024, 2, 5⟩, true),
     ("reach id3:Y2024 Feb", some ⟨2024, 2, 5⟩, some ⟨2024, 3, 4⟩, true),
     ("reach id3:Y2024 Mar", some ⟨2024, 3, 4⟩, some ⟨2024, 4, 1⟩, true),
     ("reach id3:Y2024 Q1", some ⟨2024, 1, 1⟩, some ⟨2024, 4, 1⟩, true)] := by
  decide +kernel

/-! ### Findings -/

/-- **C93, finding.** The reach and frequency spec that goes with a budget spec for a KPI other than revenue
is for revenue: the kind of the KPI is not passed on. -/
theorem kpi_not_passed_on (hne : dates ≠ []) (hv : ∀ d ∈ dates, d.Valid) (hinc : Increasing dates) (hpos : 0 < k)
    (hk : DatedSpec.interval dates = .ok k) (fresh : ℕ → String) (gens : List Cadence)
    (specs : List (UiSpec δ γ)) (hs : ∀ s ∈ specs, Constructed s) (hr : ∀ s ∈ specs, RealDates s) (r)
    (h : generate dates true fresh gens specs = .ok r) (b : BSpec δ γ) (hb : .budget b ∈ specs)
    (hkpi : b.revenue = false) :
    ∃ x y, .budget x ∈ r ∧ .reach y ∈ r ∧ x.group = y.group ∧ x.dated = y.dated ∧ x.revenue = false ∧
      y.revenue = true := by
  obtain ⟨blocks, hf, rfl⟩ := blocks_exact hne hv hinc hpos hk true fresh gens specs hs hr r h
  obtain ⟨i, hi, hbi⟩ := List.getElem_of_mem hb
  have hz : i < specs.zipIdx.length := by simpa using hi
  have hl := hf.length_eq
  have hblock := (List.forall₂_iff_get.1 hf).2 i hz (by omega)
  simp only [List.get_eq_getElem, List.getElem_zipIdx, hbi] at hblock
  obtain ⟨parts, sc, -, -, hout⟩ := hblock
  have hm : ∀ z ∈ blocks[i]'(by omega), z ∈ blocks.flatten := fun z hz' =>
    List.mem_flatten.2 ⟨_, List.getElem_mem _, hz'⟩
  refine ⟨budgetFor b (groupOf fresh (0 + i) (UiSpec.budget b)) b.scenario (whole b.dated),
    reachFor b (groupOf fresh (0 + i) (UiSpec.budget b)) (whole b.dated), hm _ ?_, hm _ ?_, rfl, rfl, hkpi, rfl⟩
  · rw [hout]; simp
  · rw [hout]; simp

/-- **C93, finding.** Two budget specs with the same name, whatever their groups and grid names, lead to
reach and frequency specs with the same grid name. -/
theorem grid_names_collide (b c : BSpec δ γ) (g g' : String) (p : DatedSpec.Spec) (h : b.name = c.name) :
    (reachFor b g p).gridName = (reachFor c g' p).gridName := by
  simp [reachFor, h]

/-- **C93, finding.** A budget spec that does not use the optimal frequency may carry any (ignored) maximal
frequency; with reach and frequency channels one below 1 makes the whole generation fail. -/
theorem ignored_frequency_refused :
    ∃ b : BSpec Unit Unit, b.validate = .ok () ∧ b.optimalFrequency = false ∧
      (∃ r, generate mondays false ids [.month] [.budget b] = .ok r) ∧
      ∀ r, generate mondays true ids [.month] [.budget b] ≠ .ok r := by
  refine ⟨{ winter with optimalFrequency := false, maxFrequency := some (1 / 2) }, ?_, rfl, ?_, ?_⟩
  · exact (budget_valid _).2 ⟨by decide +kernel, by norm_num [winter], rfl, by decide +kernel⟩
  · have h : (match generate mondays false ids [.month]
        [.budget { winter with optimalFrequency := false, maxFrequency := some (1 / 2) }] with
      | .ok _ => true
      | .error _ => false) = true := by decide +kernel
    revert h
    cases generate mondays false ids [.month]
        [.budget { winter with optimalFrequency := false, maxFrequency := some (1 / 2) }] with
    | ok r => exact fun _ => ⟨r, rfl⟩
    | error e => intro h; cases h
  · have h : (match generate mondays true ids [.month]
        [.budget { winter with optimalFrequency := false, maxFrequency := some (1 / 2) }] with
      | .ok _ => true
      | .error _ => false) = false := by decide +kernel
    intro r hr
    rw [hr] at h
    cases h

/-- Whether a spec of the output has dates that do not resolve. -/
def unresolved (times : List CDate) : UiSpec Unit Unit → Bool
  | .marketing m => match DatedSpec.selectedTimes times m.dated with
    | .ok _ => false
    | .error _ => true
  | .budget b => match DatedSpec.selectedTimes times b.dated with
    | .ok _ => false
    | .error _ => true
  | _ => false

/-- **C93, finding.** With monthly data the generator accepts a marketing analysis of the whole period, but
the specs it makes for single months do not resolve, so that the analysis fails. -/
theorem monthly_parts_unresolved :
    ∃ r, generate DatedSpec.Props.months false ids [.month] [.marketing analysis] = .ok r ∧
      ∃ s ∈ r, unresolved DatedSpec.Props.months s = true := by
  have h : (match generate DatedSpec.Props.months false ids [.month] [(.marketing analysis : UiSpec Unit Unit)] with
    | .ok r => r.any (unresolved DatedSpec.Props.months)
    | .error _ => false) = true := by decide +kernel
  revert h
  cases generate DatedSpec.Props.months false ids [.month] [(.marketing analysis : UiSpec Unit Unit)] with
  | error e => intro h; cases h
  | ok r =>
    intro h
    obtain ⟨s, hs, hu⟩ := List.any_eq_true.1 h
    exact ⟨r, rfl, s, hs, hu⟩

/-- **C93, finding.** A budget spec for new data of other dates is not refused.  Its parts have dates of the
input data, which the new data do not have. -/
theorem new_data_parts_unresolved :
    ∃ (times : List CDate) (b : BSpec Unit Unit), b.newData = some ⟨some times, ()⟩ ∧
      ∃ r, generate mondays false ids [.month] [.budget b] = .ok r ∧
        (∃ s ∈ r, unresolved times s = true) := by
  refine ⟨[⟨2030, 1, 7⟩, ⟨2030, 1, 14⟩, ⟨2030, 1, 21⟩],
    { always with newData := some ⟨some [⟨2030, 1, 7⟩, ⟨2030, 1, 14⟩, ⟨2030, 1, 21⟩], ()⟩ }, rfl, ?_⟩
  have h : (match generate mondays false ids [.month] [(.budget { always with
        newData := some ⟨some [⟨2030, 1, 7⟩, ⟨2030, 1, 14⟩, ⟨2030, 1, 21⟩], ()⟩ } : UiSpec Unit Unit)] with
    | .ok r => r.any (unresolved [⟨2030, 1, 7⟩, ⟨2030, 1, 14⟩, ⟨2030, 1, 21⟩])
    | .error _ => false) = true := by decide +kernel
  revert h
  cases generate mondays false ids [.month] [(.budget { always with
        newData := some ⟨some [⟨2030, 1, 7⟩, ⟨2030, 1, 14⟩, ⟨2030, 1, 21⟩], ()⟩ } : UiSpec Unit Unit)] with
  | error e => intro h; cases h
  | ok r =>
    intro h
    obtain ⟨s, hs, hu⟩ := List.any_eq_true.1 h
    exact ⟨r, rfl, s, hs, hu⟩

/-- The tags of the marketing specs. -/
def marketingTags (r : List (UiSpec δ γ)) : List String :=
  r.filterMap fun s => match s with
    | .marketing m => some m.dated.tag
    | _ => none

/-- **C93, finding.** Two marketing specs always share the tag `ALL`, whatever tags the user gave them. -/
theorem marketing_tags_collide (hne : dates ≠ []) (hv : ∀ d ∈ dates, d.Valid) (hinc : Increasing dates)
    (hpos : 0 < k) (hk : DatedSpec.interval dates = .ok k) (rf : Bool) (fresh : ℕ → String) (gens : List Cadence)
    (m n : MSpec δ) (hs : ∀ s ∈ [(.marketing m : UiSpec δ γ), .marketing n], Constructed s)
    (hr : ∀ s ∈ [(.marketing m : UiSpec δ γ), .marketing n], RealDates s) (r)
    (h : generate dates rf fresh gens [(.marketing m : UiSpec δ γ), .marketing n] = .ok r) :
    ¬ (marketingTags r).Nodup := by
  obtain ⟨blocks, hf, rfl⟩ := blocks_exact hne hv hinc hpos hk rf fresh gens _ hs hr r h
  simp only [List.zipIdx_cons, List.zipIdx_nil] at hf
  match blocks, hf with
  | [x, y], .cons hx (.cons hy .nil) =>
    obtain ⟨ps, -, rfl⟩ := hx
    obtain ⟨qs, -, rfl⟩ := hy
    intro hn
    rw [marketingTags, List.flatten_cons, List.flatten_cons, List.filterMap_append, List.nodup_append] at hn
    exact hn.2.2 "ALL" (List.mem_filterMap.2 ⟨_, List.mem_map.2 ⟨_, List.mem_cons_self, rfl⟩, rfl⟩) "ALL"
      (List.mem_filterMap.2 ⟨_, List.mem_append.2 (.inl (List.mem_map.2 ⟨_, List.mem_cons_self, rfl⟩)), rfl⟩) rfl

end Verif.UiSpecs.Props
