import Verif.Spec.Announce
import Mathlib.Data.Set.Finite.Basic
import Mathlib.Data.Fintype.EquivFin
import Mathlib.Tactic.Tauto

/-!
# C107: settings that have no effect, and the warnings about them
-/

namespace Verif.Announce.Props

open Verif.Announce Verif.Announce.Spec

variable {D : Type}

/-! ## What the samplers read -/

theorem group_mem {present : Bool} {base : List Param} {a b : Param} {t : PType} {l : List Param}
    (h : group present base a b t = .ok l) (p : Param) :
    p ∈ l ↔ present = true ∧ (p ∈ base ∨ (p = a ∧ t = .coefficient) ∨ (p = b ∧ t = .contribution)) := by
  unfold group at h
  split_ifs at h with hp
  · cases t with
    | roi => simp [unpaid] at h
    | mroi => simp [unpaid] at h
    | coefficient => simp only [unpaid, Except.ok.injEq] at h; subst h; simp [hp]
    | contribution => simp only [unpaid, Except.ok.injEq] at h; subst h; simp [hp]
  · cases h
    simp [hp]

/-- The parameters that a sampler reads, by kind of channel. -/
def Read (orf : PType) (x : Data) (c : Cfg D) (p : Param) : Prop :=
  p ∈ [Param.knotValues, .sigma, .tauG] ∨
  (x.media = true ∧ (p ∈ [Param.alphaM, .ecM, .etaM, .slopeM] ∨ p = paidM c.media)) ∨
  (x.rf = true ∧ (p ∈ [Param.alphaRf, .ecRf, .etaRf, .slopeRf] ∨ p = paidRf c.rf)) ∨
  (x.organicMedia = true ∧ (p ∈ [Param.alphaOm, .ecOm, .etaOm, .slopeOm] ∨
    (p = .betaOm ∧ c.organicMedia = .coefficient) ∨ (p = .contributionOm ∧ c.organicMedia = .contribution))) ∨
  (x.organicRf = true ∧ (p ∈ [Param.alphaOrf, .ecOrf, .etaOrf, .slopeOrf] ∨
    (p = .betaOrf ∧ orf = .coefficient) ∨ (p = .contributionOrf ∧ orf = .contribution))) ∨
  (x.controls = true ∧ p ∈ [Param.gammaC, .xiC]) ∨
  (x.nonMedia = true ∧ (p ∈ [Param.xiN] ∨ (p = .gammaN ∧ c.nonMedia = .coefficient) ∨
    (p = .contributionN ∧ c.nonMedia = .contribution)))

theorem media_mem (b : Bool) (base : List Param) (q p : Param) :
    p ∈ (if b then base ++ [q] else []) ↔ b = true ∧ (p ∈ base ∨ p = q) := by
  cases b <;> simp

theorem controls_mem (b : Bool) (base : List Param) (p : Param) :
    p ∈ (if b then base else []) ↔ b = true ∧ p ∈ base := by
  cases b <;> simp

theorem posterior_mem {x : Data} {c : Cfg D} {l : List Param} (h : posteriorNames x c = .ok l) (p : Param) :
    p ∈ l ↔ Read c.organicRf x c p := by
  unfold posteriorNames at h
  split at h
  · cases h
  · cases h
  · cases h
  next om orf n h1 h2 h3 =>
    cases h
    have e1 := group_mem h1 p
    have e2 := group_mem h2 p
    have e3 := group_mem h3 p
    have e4 := media_mem x.media [.alphaM, .ecM, .etaM, .slopeM] (paidM c.media) p
    have e5 := media_mem x.rf [.alphaRf, .ecRf, .etaRf, .slopeRf] (paidRf c.rf) p
    have e6 := controls_mem x.controls [.gammaC, .xiC] p
    simp only [List.cons_append, List.nil_append] at e4 e5
    unfold Read
    rw [List.mem_append, List.mem_append, List.mem_append, List.mem_append, List.mem_append, List.mem_append,
      e1, e2, e3, e4, e5, e6]
    simp only [or_assoc]

theorem prior_mem {x : Data} {c : Cfg D} {l : List Param} (h : priorNames x c = .ok l) (p : Param) :
    p ∈ l ↔ Read c.organicMedia x c p := by
  unfold priorNames at h
  split at h
  · cases h
  · cases h
  · cases h
  next om orf n h1 h2 h3 =>
    cases h
    have e1 := group_mem h1 p
    have e2 := group_mem h2 p
    have e3 := group_mem h3 p
    have e4 := media_mem x.media [.alphaM, .ecM, .etaM, .slopeM] (paidM c.media) p
    have e5 := media_mem x.rf [.alphaRf, .ecRf, .etaRf, .slopeRf] (paidRf c.rf) p
    have e6 := controls_mem x.controls [.gammaC, .xiC] p
    simp only [List.cons_append, List.nil_append] at e4 e5
    unfold Read
    rw [List.mem_append, List.mem_append, List.mem_append, List.mem_append, List.mem_append, List.mem_append,
      e1, e2, e3, e4, e5, e6]
    have : p ∈ [Param.tauG, .knotValues, .sigma] ↔ p ∈ [Param.knotValues, .sigma, .tauG] := by
      simp only [List.mem_cons, List.not_mem_nil, or_false]
      constructor
      · rintro (h | h | h)
        · exact Or.inr (Or.inr h)
        · exact Or.inl h
        · exact Or.inr (Or.inl h)
      · rintro (h | h | h)
        · exact Or.inr (Or.inl h)
        · exact Or.inr (Or.inr h)
        · exact Or.inl h
    rw [this]
    simp only [or_assoc]
    constructor
    · rintro (h | h | h | h | h | h | h)
      · exact Or.inl h
      · exact Or.inr (Or.inr (Or.inr (Or.inr (Or.inr (Or.inl h)))))
      · exact Or.inr (Or.inl h)
      · exact Or.inr (Or.inr (Or.inl h))
      · exact Or.inr (Or.inr (Or.inr (Or.inl h)))
      · exact Or.inr (Or.inr (Or.inr (Or.inr (Or.inl h))))
      · exact Or.inr (Or.inr (Or.inr (Or.inr (Or.inr (Or.inr h)))))
    · rintro (h | h | h | h | h | h | h)
      · exact Or.inl h
      · exact Or.inr (Or.inr (Or.inl h))
      · exact Or.inr (Or.inr (Or.inr (Or.inl h)))
      · exact Or.inr (Or.inr (Or.inr (Or.inr (Or.inl h))))
      · exact Or.inr (Or.inr (Or.inr (Or.inr (Or.inr (Or.inl h)))))
      · exact Or.inr (Or.inl h)
      · exact Or.inr (Or.inr (Or.inr (Or.inr (Or.inr (Or.inr h)))))

/-- The documented use is: read, and not set to zero. -/
theorem used_iff (x : Data) (c : Cfg D) (p : Param) :
    Used x c p ↔ Read c.organicRf x c p ∧ ¬ (x.national = true ∧ p ∈ zeroed) := by
  unfold Read zeroed
  cases hm : c.media <;> cases hr : c.rf <;> cases p <;> simp [Used, paidM, paidRf, hm, hr]

/-! ## Changing one distribution -/

theorem build_with_other (w : Dists D) (x : Data) (c : Cfg D) (p : Param) (d : D)
    (h1 : p ≠ .roiM) (h2 : p ≠ .roiRf) (h3 : p ≠ .mroiM) (h4 : p ≠ .mroiRf) :
    build w x (with_ c p d) = build w x c := by
  unfold build mroiCheck useTotal with_
  simp [h1.symm, h2.symm, h3.symm, h4.symm]

/-- Changing a distribution that is not read keeps the model accepted, and what is read. -/
theorem build_with_unread (w : Dists D) (x : Data) (c : Cfg D) (p : Param) (d : D) (orf : PType)
    (h : ¬ Read orf x c p) (t : Bool) (ht : build w x c = .ok t) :
    ∃ t', build w x (with_ c p d) = .ok t' ∧ (t' = t ∨ (x.media = false ∧ x.rf = false)) := by
  by_cases h1 : p = .roiM
  · subst h1
    have hm : x.media = false ∨ c.media ≠ .roi := by
      by_contra hc
      push Not at hc
      apply h
      right; left
      rw [hc.2]
      simp [paidM, hc.1]
    unfold build mroiCheck useTotal with_ at *
    simp only [reduceCtorEq, if_false, if_true] at ht ⊢
    revert ht
    rcases hm with hm | hm
    · rw [hm]
      generalize w.eq d (w.default .roiM) = e1
      generalize w.eq (c.prior .roiM) (w.default .roiM) = e2
      generalize w.eq (c.prior .roiRf) (w.default .roiRf) = e3
      generalize w.eq (c.prior .mroiRf) (w.default .mroiRf) = e4
      generalize (c.media == PType.roi) = e5
      generalize (c.rf == PType.roi) = e6
      generalize (c.rf == PType.mroi) = e7
      generalize (c.media == PType.mroi) = e8
      cases x.revenueKpi <;> cases x.revenuePerKpi <;> cases x.rf <;> cases e7 <;> cases e4 <;> simp <;>
        cases e6 <;> cases e3 <;> simp <;> intro _ <;> cases e5 <;> cases e1 <;> simp
    · have hf : (c.media == PType.roi) = false := by simpa using hm
      rw [hf]
      intro ht
      exact ⟨t, ht, Or.inl rfl⟩
  · by_cases h2 : p = .roiRf
    · subst h2
      have hm : x.rf = false ∨ c.rf ≠ .roi := by
        by_contra hc
        push Not at hc
        apply h
        right; right; left
        rw [hc.2]
        simp [paidRf, hc.1]
      unfold build mroiCheck useTotal with_ at *
      simp only [reduceCtorEq, if_false, if_true] at ht ⊢
      revert ht
      rcases hm with hm | hm
      · rw [hm]
        generalize w.eq d (w.default .roiRf) = e1
        generalize w.eq (c.prior .roiM) (w.default .roiM) = e2
        generalize w.eq (c.prior .roiRf) (w.default .roiRf) = e3
        generalize w.eq (c.prior .mroiM) (w.default .mroiM) = e4
        generalize (c.media == PType.roi) = e5
        generalize (c.rf == PType.roi) = e6
        generalize (c.rf == PType.mroi) = e7
        generalize (c.media == PType.mroi) = e8
        cases x.revenueKpi <;> cases x.revenuePerKpi <;> cases x.media <;> cases e8 <;> cases e4 <;> simp <;>
          cases e5 <;> cases e2 <;> simp <;> intro _ <;> cases e6 <;> cases e1 <;> simp
      · have hf : (c.rf == PType.roi) = false := by simpa using hm
        rw [hf]
        intro ht
        exact ⟨t, ht, Or.inl rfl⟩
    · by_cases h3 : p = .mroiM
      · subst h3
        have hm : (x.media && c.media == .mroi) = false := by
          by_contra hc
          simp only [Bool.not_eq_false, Bool.and_eq_true, beq_iff_eq] at hc
          apply h
          right; left
          rw [hc.2]
          simp [paidM, hc.1]
        refine ⟨t, ?_, Or.inl rfl⟩
        rw [← ht]
        unfold build mroiCheck useTotal with_
        simp [hm]
      · by_cases h4 : p = .mroiRf
        · subst h4
          have hm : (x.rf && c.rf == .mroi) = false := by
            by_contra hc
            simp only [Bool.not_eq_false, Bool.and_eq_true, beq_iff_eq] at hc
            apply h
            right; right; left
            rw [hc.2]
            simp [paidRf, hc.1]
          refine ⟨t, ?_, Or.inl rfl⟩
          rw [← ht]
          unfold build mroiCheck useTotal with_
          simp [hm]
        · exact ⟨t, by rw [build_with_other w x c p d h1 h2 h3 h4]; exact ht, Or.inl rfl⟩

theorem not_read_roi {orf : PType} {x : Data} {c : Cfg D} (hm : x.media = false) (hr : x.rf = false) :
    ¬ Read orf x c .roiM ∧ ¬ Read orf x c .roiRf := by
  unfold Read
  simp [hm, hr]

theorem useTotal_true {w : Dists D} {x : Data} {c : Cfg D} (h : useTotal w x c = .ok true) :
    (!x.revenueKpi && !x.revenuePerKpi) = true ∧
    ((c.media == .roi && w.eq (c.prior .roiM) (w.default .roiM) &&
        (c.rf == .roi && w.eq (c.prior .roiRf) (w.default .roiRf))) ||
      (!x.media && (c.rf == .roi && w.eq (c.prior .roiRf) (w.default .roiRf))) ||
      (!x.rf && (c.media == .roi && w.eq (c.prior .roiM) (w.default .roiM)))) = true := by
  unfold useTotal at h
  dsimp only at h
  by_cases g1 : (!x.revenueKpi && !x.revenuePerKpi) = true
  · refine ⟨g1, ?_⟩
    by_contra g2
    rw [if_pos g1, if_neg g2] at h
    split_ifs at h
    cases h
  · rw [if_neg g1] at h
    cases h

/-- A sampler, by what it reads. -/
theorem effect {names : Data → Cfg D → Except Err (List Param)} {w : Dists D} (hw : Right w) [Infinite D] {x : Data}
    {c : Cfg D} {orf : PType} (hn : ∀ p d, names x (with_ c p d) = names x c)
    (hmem : ∀ l, names x c = .ok l → ∀ p, p ∈ l ↔ Read orf x c p) {r : List (Param × D)}
    (hr : reads names w x c = .ok r) (p : Param) :
    NoEffect (reads names w x) c p ↔ ¬ (Read orf x c p ∧ ¬ (x.national = true ∧ p ∈ zeroed)) := by
  have hr' := hr
  unfold reads at hr'
  cases hb : build w x c with
  | error e => rw [hb] at hr'; cases hr'
  | ok t =>
    rw [hb] at hr'
    simp only at hr'
    cases hl : names x c with
    | error e => rw [hl] at hr'; cases hr'
    | ok l =>
      rw [hl] at hr'
      simp only [Except.ok.injEq] at hr'
      have hm := hmem l hl
      constructor
      · rintro hne ⟨hread, hz⟩
        classical
        obtain ⟨d, hd⟩ := Infinite.exists_notMem_finset ({c.prior p, w.default p, w.total p} : Finset D)
        simp only [Finset.mem_insert, Finset.mem_singleton, not_or] at hd
        have h := hne d
        rw [hr] at h
        unfold reads at h
        cases hb' : build w x (with_ c p d) with
        | error e => rw [hb'] at h; cases h
        | ok t' =>
          rw [hb', hn p d, hl] at h
          simp only [Except.ok.injEq] at h
          rw [← hr'] at h
          have hp := List.map_inj_left.1 h p ((hm p).2 hread)
          simp only [Prod.mk.injEq, true_and] at hp
          have hz' : (x.national && decide (p ∈ zeroed)) = false := by
            by_contra hc
            simp only [Bool.not_eq_false, Bool.and_eq_true, decide_eq_true_eq] at hc
            exact hz hc
          unfold broadcast at hp
          rw [hz'] at hp
          simp only [Bool.false_eq_true, if_false] at hp
          have hdp : (with_ c p d).prior p = d := by simp [with_]
          rw [hdp] at hp
          -- the total prior is not used for another distribution
          have ht' : (t' && (p == Param.roiM || p == Param.roiRf)) = false := by
            by_contra hc
            simp only [Bool.not_eq_false, Bool.and_eq_true, Bool.or_eq_true, beq_iff_eq] at hc
            obtain ⟨htt, hc⟩ := hc
            subst htt
            unfold build at hb'
            split at hb'
            · cases hb'
            obtain ⟨-, g2⟩ := useTotal_true hb'
            have hdd : w.eq d (w.default p) = false := by
              by_contra hq
              simp only [Bool.not_eq_false] at hq
              exact hd.2.1 ((hw.eq _ _).1 hq)
            rcases hc with rfl | rfl
            · have hxm : x.media = true := by
                rcases hread with h | h | h | h | h | h | h
                · simp at h
                · exact h.1
                · rcases h with ⟨-, h | h⟩
                  · simp at h
                  · cases hcr : c.rf <;> rw [hcr] at h <;> simp [paidRf] at h
                · simp at h
                · simp at h
                · simp at h
                · simp at h
              simp [with_, hdd, hxm] at g2
            · have hxm : x.rf = true := by
                rcases hread with h | h | h | h | h | h | h
                · simp at h
                · rcases h with ⟨-, h | h⟩
                  · simp at h
                  · cases hcr : c.media <;> rw [hcr] at h <;> simp [paidM] at h
                · exact h.1
                · simp at h
                · simp at h
                · simp at h
                · simp at h
              simp [with_, hdd, hxm] at g2
          rw [ht'] at hp
          simp only [Bool.false_eq_true, if_false] at hp
          split_ifs at hp
          · exact hd.2.2 hp
          · exact hd.1 hp
      · intro hnot d
        rw [hr]
        by_cases hread : Read orf x c p
        · have hz : x.national = true ∧ p ∈ zeroed := by
            by_contra hz
            exact hnot ⟨hread, hz⟩
          have hp : p ≠ .roiM ∧ p ≠ .roiRf ∧ p ≠ .mroiM ∧ p ≠ .mroiRf := by
            have := hz.2
            unfold zeroed at this
            refine ⟨?_, ?_, ?_, ?_⟩ <;> · rintro rfl; simp at this
          unfold reads
          rw [build_with_other w x c p d hp.1 hp.2.1 hp.2.2.1 hp.2.2.2, hb, hn, hl]
          simp only [Except.ok.injEq]
          rw [← hr']
          refine List.map_congr_left ?_
          intro q _
          rw [Prod.mk.injEq]
          refine ⟨rfl, ?_⟩
          by_cases hq : q = p
          · subst hq
            have conv : ∀ d, convert w d = w.zero := by
              intro d
              unfold convert
              split_ifs with h
              · exact (hw.zero d).1 h
              · rfl
            unfold broadcast
            simp only [hz.1, hz.2, decide_true, Bool.and_self, if_true, conv]
          · unfold broadcast
            simp [with_, hq]
        · obtain ⟨t', hb', ht'⟩ := build_with_unread w x c p d orf hread t hb
          unfold reads
          rw [hb', hn, hl]
          simp only [Except.ok.injEq]
          rw [← hr']
          refine List.map_congr_left ?_
          intro q hq
          rw [Prod.mk.injEq]
          refine ⟨rfl, ?_⟩
          have hqp : q ≠ p := by
            rintro rfl
            exact hread ((hm q).1 hq)
          have hpri : (with_ c p d).prior q = c.prior q := by simp [with_, hqp]
          unfold broadcast
          rw [hpri]
          rcases ht' with rfl | ⟨n1, n2⟩
          · rfl
          · have hroi : (q == Param.roiM || q == Param.roiRf) = false := by
              by_contra hc
              simp only [Bool.not_eq_false, Bool.or_eq_true, beq_iff_eq] at hc
              obtain ⟨a, b⟩ := not_read_roi (orf := orf) (c := c) n1 n2
              rcases hc with rfl | rfl
              · exact a ((hm _).1 hq)
              · exact b ((hm _).1 hq)
            rw [hroi]
            simp

/-! ## Theorems -/

/-- A prior distribution has no effect on the posterior of a model exactly if it is not used: there are no channels of
its kind, the prior type asks for another, or the model is national and it is about differences between geos. -/
theorem no_effect_iff (w : Dists D) (hw : Right w) [Infinite D] (x : Data) (c : Cfg D) (r : List (Param × D))
    (hr : reads posteriorNames w x c = .ok r) (p : Param) :
    NoEffect (reads posteriorNames w x) c p ↔ ¬ Used x c p := by
  rw [used_iff]
  exact effect hw (fun _ _ => rfl) (fun l h p => posterior_mem h p) hr p

/-- The same for samples of the prior, except that organic reach and frequency goes by the prior type of organic
media. -/
theorem no_effect_prior_iff (w : Dists D) (hw : Right w) [Infinite D] (x : Data) (c : Cfg D) (r : List (Param × D))
    (hr : reads priorNames w x c = .ok r) (p : Param) :
    NoEffect (reads priorNames w x) c p ↔ ¬ Used x { c with organicRf := c.organicMedia } p := by
  rw [used_iff]
  exact effect hw (fun _ _ => rfl) (fun l h p => prior_mem h p) hr p

theorem named_iff (w : Dists D) (hw : Right w) (c : Cfg D) (p : Param) :
    Named (announced w c) p ↔ (p ∈ ignoredMedia c.media ∨ p ∈ ignoredRf c.rf) ∧ Custom w c p := by
  have hc : (!w.eq (c.prior p) (w.default p)) = true ↔ Custom w c p := by
    unfold Custom
    rw [Bool.not_eq_true', ← Bool.not_eq_true, hw.eq]
  unfold Named announced
  constructor
  · rintro ⟨names, h1, h2⟩
    rw [List.mem_filter] at h1
    simp only [List.map_cons, List.map_nil, List.mem_cons, List.not_mem_nil, or_false] at h1
    rcases h1.1 with rfl | rfl
    · rw [List.mem_filter, hc] at h2
      exact ⟨Or.inl h2.1, h2.2⟩
    · rw [List.mem_filter, hc] at h2
      exact ⟨Or.inr h2.1, h2.2⟩
  · rintro ⟨h1 | h1, h2⟩
    · have hm : p ∈ (ignoredMedia c.media).filter fun p => !w.eq (c.prior p) (w.default p) := by
        rw [List.mem_filter, hc]; exact ⟨h1, h2⟩
      refine ⟨_, ?_, hm⟩
      rw [List.mem_filter]
      refine ⟨by simp, ?_⟩
      simp only [decide_eq_true_eq]
      intro hnil
      rw [hnil] at hm
      cases hm
    · have hm : p ∈ (ignoredRf c.rf).filter fun p => !w.eq (c.prior p) (w.default p) := by
        rw [List.mem_filter, hc]; exact ⟨h1, h2⟩
      refine ⟨_, ?_, hm⟩
      rw [List.mem_filter]
      refine ⟨by simp, ?_⟩
      simp only [decide_eq_true_eq]
      intro hnil
      rw [hnil] at hm
      cases hm

/-- For paid channels the warnings are exact: the distributions of ROI, marginal ROI, contribution and coefficient of the
channels that there are, are named exactly if they were changed and have no effect. -/
theorem paid_announced_iff (w : Dists D) (hw : Right w) [Infinite D] (x : Data) (c : Cfg D) (r : List (Param × D))
    (hr : reads posteriorNames w x c = .ok r) (p : Param)
    (hp : (x.media = true ∧ p ∈ [Param.roiM, .mroiM, .contributionM, .betaM]) ∨
      (x.rf = true ∧ p ∈ [Param.roiRf, .mroiRf, .contributionRf, .betaRf])) :
    Named (announced w c) p ↔ Custom w c p ∧ NoEffect (reads posteriorNames w x) c p := by
  rw [named_iff w hw, no_effect_iff w hw x c r hr, and_comm]
  refine and_congr_right fun _ => ?_
  rcases hp with ⟨hx, hp⟩ | ⟨hx, hp⟩
  · simp only [List.mem_cons, List.not_mem_nil, or_false] at hp
    rcases hp with rfl | rfl | rfl | rfl <;> cases hm : c.media <;> cases hr : c.rf <;>
      simp [Used, hx, hm, ignoredMedia, ignoredRf]
  · simp only [List.mem_cons, List.not_mem_nil, or_false] at hp
    rcases hp with rfl | rfl | rfl | rfl <;> cases hm : c.media <;> cases hr : c.rf <;>
      simp [Used, hx, hr, ignoredMedia, ignoredRf]

/-- Finding: no warning ever names a distribution of a channel that is not paid, so with the default prior types a
changed coefficient distribution is ignored silently. -/
theorem unpaid_never_announced (w : Dists D) (hw : Right w) [Infinite D] (x : Data) (c : Cfg D) (r : List (Param × D))
    (hr : reads posteriorNames w x c = .ok r) (p q : Param) (t : PType)
    (h : (p, q, t) = (.betaOm, .contributionOm, c.organicMedia) ∨
      (p, q, t) = (.betaOrf, .contributionOrf, c.organicRf) ∨ (p, q, t) = (.gammaN, .contributionN, c.nonMedia)) :
    ¬ Named (announced w c) p ∧ ¬ Named (announced w c) q ∧
    (t = .contribution → NoEffect (reads posteriorNames w x) c p) ∧
    (t = .coefficient → NoEffect (reads posteriorNames w x) c q) := by
  rw [named_iff w hw, named_iff w hw, no_effect_iff w hw x c r hr, no_effect_iff w hw x c r hr]
  rcases h with h | h | h <;> simp only [Prod.mk.injEq] at h <;> obtain ⟨rfl, rfl, rfl⟩ := h <;>
    cases c.media <;> cases c.rf <;> simp [Used, ignoredMedia, ignoredRf] <;> constructor <;> intro h1 _ <;> simp [h1]

/-- Finding: if there are no channels of a kind, no distribution for them has an effect, and the one that the prior type
asks for is not named. -/
theorem absent_channels_silent (w : Dists D) (hw : Right w) [Infinite D] (x : Data) (c : Cfg D) (r : List (Param × D))
    (hr : reads posteriorNames w x c = .ok r) (hx : x.rf = false) :
    (∀ p ∈ [Param.alphaRf, .ecRf, .etaRf, .slopeRf, .roiRf, .mroiRf, .contributionRf, .betaRf],
      NoEffect (reads posteriorNames w x) c p) ∧
    ∀ p ∈ [Param.alphaRf, .ecRf, .etaRf, .slopeRf, paidRf c.rf], ¬ Named (announced w c) p := by
  refine ⟨?_, ?_⟩
  · intro p hp
    rw [no_effect_iff w hw x c r hr]
    simp only [List.mem_cons, List.not_mem_nil, or_false] at hp
    rcases hp with rfl | rfl | rfl | rfl | rfl | rfl | rfl | rfl <;> simp [Used, hx]
  · intro p hp
    rw [named_iff w hw]
    simp only [List.mem_cons, List.not_mem_nil, or_false] at hp
    rcases hp with rfl | rfl | rfl | rfl | rfl <;> cases c.media <;> cases c.rf <;>
      simp [ignoredMedia, ignoredRf, paidRf]

/-- In a national model the distributions of differences between geos are zero whatever was given, and a warning names
one exactly if it was given another way, also by the defaults. -/
theorem national_priors (w : Dists D) (hw : Right w) [Infinite D] (x : Data) (c : Cfg D) (r : List (Param × D))
    (hr : reads posteriorNames w x c = .ok r) (hx : x.national = true) (p : Param)
    (hp : p ∈ [Param.tauG, .etaM, .etaRf, .etaOm, .etaOrf, .xiC, .xiN]) :
    NoEffect (reads posteriorNames w x) c p ∧ (∀ d, (p, d) ∈ r → d = w.zero) ∧
    (p ∈ zeroWarnings w x c ↔ c.prior p ≠ w.zero) := by
  refine ⟨?_, ?_, ?_⟩
  · rw [no_effect_iff w hw x c r hr]
    simp only [List.mem_cons, List.not_mem_nil, or_false] at hp
    rcases hp with rfl | rfl | rfl | rfl | rfl | rfl | rfl <;> simp [Used, hx]
  · intro d hd
    unfold reads at hr
    split at hr
    · cases hr
    split at hr
    · cases hr
    cases hr
    rw [List.mem_map] at hd
    obtain ⟨q, -, hq⟩ := hd
    simp only [Prod.mk.injEq] at hq
    obtain ⟨rfl, rfl⟩ := hq
    have hz : q ∈ zeroed := hp
    unfold broadcast convert
    simp only [hx, hz, decide_true, Bool.and_self, if_true]
    split_ifs with h
    · exact (hw.zero _).1 h
    · rfl
  · unfold zeroWarnings
    rw [if_pos hx, List.mem_filter, Bool.not_eq_true', ← Bool.not_eq_true, hw.zero]
    exact ⟨fun h => h.2, fun h => ⟨hp, h⟩⟩

/-- The total media contribution prior never takes the place of a distribution that was changed: it is used only if the
KPI has no revenue, and then the ROI distributions of the channels that there are are the defaults. -/
theorem total_prior_only_for_defaults (w : Dists D) (hw : Right w) (x : Data) (c : Cfg D)
    (h : build w x c = .ok true) :
    x.revenueKpi = false ∧ x.revenuePerKpi = false ∧ (x.media = true → c.media = .roi ∧ ¬ Custom w c .roiM) ∧
    (x.rf = true → c.rf = .roi ∧ ¬ Custom w c .roiRf) := by
  have hm : w.eq (c.prior .roiM) (w.default .roiM) = true ↔ ¬ Custom w c .roiM := by
    unfold Custom; rw [hw.eq, not_not]
  have hrf : w.eq (c.prior .roiRf) (w.default .roiRf) = true ↔ ¬ Custom w c .roiRf := by
    unfold Custom; rw [hw.eq, not_not]
  unfold build at h
  split at h
  · cases h
  obtain ⟨g1, g2⟩ := useTotal_true h
  simp only [Bool.and_eq_true, Bool.not_eq_true', Bool.or_eq_true, beq_iff_eq, hm, hrf] at g1 g2
  refine ⟨g1.1, g1.2, ?_, ?_⟩
  · intro hx
    rcases g2 with (g | g) | g
    · exact g.1
    · rw [hx] at g; exact absurd g.1 (by simp)
    · exact g.2
  · intro hx
    rcases g2 with (g | g) | g
    · exact g.2
    · exact g.2
    · rw [hx] at g; exact absurd g.1 (by simp)

/-- A model of a KPI without revenue is refused exactly if the default distribution of ROI would be used for the paid
channels of one kind but not for those of the other, or the default of marginal ROI for some. -/
theorem accepted_iff (w : Dists D) (hw : Right w) (x : Data) (c : Cfg D) :
    (∃ t, build w x c = .ok t) ↔ x.revenueKpi = true ∨ x.revenuePerKpi = true ∨
      ((x.media = true → c.media = .mroi → Custom w c .mroiM) ∧ (x.rf = true → c.rf = .mroi → Custom w c .mroiRf) ∧
      (x.media = true → x.rf = true → ((c.media = .roi ∧ ¬ Custom w c .roiM) ↔ (c.rf = .roi ∧ ¬ Custom w c .roiRf)))) := by
  have e1 : w.eq (c.prior .roiM) (w.default .roiM) = true ↔ ¬ Custom w c .roiM := by
    unfold Custom; rw [hw.eq, not_not]
  have e2 : w.eq (c.prior .roiRf) (w.default .roiRf) = true ↔ ¬ Custom w c .roiRf := by
    unfold Custom; rw [hw.eq, not_not]
  have e3 : w.eq (c.prior .mroiM) (w.default .mroiM) = true ↔ ¬ Custom w c .mroiM := by
    unfold Custom; rw [hw.eq, not_not]
  have e4 : w.eq (c.prior .mroiRf) (w.default .mroiRf) = true ↔ ¬ Custom w c .mroiRf := by
    unfold Custom; rw [hw.eq, not_not]
  have b1 : (c.media == PType.roi) = true ↔ c.media = .roi := beq_iff_eq
  have b2 : (c.rf == PType.roi) = true ↔ c.rf = .roi := beq_iff_eq
  have b3 : (c.media == PType.mroi) = true ↔ c.media = .mroi := beq_iff_eq
  have b4 : (c.rf == PType.mroi) = true ↔ c.rf = .mroi := beq_iff_eq
  have n1 : Custom w c .mroiM ↔ ¬ w.eq (c.prior .mroiM) (w.default .mroiM) = true := by rw [e3, not_not]
  have n2 : Custom w c .mroiRf ↔ ¬ w.eq (c.prior .mroiRf) (w.default .mroiRf) = true := by rw [e4, not_not]
  rw [← e1, ← e2, n1, n2, ← b1, ← b2, ← b3, ← b4]
  unfold build mroiCheck useTotal
  generalize w.eq (c.prior .roiM) (w.default .roiM) = a1
  generalize w.eq (c.prior .roiRf) (w.default .roiRf) = a2
  generalize w.eq (c.prior .mroiM) (w.default .mroiM) = a3
  generalize w.eq (c.prior .mroiRf) (w.default .mroiRf) = a4
  generalize (c.media == PType.roi) = a5
  generalize (c.rf == PType.roi) = a6
  generalize (c.media == PType.mroi) = a7
  generalize (c.rf == PType.mroi) = a8
  cases x.revenueKpi <;> cases x.revenuePerKpi <;> simp
  cases x.media <;> cases x.rf <;> cases a7 <;> cases a8 <;> cases a3 <;> cases a4 <;> simp <;>
    cases a5 <;> cases a1 <;> simp <;> cases a6 <;> cases a2 <;> simp

/-- A setting that a national model ignores is named exactly if it has another value than the one used. -/
theorem national_settings (x : Data) (c : Cfg D) :
    ("media_effects_dist" ∈ nationalWarnings x c ↔ effectiveEffects x c ≠ c.effects) ∧
    ("unique_sigma_for_each_geo" ∈ nationalWarnings x c ↔ effectiveSigma x c ≠ c.uniqueSigma) ∧
    (x.national = true → effectiveEffects x c = "normal" ∧ effectiveSigma x c = false) ∧
    (x.national = false → effectiveEffects x c = c.effects ∧ effectiveSigma x c = c.uniqueSigma ∧
      nationalWarnings x c = []) := by
  unfold nationalWarnings effectiveEffects effectiveSigma
  cases x.national
  · simp
  · simp only [if_true]
    refine ⟨?_, ?_, by simp, by simp⟩
    · by_cases h : c.effects = "normal"
      · cases c.uniqueSigma <;> simp [h]
      · cases c.uniqueSigma <;> simp [h, Ne.symm h]
    · by_cases h : c.effects = "normal" <;> cases c.uniqueSigma <;> simp [h]

/-- Finding: with a national model no selection of geos gives the warning meant for it; and the result of a call that is
told that `aggregate_geos` will be reset to true still has an axis for the geo. -/
theorem geo_arguments (aggregate aggregateTimes hasMedia : Bool) (selected : Option (List String)) :
    "selected_geos" ∉ methodWarnings aggregate selected ∧
    ("aggregate_geos" ∈ methodWarnings aggregate selected ↔ aggregate = false) ∧
    outputDims false aggregateTimes hasMedia = "g" ++ outputDims true aggregateTimes hasMedia := by
  refine ⟨?_, ?_, ?_⟩
  · intro h
    unfold methodWarnings geoWarnings at h
    rw [List.mem_map] at h
    obtain ⟨a, ha, hn⟩ := h
    rw [List.mem_filter] at ha
    rw [hn] at ha
    exact absurd ha.2 (by simp [analyzerDefaults, List.lookup])
  · cases aggregate <;> cases selected <;> simp [methodWarnings, geoWarnings, analyzerDefaults, List.lookup]
  · cases aggregateTimes <;> cases hasMedia <;> rfl

/-- Input data with a revenue KPI have revenue per KPI. -/
def Complete (x : Data) : Prop := x.revenueKpi = true → x.revenuePerKpi = true

/-- The analyzer reports KPI units exactly if there is no revenue, or they were asked for and are not revenue; a warning
is given exactly if this is not what was asked for.  A request without inverse transformation is refused exactly if
revenue would be reported. -/
theorem kpi_or_revenue (x : Data) (hx : Complete x) (request : Bool) :
    ((useKpi x request).1 = true ↔ x.revenuePerKpi = false ∨ (request = true ∧ x.revenueKpi = false)) ∧
    ((useKpi x request).2 = true ↔ (useKpi x request).1 ≠ request) ∧
    (∀ inverse, kpiAccepted x inverse request = false ↔ inverse = false ∧ (useKpi x request).1 = false) := by
  unfold kpiAccepted useKpi
  have := hx
  unfold Complete at this
  revert this
  cases x.revenueKpi <;> cases x.revenuePerKpi <;> cases request <;> simp

/-- Finding: with a revenue KPI the warning that `revenue_per_kpi` is ignored is also given if it was not given. -/
theorem revenue_warning_iff (revenueKpi : Bool) (given : Option Bool) :
    revenueWarning revenueKpi given = true ↔ revenueKpi = true ∧ given ≠ some true := by
  unfold revenueWarning
  cases revenueKpi <;> rcases given with _ | b <;> simp

/-! ## Cases that meet the hypotheses -/

/-- Distributions are numbers; every default is 1. -/
def numbers : Dists ℕ where
  eq := fun a b => a == b
  default := fun _ => 1
  zero := 0
  isZero := fun a => a == 0
  total := fun _ => 2

theorem numbers_right : Right numbers := ⟨by simp [numbers], by simp [numbers]⟩

/-- The defaults. -/
def plain : Cfg ℕ where
  media := .roi
  rf := .roi
  organicMedia := .contribution
  organicRf := .contribution
  nonMedia := .contribution
  prior := fun _ => 1
  effects := "log_normal"
  uniqueSigma := false

/-- A geo model of revenue with all kinds of channels. -/
def geo : Data := ⟨true, true, true, true, true, true, false, true, true⟩

/-- A national model with media only. -/
def nation : Data := ⟨true, false, false, false, false, false, true, true, true⟩

/-- Changed distributions: `mroi_m` (named), `beta_om` (silently ignored). -/
def changed : Cfg ℕ := with_ (with_ plain .mroiM 5) .betaOm 7

example : reads posteriorNames numbers geo changed = .ok ([Param.knotValues, .sigma, .tauG, .alphaM, .ecM, .etaM,
    .slopeM, .roiM, .alphaRf, .ecRf, .etaRf, .slopeRf, .roiRf, .alphaOm, .ecOm, .etaOm, .slopeOm, .contributionOm,
    .alphaOrf, .ecOrf, .etaOrf, .slopeOrf, .contributionOrf, .gammaC, .xiC, .xiN, .contributionN].map fun p => (p, 1)) := by
  decide +kernel

example : announced numbers changed = [[.mroiM]] := by decide +kernel

example : Custom numbers changed .betaOm := by unfold Custom; decide +kernel

example : zeroWarnings numbers nation plain = [.tauG, .etaM, .etaRf, .etaOm, .etaOrf, .xiC, .xiN] := by decide +kernel

example : ∃ r, reads posteriorNames numbers nation plain = .ok r ∧ (.etaM, 0) ∈ r ∧ (.tauG, 0) ∈ r :=
  ⟨_, rfl, by decide +kernel, by decide +kernel⟩

example : nationalWarnings nation plain = ["media_effects_dist"] := by decide +kernel

example : build numbers { geo with revenueKpi := false, revenuePerKpi := false } plain = .ok true := by decide +kernel

example : build numbers { geo with revenueKpi := false, revenuePerKpi := false } (with_ plain .roiM 3) = .error .roiRf := by
  decide +kernel

example : methodWarnings true (some ["nowhere"]) = [] := by decide +kernel

end Verif.Announce.Props
