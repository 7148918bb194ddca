import Verif.Spec.MarketingProto
import Verif.Props.DatedSpec
import Mathlib.Tactic

/-!
# C88: the marketing analysis messages
-/

namespace Verif.MarketingProto.Props

open Verif Verif.MarketingProto Verif.MarketingProto.Spec
open Verif.Calendar (CDate)
open Verif.FitProto (Estimate)

/-! ### Lists -/

theorem collect_iff {α β : Type} (f : α → Except Err β) (l : List α) (r : List β) :
    collect f l = .ok r ↔ List.Forall₂ (fun a b => f a = .ok b) l r := by
  induction l generalizing r with
  | nil => simp only [collect, Except.ok.injEq, List.forall₂_nil_left_iff]; exact eq_comm
  | cons a l ih =>
    simp only [collect]
    cases hf : f a with
    | error e =>
      simp only [reduceCtorEq, false_iff]
      intro h; cases h with | cons h _ => rw [hf] at h; cases h
    | ok b =>
      simp only
      cases hc : collect f l with
      | error e =>
        simp only [reduceCtorEq, false_iff]
        intro h
        cases h with
        | cons _ h => rw [(ih _).2 h] at hc; cases hc
      | ok bs =>
        simp only [Except.ok.injEq]
        constructor
        · rintro rfl; exact .cons hf ((ih _).1 hc)
        · intro h
          cases h with
          | cons h1 h2 =>
            rw [hf] at h1; cases h1
            rw [(ih _).2 h2] at hc; cases hc
            rfl

theorem collect_ok {α β : Type} {f : α → Except Err β} {l : List α} (h : ∀ a ∈ l, ∃ b, f a = .ok b) :
    ∃ r, collect f l = .ok r := by
  induction l with
  | nil => exact ⟨[], rfl⟩
  | cons a l ih =>
    obtain ⟨b, hb⟩ := h a (by simp)
    obtain ⟨bs, hbs⟩ := ih fun x hx => h x (by simp [hx])
    exact ⟨b :: bs, by simp [collect, hb, hbs]⟩

theorem forall₂_right {α β : Type} {R : α → β → Prop} {l : List α} {r : List β} (h : List.Forall₂ R l r) :
    ∀ b ∈ r, ∃ a ∈ l, R a b := by
  induction h with
  | nil => intro b hb; cases hb
  | @cons a b l r hab _ ih =>
    intro x hx
    rcases List.mem_cons.1 hx with rfl | hx
    · exact ⟨a, by simp, hab⟩
    · obtain ⟨y, hy, hyx⟩ := ih x hx; exact ⟨y, by simp [hy], hyx⟩

theorem forall₂_left {α β : Type} {R : α → β → Prop} {l : List α} {r : List β} (h : List.Forall₂ R l r) :
    ∀ a ∈ l, ∃ b ∈ r, R a b := by
  intro a ha
  obtain ⟨b, hb, hr⟩ := forall₂_right h.flip a ha
  exact ⟨b, hb, hr⟩

/-! ### Acceptance -/

/-- **C88 (spec).** A spec is accepted if and only if its dates are, its level is strictly between zero and
one, and it asks for exactly one of the two analyses. -/
theorem accepted_iff {δ : Type} (s : MSpec δ) :
    s.validate = .ok () ↔ DatedSpec.validate s.dated = .ok () ∧ 0 < s.level ∧ s.level < 1 ∧
      (s.media = none ↔ s.inc ≠ none) := by
  unfold MSpec.validate
  cases hd : DatedSpec.validate s.dated with
  | error e => simp
  | ok u =>
    simp only [true_and]
    by_cases hl : s.level ≤ 0 ∨ 1 ≤ s.level
    · rw [if_pos hl]; simp only [reduceCtorEq, false_iff]; rintro ⟨a, b, _⟩; rcases hl with h | h <;> linarith
    · rw [if_neg hl]
      push Not at hl
      cases hm : s.media <;> cases hi : s.inc <;> simp [hl]

/-- **C88 (spec).** New data for an incremental outcome must come with its times. -/
theorem incremental_accepted_iff {δ : Type} (s : IncSpec δ) :
    s.validate = .ok () ↔ ∀ n, s.newData = some n → ∃ ts, n.time = some ts := by
  unfold IncSpec.validate
  cases hn : s.newData with
  | none => simp
  | some n => cases ht : n.time <;> simp [ht]

example : (MSpec.validate (δ := Unit) ⟨⟨none, none, ""⟩, some {}, none, true, 9 / 10⟩).isOk = true ∧
    (MSpec.validate (δ := Unit) ⟨⟨none, none, ""⟩, some {}, some {}, true, 9 / 10⟩).isOk = false ∧
    (MSpec.validate (δ := Unit) ⟨⟨none, none, ""⟩, none, none, true, 9 / 10⟩).isOk = false ∧
    (MSpec.validate (δ := Unit) ⟨⟨none, none, ""⟩, some {}, none, true, 1⟩).isOk = false := by
  decide +kernel

/-- **C88 (order).** The output is, spec by spec in order, the analyses of each spec. -/
theorem output_by_spec {δ : Type} (A : Analyzer δ) (specs : List (MSpec δ)) (out : List Analysis)
    (h : execute A specs = .ok out) :
    ∃ parts, List.Forall₂ (fun s p => analyses A s = .ok p) specs parts ∧ out = parts.flatten := by
  unfold execute at h
  cases hi : lift (DatedSpec.interval A.dates) with
  | error e => simp only [hi] at h; cases h
  | ok k =>
    simp only [hi] at h
    cases hc : collect (analyses A) specs with
    | error e => simp only [hc] at h; cases h
    | ok ls => simp only [hc] at h; cases h; exact ⟨ls, (collect_iff _ _ _).1 hc, rfl⟩

/-! ### Cells -/

theorem field_map (x : Option (Stat → Num)) (level : ℚ) (m : Stat) :
    Field x level m (x.map fun v => toEstimate v level m) := by
  refine ⟨by cases x <;> simp, ?_⟩
  rintro v est rfl h
  cases h
  exact ⟨rfl, rfl, rfl, rfl⟩

theorem field_percent (x : Option (Stat → Num)) (level : ℚ) (m : Stat) :
    Field (fraction x) level m (x.map fun v => toEstimate (percent v) level m) := by
  have := field_map (fraction x) level m
  unfold fraction at *
  rw [Option.map_map] at this
  exact this

theorem outcome_reports {c : Cell} {revenue : Bool} {name : String} {level : ℚ} {o : Outcome}
    (h : outcome c revenue (decide (name = allChannels)) level = .ok o) : Reports c revenue name level o := by
  unfold outcome at h
  cases hv : c .incremental with
  | none => simp only [hv] at h; cases h
  | some v =>
    simp only [hv] at h
    cases h
    refine ⟨rfl, ⟨v, hv, rfl, rfl, rfl, rfl⟩, field_percent _ _ _, field_map _ _ _, field_map _ _ _, ?_, ?_⟩
    · simp only [decide_eq_true_eq]
      change if name = allChannels then _ else _
      by_cases hn : name = allChannels
      · rw [if_pos hn, if_pos hn]
      · rw [if_neg hn, if_neg hn]; exact field_map _ _ _
    · simp only [decide_eq_true_eq]
      change if name = allChannels then _ else _
      by_cases hn : name = allChannels
      · rw [if_pos hn, if_pos hn]
      · rw [if_neg hn, if_neg hn]; exact field_map _ _ _

theorem sel_ok {ds : Dataset} {timed : Bool} {ch : String} {start : CDate} {c : Cell}
    (h : sel ds timed ch start = .ok c) : c = ds.cell ch (if timed then some start else none) := by
  unfold sel at h
  split_ifs at h with h1 h2
  · cases ht : ds.times with
    | none => simp only [ht] at h; cases h
    | some ts =>
      simp only [ht] at h
      split_ifs at h
      cases h; simp [h2]
  · cases h; simp [h2]

theorem spend_ok {c : Cell} {s} (h : spendInfo c = .ok s) : Spends c s := by
  unfold spendInfo at h
  cases hs : c .spend with
  | none => simp only [hs] at h; cases h; exact Or.inl ⟨hs, rfl⟩
  | some v =>
    simp only [hs] at h
    cases hp : c .spendShare with
    | none => simp only [hp] at h; cases h
    | some p => simp only [hp] at h; cases h; exact Or.inr ⟨v, p, hs, hp, rfl⟩

theorem metrics_ok {k : Bool} {level : ℚ} {ds : Dataset} {ds2 : Option Dataset} {ch : String} {start : CDate}
    {os : List Outcome} {sp} (h : channelMetrics k level ds ds2 ch start = .ok (os, sp)) :
    Spends (ds.cell ch (if ds.times.isSome then some start else none)) sp ∧
    List.Forall₂ (fun (p : Dataset × Bool) o =>
      Reports (p.1.cell ch (if ds.times.isSome then some start else none)) p.2 ch level o)
      ((ds, !k) :: ds2.toList.map fun d => (d, false)) os := by
  unfold channelMetrics at h
  cases h1 : sel ds ds.times.isSome ch start with
  | error e => simp only [h1] at h; cases h
  | ok c =>
    simp only [h1] at h
    cases h2 : selSecondary ds2 ds.times.isSome ch start with
    | error e => simp only [h2] at h; cases h
    | ok c' =>
      simp only [h2] at h
      cases h3 : spendInfo c with
      | error e => simp only [h3] at h; cases h
      | ok s =>
        simp only [h3] at h
        cases h4 : outcomes k ch level c c' with
        | error e => simp only [h4] at h; cases h
        | ok l =>
          simp only [h4] at h
          cases h
          have hc := sel_ok h1
          refine ⟨hc ▸ spend_ok h3, ?_⟩
          unfold outcomes at h4
          cases h5 : outcome c (!k) (decide (ch = allChannels)) level with
          | error e => simp only [h5] at h4; cases h4
          | ok o =>
            simp only [h5] at h4
            have r1 := outcome_reports h5
            rw [hc] at r1
            unfold selSecondary at h2
            cases ds2 with
            | none =>
              simp only at h2; cases h2
              simp only at h4; cases h4
              exact .cons r1 .nil
            | some d2 =>
              simp only at h2
              cases h6 : sel d2 ds.times.isSome ch start with
              | error e => simp only [h6] at h2; cases h2
              | ok c2 =>
                simp only [h6] at h2; cases h2
                simp only at h4
                cases h7 : outcome c2 false (decide (ch = allChannels)) level with
                | error e => simp only [h7] at h4; cases h4
                | ok o' =>
                  simp only [h7] at h4; cases h4
                  have r2 := outcome_reports h7
                  rw [sel_ok h6] at r2
                  exact .cons r1 (.cons r2 .nil)

theorem drop_ok {ds d : Dataset} {names : List String} (h : dropSel ds names = .ok d) :
    d.cell = ds.cell ∧ d.times = ds.times ∧
      d.channels = ds.channels.filter (fun c => decide (c ∉ names)) := by
  unfold dropSel at h
  split_ifs at h
  cases h; exact ⟨rfl, rfl, rfl⟩

theorem summary_ok {δ : Type} {A : Analyzer δ} (hA : Sound A) {s : MSpec δ} {ms : MediaSpec δ} {selected}
    {k : Bool} {m : Dataset} {n : Option Dataset}
    (h : summaryMetrics A ms selected s.level k = .ok (m, n)) :
    m.cell = (summaryOf A s ms selected k false).cell ∧ m.times.isSome = !ms.aggregate ∧
    m.channels = (if ms.nonPaid then A.paid else A.paid ++ ["All Channels"]) ∧
    ((ms.nonPaid = false ∧ n = none) ∨ (ms.nonPaid = true ∧ ∃ d, n = some d ∧
      d.cell = (summaryOf A s ms selected k true).cell ∧ d.times.isSome = !ms.aggregate ∧
      d.channels = A.nonPaid ++ ["All Channels"])) := by
  have hnd := hA.names
  rw [List.append_assoc, List.nodup_append] at hnd
  obtain ⟨n1, n2, n3⟩ := hnd
  unfold summaryMetrics at h
  simp only at h
  by_cases hp : ms.nonPaid = true
  · rw [if_pos hp] at h
    cases h1 : dropSel (A.summary ⟨ms.mroiByReach, selected, true, ms.aggregate, ms.newData, s.level, k, false⟩ .posterior)
        [allChannels] with
    | error e => simp only [h1] at h; cases h
    | ok x =>
      simp only [h1] at h
      cases h2 : dropSel (A.summary ⟨ms.mroiByReach, selected, true, ms.aggregate, ms.newData, s.level, k, true⟩ .posterior)
          x.channels with
      | error e => simp only [h2] at h; cases h
      | ok y =>
        simp only [h2] at h
        cases h
        obtain ⟨a1, a2, a3⟩ := drop_ok h1
        obtain ⟨b1, b2, b3⟩ := drop_ok h2
        have hx : m.channels = A.paid := by
          rw [a3, hA.channels]
          simp only [Bool.false_eq_true, if_false]
          rw [List.filter_append]
          have e1 : A.paid.filter (fun c => decide (c ∉ [allChannels])) = A.paid := by
            apply List.filter_eq_self.2
            intro c hc
            simp only [List.mem_singleton, decide_eq_true_eq]
            exact n3 c hc allChannels (by simp [allChannels])
          rw [e1]
          simp [allChannels]
        have hy : y.channels = A.nonPaid ++ ["All Channels"] := by
          rw [b3, hA.channels, hx]
          simp only [if_true]
          rw [List.append_assoc, List.filter_append]
          have e1 : A.paid.filter (fun c => decide (c ∉ A.paid)) = [] := by
            apply List.filter_eq_nil_iff.2
            intro c hc; simp [hc]
          have e2 : (A.nonPaid ++ ["All Channels"]).filter (fun c => decide (c ∉ A.paid)) =
              A.nonPaid ++ ["All Channels"] := by
            apply List.filter_eq_self.2
            intro c hc
            simp only [decide_eq_true_eq]
            intro hc'
            exact n3 c hc' c hc rfl
          rw [e1, e2]; rfl
        refine ⟨a1, ?_, by rw [if_pos hp, hx], Or.inr ⟨hp, y, rfl, b1, ?_, hy⟩⟩
        · rw [a2, hA.times]
        · rw [b2, hA.times]
  · rw [if_neg hp] at h
    cases h
    refine ⟨rfl, hA.times _ _, ?_, Or.inl ⟨by simpa using hp, rfl⟩⟩
    rw [hA.channels, if_neg hp]; rfl

/-- The parts of a result for a media spec. -/
theorem media_ok {δ : Type} {A : Analyzer δ} {s : MSpec δ} {m : MediaSpec δ} (hm : s.media = some m)
    (hv : s.validate = .ok ()) {out} (h : analyses A s = .ok out) :
    ∃ ax selected ds ds' ints, axis A s = .ok ax ∧ DatedSpec.selectedTimes ax s.dated = .ok selected ∧
      summaryMetrics A m selected s.level A.kpiOnly = .ok ds ∧
      secondaryMetrics A m selected s.level = .ok ds' ∧
      intervals ax s.dated m.aggregate = .ok ints ∧
      List.Forall₂ (fun i a => analysis A.kpiOnly s.level
            ⟨ds.1, ds.2, some (A.baseline ⟨s.level, m.aggregate, selected⟩ .posterior), ds'.1, ds'.2,
              if m.aggregate then some (A.curves ⟨s.level, true, selected, A.kpiOnly, s.byReach⟩)
              else none⟩ i = .ok a) ints out := by
  have hi : s.inc = none := by
    have := ((accepted_iff s).1 hv).2.2.2
    by_contra hc
    rw [this.2 hc] at hm; cases hm
  unfold analyses at h
  cases hx : axis A s with
  | error e => simp only [hx] at h; cases h
  | ok ax =>
    simp only [hx, hm, hi] at h
    cases h0 : mediaAnalyses A ax s m with
    | error e => simp only [h0] at h; cases h
    | ok l =>
      simp only [h0, List.append_nil] at h
      cases h
      unfold mediaAnalyses at h0
      cases h1 : DatedSpec.selectedTimes ax s.dated with
      | error e => simp only [h1, lift] at h0; cases h0
      | ok selected =>
        simp only [h1, lift] at h0
        cases h2 : summaryMetrics A m selected s.level A.kpiOnly with
        | error e => simp only [h2] at h0; cases h0
        | ok ds =>
          simp only [h2] at h0
          cases h3 : secondaryMetrics A m selected s.level with
          | error e => simp only [h3] at h0; cases h0
          | ok ds' =>
            simp only [h3] at h0
            cases h4 : intervals ax s.dated m.aggregate with
            | error e => simp only [h4] at h0; cases h0
            | ok ints =>
              simp only [h4] at h0
              exact ⟨ax, selected, ds, ds', ints, rfl, h1, h2, h3, h4, (collect_iff _ _ _).1 h0⟩

/-- The parts of an analysis. -/
theorem analysis_ok {k : Bool} {level : ℚ} {m : Metrics} {i : DatedSpec.Interval} {a : Analysis}
    (h : analysis k level m i = .ok a) :
    a.interval = i ∧
    List.Forall₂ (fun ch x => mediaAnalysis k level m.media m.secondary m.curves i.start ch = .ok x)
      (mediaChannels m) a.media ∧
    ∃ ns bs, nonMediaAnalyses k level m i.start = .ok ns ∧ baselineAnalyses k level m i.start = .ok bs ∧
      a.nonMedia = ns ++ bs := by
  unfold analysis at h
  cases h1 : collect (mediaAnalysis k level m.media m.secondary m.curves i.start) (mediaChannels m) with
  | error e => simp only [h1] at h; cases h
  | ok ms =>
    simp only [h1] at h
    cases h2 : nonMediaAnalyses k level m i.start with
    | error e => simp only [h2] at h; cases h
    | ok ns =>
      simp only [h2] at h
      cases h3 : baselineAnalyses k level m i.start with
      | error e => simp only [h3] at h; cases h
      | ok bs =>
        simp only [h3] at h
        cases h
        exact ⟨rfl, (collect_iff _ _ _).1 h1, ns, bs, rfl, rfl, rfl⟩

/-- The intervals of a result. -/
theorem intervals_of {k : Bool} {level : ℚ} {m : Metrics} {ints : List DatedSpec.Interval}
    {out : List Analysis} (h : List.Forall₂ (fun i a => analysis k level m i = .ok a) ints out) :
    out.map (·.interval) = ints := by
  induction h with
  | nil => rfl
  | cons h1 _ ih => rw [List.map_cons, ih, (analysis_ok h1).1]

/-- The datasets of the outcomes, in order. -/
theorem kinds_ok {δ : Type} {A : Analyzer δ} (hA : Sound A) {s : MSpec δ} {m : MediaSpec δ} {selected}
    {ds : Dataset × Option Dataset} {ds' : Option Dataset × Option Dataset}
    (h1 : summaryMetrics A m selected s.level A.kpiOnly = .ok ds)
    (h2 : secondaryMetrics A m selected s.level = .ok ds') :
    (∃ l : List Dataset, ds'.1 = l.head? ∧ l.length ≤ 1 ∧
      List.Forall₂ (fun (d : Dataset × Bool) k =>
      d.1.cell = (summaryOf A s m selected k false).cell ∧ d.2 = !k)
      ((ds.1, !A.kpiOnly) :: ds'.1.toList.map fun d => (d, false)) (kinds A)) ∧
    (∀ d, ds.2 = some d → List.Forall₂ (fun (d : Dataset × Bool) k =>
      d.1.cell = (summaryOf A s m selected k true).cell ∧ d.2 = !k)
      ((d, !A.kpiOnly) :: ds'.2.toList.map fun d => (d, false)) (kinds A)) := by
  obtain ⟨a1, a2, a3, a4⟩ := summary_ok hA (s := s) h1
  unfold secondaryMetrics at h2
  by_cases hk : A.kpiOnly = true
  · rw [hk] at h2
    simp only [Bool.not_true, Bool.and_false, Bool.false_eq_true, if_false] at h2
    cases h2
    have : kinds A = [true] := by simp [kinds, hk]
    rw [this, hk]
    rw [hk] at a1 a4
    refine ⟨⟨[], rfl, by simp, .cons ⟨a1, rfl⟩ .nil⟩, ?_⟩
    intro d hd
    rcases a4 with ⟨_, h⟩ | ⟨_, d', h, b1, _⟩
    · rw [hd] at h; cases h
    · rw [hd] at h; cases h; exact .cons ⟨b1, rfl⟩ .nil
  · simp only [Bool.not_eq_true] at hk
    by_cases hr : A.revenueKpi = true
    · rw [hk, hr] at h2
      simp only [Bool.not_true, Bool.false_and, Bool.false_eq_true, if_false] at h2
      cases h2
      have : kinds A = [false] := by simp [kinds, hk, hr]
      rw [this, hk]
      rw [hk] at a1 a4
      refine ⟨⟨[], rfl, by simp, .cons ⟨a1, rfl⟩ .nil⟩, ?_⟩
      intro d hd
      rcases a4 with ⟨_, h⟩ | ⟨_, d', h, b1, _⟩
      · rw [hd] at h; cases h
      · rw [hd] at h; cases h; exact .cons ⟨b1, rfl⟩ .nil
    · simp only [Bool.not_eq_true] at hr
      rw [hk, hr] at h2
      simp only [Bool.not_false, Bool.and_self, if_true] at h2
      cases h3 : summaryMetrics A m selected s.level true with
      | error e => simp only [h3] at h2; cases h2
      | ok e =>
        simp only [h3] at h2
        cases h2
        obtain ⟨c1, c2, c3, c4⟩ := summary_ok hA (s := s) h3
        have : kinds A = [false, true] := by simp [kinds, hk, hr]
        rw [this, hk]
        rw [hk] at a1 a4
        refine ⟨⟨[e.1], rfl, by simp, .cons ⟨a1, rfl⟩ (.cons ⟨c1, rfl⟩ .nil)⟩, ?_⟩
        intro d hd
        rcases a4 with ⟨_, h⟩ | ⟨hp, d', h, b1, _⟩
        · rw [hd] at h; cases h
        · rw [hd] at h; cases h
          rcases c4 with ⟨hq, _⟩ | ⟨_, d2, hd2, e1, _⟩
          · rw [hp] at hq; cases hq
          · simp only [hd2]
            exact .cons ⟨b1, rfl⟩ (.cons ⟨e1, rfl⟩ .nil)

theorem forall₂_comp {α β γ : Type} {R : α → β → Prop} {S : α → γ → Prop} {T : β → γ → Prop}
    (hT : ∀ a b c, R a b → S a c → T b c) {l : List α} {r : List β} {q : List γ}
    (h1 : List.Forall₂ R l r) (h2 : List.Forall₂ S l q) : List.Forall₂ T r q := by
  induction h1 generalizing q with
  | nil => cases h2; exact .nil
  | cons h _ ih => cases h2 with | cons g gs => exact .cons (hT _ _ _ h g) (ih gs)

/-- The channels reported as media and the others. -/
theorem channels_ok {δ : Type} {A : Analyzer δ} (hA : Sound A) {s : MSpec δ} {m : MediaSpec δ} {selected}
    {ds : Dataset × Option Dataset} (h1 : summaryMetrics A m selected s.level A.kpiOnly = .ok ds)
    (b s' n' c) :
    mediaChannels ⟨ds.1, ds.2, b, s', n', c⟩ = (if m.nonPaid then A.paid else A.paid ++ ["All Channels"]) ∧
    otherChannels ⟨ds.1, ds.2, b, s', n', c⟩ = (if m.nonPaid then A.nonPaid ++ ["All Channels"] else []) := by
  obtain ⟨a1, a2, a3, a4⟩ := summary_ok hA (s := s) h1
  have hnd := hA.names
  rw [List.append_assoc, List.nodup_append] at hnd
  obtain ⟨n1, n2, n3⟩ := hnd
  rcases a4 with ⟨hp, hn⟩ | ⟨hp, d, hd, b1, b2, b3⟩
  · unfold mediaChannels otherChannels
    simp only [hn, a3, hp, Bool.false_eq_true, if_false, and_self]
  · unfold mediaChannels otherChannels
    simp only [hd, a3, hp, if_true, b3]
    have hx : ∀ c ∈ A.nonPaid ++ ["All Channels"], c ∉ A.paid := fun c hc hc' => n3 c hc' c hc rfl
    constructor
    · rw [List.filter_eq_nil_iff.2 (fun c hc => by simp [hx c hc]), List.append_nil]
    · exact List.filter_eq_self.2 fun c hc => by simp [hx c hc]

/-! ### The properties -/

/-- **C88 (times).** With aggregated times a spec yields one analysis for its whole range; otherwise one for
each selected period, in order. -/
theorem media_intervals {δ : Type} (A : Analyzer δ) (s : MSpec δ) (m : MediaSpec δ)
    (hm : s.media = some m) (hv : s.validate = .ok ()) (out) (h : analyses A s = .ok out) :
    ∃ ax, axis A s = .ok ax ∧
      (m.aggregate = true → ∃ i, DatedSpec.collapse ax s.dated = .ok i ∧ out.map (·.interval) = [i]) ∧
      (m.aggregate = false → DatedSpec.transform ax s.dated = .ok (out.map (·.interval))) := by
  obtain ⟨ax, selected, ds, ds', ints, hx, h1, h2, h3, h4, h5⟩ := media_ok hm hv h
  refine ⟨ax, hx, ?_, ?_⟩
  all_goals
    intro hag
    rw [intervals_of h5]
    unfold intervals at h4
    rw [hag] at h4
  · simp only [if_true] at h4
    cases hc : DatedSpec.collapse ax s.dated with
    | error e => rw [hc] at h4; cases h4
    | ok i => rw [hc] at h4; cases h4; exact ⟨i, rfl, rfl⟩
  · simp only [Bool.false_eq_true, if_false, lift] at h4
    cases hc : DatedSpec.transform ax s.dated with
    | error e => rw [hc] at h4; cases h4
    | ok l => rw [hc] at h4; cases h4; rfl

/-- **C88 (media).** The media analyses are, in order, those of the paid channels and (unless non-paid
channels are asked for too) of all channels together; each shows, for revenue and/or the KPI, the posterior
metrics of its channel at the time of the analysis. -/
theorem media_exact {δ : Type} (A : Analyzer δ) (hA : Sound A) (s : MSpec δ) (m : MediaSpec δ)
    (hm : s.media = some m) (hv : s.validate = .ok ()) (out) (h : analyses A s = .ok out) :
    ∃ ax selected, axis A s = .ok ax ∧ DatedSpec.selectedTimes ax s.dated = .ok selected ∧
      ∀ a ∈ out, List.Forall₂ (fun ch (x : Media) => x.name = ch ∧
          List.Forall₂ (fun k o => Reports ((summaryOf A s m selected k false).cell ch (place m.aggregate a.interval))
            (!k) ch s.level o) (kinds A) x.outcomes)
        (if m.nonPaid then A.paid else A.paid ++ ["All Channels"]) a.media := by
  obtain ⟨ax, selected, ds, ds', ints, hx, h1, h2, h3, h4, h5⟩ := media_ok hm hv h
  refine ⟨ax, selected, hx, h1, ?_⟩
  intro a ha
  obtain ⟨i, _, hi⟩ := forall₂_right h5 a ha
  obtain ⟨e1, e2, _⟩ := analysis_ok hi
  rw [(channels_ok hA h2 _ _ _ _).1] at e2
  refine e2.imp ?_
  intro ch x hmx
  unfold mediaAnalysis at hmx
  simp only at hmx
  cases hc : channelMetrics A.kpiOnly s.level ds.1 ds'.1 ch i.start with
  | error e => simp only [hc] at hmx; cases hmx
  | ok p =>
    obtain ⟨os, sp⟩ := p
    simp only [hc] at hmx
    cases hmx
    obtain ⟨g1, g2⟩ := metrics_ok hc
    refine ⟨rfl, ?_⟩
    obtain ⟨⟨_, _, _, hk⟩, _⟩ := kinds_ok hA h2 h3
    refine forall₂_comp ?_ hk g2
    rintro ⟨d, r⟩ k o ⟨hd, hr⟩ hrep
    simp only at hd hr hrep
    rw [hd, hr, (summary_ok hA (s := s) h2).2.1] at hrep
    rw [e1]
    unfold place
    cases hag : m.aggregate <;> simpa [hag] using hrep

/-- **C88 (spend and curves).** A media analysis shows the spend of its channel and its share, if the
primary metrics have them; and, if times are aggregated, each paid channel (not all channels together)
carries its response curve: a point for each multiplier, with the spend and the mean outcome. -/
theorem spend_and_curve_exact {δ : Type} (A : Analyzer δ) (hA : Sound A) (s : MSpec δ) (m : MediaSpec δ)
    (hm : s.media = some m) (hv : s.validate = .ok ()) (out) (h : analyses A s = .ok out) :
    ∃ ax selected, axis A s = .ok ax ∧ DatedSpec.selectedTimes ax s.dated = .ok selected ∧
      ∀ a ∈ out, ∀ x ∈ a.media,
        Spends ((summaryOf A s m selected A.kpiOnly false).cell x.name (place m.aggregate a.interval)) x.spend ∧
        ∀ r, r = A.curves { level := s.level, usePosterior := true, selected := selected,
                            useKpi := A.kpiOnly, byReach := s.byReach } →
          x.curve = if m.aggregate = true ∧ x.name ∈ A.paid then
            some (r.multipliers.map fun q => (r.spend x.name q, r.incremental x.name q .mean)) else none := by
  obtain ⟨ax, selected, ds, ds', ints, hx, h1, h2, h3, h4, h5⟩ := media_ok hm hv h
  refine ⟨ax, selected, hx, h1, ?_⟩
  intro a ha x hxm
  obtain ⟨i, _, hi⟩ := forall₂_right h5 a ha
  obtain ⟨e1, e2, _⟩ := analysis_ok hi
  obtain ⟨ch, _, hmx⟩ := forall₂_right e2 x hxm
  unfold mediaAnalysis at hmx
  simp only at hmx
  cases hc : channelMetrics A.kpiOnly s.level ds.1 ds'.1 ch i.start with
  | error e => simp only [hc] at hmx; cases hmx
  | ok p =>
    obtain ⟨os, sp⟩ := p
    simp only [hc] at hmx
    cases hmx
    obtain ⟨g1, g2⟩ := metrics_ok hc
    obtain ⟨a1, a2, _⟩ := summary_ok hA (s := s) h2
    refine ⟨?_, ?_⟩
    · rw [a1, a2] at g1
      rw [e1]
      unfold place
      cases hag : m.aggregate <;> simpa [hag] using g1
    · rintro r rfl
      cases hag : m.aggregate with
      | false => simp
      | true =>
        simp only [if_true, Option.bind_some, hA.curves, true_and]
        rfl

/-- **C88 (non-media).** The non-media analyses are those of the non-paid channels and of all channels
together, if they are asked for, and then exactly one for the baseline. -/
theorem nonmedia_exact {δ : Type} (A : Analyzer δ) (hA : Sound A) (s : MSpec δ) (m : MediaSpec δ)
    (hm : s.media = some m) (hv : s.validate = .ok ()) (out) (h : analyses A s = .ok out) :
    ∃ ax selected, axis A s = .ok ax ∧ DatedSpec.selectedTimes ax s.dated = .ok selected ∧
      ∀ a ∈ out, ∃ l b, a.nonMedia = l ++ [b] ∧
        List.Forall₂ (fun ch (x : NonMedia) => x.name = ch ∧
          List.Forall₂ (fun k o => Reports ((summaryOf A s m selected k true).cell ch (place m.aggregate a.interval))
            (!k) ch s.level o) (kinds A) x.outcomes)
        (if m.nonPaid then A.nonPaid ++ ["All Channels"] else []) l ∧
        b.name = "baseline" ∧
        ∃ o c v p, b.outcomes = [o] ∧ o.revenue = !A.kpiOnly ∧
          c = (A.baseline { level := s.level, aggregate := m.aggregate, selected := selected } .posterior).cell
            "baseline" (place m.aggregate a.interval) ∧
          c .baseline = some v ∧ Shows v s.level .mean o.value ∧
          fraction (c .contribution) = some p ∧ (∃ e, o.share = some e ∧ Shows p s.level .mean e) ∧
          o.effectiveness = none ∧ o.cpik = none ∧ o.roi = none ∧ o.mroi = none := by
  obtain ⟨ax, selected, ds, ds', ints, hx, h1, h2, h3, h4, h5⟩ := media_ok hm hv h
  refine ⟨ax, selected, hx, h1, ?_⟩
  intro a ha
  obtain ⟨i, _, hi⟩ := forall₂_right h5 a ha
  obtain ⟨e1, _, ns, bs, e3, e4, e5⟩ := analysis_ok hi
  obtain ⟨a1, a2, a3, a4⟩ := summary_ok hA (s := s) h2
  unfold baselineAnalyses at e4
  simp only at e4
  cases hb : baselineAnalysis A.kpiOnly s.level (A.baseline ⟨s.level, m.aggregate, selected⟩ .posterior) i.start with
  | error e => simp only [hb] at e4; cases e4
  | ok b =>
    simp only [hb] at e4
    cases e4
    refine ⟨ns, b, e5, ?_, ?_⟩
    · unfold nonMediaAnalyses at e3
      simp only at e3
      rcases a4 with ⟨hp, hn⟩ | ⟨hp, d, hd, b1, b2, b3⟩
      · simp only [hn] at e3
        cases e3
        rw [hp]
        simp
      · simp only [hd] at e3
        have hoc := (channels_ok hA h2 (some (A.baseline ⟨s.level, m.aggregate, selected⟩ .posterior)) ds'.1 ds'.2
          (if m.aggregate then some (A.curves ⟨s.level, true, selected, A.kpiOnly, s.byReach⟩) else none)).2
        rw [hd] at hoc
        rw [hoc] at e3
        refine ((collect_iff _ _ _).1 e3).imp ?_
        intro ch x hmx
        unfold nonMediaAnalysis at hmx
        cases hc : channelMetrics A.kpiOnly s.level d ds'.2 ch i.start with
        | error e => simp only [hc] at hmx; cases hmx
        | ok p =>
          obtain ⟨os, sp⟩ := p
          simp only [hc] at hmx
          cases hmx
          refine ⟨rfl, ?_⟩
          refine forall₂_comp ?_ ((kinds_ok hA h2 h3).2 d hd) (metrics_ok hc).2
          rintro ⟨d', r⟩ k o ⟨hd', hr⟩ hrep
          simp only at hd' hr hrep
          rw [hd', hr, b2] at hrep
          rw [e1]
          unfold place
          cases hag : m.aggregate <;> simpa [hag] using hrep
    · unfold baselineAnalysis at hb
      cases hs : sel { A.baseline ⟨s.level, m.aggregate, selected⟩ .posterior with channels := [baselineName] }
          (A.baseline ⟨s.level, m.aggregate, selected⟩ .posterior).times.isSome baselineName i.start with
      | error e => simp only [hs] at hb; cases hb
      | ok c =>
        simp only [hs] at hb
        have hc := sel_ok hs
        simp only [hA.baseline] at hc
        cases hv1 : c .baseline with
        | none => simp only [hv1] at hb; cases hb
        | some v =>
          cases hp1 : c .contribution with
          | none => simp only [hv1, hp1] at hb; cases hb
          | some p =>
            simp only [hv1, hp1] at hb
            cases hb
            refine ⟨rfl, _, c, v, percent p, rfl, rfl, ?_, hv1, ⟨rfl, rfl, rfl, rfl⟩, ?_,
              ⟨_, rfl, rfl, rfl, rfl, rfl⟩, rfl, rfl, rfl, rfl⟩
            · rw [hc, e1]
              unfold place
              cases hag : m.aggregate <;> simp [baselineName]
            · rw [hp1]; rfl

/-! ### Incremental outcome -/

theorem forall₂_getElem {α β : Type} {R : α → β → Prop} {l : List α} {r : List β} (h : List.Forall₂ R l r) :
    ∀ (c : ℕ) b, r[c]? = some b → ∃ a, l[c]? = some a ∧ R a b := by
  induction h with
  | nil => intro c b hb; simp at hb
  | @cons a b l r hab _ ih =>
    intro c x hx
    cases c with
    | zero => simp only [List.getElem?_cons_zero, Option.some.injEq] at hx; subst hx; exact ⟨a, rfl, hab⟩
    | succ c => simpa using ih c x (by simpa using hx)

theorem idxOf_of_getElem {α : Type} [DecidableEq α] {l : List α} (h : l.Nodup) {c : ℕ} {a : α}
    (ha : l[c]? = some a) : l.idxOf a = c := by
  obtain ⟨hc, rfl⟩ := List.getElem?_eq_some_iff.1 ha
  exact h.idxOf_getElem c hc

theorem summarise_ok {draws : List (List Num)} {level : ℚ} (h0 : 0 < level) (h1 : level < 1) :
    Interval.central draws level true = .ok [summarise draws level .mean, summarise draws level .median,
      summarise draws level .low, summarise draws level .high] := by
  have hl : ¬ ((1 - level) / 2 < 0 ∨ 1 < (1 - level) / 2) := by
    push Not; constructor <;> linarith
  have hh : ¬ ((1 + level) / 2 < 0 ∨ 1 < (1 + level) / 2) := by
    push Not; constructor <;> linarith
  have : Interval.central draws level true = .ok [Interval.reduce Interval.meanFin draws.flatten,
      Interval.reduce Interval.medianFin draws.flatten,
      Interval.reduce (Interval.quantileFin · ((1 - level) / 2)) draws.flatten,
      Interval.reduce (Interval.quantileFin · ((1 + level) / 2)) draws.flatten] := by
    unfold Interval.central Interval.quantile
    rw [if_neg hl, if_neg hh]
    simp
  unfold summarise
  rw [this]
  rfl

/-- The dataset of an incremental outcome. -/
theorem inc_dataset {δ : Type} {A : Analyzer δ} {ax} {s : MSpec δ} {i : IncSpec δ} {k : Bool} {d}
    (h : incDataset A ax s i k = .ok d) :
    ∃ flags selected, DatedSpec.boolTimes ax s.dated = .ok flags ∧
      DatedSpec.selectedTimes ax s.dated = .ok selected ∧ d.channels = A.paid ++ ["All Channels"] ∧
      d.times = (if i.aggregate then none else some (selected.getD ax)) ∧
      ∀ ch t, d.cell ch t .incremental = some (summarise (A.incremental
          { newData := i.newData, mediaTimes := i.mediaTimes, usePosterior := true, useKpi := k,
            nonPaid := false, selected := flags, aggregateGeos := true, aggregate := i.aggregate }
          ((A.paid ++ ["All Channels"]).idxOf ch) ((d.times.getD []).idxOf (t.getD ⟨1, 1, 1⟩))) s.level) ∧
        ∀ v, v ≠ .incremental → d.cell ch t v = none := by
  unfold incDataset at h
  cases h1 : DatedSpec.boolTimes ax s.dated with
  | error e => simp only [h1, lift] at h; cases h
  | ok flags =>
    cases h2 : DatedSpec.selectedTimes ax s.dated with
    | error e => simp only [h1, h2, lift] at h; cases h
    | ok selected =>
      simp only [h1, h2, lift] at h
      cases h
      refine ⟨flags, selected, rfl, rfl, rfl, rfl, ?_⟩
      intro ch t
      refine ⟨rfl, ?_⟩
      intro v hv
      cases v <;> first | rfl | exact absurd rfl hv

/-- **C88 (incremental).** A spec for the incremental outcome yields an analysis for its range, or one for
each selected period in order.  Each analysis has the paid channels and all channels together, in order, and
nothing else; and for each of them, for revenue and/or the KPI, the mean and the interval of the posterior
draws of that channel and that period, and no other figure. -/
theorem incremental_exact {δ : Type} (A : Analyzer δ) (hA : Sound A) (s : MSpec δ) (i : IncSpec δ)
    (hi : s.inc = some i) (hv : s.validate = .ok ()) (out) (h : analyses A s = .ok out) :
    ∃ ax selected flags, axis A s = .ok ax ∧ DatedSpec.selectedTimes ax s.dated = .ok selected ∧
      DatedSpec.boolTimes ax s.dated = .ok flags ∧
      (i.aggregate = true → ∃ x, DatedSpec.collapse ax s.dated = .ok x ∧ out.map (·.interval) = [x]) ∧
      (i.aggregate = false → DatedSpec.transform ax s.dated = .ok (out.map (·.interval))) ∧
      ((selected.getD ax).Nodup → ∀ (j : ℕ) a, out[j]? = some a → a.nonMedia = [] ∧
        a.media.map (·.name) = A.paid ++ ["All Channels"] ∧
        ∀ (c : ℕ) x, a.media[c]? = some x → x.spend = none ∧ x.curve = none ∧
          List.Forall₂ (fun k o => o.revenue = (!k) ∧ o.value.probability = s.level ∧ o.share = none ∧
            o.effectiveness = none ∧ o.cpik = none ∧ o.roi = none ∧ o.mroi = none ∧
            ∃ md, Interval.central (A.incremental
              { newData := i.newData, mediaTimes := i.mediaTimes, usePosterior := true, useKpi := k,
                nonPaid := false, selected := flags, aggregateGeos := true, aggregate := i.aggregate }
              c (if i.aggregate then 0 else j)) s.level true =
                .ok [o.value.value, md, o.value.lower, o.value.upper]) (kinds A) x.outcomes) := by
  obtain ⟨_, l0, l1, hx⟩ := (accepted_iff s).1 hv
  have hm : s.media = none := hx.2 (by rw [hi]; simp)
  unfold analyses at h
  cases hax : axis A s with
  | error e => simp only [hax] at h; cases h
  | ok ax =>
    simp only [hax, hm, hi] at h
    cases h0 : incAnalyses A ax s i with
    | error e => simp only [h0] at h; cases h
    | ok l =>
      simp only [h0, List.nil_append] at h
      cases h
      unfold incAnalyses at h0
      cases h1 : incDataset A ax s i A.kpiOnly with
      | error e => simp only [h1] at h0; cases h0
      | ok d =>
        simp only [h1] at h0
        cases h2 : incDataset A ax s i true with
        | error e => simp only [h2] at h0; cases h0
        | ok d' =>
          simp only [h2] at h0
          cases h4 : intervals ax s.dated i.aggregate with
          | error e => simp only [h4] at h0; cases h0
          | ok ints =>
            simp only [h4] at h0
            have h5 := (collect_iff _ _ _).1 h0
            obtain ⟨flags, selected, q1, q2, q3, q4, q5⟩ := inc_dataset h1
            obtain ⟨flags', selected', p1, p2, p3, p4, p5⟩ := inc_dataset h2
            rw [q1] at p1; cases p1
            rw [q2] at p2; cases p2
            refine ⟨ax, selected, flags, rfl, q2, q1, ?_, ?_, ?_⟩
            · intro hag
              rw [intervals_of h5]
              unfold intervals at h4
              rw [hag] at h4
              simp only [if_true] at h4
              cases hc : DatedSpec.collapse ax s.dated with
              | error e => rw [hc] at h4; cases h4
              | ok i => rw [hc] at h4; cases h4; exact ⟨i, rfl, rfl⟩
            · intro hag
              rw [intervals_of h5]
              unfold intervals at h4
              rw [hag] at h4
              simp only [Bool.false_eq_true, if_false, lift] at h4
              cases hc : DatedSpec.transform ax s.dated with
              | error e => rw [hc] at h4; cases h4
              | ok l => rw [hc] at h4; cases h4; rfl
            · intro hnd j a ha
              obtain ⟨int, hint, han⟩ := forall₂_getElem h5 j a ha
              obtain ⟨e1, e2, ns, bs, e3, e4, e5⟩ := analysis_ok han
              have e3' : ns = [] := by
                unfold nonMediaAnalyses at e3; simp only at e3; cases e3; rfl
              have e4' : bs = [] := by
                unfold baselineAnalyses at e4; simp only at e4; cases e4; rfl
              have hch : mediaChannels ⟨d, none, none, if !A.revenueKpi && !A.kpiOnly then some d' else none,
                  none, none⟩ = A.paid ++ ["All Channels"] := by
                unfold mediaChannels; exact q3
              rw [hch] at e2
              have hn : ∀ ch x, mediaAnalysis A.kpiOnly s.level d
                  (if !A.revenueKpi && !A.kpiOnly then some d' else none) none int.start ch = .ok x →
                  x.name = ch ∧ x.curve = none ∧ channelMetrics A.kpiOnly s.level d
                  (if !A.revenueKpi && !A.kpiOnly then some d' else none) ch int.start =
                    .ok (x.outcomes, x.spend) := by
                intro ch x hmx
                unfold mediaAnalysis at hmx
                cases hc : channelMetrics A.kpiOnly s.level d
                  (if !A.revenueKpi && !A.kpiOnly then some d' else none) ch int.start with
                | error e => simp only [hc] at hmx; cases hmx
                | ok p =>
                  obtain ⟨os, sp⟩ := p
                  simp only [hc] at hmx
                  cases hmx
                  exact ⟨rfl, rfl, rfl⟩
              refine ⟨by rw [e5, e3', e4']; rfl, ?_, ?_⟩
              · generalize A.paid ++ ["All Channels"] = names at e2
                clear ha h5 h0 han e5
                generalize a.media = l' at e2
                induction e2 with
                | nil => rfl
                | cons hh _ ih => rw [List.map_cons, ih, (hn _ _ hh).1]
              · intro c x hcx
                obtain ⟨ch, hch1, hch2⟩ := forall₂_getElem e2 c x hcx
                obtain ⟨w1, w2, w3⟩ := hn ch x hch2
                obtain ⟨g1, g2⟩ := metrics_ok w3
                have hpos : (A.paid ++ ["All Channels"]).idxOf ch = c := by
                  refine idxOf_of_getElem ?_ hch1
                  have := hA.names
                  refine this.sublist ?_
                  rw [List.append_assoc]
                  exact (List.Sublist.refl _).append (List.sublist_append_right _ _)
                have htp : ∀ D : Dataset, D.times = (if i.aggregate then none else some (selected.getD ax)) →
                    ((D.times.getD []).idxOf ((if d.times.isSome then some int.start else none).getD ⟨1, 1, 1⟩)) =
                      if i.aggregate then 0 else j := by
                  intro D hD
                  rw [hD, q4]
                  cases hag : i.aggregate with
                  | true => simp
                  | false =>
                    simp only [Bool.false_eq_true, if_false, Option.getD_some, Option.isSome_some, if_true]
                    refine idxOf_of_getElem hnd ?_
                    unfold intervals at h4
                    rw [hag] at h4
                    simp only [Bool.false_eq_true, if_false] at h4
                    unfold DatedSpec.transform at h4
                    simp only [q2] at h4
                    cases hk : DatedSpec.interval ax with
                    | error e => simp only [hk, lift] at h4; cases h4
                    | ok k =>
                      simp only [hk, lift] at h4
                      cases h4
                      rw [List.getElem?_map] at hint
                      cases hg : (selected.getD ax)[j]? with
                      | none => rw [hg] at hint; cases hint
                      | some y => rw [hg] at hint; cases hint; rfl
                refine ⟨?_, w2, ?_⟩
                · rcases g1 with ⟨_, g⟩ | ⟨v, p, g, _⟩
                  · exact g
                  · rw [(q5 _ _).2 _ (by simp)] at g; cases g
                · have hrep : ∀ (D : Dataset) (k : Bool) (o : Outcome),
                      D.times = (if i.aggregate then none else some (selected.getD ax)) →
                      (∀ ch t, D.cell ch t .incremental = some (summarise (A.incremental
                        { newData := i.newData, mediaTimes := i.mediaTimes, usePosterior := true, useKpi := k,
                          nonPaid := false, selected := flags, aggregateGeos := true, aggregate := i.aggregate }
                        ((A.paid ++ ["All Channels"]).idxOf ch) ((D.times.getD []).idxOf (t.getD ⟨1, 1, 1⟩))) s.level) ∧
                        ∀ v, v ≠ .incremental → D.cell ch t v = none) →
                      Reports (D.cell ch (if d.times.isSome then some int.start else none)) (!k) ch s.level o →
                      o.revenue = (!k) ∧ o.value.probability = s.level ∧ o.share = none ∧
                      o.effectiveness = none ∧ o.cpik = none ∧ o.roi = none ∧ o.mroi = none ∧
                      ∃ md, Interval.central (A.incremental
                        { newData := i.newData, mediaTimes := i.mediaTimes, usePosterior := true, useKpi := k,
                          nonPaid := false, selected := flags, aggregateGeos := true, aggregate := i.aggregate }
                        c (if i.aggregate then 0 else j)) s.level true =
                          .ok [o.value.value, md, o.value.lower, o.value.upper] := by
                    intro D k o hD hcell hR
                    obtain ⟨r1, ⟨v, r2, r3⟩, r4, r5, r6, r7, r8⟩ := hR
                    have hnone : ∀ v, v ≠ .incremental →
                        D.cell ch (if d.times.isSome then some int.start else none) v = none :=
                      (hcell _ _).2
                    have hf : ∀ v m e, v ≠ Var.incremental →
                        Field (D.cell ch (if d.times.isSome then some int.start else none) v) s.level m e → e = none :=
                      fun v m e hv hF => hF.1.1 (hnone v hv)
                    rw [(hcell _ _).1] at r2
                    cases r2
                    obtain ⟨t1, t2, t3, t4⟩ := r3
                    refine ⟨r1, t2, ?_, ?_, hf _ _ _ (by simp) r6, hf _ _ _ (by simp) r5, ?_, ?_⟩
                    · refine r4.1.1 ?_
                      rw [hnone _ (by simp)]; rfl
                    · by_cases hc : ch = "All Channels"
                      · rw [if_pos hc] at r7; exact r7
                      · rw [if_neg hc] at r7; exact hf _ _ _ (by simp) r7
                    · by_cases hc : ch = "All Channels"
                      · rw [if_pos hc] at r8; exact r8
                      · rw [if_neg hc] at r8; exact hf _ _ _ (by simp) r8
                    · rw [t1, t3, t4, hpos, htp D hD]
                      exact ⟨_, summarise_ok l0 l1⟩
                  by_cases hk : A.kpiOnly = true
                  · have hkk : kinds A = [true] := by simp [kinds, hk]
                    rw [hk] at g2 q5
                    simp only [Bool.not_true, Bool.and_false, Bool.false_eq_true, if_false, Option.toList_none,
                      List.map_nil] at g2
                    rw [hkk]
                    generalize x.outcomes = os at g2
                    cases g2 with
                    | cons z1 z2 =>
                      cases z2
                      exact .cons (hrep d true _ q4 q5 z1) .nil
                  · simp only [Bool.not_eq_true] at hk
                    rw [hk] at g2 q5
                    by_cases hr : A.revenueKpi = true
                    · have hkk : kinds A = [false] := by simp [kinds, hk, hr]
                      rw [hr] at g2
                      simp only [Bool.not_true, Bool.false_and, Bool.false_eq_true, if_false, Option.toList_none,
                        List.map_nil] at g2
                      rw [hkk]
                      generalize x.outcomes = os at g2
                      cases g2 with
                      | cons z1 z2 =>
                        cases z2
                        exact .cons (hrep d false _ q4 q5 z1) .nil
                    · simp only [Bool.not_eq_true] at hr
                      have hkk : kinds A = [false, true] := by simp [kinds, hk, hr]
                      rw [hr] at g2
                      simp only [Bool.not_false, Bool.and_self, if_true, Option.toList_some,
                        List.map_cons, List.map_nil] at g2
                      rw [hkk]
                      generalize x.outcomes = os at g2
                      cases g2 with
                      | cons z1 z2 =>
                        cases z2 with
                        | cons z2 z3 =>
                          cases z3
                          exact .cons (hrep d false _ q4 q5 z1) (.cons (hrep d' true _ p4 p5 z2) .nil)

/-! ### Success -/

theorem collect_congr {α β : Type} {f g : α → Except Err β} {l : List α} (h : ∀ a ∈ l, f a = g a) :
    collect f l = collect g l := by
  induction l with
  | nil => rfl
  | cons a l ih =>
    simp only [collect]
    rw [h a (by simp), ih fun x hx => h x (by simp [hx])]

/-- A dataset from which the metrics of every channel can be read at a date. -/
structure Readable (start : CDate) (agg : Bool) (ds : Dataset) : Prop where
  timed : ds.times.isSome = !agg
  date : ∀ ts, ds.times = some ts → start ∈ ts
  incremental : ∀ ch t, (ds.cell ch t .incremental).isSome
  spend : ∀ ch t, (ds.cell ch t .spend).isSome → (ds.cell ch t .spendShare).isSome

theorem sel_some {start : CDate} {agg : Bool} {ds : Dataset} (h : Readable start agg ds) {ch : String}
    (hc : ch ∈ ds.channels) : ∃ t, sel ds (!agg) ch start = .ok (ds.cell ch t) := by
  unfold sel
  rw [if_neg (by simpa using hc)]
  cases agg with
  | true => exact ⟨none, by simp⟩
  | false =>
    obtain ⟨ts, hts⟩ := Option.isSome_iff_exists.1 (h.timed.trans (by simp))
    refine ⟨some start, ?_⟩
    simp [hts, h.date ts hts]

theorem outcome_some {c : Cell} (h : (c .incremental).isSome) (r a : Bool) (level : ℚ) :
    ∃ o, outcome c r a level = .ok o := by
  obtain ⟨v, hv⟩ := Option.isSome_iff_exists.1 h
  unfold outcome
  simp only [hv]
  exact ⟨_, rfl⟩

theorem metrics_some {k : Bool} {level : ℚ} {start : CDate} {agg : Bool} {ds : Dataset} {ds2 : Option Dataset}
    (h : Readable start agg ds) (h2 : ∀ d, ds2 = some d → Readable start agg d) {ch : String}
    (hc : ch ∈ ds.channels) (hc2 : ∀ d, ds2 = some d → ch ∈ d.channels) :
    ∃ r, channelMetrics k level ds ds2 ch start = .ok r := by
  obtain ⟨t, ht⟩ := sel_some h hc
  have hs : ∃ x, spendInfo (ds.cell ch t) = .ok x := by
    unfold spendInfo
    cases hsp : ds.cell ch t .spend with
    | none => exact ⟨none, rfl⟩
    | some v =>
      obtain ⟨p, hp⟩ := Option.isSome_iff_exists.1 (h.spend ch t (by rw [hsp]; rfl))
      simp only [hp]
      exact ⟨_, rfl⟩
  obtain ⟨x, hx⟩ := hs
  obtain ⟨o, ho⟩ := outcome_some (h.incremental ch t) (!k) (decide (ch = allChannels)) level
  unfold channelMetrics
  rw [h.timed]
  simp only [ht]
  cases ds2 with
  | none =>
    simp only [selSecondary, hx]
    unfold outcomes
    simp only [ho]
    exact ⟨_, rfl⟩
  | some d =>
    obtain ⟨t', ht'⟩ := sel_some (h2 d rfl) (hc2 d rfl)
    obtain ⟨o', ho'⟩ := outcome_some ((h2 d rfl).incremental ch t') false (decide (ch = allChannels)) level
    simp only [selSecondary, ht', hx]
    unfold outcomes
    simp only [ho, ho']
    exact ⟨_, rfl⟩

theorem summary_some {δ : Type} {A : Analyzer δ} (hA : Sound A) (hC : Complete A) (m : MediaSpec δ) (selected)
    (level : ℚ) (k : Bool) :
    ∃ ds, summaryMetrics A m selected level k = .ok ds ∧
      ∀ start ∈ selected.getD A.dates, Readable start m.aggregate ds.1 ∧
        ∀ d, ds.2 = some d → Readable start m.aggregate d := by
  have hread : ∀ start ∈ selected.getD A.dates, ∀ (np : Bool) (D : Dataset),
      D.cell = (A.summary ⟨m.mroiByReach, selected, true, m.aggregate, m.newData, level, k, np⟩ .posterior).cell →
      D.times = (A.summary ⟨m.mroiByReach, selected, true, m.aggregate, m.newData, level, k, np⟩ .posterior).times →
      Readable start m.aggregate D := by
    intro start hst np D h1 h2
    refine ⟨by rw [h2, hA.times], ?_, ?_, ?_⟩
    · intro ts hts
      rw [h2, hC.times] at hts
      simp only at hts
      split_ifs at hts
      cases hts; exact hst
    · intro ch t; rw [h1]; exact hC.incremental _ _ _ _
    · intro ch t; rw [h1]; exact hC.spend _ _ _ _
  unfold summaryMetrics
  simp only
  by_cases hp : m.nonPaid = true
  · rw [if_pos hp]
    have h1 : ∃ x, dropSel (A.summary ⟨m.mroiByReach, selected, true, m.aggregate, m.newData, level, k, false⟩
        .posterior) [allChannels] = .ok x := by
      unfold dropSel
      rw [if_pos (by simp [hA.channels, allChannels])]
      exact ⟨_, rfl⟩
    obtain ⟨x, hx⟩ := h1
    obtain ⟨a1, a2, a3⟩ := drop_ok hx
    have h2 : ∃ y, dropSel (A.summary ⟨m.mroiByReach, selected, true, m.aggregate, m.newData, level, k, true⟩
        .posterior) x.channels = .ok y := by
      unfold dropSel
      rw [if_pos ?_]
      · exact ⟨_, rfl⟩
      · rw [List.all_eq_true]
        intro n hn
        rw [a3, List.mem_filter, hA.channels] at hn
        rw [hA.channels]
        simp only [Bool.false_eq_true, if_false, List.mem_append] at hn
        simp only [if_true, decide_eq_true_eq, List.mem_append]
        tauto
    obtain ⟨y, hy⟩ := h2
    obtain ⟨b1, b2, b3⟩ := drop_ok hy
    simp only [hx, hy]
    refine ⟨_, rfl, ?_⟩
    intro start hst
    refine ⟨hread start hst false x a1 a2, ?_⟩
    rintro d hd
    simp only [Option.some.injEq] at hd
    subst hd
    exact hread start hst true y b1 b2
  · rw [if_neg hp]
    refine ⟨_, rfl, ?_⟩
    intro start hst
    exact ⟨hread start hst false _ rfl rfl, by intro d hd; cases hd⟩

theorem intervals_some {ax : List CDate} (hne : ax ≠ []) {s : DatedSpec.Spec} {selected} {k : ℕ}
    (hk : DatedSpec.interval ax = .ok k) (hs : DatedSpec.selectedTimes ax s = .ok selected)
    (hsne : selected.getD ax ≠ []) (agg : Bool) :
    ∃ ints, intervals ax s agg = .ok ints ∧ ∀ i ∈ ints, i.start ∈ selected.getD ax := by
  unfold intervals
  cases agg with
  | true =>
    rw [if_pos rfl]
    unfold DatedSpec.collapse
    simp only [hs, hk]
    refine ⟨_, rfl, ?_⟩
    intro i hi
    rw [List.mem_singleton] at hi
    subst hi
    simp only
    cases hl : selected.getD ax with
    | nil => exact absurd hl hsne
    | cons a l => simp
  | false =>
    rw [if_neg (by simp)]
    unfold DatedSpec.transform
    simp only [hs, hk, lift]
    refine ⟨_, rfl, ?_⟩
    intro i hi
    obtain ⟨d, hd, rfl⟩ := List.mem_map.1 hi
    exact hd

theorem le_of_not_lt {a b : CDate} (h : ¬ b.lt a = true) : a.le b = true := by
  obtain ⟨y, m, d⟩ := a
  obtain ⟨y', m', d'⟩ := b
  simp only [CDate.le, CDate.lt, Bool.or_eq_true, Bool.and_eq_true, decide_eq_true_eq, CDate.mk.injEq] at h ⊢
  omega

theorem selected_ne_nil {ax : List CDate} (hne : ax ≠ []) (hv : ∀ d ∈ ax, d.Valid) {s : DatedSpec.Spec} {selected}
    (hs : DatedSpec.selectedTimes ax s = .ok selected) : selected.getD ax ≠ [] := by
  unfold DatedSpec.selectedTimes at hs
  cases he : DatedSpec.closedEnd ax s.stop with
  | error e => simp only [he] at hs; cases hs
  | ok e =>
    simp only [he] at hs
    cases hx : TimeCoordinates.expandSelected ax s.start e with
    | error z => simp only [hx] at hs; cases hs
    | ok r =>
      simp only [hx] at hs
      cases hs
      unfold TimeCoordinates.expandSelected at hx
      cases hlo : TimeCoordinates.minDate ax with
      | none => simp only [hlo] at hx; cases hx; exact hne
      | some lo =>
        cases hhi : TimeCoordinates.maxDate ax with
        | none => simp only [hlo, hhi] at hx; cases hx; exact hne
        | some hi =>
          simp only [hlo, hhi] at hx
          split_ifs at hx with c1 c2 c3 c4 c5
          · cases hx; exact hne
          · cases hx; exact hne
          · cases hx
            simp only [Option.getD_some]
            have hmem : s.start.getD lo ∈ ax := by
              cases hst : s.start with
              | none => 
                obtain ⟨m, hm, hmem, _⟩ := TimeCoordinates.minDate_spec hne hv
                rw [hlo] at hm; cases hm
                exact hmem
              | some a => rw [hst] at c2; simpa using c2
            intro hnil
            have := List.filter_eq_nil_iff.1 hnil _ hmem
            apply this
            have r1 : ∀ a : CDate, a.le a = true := by intro a; unfold CDate.le; simp
            rw [r1, Bool.true_and]
            exact le_of_not_lt c4

theorem analysis_some {k : Bool} {level : ℚ} {m : Metrics} {i : DatedSpec.Interval} {agg : Bool}
    (h1 : Readable i.start agg m.media) (h2 : ∀ d, m.nonMedia = some d → Readable i.start agg d)
    (h3 : ∀ d, m.secondary = some d → Readable i.start agg d ∧ d.channels = m.media.channels)
    (h4 : ∀ d, m.secondaryNonMedia = some d → Readable i.start agg d ∧
      ∀ n, m.nonMedia = some n → d.channels = n.channels)
    (h5 : ∀ b, m.baseline = some b → b.times.isSome = !agg ∧ (∀ ts, b.times = some ts → i.start ∈ ts) ∧
      (∀ ch t, (b.cell ch t .baseline).isSome) ∧ ∀ ch t, (b.cell ch t .contribution).isSome) :
    ∃ a, analysis k level m i = .ok a := by
  have hm : ∃ ms, collect (mediaAnalysis k level m.media m.secondary m.curves i.start) (mediaChannels m) = .ok ms := by
    apply collect_ok
    intro ch hch
    have hmem : ch ∈ m.media.channels := by
      unfold mediaChannels at hch
      cases hn : m.nonMedia with
      | none => simpa only [hn] using hch
      | some d =>
        simp only [hn, List.mem_append, List.mem_filter, decide_eq_true_eq] at hch
        tauto
    obtain ⟨r, hr⟩ := metrics_some (k := k) (level := level) h1 (fun d hd => (h3 d hd).1) hmem
      (fun d hd => (h3 d hd).2 ▸ hmem)
    unfold mediaAnalysis
    simp only [hr]
    exact ⟨_, rfl⟩
  have hn : ∃ ns, nonMediaAnalyses k level m i.start = .ok ns := by
    unfold nonMediaAnalyses
    cases hd : m.nonMedia with
    | none => exact ⟨_, rfl⟩
    | some d =>
      simp only
      apply collect_ok
      intro ch hch
      have hmem : ch ∈ d.channels := by
        unfold otherChannels at hch
        simp only [hd, List.mem_filter] at hch
        exact hch.1
      obtain ⟨r, hr⟩ := metrics_some (k := k) (level := level) (h2 d hd) (fun d hd => (h4 d hd).1) hmem
        (fun d' hd' => (h4 d' hd').2 d hd ▸ hmem)
      unfold nonMediaAnalysis
      simp only [hr]
      exact ⟨_, rfl⟩
  have hb : ∃ bs, baselineAnalyses k level m i.start = .ok bs := by
    unfold baselineAnalyses
    cases hd : m.baseline with
    | none => exact ⟨_, rfl⟩
    | some b =>
      obtain ⟨q1, q2, q3, q4⟩ := h5 b hd
      have hs : ∃ t, sel { b with channels := [baselineName] } b.times.isSome baselineName i.start =
          .ok (b.cell baselineName t) := by
        unfold sel
        rw [if_neg (by simp)]
        cases ht : b.times with
        | none => exact ⟨none, by simp⟩
        | some ts => exact ⟨some i.start, by simp [q2 ts ht]⟩
      obtain ⟨t, ht⟩ := hs
      obtain ⟨v, hv⟩ := Option.isSome_iff_exists.1 (q3 baselineName t)
      obtain ⟨p, hp⟩ := Option.isSome_iff_exists.1 (q4 baselineName t)
      simp only [baselineAnalysis, ht, hv, hp]
      exact ⟨_, rfl⟩
  obtain ⟨ms, hm⟩ := hm
  obtain ⟨ns, hn⟩ := hn
  obtain ⟨bs, hb⟩ := hb
  unfold analysis
  simp only [hm, hn, hb]
  exact ⟨_, rfl⟩

/-- **C88 (time axis).** Times are those of the new data of the spec, incremental or media, if it has new
data with times, otherwise those of the model. -/
theorem axis_exact {δ : Type} (A : Analyzer δ) (s : MSpec δ) (hv : s.validate = .ok ()) (ax : List CDate)
    (h : axis A s = .ok ax) :
    (∀ i n ts, s.inc = some i → i.newData = some n → n.time = some ts → ax = ts) ∧
    (∀ m n ts, s.media = some m → m.newData = some n → n.time = some ts → ax = ts) ∧
    ((∀ i n, s.inc = some i → i.newData = some n → n.time = none) →
      (∀ m n, s.media = some m → m.newData = some n → n.time = none) → ax = A.dates) := by
  obtain ⟨_, _, _, hx⟩ := (accepted_iff s).1 hv
  have key : ∀ n : NewData δ, ∀ ts, newData s = some n → n.time = some ts → ax = ts := by
    intro n ts hn ht
    unfold axis at h
    simp only [hn, Option.bind_some, ht] at h
    unfold TimeCoordinates.create at h
    split_ifs at h
    cases h
    rfl
  refine ⟨?_, ?_, ?_⟩
  · intro i n ts hi hn ht
    exact key n ts (by unfold newData; simp [hi, hn]) ht
  · intro m n ts hm hn ht
    have hi : s.inc = none := by
      cases hi : s.inc with
      | none => rfl
      | some i =>
        have := hx.2 (by rw [hi]; simp)
        rw [hm] at this
        cases this
    exact key n ts (by unfold newData; simp [hi, hm, hn]) ht
  · intro h1 h2
    have hb : ((newData s).bind fun n => n.time) = none := by
      unfold newData
      cases hi : s.inc with
      | some i =>
        cases hn : i.newData with
        | none => simp [hn]
        | some n => simpa [hn] using h1 i n hi hn
      | none =>
        cases hm : s.media with
        | none => simp
        | some m =>
          cases hn : m.newData with
          | none => simp [hn]
          | some n => simpa [hn] using h2 m n hm hn
    unfold axis at h
    rw [hb] at h
    cases h
    rfl


theorem axis_model {δ : Type} {A : Analyzer δ} {s : MSpec δ} (h : newData s = none) : axis A s = .ok A.dates := by
  unfold axis; rw [h]; rfl

theorem analyses_some {δ : Type} {A : Analyzer δ} (hA : Sound A) (hC : Complete A) (hne : A.dates ≠ [])
    (hd : ∀ d ∈ A.dates, d.Valid) {k : ℕ} (hk : DatedSpec.interval A.dates = .ok k) {s : MSpec δ}
    (hv : s.validate = .ok ()) (hn : newData s = none) {selected}
    (hs : DatedSpec.selectedTimes A.dates s.dated = .ok selected) : ∃ out, analyses A s = .ok out := by
  obtain ⟨_, _, _, hx⟩ := (accepted_iff s).1 hv
  have hsne := selected_ne_nil hne hd hs
  unfold analyses
  rw [axis_model hn]
  cases hm : s.media with
  | none =>
    have hi : s.inc ≠ none := hx.1 hm
    cases hi' : s.inc with
    | none => exact absurd hi' hi
    | some i =>
      have hb : ∃ flags, DatedSpec.boolTimes A.dates s.dated = .ok flags := by
        unfold DatedSpec.boolTimes
        simp only [hs]
        cases selected <;> exact ⟨_, rfl⟩
      obtain ⟨flags, hb⟩ := hb
      have hD : ∀ kk, ∃ d, incDataset A A.dates s i kk = .ok d := by
        intro kk
        unfold incDataset
        simp only [hb, hs, lift]
        exact ⟨_, rfl⟩
      have hR : ∀ kk d, incDataset A A.dates s i kk = .ok d → d.channels = A.paid ++ ["All Channels"] ∧
          ∀ start ∈ selected.getD A.dates, Readable start i.aggregate d := by
        intro kk d hd
        obtain ⟨f', s', w1, w2, w3, w4, w5⟩ := inc_dataset hd
        rw [hs] at w2; cases w2
        refine ⟨w3, ?_⟩
        intro start hst
        refine ⟨?_, ?_, ?_, ?_⟩
        · rw [w4]; cases i.aggregate <;> simp
        · intro ts hts
          rw [w4] at hts
          split_ifs at hts
          cases hts; exact hst
        · intro ch t; rw [(w5 ch t).1]; rfl
        · intro ch t h; rw [(w5 ch t).2 _ (by simp)] at h; cases h
      obtain ⟨d, h1⟩ := hD A.kpiOnly
      obtain ⟨d', h2⟩ := hD true
      obtain ⟨ints, h3, h4⟩ := intervals_some hne hk hs hsne i.aggregate
      obtain ⟨c1, r1⟩ := hR _ _ h1
      obtain ⟨c2, r2⟩ := hR _ _ h2
      have : ∃ l, incAnalyses A A.dates s i = .ok l := by
        unfold incAnalyses
        simp only [h1, h2, h3]
        apply collect_ok
        intro int hint
        refine analysis_some (agg := i.aggregate) (r1 _ (h4 _ hint)) ?_ ?_ ?_ ?_
        · intro x hx; cases hx
        · intro x hx
          simp only at hx
          split_ifs at hx
          cases hx
          exact ⟨r2 _ (h4 _ hint), by rw [c1, c2]⟩
        · intro x hx; cases hx
        · intro x hx; cases hx
      obtain ⟨l, hl⟩ := this
      simp only [hl]
      exact ⟨_, rfl⟩
  | some m =>
    have hi : s.inc = none := by
      by_contra hc
      rw [hx.2 hc] at hm; cases hm
    obtain ⟨ds, h1, r1⟩ := summary_some hA hC m selected s.level A.kpiOnly
    obtain ⟨ds2, h2, r2⟩ := summary_some hA hC m selected s.level true
    obtain ⟨ints, h3, h4⟩ := intervals_some hne hk hs hsne m.aggregate
    have hsec : ∃ ds', secondaryMetrics A m selected s.level = .ok ds' ∧
        (∀ d, ds'.1 = some d → d = ds2.1) ∧ ∀ d, ds'.2 = some d → ds2.2 = some d := by
      unfold secondaryMetrics
      split_ifs
      · simp only [h2]
        refine ⟨_, rfl, ?_, ?_⟩
        · intro d hd; cases hd; rfl
        · intro d hd; exact hd
      · refine ⟨_, rfl, ?_, ?_⟩
        · intro d hd; cases hd
        · intro d hd; cases hd
    obtain ⟨ds', h5, g1, g2⟩ := hsec
    obtain ⟨_, _, c1, e1⟩ := summary_ok hA (s := s) h1
    obtain ⟨_, _, c2, e2⟩ := summary_ok hA (s := s) h2
    have : ∃ l, mediaAnalyses A A.dates s m = .ok l := by
      unfold mediaAnalyses
      simp only [hs, lift, h1, h5, h3]
      apply collect_ok
      intro int hint
      have hst := h4 _ hint
      refine analysis_some (agg := m.aggregate) (r1 _ hst).1 (r1 _ hst).2 ?_ ?_ ?_
      · intro d hd
        rw [g1 d hd]
        exact ⟨(r2 _ hst).1, by rw [c1, c2]⟩
      · intro d hd
        refine ⟨(r2 _ hst).2 d (g2 d hd), ?_⟩
        intro n hn
        simp only at hn
        rcases e1 with ⟨_, e⟩ | ⟨_, x, e, _, _, ex⟩
        · rw [hn] at e; cases e
        · rw [hn] at e; cases e
          rcases e2 with ⟨_, e'⟩ | ⟨_, y, e', _, _, ey⟩
          · rw [g2 d hd] at e'; cases e'
          · rw [g2 d hd] at e'; cases e'
            rw [ex, ey]
      · intro b hb
        cases hb
        refine ⟨hA.baseline _ _, ?_, hC.outcome _ _, hC.share _ _⟩
        intro ts hts
        rw [hC.baseline] at hts
        simp only at hts
        split_ifs at hts
        cases hts; exact hst
    obtain ⟨l, hl⟩ := this
    simp only [hl, hi]
    exact ⟨_, rfl⟩

/-- **C88 (success).** Without new data, and if the analyzer's datasets are complete, the processor succeeds
if and only if the dates of every spec can be resolved on the dates of the model. -/
theorem produced_iff {δ : Type} (A : Analyzer δ) (hA : Sound A) (hC : Complete A) (hne : A.dates ≠ [])
    (hd : ∀ d ∈ A.dates, d.Valid) (k : ℕ) (hk : DatedSpec.interval A.dates = .ok k) (specs : List (MSpec δ))
    (hv : ∀ s ∈ specs, s.validate = .ok () ∧ newData s = none) :
    (∃ out, execute A specs = .ok out) ↔
      ∀ s ∈ specs, ∃ selected, DatedSpec.selectedTimes A.dates s.dated = .ok selected := by
  constructor
  · rintro ⟨out, h⟩ s hs
    obtain ⟨parts, hp, _⟩ := output_by_spec A specs out h
    obtain ⟨p, _, hp⟩ := forall₂_left hp s hs
    obtain ⟨v, n⟩ := hv s hs
    cases hm : s.media with
    | some m =>
      obtain ⟨ax, selected, _, _, _, hx, h1, _⟩ := media_ok hm v hp
      rw [axis_model n] at hx; cases hx
      exact ⟨selected, h1⟩
    | none =>
      have := ((accepted_iff s).1 v).2.2.2.1 hm
      cases hi : s.inc with
      | none => exact absurd hi this
      | some i =>
        obtain ⟨ax, selected, _, hx, h1, _⟩ := incremental_exact A hA s i hi v p hp
        rw [axis_model n] at hx; cases hx
        exact ⟨selected, h1⟩
  · intro h
    obtain ⟨r, hr⟩ := collect_ok (f := analyses A) (l := specs) (by
      intro s hs
      obtain ⟨selected, hsel⟩ := h s hs
      exact analyses_some hA hC hne hd hk (hv s hs).1 (hv s hs).2 hsel)
    unfold execute
    simp only [hk, lift, hr]
    exact ⟨_, rfl⟩

/-! ### What the specs promise and the code does not do -/

/-- **C88 (finding).** `include_non_paid_channels` of an incremental outcome spec changes nothing. -/
theorem incremental_non_paid_ignored {δ : Type} (A : Analyzer δ) (s : MSpec δ) (i : IncSpec δ) (b : Bool) :
    analyses A { s with inc := some { i with nonPaid := b } } = analyses A { s with inc := some i } := rfl

/-- **C88 (finding).** `media_selected_times` of a media summary spec changes nothing. -/
theorem media_times_ignored {δ : Type} (A : Analyzer δ) (s : MSpec δ) (m : MediaSpec δ) (hi : s.inc = none)
    (ts : Option (List Bool)) :
    analyses A { s with media := some { m with mediaTimes := ts } } = analyses A { s with media := some m } := by
  obtain ⟨d, _, inc, r, l⟩ := s
  simp only at hi
  subst hi
  rfl

/-- **C88 (finding).** With non-paid channels, the total over all channels is reported as a non-media
analysis and no longer among the media analyses. -/
theorem total_is_non_media {δ : Type} (A : Analyzer δ) (hA : Sound A) (s : MSpec δ) (m : MediaSpec δ)
    (hm : s.media = some m) (hv : s.validate = .ok ()) (hp : m.nonPaid = true) (out)
    (h : analyses A s = .ok out) :
    ∀ a ∈ out, (∀ x ∈ a.media, x.name ≠ "All Channels") ∧ ∃ n ∈ a.nonMedia, n.name = "All Channels" := by
  intro a ha
  obtain ⟨_, _, _, _, h1⟩ := media_exact A hA s m hm hv out h
  obtain ⟨_, _, _, _, h2⟩ := nonmedia_exact A hA s m hm hv out h
  rw [hp] at h1 h2
  constructor
  · intro x hx hname
    obtain ⟨ch, hch, hxn, _⟩ := forall₂_right (h1 a ha) x hx
    rw [hname] at hxn
    have := hA.names
    rw [List.append_assoc, List.nodup_append] at this
    simp only [if_true] at hch
    exact this.2.2 ch hch "All Channels" (by simp) hxn.symm
  · obtain ⟨l, b, hl, hf, _⟩ := h2 a ha
    obtain ⟨n, hn, hnn, _⟩ := forall₂_left hf "All Channels" (by simp)
    exact ⟨n, by rw [hl]; simp [hn], hnn⟩

/-- **C88 (finding).** The baseline and the response curves of an aggregated media summary do not depend on
the new data: two specs that select the same times get the same, whatever their data. -/
theorem baseline_ignores_new_data {δ : Type} (A : Analyzer δ) (s s' : MSpec δ) (m m' : MediaSpec δ)
    (hm : s.media = some m) (hm' : s'.media = some m') (hv : s.validate = .ok ()) (hv' : s'.validate = .ok ())
    (hag : m.aggregate = true) (hag' : m'.aggregate = true) (hl : s.level = s'.level) (hA : Sound A)
    (ax ax' selected) (hax : axis A s = .ok ax) (hax' : axis A s' = .ok ax')
    (h1 : DatedSpec.selectedTimes ax s.dated = .ok selected)
    (h1' : DatedSpec.selectedTimes ax' s'.dated = .ok selected)
    (a a') (h : analyses A s = .ok [a]) (h' : analyses A s' = .ok [a']) :
    a.nonMedia.getLast? = a'.nonMedia.getLast? ∧
      (s.byReach = s'.byReach → ∀ x ∈ a.media, ∀ x' ∈ a'.media, x.name = x'.name → x.curve = x'.curve) := by
  constructor
  · obtain ⟨bx, se, ds, ds', ints, q1, q2, q3, q4, q5, q6⟩ := media_ok hm hv h
    obtain ⟨bx', se', es, es', ints', p1, p2, p3, p4, p5, p6⟩ := media_ok hm' hv' h'
    rw [hax] at q1; cases q1
    rw [hax'] at p1; cases p1
    rw [h1] at q2; cases q2
    rw [h1'] at p2; cases p2
    cases q6 with
    | @cons i1 _ _ _ q6 _ =>
      cases p6 with
      | @cons i2 _ _ _ p6 _ =>
        obtain ⟨_, _, ns, bs, _, e4, e5⟩ := analysis_ok q6
        obtain ⟨_, _, ns', bs', _, f4, f5⟩ := analysis_ok p6
        unfold baselineAnalyses at e4 f4
        simp only [hag] at e4
        simp only [hag', ← hl] at f4
        have hst : ∀ i i' : CDate, baselineAnalysis A.kpiOnly s.level
            (A.baseline ⟨s.level, true, selected⟩ .posterior) i =
            baselineAnalysis A.kpiOnly s.level (A.baseline ⟨s.level, true, selected⟩ .posterior) i' := by
          intro i i'
          unfold baselineAnalysis sel
          rw [hA.baseline]
          simp
        rw [hst i2.start i1.start] at f4
        cases hb : baselineAnalysis A.kpiOnly s.level (A.baseline ⟨s.level, true, selected⟩ .posterior) i1.start with
        | error e => simp only [hb] at e4; cases e4
        | ok b =>
          simp only [hb] at e4 f4
          cases e4; cases f4
          rw [e5, f5]
          simp
  · intro hr x hx x' hx' hn
    obtain ⟨bx, se, q1, q2, q⟩ := spend_and_curve_exact A hA s m hm hv _ h
    obtain ⟨bx', se', p1, p2, p⟩ := spend_and_curve_exact A hA s' m' hm' hv' _ h'
    rw [hax] at q1; cases q1
    rw [hax'] at p1; cases p1
    rw [h1] at q2; cases q2
    rw [h1'] at p2; cases p2
    rw [(q a (by simp) x hx).2 _ rfl, (p a' (by simp) x' hx').2 _ rfl, hag, hag', hl, hr, hn]

/-- **C88 (finding).** New data for another period, analysed over all its times: the analysis carries the
dates of the new data, but its baseline is the one of the model's own period. -/
theorem baseline_of_other_period {δ : Type} (A : Analyzer δ) (hA : Sound A) (s : MSpec δ) (m : MediaSpec δ)
    (n : NewData δ) (ts : List CDate) (hts : n.time = some ts) (hm : s.media = some m)
    (hn : m.newData = some n) (hv : s.validate = .ok ()) (hag : m.aggregate = true)
    (h0 : s.dated.start = none ∧ s.dated.stop = none) (a a')
    (h : analyses A s = .ok [a])
    (h' : analyses A { s with media := some { m with newData := none } } = .ok [a']) :
    a.interval.start = ts.headD ⟨1, 1, 1⟩ ∧ a'.interval.start = A.dates.headD ⟨1, 1, 1⟩ ∧
      a.nonMedia.getLast? = a'.nonMedia.getLast? := by
  have hi : s.inc = none := by
    have := ((accepted_iff s).1 hv).2.2.2
    by_contra hc
    rw [this.2 hc] at hm; cases hm
  have hsel : ∀ l, DatedSpec.selectedTimes l s.dated = .ok none := by
    intro l
    unfold DatedSpec.selectedTimes DatedSpec.closedEnd
    rw [h0.1, h0.2]
    simp only
    unfold TimeCoordinates.expandSelected
    cases TimeCoordinates.minDate l <;> cases TimeCoordinates.maxDate l <;> simp
  have hv' : MSpec.validate { s with media := some { m with newData := none } } = .ok () := by
    rw [accepted_iff] at hv ⊢
    rw [hm] at hv
    simp only [hi, reduceCtorEq, ne_eq, not_true_eq_false] at hv ⊢
    exact hv
  have hcol : ∀ l x, DatedSpec.collapse l s.dated = .ok x → x.start = l.headD ⟨1, 1, 1⟩ := by
    intro l x hx
    unfold DatedSpec.collapse at hx
    simp only [hsel] at hx
    cases hk : DatedSpec.interval l with
    | error e => simp only [hk] at hx; cases hx
    | ok k => simp only [hk] at hx; cases hx; rfl
  obtain ⟨ax, hax, i1, _⟩ := media_intervals A s m hm hv _ h
  obtain ⟨x, hx, hxi⟩ := i1 hag
  obtain ⟨ax', hax', i1', _⟩ := media_intervals A _ { m with newData := none } rfl hv' _ h'
  obtain ⟨x', hx', hxi'⟩ := i1' hag
  have e1 : ax = ts := by
    unfold axis newData at hax
    simp only [hi, hm, hn, Option.bind_some, hts] at hax
    unfold TimeCoordinates.create at hax
    split_ifs at hax
    · cases hax; rfl
  have e2 : ax' = A.dates := by
    unfold axis newData at hax'
    simp only [hi, Option.bind_none] at hax'
    cases hax'; rfl
  refine ⟨?_, ?_, ?_⟩
  · simp only [List.map_cons, List.map_nil, List.cons.injEq, and_true] at hxi
    rw [hxi, hcol ax x hx, e1]
  · simp only [List.map_cons, List.map_nil, List.cons.injEq, and_true] at hxi'
    rw [hxi', hcol ax' x' hx', e2]
  · exact (baseline_ignores_new_data A s _ m { m with newData := none } hm rfl hv hv' hag hag rfl hA
      ax ax' none hax hax' (hsel _) (hsel _) a a' h h').1

/-- **C88 (finding).** For a KPI with a revenue per KPI every channel is reported in revenue and in the KPI,
but the baseline in revenue only. -/
theorem baseline_in_revenue_only {δ : Type} (A : Analyzer δ) (hA : Sound A) (hr : A.revenueKpi = false)
    (hk : A.kpiOnly = false) (s : MSpec δ) (m : MediaSpec δ) (hm : s.media = some m)
    (hv : s.validate = .ok ()) (out) (h : analyses A s = .ok out) :
    ∀ a ∈ out, (∀ x ∈ a.media, x.outcomes.map (·.revenue) = [true, false]) ∧
      ∃ b, a.nonMedia.getLast? = some b ∧ b.name = "baseline" ∧ b.outcomes.map (·.revenue) = [true] := by
  intro a ha
  obtain ⟨_, _, _, _, h1⟩ := media_exact A hA s m hm hv out h
  obtain ⟨_, _, _, _, h2⟩ := nonmedia_exact A hA s m hm hv out h
  constructor
  · intro x hx
    obtain ⟨ch, _, _, ho⟩ := forall₂_right (h1 a ha) x hx
    have : kinds A = [false, true] := by simp [kinds, hk, hr]
    rw [this] at ho
    generalize x.outcomes = os at ho
    cases ho with
    | cons z1 z2 => cases z2 with
      | cons z2 z3 => cases z3; simp [z1.kpi, z2.kpi]
  · obtain ⟨l, b, hl, _, hb, o, c, v, p, ho, hor, _⟩ := h2 a ha
    exact ⟨b, by rw [hl]; simp, hb, by rw [ho]; simp [hor, hk]⟩

/-- **C88 (finding).** Cost per incremental KPI and return are both reported, whatever the kind of KPI,
whenever the metrics hold both. -/
theorem cost_and_return_both {c : Cell} {revenue : Bool} {name : String} {level : ℚ} {o : Outcome}
    (h : Reports c revenue name level o) (h1 : c .cpik ≠ none) (h2 : c .roi ≠ none) :
    o.cpik ≠ none ∧ o.roi ≠ none :=
  ⟨fun e => h1 (h.cpik.1.2 e), fun e => h2 (h.roi.1.2 e)⟩

/-! ### An example -/

/-- A model with one paid and one organic channel and three weeks; its KPI is no revenue but has a revenue. -/
def demo : Analyzer Unit where
  dates := [⟨2024, 1, 1⟩, ⟨2024, 1, 8⟩, ⟨2024, 1, 15⟩]
  paid := ["tv"]
  nonPaid := ["email"]
  revenueKpi := false
  kpiOnly := false
  summary a d := ⟨(if a.nonPaid then ["tv"] ++ ["email"] else ["tv"]) ++ ["All Channels"],
    if a.aggregate then none else some (a.selected.getD [⟨2024, 1, 1⟩, ⟨2024, 1, 8⟩, ⟨2024, 1, 15⟩]),
    fun ch t v => match v with
      | .baseline => none
      | .cpik => some fun s => some (match s with | .mean => 5 | .median => 4 | .low => 3 | .high => 6)
      | .incremental => some fun _ => some ((if a.useKpi then 1 else 2) + (t.map (·.d)).getD 0 +
          (if ch = "tv" then 100 else 200))
      | _ => if a.nonPaid then none else some fun _ => if d = .posterior then some 50 else none⟩
  baseline a _ := ⟨[], if a.aggregate then none else some (a.selected.getD [⟨2024, 1, 1⟩, ⟨2024, 1, 8⟩, ⟨2024, 1, 15⟩]),
    fun _ _ v => match v with
      | .baseline => some fun _ => some 7
      | .contribution => some fun _ => some 30
      | _ => none⟩
  curves _ := ⟨["tv"], [0, 1], fun _ x => some (10 * x), fun _ x _ => some (3 * x)⟩
  incremental _ c t := [[some (c + 10 * t), some (c + 10 * t + 2)]]

theorem demo_sound : Sound demo := by
  refine ⟨by decide, by simp [demo], ?_, ?_, ?_, fun _ => rfl⟩
  · intro a d; rfl
  · intro a d; simp only [demo]; cases a.aggregate <;> rfl
  · intro a d; simp only [demo]; cases a.aggregate <;> rfl

theorem demo_complete : Complete demo := by
  refine ⟨fun _ _ => rfl, fun _ _ => rfl, fun _ _ _ _ => rfl, ?_, fun _ _ _ _ => rfl, fun _ _ _ _ => rfl⟩
  intro a d ch t h
  simp only [demo] at h ⊢
  exact h

/-- A spec over the last two weeks. -/
def demoSpec (m : Option (MediaSpec Unit)) (i : Option (IncSpec Unit)) : MSpec Unit :=
  ⟨⟨some ⟨2024, 1, 8⟩, none, "t"⟩, m, i, true, 9 / 10⟩

example : (demoSpec (some { aggregate := false, nonPaid := true }) none).validate = .ok () ∧
    (∃ out, execute demo [demoSpec (some { aggregate := false, nonPaid := true }) none,
      demoSpec none (some { aggregate := false })] = .ok out ∧ out.length = 4) ∧
    (∃ a, analyses demo (demoSpec (some {}) none) = .ok [a] ∧ a.media.length = 2 ∧
      a.media.map (·.curve) = [some [(some 0, some 0), (some 10, some 3)], none] ∧
      a.media.map (·.spend) = [some (some 50, some (1 / 2)), some (some 50, some (1 / 2))] ∧
      a.nonMedia.length = 1) ∧
    ∃ a b, analyses demo (demoSpec none (some { aggregate := false })) = .ok [a, b] ∧
      b.media.map (fun x => x.outcomes.map (·.value.value)) = [[some 11, some 11], [some 12, some 12]] := by
  refine ⟨by decide +kernel, ⟨_, rfl, by decide +kernel⟩, ⟨_, rfl, ?_, ?_, ?_, ?_⟩, ⟨_, _, rfl, ?_⟩⟩ <;>
    decide +kernel

example : ∃ out, execute demo [demoSpec (some {}) none] = .ok out :=
  (produced_iff demo demo_sound demo_complete (by decide) (by decide) 7 (by decide +kernel)
    [demoSpec (some {}) none] (by
      intro s hs
      rw [List.mem_singleton] at hs
      subst hs
      exact ⟨by decide +kernel, rfl⟩)).2 (by
      intro s hs
      rw [List.mem_singleton] at hs
      subst hs
      exact ⟨some [⟨2024, 1, 8⟩, ⟨2024, 1, 15⟩], by decide +kernel⟩)

/-- New data for another period. -/
def later : NewData Unit := ⟨some [⟨2025, 1, 6⟩, ⟨2025, 1, 13⟩], ()⟩

example : ∃ a a', analyses demo { demoSpec (some { newData := some later }) none with dated := ⟨none, none, ""⟩ } = .ok [a] ∧
    analyses demo { demoSpec (some {}) none with dated := ⟨none, none, ""⟩ } = .ok [a'] ∧
    a.interval.start = ⟨2025, 1, 6⟩ ∧ a'.interval.start = ⟨2024, 1, 1⟩ := by
  refine ⟨_, _, rfl, rfl, ?_, ?_⟩ <;> decide +kernel

example : axis demo (demoSpec none (some { newData := some later })) = .ok [⟨2025, 1, 6⟩, ⟨2025, 1, 13⟩] ∧
    axis demo (demoSpec (some { newData := some later }) none) = .ok [⟨2025, 1, 6⟩, ⟨2025, 1, 13⟩] ∧
    axis demo (demoSpec (some {}) none) = .ok demo.dates := by
  decide +kernel

end Verif.MarketingProto.Props


