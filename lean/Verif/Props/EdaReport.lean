import Verif.Spec.EdaReport
import Verif.Props.Eda
import Verif.Props.EdaStd

/-!
# C101: what the report of the exploratory data analysis counts
-/

namespace Verif.EdaReport.Props

open Spec

/-! ### A unique finding -/

/-- **C101.** A finding is looked up exactly: none if there is none, the only one, and an error if there
are several. -/
theorem finding_exact {α : Type} (p : α → Bool) (l : List α) :
    (getFinding p l = .ok none ↔ ∀ f ∈ l, p f = false) ∧
    (∀ f, getFinding p l = .ok (some f) ↔ l.filter p = [f]) ∧
    (getFinding p l = .error .ambiguous ↔ 2 ≤ (l.filter p).length) := by
  unfold getFinding
  have e : l.filter p = [] ↔ ∀ f ∈ l, p f = false := by
    simp [List.filter_eq_nil_iff]
  rw [← e]
  rcases h : l.filter p with _ | ⟨a, _ | ⟨b, t⟩⟩
  · simp
  · simp
  · simp

theorem cnt_pos {p : Prop} (h : p) : cnt p = 1 := by
  unfold cnt
  exact if_pos h

theorem cnt_neg {p : Prop} (h : ¬ p) : cnt p = 0 := by
  unfold cnt
  exact if_neg h

theorem finding_some {α : Type} {p : α → Bool} {l : List α} {o : Option α}
    (h : getFinding p l = .ok o) : one o = cnt (∃ f ∈ l, p f = true) := by
  obtain ⟨h1, h2, _⟩ := finding_exact p l
  cases o with
  | none =>
    have := h1.1 h
    rw [cnt_neg]
    · rfl
    · rintro ⟨f, hf, hp⟩
      rw [this f hf] at hp
      cases hp
  | some f =>
    have := (h2 f).1 h
    rw [cnt_pos]
    · rfl
    · have hf : f ∈ l.filter p := by rw [this]; exact List.mem_cons_self ..
      rw [List.mem_filter] at hf
      exact ⟨f, hf.1, hf.2⟩

theorem cnt_congr {p q : Prop} (h : p ↔ q) : cnt p = cnt q := by rw [propext h]

theorem one_isSome {α : Type} (o : Option α) : (o.isSome = true) ↔ one o = 1 := by
  unfold one
  cases o <;> simp

theorem cnt_one (p : Prop) : cnt p = 1 ↔ p := by
  unfold cnt
  by_cases h : p <;> simp [h]

/-! ### Counts of the cards -/

theorem spend_counts (c : Checks) (n : Counts) (h : spendCounts c = .ok n) :
    n = ⟨reviews c .spend, fails c .spend⟩ := by
  unfold spendCounts at h
  rcases h1 : getFinding (fun f => decide (f.cause = EdaStd.Cause.inconsistent ∧
      f.severity = EdaStd.Severity.attention)) c.cost with _ | a
  · rw [h1] at h; cases h
  rcases h2 : getFinding (fun f => decide (f.cause = EdaStd.Cause.outlier ∧
      f.severity = EdaStd.Severity.attention)) c.cost with _ | b
  · rw [h1, h2] at h; cases h
  rw [h1, h2] at h
  cases h
  simp only [reviews, fails, CostFound]
  rw [finding_some h1, finding_some h2]
  simp only [decide_eq_true_eq]

theorem response_counts (c : Checks) (n : Counts) (h : responseCounts c = .ok n) :
    n = ⟨reviews c .response, fails c .response⟩ := by
  unfold responseCounts at h
  rcases h1 : getFinding (fun f => decide (f.cause = Eda.Cause.variability ∧
      f.severity = Eda.Severity.error)) c.kpi with _ | a
  · rw [h1] at h; cases h
  rcases h2 : getFinding (fun f => decide (f.cause = EdaStd.Cause.variability ∧
      f.severity = EdaStd.Severity.attention ∧ f.subject = some EdaStd.Kind.kpi)) c.std with _ | b
  · rw [h1, h2] at h; cases h
  rcases h3 : getFinding (fun f => decide (f.cause = EdaStd.Cause.variability ∧
      f.severity = EdaStd.Severity.attention ∧ f.subject = some EdaStd.Kind.treatmentsControls)) c.std
      with _ | b3
  · rw [h1, h2, h3] at h; cases h
  rcases h4 : getFinding (fun f => decide (f.cause = EdaStd.Cause.outlier ∧
      f.severity = EdaStd.Severity.attention ∧ f.subject = some EdaStd.Kind.treatmentsControls)) c.std
      with _ | b4
  · rw [h1, h2, h3, h4] at h; cases h
  rw [h1, h2, h3, h4] at h
  cases h
  have e1 := finding_some h1
  have e2 := finding_some h2
  simp only [decide_eq_true_eq] at e1 e2
  have e : (if b.isSome && !a.isSome then 1 else 0) = cnt (StdFound c .variability .kpi ∧ ¬ KpiFails c) := by
    have ea : a.isSome = true ↔ KpiFails c := by
      rw [one_isSome, e1, cnt_one]; rfl
    have eb : b.isSome = true ↔ StdFound c .variability .kpi := by
      rw [one_isSome, e2, cnt_one]; rfl
    by_cases x : StdFound c .variability .kpi <;> by_cases y : KpiFails c
    · rw [cnt_neg fun hh => hh.2 y]
      simp [ea.2 y]
    · rw [cnt_pos ⟨x, y⟩]
      have : a.isSome = false := by
        cases hh : a.isSome
        · rfl
        · exact absurd (ea.1 hh) y
      simp [eb.2 x, this]
    · rw [cnt_neg fun hh => hh.2 y]
      simp [ea.2 y]
    · rw [cnt_neg fun hh => x hh.1]
      have : b.isSome = false := by
        cases hh : b.isSome
        · rfl
        · exact absurd (eb.1 hh) x
      simp [this]
  simp only [reviews, fails, KpiFails, StdFound] at e ⊢
  rw [e, e1, finding_some h3, finding_some h4]
  simp only [decide_eq_true_eq]

theorem relationship_counts (c : Checks) (n : Counts) (h : relationshipCounts c = .ok n) :
    n = ⟨reviews c .relationship, fails c .relationship⟩ := by
  unfold relationshipCounts at h
  rcases h1 : getFinding (fun f => decide (f.cause = Eda.Cause.multicollinearity ∧
      f.severity = Eda.Severity.error)) c.vif with _ | a
  · rw [h1] at h; cases h
  rcases h2 : getFinding (fun f => decide (f.cause = Eda.Cause.multicollinearity ∧
      f.severity = Eda.Severity.attention)) c.vif with _ | b
  · rw [h1, h2] at h; cases h
  have hn : n = ⟨one b, one a⟩ := by
    rw [h1, h2] at h
    rcases h3 : getFinding (fun f => decide (f.cause = Eda.Cause.multicollinearity ∧
        f.severity = Eda.Severity.error)) c.pairwise with _ | x <;>
      rcases h4 : getFinding (fun f => decide (f.cause = Eda.Cause.multicollinearity ∧
        f.severity = Eda.Severity.attention)) c.pairwise with _ | y <;>
      rw [h3, h4] at h <;> cases a <;> cases b <;> cases h <;> rfl
  rw [hn, finding_some h1, finding_some h2]
  simp only [decide_eq_true_eq]
  rfl

/-! ### The summary -/

theorem tags_say (card : Card) (n : Counts) :
    Says ⟨card, tags n, decide (n.error ≠ 0) || decide (n.attention ≠ 0)⟩ n.error n.attention := by
  obtain ⟨a, e⟩ := n
  unfold Says tags
  rcases Nat.eq_zero_or_pos a with ha | ha <;> rcases Nat.eq_zero_or_pos e with he | he
  · subst ha; subst he; simp
  · subst ha
    simp [he, he.ne']
  · subst he
    simp [ha, ha.ne']
  · simp [ha, he, ha.ne', he.ne']

/-- **C101.** The summary of a report has a row for itself and for each shown card, in order; the card of
the population is shown unless the model is national. -/
theorem summary_cards (c : Checks) (rows : List SummaryRow) (h : report c = .ok rows) :
    rows.map SummaryRow.card = shown c.national := by
  unfold report cards at h
  rcases h1 : spendCounts c with _ | a
  · rw [h1] at h; cases h
  rcases h2 : responseCounts c with _ | b
  · rw [h1, h2] at h; cases h
  rcases h3 : relationshipCounts c with _ | d
  · rw [h1, h2, h3] at h
    cases hn : c.national <;> rw [hn] at h <;> cases h
  rw [h1, h2, h3] at h
  cases hn : c.national <;> rw [hn] at h <;> cases h <;> rfl

/-- **C101.** Each row counts the callouts of its card, and the row of the summary counts all: fails are
a KPI without variation and variables inflated over all data; reviews are inconsistent costs, outliers of
the cost per unit, treatments or controls without variation or with outliers, a KPI without variation in
some series if it has variation over all, and variables inflated in single geos. -/
theorem summary_exact (c : Checks) (rows : List SummaryRow) (h : report c = .ok rows) :
    ∀ r ∈ rows, Says r (fails c r.card) (reviews c r.card) := by
  unfold report cards at h
  rcases h1 : spendCounts c with _ | a
  · rw [h1] at h; cases h
  rcases h2 : responseCounts c with _ | b
  · rw [h1, h2] at h; cases h
  rcases h3 : relationshipCounts c with _ | d
  · rw [h1, h2, h3] at h
    cases hn : c.national <;> rw [hn] at h <;> cases h
  have ea := spend_counts c a h1
  have eb := response_counts c b h2
  have ed := relationship_counts c d h3
  rw [h1, h2, h3] at h
  have z : ∀ card, Says ⟨card, tags {}, decide (({} : Counts).error ≠ 0) ||
      decide (({} : Counts).attention ≠ 0)⟩ 0 0 := fun card => tags_say card {}
  have ta := tags_say .spend a
  have tb := tags_say .response b
  have td := tags_say .relationship d
  subst ea; subst eb; subst ed
  cases hn : c.national <;> rw [hn] at h <;> cases h
  · intro r hr
    rcases List.mem_cons.1 hr with rfl | hr
    · have := tags_say .summary ((((((({} : Counts).add ⟨reviews c .spend, fails c .spend⟩).add
        ⟨reviews c .response, fails c .response⟩).add {}).add
        ⟨reviews c .relationship, fails c .relationship⟩)).add {})
      simp only [Counts.add, Nat.zero_add, Nat.add_zero] at this ⊢
      have e1 : fails c .spend = 0 := rfl
      rw [e1, Nat.zero_add] at this ⊢
      exact this
    · simp only [List.map_cons, List.map_nil, List.mem_cons, List.not_mem_nil, or_false] at hr
      rcases hr with rfl | rfl | rfl | rfl | rfl
      · exact ta
      · exact tb
      · exact z _
      · exact td
      · exact z _
  · intro r hr
    rcases List.mem_cons.1 hr with rfl | hr
    · have := tags_say .summary (((((({} : Counts).add ⟨reviews c .spend, fails c .spend⟩).add
        ⟨reviews c .response, fails c .response⟩).add
        ⟨reviews c .relationship, fails c .relationship⟩)).add {})
      simp only [Counts.add, Nat.zero_add, Nat.add_zero] at this ⊢
      have e1 : fails c .spend = 0 := rfl
      rw [e1, Nat.zero_add] at this ⊢
      exact this
    · simp only [List.map_cons, List.map_nil, List.mem_cons, List.not_mem_nil, or_false] at hr
      rcases hr with rfl | rfl | rfl | rfl
      · exact ta
      · exact tb
      · exact td
      · exact z _

/-! ### Reports of data -/

theorem filter_le_one {α : Type} {p : α → Bool} {l : List α} (h : (l.filter p).length ≤ 1) :
    ∃ o, getFinding p l = .ok o := by
  unfold getFinding
  simp only
  rw [if_neg (by omega)]
  exact ⟨_, rfl⟩

theorem cost_unique (d : EdaStd.CostData) (k : EdaStd.Cause) :
    ((EdaStd.costFindings d).filter fun f => decide (f.cause = k ∧ f.severity = .attention)).length
      ≤ 1 := by
  unfold EdaStd.costFindings
  by_cases h1 : EdaStd.inconsistent d = [] <;>
    by_cases h2 : EdaStd.calculateOutliers (EdaStd.costPerUnit d) = [] <;>
    simp only [h1, h2, if_true, if_false] <;> cases k <;> decide

theorem kpi_unique (d : Eda.Data) (s : Eda.Spec) (p : Eda.Finding → Bool) :
    ((Eda.checkKpi d s).findings.filter p).length ≤ 1 := by
  unfold Eda.checkKpi
  exact (List.length_filter_le _ _).trans (le_refl _)

theorem orInfo_unique {N P Q : Prop} (k : Eda.Severity) (b : Bool) :
    ((Eda.orInfo (if b = true then Eda.report N ⟨.error, .multicollinearity⟩
      else Eda.report P ⟨.error, .multicollinearity⟩ ++ Eda.report Q ⟨.attention, .multicollinearity⟩)).filter
        fun f => decide (f.cause = .multicollinearity ∧ f.severity = k)).length ≤ 1 := by
  unfold Eda.orInfo Eda.report
  cases b <;> by_cases hn : N <;> by_cases hp : P <;> by_cases hq : Q <;> cases k <;>
    simp [hn, hp, hq]

open Classical in
theorem checkData_count (level : EdaStd.Level) (t : ℝ) (k x : EdaStd.Kind) (d : EdaStd.Data)
    (c : EdaStd.Cause) :
    ((EdaStd.checkData level t k d).1.filter fun f =>
      decide (f.cause = c ∧ f.severity = .attention ∧ f.subject = some x)).length ≤
      if k = x then 1 else 0 := by
  unfold EdaStd.checkData
  by_cases h1 : ∃ r ∈ EdaStd.calculateStd d, EdaStd.lowStd t r.2.2 <;>
    by_cases h2 : EdaStd.calculateOutliers d = [] <;>
    by_cases hk : k = x <;> cases c <;> simp [h1, h2, hk]

theorem loop_count (e : EdaStd.Engine) (level : EdaStd.Level) (x : EdaStd.Kind) (c : EdaStd.Cause)
    (ks : List EdaStd.Kind) (h : ks.Nodup) :
    ((EdaStd.loop e level ks).1.filter fun f =>
      decide (f.cause = c ∧ f.severity = .attention ∧ f.subject = some x)).length ≤
      if x ∈ ks then 1 else 0 := by
  induction ks with
  | nil => simp [EdaStd.loop]
  | cons k rest ih =>
    rw [List.nodup_cons] at h
    have ih := ih h.2
    unfold EdaStd.loop
    cases hd : e.data level k with
    | none =>
      simp only
      refine ih.trans ?_
      by_cases hx : x ∈ rest <;> simp [hx]
    | some d =>
      simp only [List.filter_append, List.length_append]
      have hc := checkData_count level (e.threshold level) k x d c
      by_cases hk : k = x
      · subst hk
        rw [if_neg h.1] at ih
        rw [if_pos rfl] at hc
        rw [if_pos (List.mem_cons_self ..)]
        omega
      · rw [if_neg hk] at hc
        have : x ∈ k :: rest ↔ x ∈ rest := by
          rw [List.mem_cons]
          exact ⟨fun h => h.resolve_left fun he => hk he.symm, Or.inr⟩
        by_cases hx : x ∈ rest
        · rw [if_pos hx] at ih
          rw [if_pos (this.2 hx)]
          omega
        · rw [if_neg hx] at ih
          omega

theorem std_unique (e : EdaStd.Engine) (level : EdaStd.Level) (x : EdaStd.Kind) (c : EdaStd.Cause) :
    ((EdaStd.outcome e level).1.filter fun f =>
      decide (f.cause = c ∧ f.severity = .attention ∧ f.subject = some x)).length ≤ 1 := by
  unfold EdaStd.outcome
  by_cases h : (EdaStd.loop e level EdaStd.kinds).1 = []
  · rw [if_pos h]
    simp
  · rw [if_neg h]
    refine (loop_count e level x c EdaStd.kinds (by decide)).trans ?_
    split_ifs <;> omega

/-- **C101.** The report of any data can be made: no check gives two findings where the report expects
one. -/
theorem report_made (d : Eda.Data) (s : Eda.Spec) (e : EdaStd.Engine)
    (cost : EdaStd.Level → EdaStd.CostData) : ∃ rows, report (checksOf d s e cost) = .ok rows := by
  have hv : ∀ k : Eda.Severity, ((Eda.checkVif d s).findings.filter fun f =>
      decide (f.cause = .multicollinearity ∧ f.severity = k)).length ≤ 1 := fun k =>
    orInfo_unique k d.national
  have hp : ∀ k : Eda.Severity, ((Eda.checkPairwiseCorr d s).findings.filter fun f =>
      decide (f.cause = .multicollinearity ∧ f.severity = k)).length ≤ 1 := fun k =>
    orInfo_unique k d.national
  obtain ⟨a1, h1⟩ := filter_le_one (cost_unique
    (cost (if d.national then .national else .geo)) .inconsistent)
  obtain ⟨a2, h2⟩ := filter_le_one (cost_unique
    (cost (if d.national then .national else .geo)) .outlier)
  obtain ⟨a3, h3⟩ := filter_le_one (kpi_unique d s
    fun f => decide (f.cause = .variability ∧ f.severity = .error))
  obtain ⟨a4, h4⟩ := filter_le_one (std_unique e (if d.national then .national else .geo) .kpi
    .variability)
  obtain ⟨a5, h5⟩ := filter_le_one (std_unique e (if d.national then .national else .geo)
    .treatmentsControls .variability)
  obtain ⟨a6, h6⟩ := filter_le_one (std_unique e (if d.national then .national else .geo)
    .treatmentsControls .outlier)
  obtain ⟨a7, h7⟩ := filter_le_one (hv .error)
  obtain ⟨a8, h8⟩ := filter_le_one (hv .attention)
  obtain ⟨a9, h9⟩ := filter_le_one (hp .error)
  obtain ⟨b0, h0⟩ := filter_le_one (hp .attention)
  have s1 : ∃ n, spendCounts (checksOf d s e cost) = .ok n := by
    unfold spendCounts
    have e1 : (checksOf d s e cost).cost =
      EdaStd.costFindings (cost (if d.national then .national else .geo)) := rfl
    rw [e1, h1, h2]
    exact ⟨_, rfl⟩
  have s2 : ∃ n, responseCounts (checksOf d s e cost) = .ok n := by
    unfold responseCounts
    have e1 : (checksOf d s e cost).kpi = (Eda.checkKpi d s).findings := rfl
    have e2 : (checksOf d s e cost).std =
      (EdaStd.outcome e (if d.national then .national else .geo)).1 := rfl
    rw [e1, e2, h3, h4, h5, h6]
    exact ⟨_, rfl⟩
  have s3 : ∃ n, relationshipCounts (checksOf d s e cost) = .ok n := by
    unfold relationshipCounts
    have e1 : (checksOf d s e cost).vif = (Eda.checkVif d s).findings := rfl
    have e2 : (checksOf d s e cost).pairwise = (Eda.checkPairwiseCorr d s).findings := rfl
    rw [e1, e2, h7, h8, h9, h0]
    cases a7 <;> cases a8 <;> exact ⟨_, rfl⟩
  obtain ⟨n1, s1⟩ := s1
  obtain ⟨n2, s2⟩ := s2
  obtain ⟨n3, s3⟩ := s3
  unfold report cards
  rw [s1, s2, s3]
  cases (checksOf d s e cost).national <;> exact ⟨_, rfl⟩

theorem kpi_fails_iff (d : Eda.Data) (s : Eda.Spec) (e : EdaStd.Engine)
    (cost : EdaStd.Level → EdaStd.CostData) :
    KpiFails (checksOf d s e cost) ↔ ¬ Eda.kpiHasVariability d s := by
  have e1 : (checksOf d s e cost).kpi = (Eda.checkKpi d s).findings := rfl
  unfold KpiFails
  rw [e1]
  unfold Eda.checkKpi
  by_cases h : Eda.kpiHasVariability d s <;> simp [h]

theorem vif_fails_iff (d : Eda.Data) (s : Eda.Spec) (e : EdaStd.Engine)
    (cost : EdaStd.Level → EdaStd.CostData) (h1 : 0 < s.vifOverall) (h2 : 0 < s.vifNational) :
    VifFound (checksOf d s e cost) .error ↔ Eda.Props.VifError d s := by
  rw [← Eda.Props.vif_error_iff d s h1 h2, List.any_eq_true]
  have e1 : (checksOf d s e cost).vif = (Eda.checkVif d s).findings := rfl
  unfold VifFound
  rw [e1]
  constructor
  · rintro ⟨f, hf, _, hs⟩
    exact ⟨f, hf, by simpa using hs⟩
  · rintro ⟨f, hf, hs⟩
    refine ⟨f, hf, ?_, by simpa using hs⟩
    have hs : f.severity = .error := by simpa using hs
    unfold Eda.checkVif Eda.orInfo Eda.report at hf
    simp only at hf
    obtain ⟨sev, cause⟩ := f
    simp only at hs ⊢
    subst hs
    split_ifs at hf <;> simp at hf <;> exact hf

/-- **C101.** In terms of the data: the summary counts one fail if the KPI does not vary and one if
variables are inflated beyond the threshold, over all geos and times or, for a national model, in the
national series. -/
theorem fails_of_data (d : Eda.Data) (s : Eda.Spec) (e : EdaStd.Engine)
    (cost : EdaStd.Level → EdaStd.CostData) (h1 : 0 < s.vifOverall) (h2 : 0 < s.vifNational) :
    fails (checksOf d s e cost) .summary =
      cnt (¬ Eda.kpiHasVariability d s) + cnt (Eda.Props.VifError d s) := by
  unfold fails
  rw [cnt_congr (kpi_fails_iff d s e cost), cnt_congr (vif_fails_iff d s e cost h1 h2)]

/-- **C101.** If the summary shows a fail, the model refuses to sample. -/
theorem reported_fail_refused (d : Eda.Data) (s : Eda.Spec) (e : EdaStd.Engine)
    (cost : EdaStd.Level → EdaStd.CostData) (raises : Eda.CheckType → Bool)
    (h1 : 0 < s.vifOverall) (h2 : 0 < s.vifNational) (rows : List SummaryRow)
    (h : report (checksOf d s e cost) = .ok rows) (r : SummaryRow) (hr : r ∈ rows) (n : ℕ)
    (hn : .fails n ∈ r.tags) : Eda.guardrail d s raises ≠ .ok () := by
  have hs := summary_exact _ _ h r hr
  have hpos := ((hs.1 n).1 hn).2
  rw [Ne, Eda.Props.sampling_allowed_iff d s raises h1 h2]
  rintro ⟨_, hk, hv, _⟩
  have z1 : cnt (KpiFails (checksOf d s e cost)) = 0 :=
    cnt_neg fun hh => (kpi_fails_iff d s e cost).1 hh hk
  have z2 : cnt (VifFound (checksOf d s e cost) .error) = 0 :=
    cnt_neg fun hh => hv ((vif_fails_iff d s e cost h1 h2).1 hh)
  unfold fails at hpos
  cases hc : r.card <;> rw [hc] at hpos <;> simp only [z1, z2] at hpos <;> omega

/-- **C101.** If the summary shows no fail, no check raises an exception and no pair of variables is
correlated beyond the threshold, the model samples. -/
theorem no_fail_sampled (d : Eda.Data) (s : Eda.Spec) (e : EdaStd.Engine)
    (cost : EdaStd.Level → EdaStd.CostData) (raises : Eda.CheckType → Bool)
    (h1 : 0 < s.vifOverall) (h2 : 0 < s.vifNational) (hr : ∀ c, raises c = false)
    (hp : ¬ Eda.Props.PairError d s) (rows : List SummaryRow)
    (h : report (checksOf d s e cost) = .ok rows) (hn : ∀ r ∈ rows, ∀ n, .fails n ∉ r.tags) :
    Eda.guardrail d s raises = .ok () := by
  rw [Eda.Props.sampling_allowed_iff d s raises h1 h2]
  have hc := summary_cards _ _ h
  obtain ⟨r, hr0, hcard⟩ : ∃ r ∈ rows, r.card = .summary := by
    have : Card.summary ∈ rows.map SummaryRow.card := by
      rw [hc]
      unfold shown
      split_ifs <;> exact List.mem_cons_self ..
    obtain ⟨r, hr, he⟩ := List.mem_map.1 this
    exact ⟨r, hr, he⟩
  have hs := summary_exact _ _ h r hr0
  have hz : fails (checksOf d s e cost) .summary = 0 := by
    rcases Nat.eq_zero_or_pos (fails (checksOf d s e cost) .summary) with h0 | h0
    · exact h0
    · exfalso
      rw [hcard] at hs
      exact hn r hr0 _ ((hs.1 _).2 ⟨rfl, h0⟩)
  rw [fails_of_data d s e cost h1 h2] at hz
  refine ⟨hr, ?_, ?_, hp⟩
  · by_contra hk
    rw [cnt_pos hk] at hz
    omega
  · intro hv
    rw [cnt_pos hv] at hz
    omega

/-- Data with a fail in every report. -/
example : ∃ d : Eda.Data, ∀ e cost, ∃ rows, report (checksOf d {} e cost) = .ok rows ∧
    ∃ r ∈ rows, ∃ n, .fails n ∈ r.tags := by
  obtain ⟨d, _, _, hd⟩ := Eda.Props.varying_kpi_may_fail
  refine ⟨d, fun e cost => ?_⟩
  obtain ⟨rows, h⟩ := report_made d {} e cost
  refine ⟨rows, h, ?_⟩
  by_contra hn
  push Not at hn
  have hc := summary_cards _ _ h
  obtain ⟨r, hr, he⟩ : ∃ r ∈ rows, r.card = .summary := by
    have : Card.summary ∈ rows.map SummaryRow.card := by
      rw [hc]
      unfold shown
      split_ifs <;> exact List.mem_cons_self ..
    obtain ⟨r, hr, he⟩ := List.mem_map.1 this
    exact ⟨r, hr, he⟩
  have hs := summary_exact _ _ h r hr
  rw [he] at hs
  refine hn r hr _ ((hs.1 _).2 ⟨rfl, ?_⟩)
  rw [fails_of_data d {} e cost (by norm_num) (by norm_num), cnt_pos hd]
  omega

/-- Data without. -/
example (e : EdaStd.Engine) (cost : EdaStd.Level → EdaStd.CostData) :
    fails (checksOf Eda.Props.small {} e cost) .summary = 0 := by
  have h := (Eda.Props.sampling_allowed_iff Eda.Props.small {} _ (by norm_num) (by norm_num)).1
    Eda.Props.small_sampled
  rw [fails_of_data _ _ _ _ (by norm_num) (by norm_num), cnt_neg (not_not.2 h.2.1), cnt_neg h.2.2.1]

/-! ### A pair that the report does not count -/

/-- The columns of the example. -/
def columns : Fin 2 → Fin 4 → ℝ := fun v => if v = 0 then ![60, 0, 30, 30] else ![60, 0, 31, 29]

/-- A national model with two variables that differ by one in two of four weeks. -/
def twins : Eda.Data where
  national := true
  G := 1
  T := 4
  V := 2
  name := fun v => if v = 0 then "tv" else "radio"
  byGeo := fun _ _ _ => 0
  byTime := columns
  kpi := fun _ t => 2 * t
  population := fun _ => 1

theorem twins_kpi : Eda.kpiHasVariability twins {} := by
  rw [Eda.Props.kpi_passes_iff _ _ (by norm_num [twins]) (by norm_num) (by norm_num)]
  refine ⟨0, by norm_num [twins], 0, by norm_num [twins], 0, by norm_num [twins], 1,
    by norm_num [twins], ?_⟩
  norm_num [Transformers.popScaled, Transformers.divideNoNan, twins]

theorem sums (x : Fin 4 → ℝ) (h : x 0 + x 1 + x 2 + x 3 = 120) : Eda.Spec.avg x = 30 := by
  unfold Eda.Spec.avg
  rw [Fin.sum_univ_four, h]
  norm_num

theorem tv_variation : Eda.Spec.variation (ι := Fin 4) ![60, 0, 30, 30] = 1800 := by
  unfold Eda.Spec.variation
  rw [sums _ (by norm_num [Matrix.cons_val_two, Matrix.cons_val_three]), Fin.sum_univ_four]
  norm_num [Matrix.cons_val_two, Matrix.cons_val_three]

theorem radio_variation : Eda.Spec.variation (ι := Fin 4) ![60, 0, 31, 29] = 1802 := by
  unfold Eda.Spec.variation
  rw [sums _ (by norm_num [Matrix.cons_val_two, Matrix.cons_val_three]), Fin.sum_univ_four]
  norm_num [Matrix.cons_val_two, Matrix.cons_val_three]

theorem twins_covariation :
    Eda.Spec.covariation (ι := Fin 4) ![60, 0, 30, 30] ![60, 0, 31, 29] = 1800 := by
  unfold Eda.Spec.covariation
  rw [sums _ (by norm_num [Matrix.cons_val_two, Matrix.cons_val_three]),
    sums _ (by norm_num [Matrix.cons_val_two, Matrix.cons_val_three]), Fin.sum_univ_four]
  norm_num [Matrix.cons_val_two, Matrix.cons_val_three]

theorem twins_pair : Eda.Props.PairError twins {} := by
  left
  refine ⟨rfl, (0 : Fin 2), (1 : Fin 2), by decide, ?_⟩
  show Eda.Spec.Correlated (ι := Fin 4) (999 / 1000) ![60, 0, 30, 30] ![60, 0, 31, 29]
  refine ⟨⟨0, 1, by norm_num⟩, ⟨0, 1, by norm_num⟩, ?_⟩
  rw [tv_variation, radio_variation, twins_covariation]
  have hs : Real.sqrt (1800 * 1802) ≤ 1801 := by
    rw [Real.sqrt_le_left (by norm_num)]
    norm_num
  rw [abs_of_pos (by norm_num)]
  exact lt_of_le_of_lt (mul_le_mul_of_nonneg_left hs (by norm_num)) (by norm_num)

theorem two_columns {x : Fin 2 → Fin 4 → ℝ} {i k : Fin 2} (hik : k ≠ i) {J : Finset (Fin 2)} (hi : i ∉ J)
    (b : Fin 2 → ℝ) : ∃ c, ∀ s, ∑ j ∈ J, b j * x j s = c * x k s := by
  have hJ : J ⊆ {k} := by
    intro j hj
    rw [Finset.mem_singleton]
    have : j ≠ i := fun h => hi (h ▸ hj)
    omega
  rcases Finset.subset_singleton_iff.1 hJ with h | h
  · exact ⟨0, fun s => by simp [h]⟩
  · exact ⟨b k, fun s => by simp [h]⟩

theorem columns_not_inflated (i : Fin 2) (J : Finset (Fin 2)) (hi : i ∉ J) (a : ℝ) (b : Fin 2 → ℝ) :
    1 / 1000 * Eda.Spec.variation (columns i) ≤
      ∑ s, (columns i s - (a + ∑ j ∈ J, b j * columns j s)) ^ 2 := by
  have cases_i : i = 0 ∨ i = 1 := by omega
  rcases cases_i with rfl | rfl
  · obtain ⟨c, hc⟩ := two_columns (x := columns) (i := 0) (k := 1) (by decide) hi b
    simp only [hc]
    have e0 : columns 0 = ![60, 0, 30, 30] := rfl
    have e1 : columns 1 = ![60, 0, 31, 29] := rfl
    rw [e0, e1, tv_variation, Fin.sum_univ_four]
    norm_num [Matrix.cons_val_two, Matrix.cons_val_three]
    nlinarith [sq_nonneg (30 - a - 30 * c), sq_nonneg (c - 1800 / 1802)]
  · obtain ⟨c, hc⟩ := two_columns (x := columns) (i := 1) (k := 0) (by decide) hi b
    simp only [hc]
    have e0 : columns 0 = ![60, 0, 30, 30] := rfl
    have e1 : columns 1 = ![60, 0, 31, 29] := rfl
    rw [e0, e1, radio_variation, Fin.sum_univ_four]
    norm_num [Matrix.cons_val_two, Matrix.cons_val_three]
    nlinarith [sq_nonneg (30 - a - 30 * c), sq_nonneg (c - 1)]

theorem twins_vif : ¬ Eda.Props.VifError twins {} := by
  rintro (⟨_, i, hsp, hv, J, hJ, a, b, hlt⟩ | ⟨h, _⟩)
  · have hi : i ∉ J := fun h => ((hJ i).1 h).1 rfl
    have hle := columns_not_inflated i J hi a b
    exact absurd hlt (not_lt.2 hle)
  · cases h

/-- **C101, finding.** The report never counts pairs of correlated variables, which the check before
sampling refuses: for these data every report shows no fail, for any spend and any units, and the model
refuses to sample. -/
theorem pair_not_counted : ∃ d : Eda.Data,
    Eda.guardrail d {} (fun _ => false) = .error [.pairwiseCorrelation] ∧
    ∀ e cost, ∃ rows, report (checksOf d {} e cost) = .ok rows ∧ ∀ r ∈ rows, ∀ n, .fails n ∉ r.tags := by
  refine ⟨twins, ?_, ?_⟩
  · cases h : Eda.guardrail twins {} (fun _ => false) with
    | ok u =>
      exact absurd twins_pair
        ((Eda.Props.sampling_allowed_iff twins {} _ (by norm_num) (by norm_num)).1 h).2.2.2
    | error cs =>
      have hk : (Eda.checkKpi twins {}).findings.any (fun f => f.severity = .error) = false := by
        rw [Bool.eq_false_iff, Ne, Eda.Props.kpi_error_iff]
        exact fun h => h twins_kpi
      have hv : (Eda.checkVif twins {}).findings.any (fun f => f.severity = .error) = false := by
        rw [Bool.eq_false_iff, Ne, Eda.Props.vif_error_iff _ _ (by norm_num) (by norm_num)]
        exact twins_vif
      have hp : (Eda.checkPairwiseCorr twins {}).findings.any (fun f => f.severity = .error) = true := by
        rw [Eda.Props.pair_error_iff]
        exact twins_pair
      have hp' : (Eda.checkPairwiseCorr twins {}).checkType = .pairwiseCorrelation := rfl
      unfold Eda.guardrail Eda.criticalChecks at h
      simp only [List.map_cons, List.map_nil, Bool.false_eq_true, if_false, List.filter_cons,
        List.filter_nil, hk, hv, hp, if_true, hp'] at h
      rw [if_neg (by simp)] at h
      exact h.symm ▸ rfl
  · intro e cost
    obtain ⟨rows, h⟩ := report_made twins {} e cost
    refine ⟨rows, h, fun r hr n hn => ?_⟩
    have hpos := (((summary_exact _ _ h r hr).1 n).1 hn).2
    have z1 : cnt (KpiFails (checksOf twins {} e cost)) = 0 :=
      cnt_neg fun hh => (kpi_fails_iff twins {} e cost).1 hh twins_kpi
    have z2 : cnt (VifFound (checksOf twins {} e cost) .error) = 0 :=
      cnt_neg fun hh => twins_vif ((vif_fails_iff twins {} e cost (by norm_num) (by norm_num)).1 hh)
    unfold fails at hpos
    cases hc : r.card <;> rw [hc] at hpos <;> simp only [z1, z2] at hpos <;> omega

/-- **C101.** Findings about reach, about frequency and about outliers of the KPI do not change the
report. -/
theorem not_counted (c : Checks) (extra : List EdaStd.Finding)
    (h : ∀ f ∈ extra, f.subject = some .reach ∨ f.subject = some .frequency ∨
      (f.subject = some .kpi ∧ f.cause = .outlier)) :
    report { c with std := c.std ++ extra } = report c := by
  have hf : ∀ (k : EdaStd.Cause) (x : EdaStd.Kind), (x = .kpi ∧ k = .variability) ∨
      x = .treatmentsControls → getFinding (fun f => decide (f.cause = k ∧
        f.severity = EdaStd.Severity.attention ∧ f.subject = some x)) (c.std ++ extra) =
      getFinding (fun f => decide (f.cause = k ∧
        f.severity = EdaStd.Severity.attention ∧ f.subject = some x)) c.std := by
    intro k x hx
    unfold getFinding
    rw [List.filter_append]
    have : extra.filter (fun f => decide (f.cause = k ∧
        f.severity = EdaStd.Severity.attention ∧ f.subject = some x)) = [] := by
      rw [List.filter_eq_nil_iff]
      intro f hfe
      rw [decide_eq_true_eq]
      rintro ⟨h1, _, h2⟩
      rcases h f hfe with h3 | h3 | ⟨h3, h4⟩ <;> rw [h2] at h3 <;> injection h3 with h3 <;> subst h3
      · rcases hx with hx | hx
        · cases hx.1
        · cases hx
      · rcases hx with hx | hx
        · cases hx.1
        · cases hx
      · rcases hx with hx | hx
        · rw [← h1, h4] at hx
          cases hx.2
        · cases hx
    rw [this, List.append_nil]
  have hr : responseCounts { c with std := c.std ++ extra } = responseCounts c := by
    unfold responseCounts
    simp only
    rw [hf _ _ (Or.inl ⟨rfl, rfl⟩), hf _ _ (Or.inr rfl), hf _ _ (Or.inr rfl)]
  unfold report cards
  rw [hr]
  rfl

example : ∃ c : Checks, c.std = [⟨.attention, .outlier, some .reach⟩] ∧
    report c = .ok [⟨.summary, [.info], false⟩, ⟨.spend, [.info], false⟩, ⟨.response, [.info], false⟩,
      ⟨.population, [.info], false⟩, ⟨.relationship, [.info], false⟩, ⟨.priors, [.info], false⟩] :=
  ⟨⟨false, [], [⟨.attention, .outlier, some .reach⟩], [⟨.info, .none⟩], [⟨.info, .none⟩],
    [⟨.info, .none⟩]⟩, rfl, by decide +kernel⟩

example : report ⟨true, [⟨.attention, .outlier, none⟩], [⟨.attention, .variability, some .kpi⟩],
      [⟨.error, .variability⟩], [⟨.error, .multicollinearity⟩], [⟨.error, .multicollinearity⟩]⟩ =
    .ok [⟨.summary, [.fails 2, .reviews 1], true⟩, ⟨.spend, [.reviews 1], true⟩,
      ⟨.response, [.fails 1], true⟩, ⟨.relationship, [.fails 1], true⟩, ⟨.priors, [.info], false⟩] := by
  decide +kernel

example : report ⟨true, [⟨.attention, .outlier, none⟩, ⟨.attention, .outlier, none⟩], [], [], [], []⟩ =
    .error .ambiguous := by decide +kernel

/-! ### Inflated variables and their partners -/

theorem mem_addPartner (table : List VifRow) (key : Option String × String) (w : String)
    (m : Option String × String → List String) (r : VifRow) (hr : r ∈ table) (v : String) :
    v ∈ addPartner table key w m (r.geo, r.name) ↔
      v ∈ m (r.geo, r.name) ∨ ((r.geo, r.name) = key ∧ v = w) := by
  unfold addPartner
  by_cases h : ∃ r ∈ table, (r.geo, r.name) = key
  · rw [if_pos h]
    by_cases hk : (r.geo, r.name) = key
    · rw [if_pos hk]
      simp [hk]
    · rw [if_neg hk]
      simp [hk]
  · rw [if_neg h]
    have : ¬ (r.geo, r.name) = key := fun hk => h ⟨r, hr, hk⟩
    simp [this]

theorem mem_partners (table : List VifRow) (r : VifRow) (hr : r ∈ table) (v : String) (ps : List Pair)
    (m : Option String × String → List String) :
    v ∈ ps.foldl (fun m p => addPartner table (p.geo, p.second) p.first
      (addPartner table (p.geo, p.first) p.second m)) m (r.geo, r.name) ↔
      v ∈ m (r.geo, r.name) ∨ Partner ps r v := by
  induction ps generalizing m with
  | nil => simp [Partner]
  | cons p ps ih =>
    rw [List.foldl_cons, ih, mem_addPartner _ _ _ _ _ hr, mem_addPartner _ _ _ _ _ hr]
    unfold Partner
    simp only [List.mem_cons, exists_eq_or_imp, Prod.mk.injEq]
    constructor
    · rintro (((h | ⟨⟨h1, h2⟩, h3⟩) | ⟨⟨h1, h2⟩, h3⟩) | h)
      · exact Or.inl h
      · exact Or.inr (Or.inl ⟨h1.symm, Or.inl ⟨h2.symm, h3.symm⟩⟩)
      · exact Or.inr (Or.inl ⟨h1.symm, Or.inr ⟨h2.symm, h3.symm⟩⟩)
      · exact Or.inr (Or.inr h)
    · rintro (h | ⟨h1, ⟨h2, h3⟩ | ⟨h2, h3⟩⟩ | h)
      · exact Or.inl (Or.inl (Or.inl h))
      · exact Or.inl (Or.inl (Or.inr ⟨⟨h1.symm, h2.symm⟩, h3.symm⟩))
      · exact Or.inl (Or.inr ⟨⟨h1.symm, h2.symm⟩, h3.symm⟩)
      · exact Or.inr h

/-- **C101.** The table of inflated variables keeps its rows, and a row names exactly the variables that
form an extreme pair with its variable in its geo, among the pairs of the finding of the same severity. -/
theorem partners_exact (table : List VifRow) (pairs : Option (List Pair)) :
    (combine table pairs).map Prod.fst = table ∧
    ∀ row ∈ combine table pairs, ∀ w, w ∈ row.2 ↔ Partner (pairs.getD []) row.1 w := by
  unfold combine
  refine ⟨by simp [List.map_map, Function.comp_def], ?_⟩
  intro row hrow w
  obtain ⟨r, hr, rfl⟩ := List.mem_map.1 hrow
  simp only
  rw [mem_partners table r hr]
  simp

/-- **C101.** The callout for single geos appears exactly if a variable is inflated in a geo and not over
all geos, and it lists exactly these rows: it is never empty. -/
theorem attention_callout (overall geo : List VifRow) (ps qs : Option (List Pair)) :
    ((vifCallouts (vifFindings overall geo) ps qs).2.isSome = true ↔
      ∃ r ∈ geo, ∀ q ∈ overall, q.name ≠ r.name) ∧
    ∀ rows, (vifCallouts (vifFindings overall geo) ps qs).2 = some rows →
      rows ≠ [] ∧ (rows.map Prod.fst).Sublist geo ∧
      ∀ r, r ∈ rows.map Prod.fst ↔ r ∈ geo ∧ ∀ q ∈ overall, q.name ≠ r.name := by
  have hany : (geo.any fun p => overall.all fun q => q.name ≠ p.name) = true ↔
      ∃ r ∈ geo, ∀ q ∈ overall, q.name ≠ r.name := by
    simp [List.any_eq_true, List.all_eq_true]
  have hfailed : ∀ r : VifRow, r.name ∉ ((vifFindings overall geo).1.getD []).map VifRow.name ↔
      ∀ q ∈ overall, q.name ≠ r.name := by
    intro r
    have : (vifFindings overall geo).1.getD [] = overall := by
      unfold vifFindings
      by_cases h : overall = [] <;> simp [h]
    rw [this]
    simp [List.mem_map]
  constructor
  · rw [← hany]
    unfold vifCallouts vifFindings
    by_cases h : (geo.any fun p => overall.all fun q => q.name ≠ p.name) = true
    · simp only [h, if_true]
      simp
    · simp only [h]
      simp
  · intro rows hrows
    have h : (geo.any fun p => overall.all fun q => q.name ≠ p.name) = true := by
      by_contra h
      unfold vifCallouts vifFindings at hrows
      simp only [h] at hrows
      simp at hrows
    have he : rows = combine (attentionRows (((vifFindings overall geo).1.getD []).map VifRow.name) geo)
        qs := by
      have h2 : (vifFindings overall geo).2 = some geo := by
        unfold vifFindings
        exact if_pos h
      unfold vifCallouts at hrows
      simp only [h2, Option.map_some, Option.some.injEq] at hrows
      exact hrows.symm
    have hmap : rows.map Prod.fst =
        attentionRows (((vifFindings overall geo).1.getD []).map VifRow.name) geo := by
      rw [he]
      exact (partners_exact _ _).1
    have hmem : ∀ r, r ∈ rows.map Prod.fst ↔ r ∈ geo ∧ ∀ q ∈ overall, q.name ≠ r.name := by
      intro r
      rw [hmap]
      unfold attentionRows
      rw [List.mem_filter, decide_eq_true_eq, hfailed]
    refine ⟨?_, ?_, hmem⟩
    · obtain ⟨r, hr, hq⟩ := hany.1 h
      intro hn
      have := (hmem r).2 ⟨hr, hq⟩
      rw [hn] at this
      cases this
    · rw [hmap]
      exact List.filter_sublist

/-- **C101.** If some pair of a geo is not extreme over all data, the rows for single geos name exactly
the partners in their geo; otherwise none. -/
theorem attention_partners (overall geo : List VifRow) (ps : Option (List Pair))
    (overallPairs geoPairs : List Pair) (rows : List (VifRow × List String))
    (h : (vifCallouts (vifFindings overall geo) ps (attentionPairs overallPairs geoPairs)).2 = some rows) :
    ((∃ p ∈ geoPairs, ∀ q ∈ overallPairs, ¬ (q.first = p.first ∧ q.second = p.second)) →
      ∀ row ∈ rows, ∀ w, w ∈ row.2 ↔ Partner geoPairs row.1 w) ∧
    ((∀ p ∈ geoPairs, ∃ q ∈ overallPairs, q.first = p.first ∧ q.second = p.second) →
      ∀ row ∈ rows, row.2 = []) := by
  have hany : (geoPairs.any fun p => overallPairs.all fun q =>
      ¬ (q.first = p.first ∧ q.second = p.second)) = true ↔
      ∃ p ∈ geoPairs, ∀ q ∈ overallPairs, ¬ (q.first = p.first ∧ q.second = p.second) := by
    simp only [List.any_eq_true, List.all_eq_true, decide_eq_true_eq]
  have hex : ∀ row ∈ rows, ∀ w, w ∈ row.2 ↔
      Partner ((attentionPairs overallPairs geoPairs).getD []) row.1 w := by
    unfold vifCallouts at h
    cases h2 : (vifFindings overall geo).2 with
    | none => simp [h2] at h
    | some t =>
      simp only [h2, Option.map_some, Option.some.injEq] at h
      subst h
      exact (partners_exact _ _).2
  constructor
  · intro hp
    have : attentionPairs overallPairs geoPairs = some geoPairs := if_pos (hany.2 hp)
    rw [this] at hex
    exact hex
  · intro hp
    have : attentionPairs overallPairs geoPairs = none := by
      unfold attentionPairs
      rw [if_neg]
      rw [hany]
      rintro ⟨p, hp1, hp2⟩
      obtain ⟨q, hq, he⟩ := hp p hp1
      exact hp2 q hq he
    rw [this] at hex
    intro row hrow
    apply List.eq_nil_iff_forall_not_mem.2
    intro w hw
    obtain ⟨p, hp0, _⟩ := (hex row hrow w).1 hw
    cases hp0

/-- **C101.** The callout over all data appears exactly if a variable is inflated, with all of them. -/
theorem error_callout (overall geo : List VifRow) (ps qs : Option (List Pair)) :
    ((vifCallouts (vifFindings overall geo) ps qs).1.isSome = true ↔ overall ≠ []) ∧
    ∀ rows, (vifCallouts (vifFindings overall geo) ps qs).1 = some rows →
      rows.map Prod.fst = overall := by
  unfold vifCallouts vifFindings
  by_cases h : overall = []
  · simp [h]
  · simp only [h, if_false, Option.map_some, Option.isSome_some, ne_eq, not_false_iff, true_and,
      Option.some.injEq]
    rintro rows rfl
    exact (partners_exact _ _).1

/-- **C101, finding.** A pair that is extreme both over all data and in a geo is not named beside its
variables inflated in that geo: the finding of pairs of single geos is dropped if every such pair is
extreme over all data, while the variables are still listed. -/
theorem partner_not_named : ∃ (overall geo : List Pair) (vifs : List VifRow),
    (∃ p ∈ geo, p = ⟨some "g", "tv", "radio"⟩) ∧ (⟨some "g", "tv", 2000⟩ : VifRow) ∈ vifs ∧
    (vifCallouts (vifFindings [] vifs) none (attentionPairs overall geo)).2 =
      some [(⟨some "g", "tv", 2000⟩, []), (⟨some "g", "radio", 2000⟩, [])] :=
  ⟨[⟨none, "tv", "radio"⟩], [⟨some "g", "tv", "radio"⟩],
    [⟨some "g", "tv", 2000⟩, ⟨some "g", "radio", 2000⟩], by decide +kernel, by decide +kernel,
    by decide +kernel⟩

example : (vifCallouts (vifFindings [] [⟨some "g", "tv", 2000⟩, ⟨some "g", "radio", 2000⟩]) none
      (attentionPairs [] [⟨some "g", "tv", "radio"⟩])).2 =
    some [(⟨some "g", "tv", 2000⟩, ["radio"]), (⟨some "g", "radio", 2000⟩, ["tv"])] := by
  decide +kernel

/-! ### Saving -/

/-- **C101.** If the report is made, it is in the file; no other file changes, whether or not. -/
theorem saved {ε : Type} (fs : Files) (path : String) (g : Except ε String) :
    (∀ html, g = .ok html → (save fs path g).1 path = some html ∧ (save fs path g).2 = .ok ()) ∧
    (∀ err, g = .error err → (save fs path g).2 = .error err) ∧
    ∀ p, p ≠ path → (save fs path g).1 p = fs p := by
  unfold save
  refine ⟨?_, ?_, ?_⟩
  · rintro html rfl
    simp
  · rintro err rfl
    rfl
  · intro p hp
    cases g <;> simp [hp]

/-- **C101, finding.** If making the report fails, an earlier report in the file is lost. -/
theorem failed_report_empties_file {ε : Type} (fs : Files) (path : String) (err : ε) :
    (save fs path (.error err)).1 path = some "" := by
  simp [save]

example : (save (fun _ => some "old") "r.html" (.error "boom" : Except String String)).1 "r.html" =
    some "" := rfl

end Verif.EdaReport.Props
