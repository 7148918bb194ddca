import Verif.Spec.Publish
import Mathlib.Tactic

/-!
# C105: uploaded tables and the link to the report on them
-/

namespace Verif.Publish.Props

open Verif.Publish Verif.Publish.Spec

/-! ## Encoding of addresses -/

theorem decode_other (c : Char) (r : List Char) (h1 : c ≠ '%') (h2 : c ≠ '+') :
    decode (c :: r) = Fin.ofNat 256 c.toNat :: decode r := by
  rw [decode]
  · intro _ _ _ h; exact absurd h h1
  · intro h; exact absurd h h2

theorem safe_facts : ∀ b : Fin 256, isSafe b = true →
    Char.ofNat b.val ≠ '%' ∧ Char.ofNat b.val ≠ '+' ∧ Fin.ofNat 256 (Char.ofNat b.val).toNat = b := by
  decide +kernel

theorem hex_facts : ∀ b : Fin 256,
    Fin.ofNat 256 (16 * hexValue (hexDigit (b.val / 16)) + hexValue (hexDigit (b.val % 16))) = b := by
  decide +kernel

theorem decode_byte (b : Fin 256) (r : List Char) : decode (quoteByte b ++ r) = b :: decode r := by
  unfold quoteByte
  split
  · next h =>
    obtain ⟨h1, h2, h3⟩ := safe_facts b h
    simp only [List.cons_append, List.nil_append]
    rw [decode_other _ _ h1 h2, h3]
  · split
    · next h =>
      have hb : b = 32 := Fin.ext h
      subst hb
      simp only [List.cons_append, List.nil_append]
      rw [decode]
    · simp only [List.cons_append, List.nil_append]
      rw [decode, hex_facts]

/-- The address of the spreadsheet is read back from the link unchanged, whatever characters it has. -/
theorem quote_roundtrip (u : List (Fin 256)) : decode (quotePlus u) = u := by
  induction u with
  | nil => rfl
  | cons b u ih =>
    have : quotePlus (b :: u) = quoteByte b ++ quotePlus u := rfl
    rw [this, decode_byte, ih]

theorem quote_chars : ∀ b : Fin 256, '&' ∉ quoteByte b ∧ '#' ∉ quoteByte b := by decide +kernel

theorem quote_no_amp (u : List (Fin 256)) : '&' ∉ quotePlus u := by
  intro h
  obtain ⟨b, _, hb⟩ := List.mem_flatMap.mp h
  exact (quote_chars b).1 hb

/-- A text without `%` and `+` stands for itself. -/
theorem decode_plain (l : List Char) (h : ∀ c ∈ l, c ≠ '%' ∧ c ≠ '+') : decode l = ascii l := by
  induction l with
  | nil => rfl
  | cons c l ih =>
    have hc := h c (by simp)
    rw [decode_other c l hc.1 hc.2, ih (fun d hd => h d (List.mem_cons_of_mem _ hd))]
    rfl

theorem idChar_facts {c : Char} (h : IdChar c) : c ≠ '%' ∧ c ≠ '+' ∧ c ≠ '&' := by
  refine ⟨?_, ?_, ?_⟩ <;>
  · rintro rfl
    rcases h with h | h | h <;> revert h <;> decide

theorem digit_facts {c : Char} (h : c.isDigit = true) : c ≠ '%' ∧ c ≠ '+' ∧ c ≠ '&' := by
  refine ⟨?_, ?_, ?_⟩ <;>
  · rintro rfl
    revert h
    decide

theorem number_digits (n : ℕ) : ∀ c ∈ number n, c.isDigit = true := fun _ hc =>
  Nat.isDigit_of_mem_toDigits (by norm_num) (by norm_num) hc

/-! ## The link is read as it was meant -/

/-- All values an address gives for a parameter. -/
def values (url : List Char) (name : String) : List (List (Fin 256)) :=
  ((params url).filter fun p => p.1 = name.toList).map Prod.snd

theorem split_written (k v : List Char) (hk : '=' ∉ k) :
    ((written (k, v)).takeWhile (· ≠ '='), decode ((written (k, v)).dropWhile (· ≠ '=')).tail) = (k, decode v) := by
  have h1 : ∀ c ∈ k, (decide (c ≠ '=')) = true := by
    intro c hc
    simp only [ne_eq, decide_not, Bool.not_eq_eq_eq_not, Bool.not_true, decide_eq_false_iff_not]
    rintro rfl
    exact hk hc
  have h2 : (written (k, v)).takeWhile (· ≠ '=') = k := by
    unfold written
    rw [List.takeWhile_append_of_pos h1]
    simp
  have h3 : (written (k, v)).dropWhile (· ≠ '=') = '=' :: v := by
    unfold written
    rw [List.dropWhile_append_of_pos h1]
    simp
  rw [h2, h3]
  rfl

theorem params_link (ps : List (List Char × List Char)) (hne : ps ≠ [])
    (hk : ∀ p ∈ ps, '=' ∉ p.1 ∧ '&' ∉ p.1) (hv : ∀ p ∈ ps, '&' ∉ p.2) :
    params ("https://lookerstudio.google.com/reporting/create?".toList ++ ['&'].intercalate (ps.map written)) =
      ps.map fun p => (p.1, decode p.2) := by
  have hq : query ("https://lookerstudio.google.com/reporting/create?".toList ++
      ['&'].intercalate (ps.map written)) = ['&'].intercalate (ps.map written) := by
    simp [query]
  unfold params
  rw [hq, List.splitOn_intercalate]
  · rw [List.map_map]
    refine List.map_congr_left ?_
    intro p hp
    exact split_written p.1 p.2 (hk p hp).1
  · intro l hl
    obtain ⟨p, hp, rfl⟩ := List.mem_map.mp hl
    unfold written
    simp only [List.mem_append, List.mem_cons, not_or]
    exact ⟨(hk p hp).2, by decide, hv p hp⟩
  · simpa using hne

theorem linkParams_ok (ss : Spreadsheet) (hid : ∀ c ∈ ss.id, IdChar c) :
    (∀ p ∈ linkParams ss, '=' ∉ p.1 ∧ '&' ∉ p.1) ∧ ∀ p ∈ linkParams ss, '&' ∉ p.2 := by
  have hn : ∀ i, '&' ∉ number i := fun i h => (digit_facts (number_digits i _ h)).2.2 rfl
  have hsrc : ∀ s ∈ sources, '=' ∉ ("ds." ++ s.2 ++ ".worksheetId").toList ∧
      '&' ∉ ("ds." ++ s.2 ++ ".worksheetId").toList := by decide +kernel
  have hs : ∀ p ∈ sources.flatMap (sourceParam ss.tabs), ('=' ∉ p.1 ∧ '&' ∉ p.1) ∧ '&' ∉ p.2 := by
    intro p hp
    obtain ⟨s, h1, h2⟩ := List.mem_flatMap.mp hp
    unfold sourceParam at h2
    split at h2
    · simp only [List.mem_cons, List.not_mem_nil, or_false] at h2
      subst h2
      exact ⟨hsrc s h1, hn _⟩
    · simp at h2
  have hfix : ∀ p ∈ ([("c.reportId".toList, "fbd3aeff-fc00-45fd-83f7-1ec5f21c9f56".toList),
      ("r.measurementId".toList, "G-R6C81BNHJ4".toList), ("ds.dscc.connector".toList, "community".toList),
      ("ds.dscc.connectorId".toList,
        "AKfycbx-HSSApXV7VTvYCgzvifyQ-bRlB3Oo_uAAvRKBkwUG1nOVIO_dTlpTmVASYM7oeN0D".toList),
      ("ds.*.refreshFields".toList, "false".toList), ("ds.*.keepDatasourceName".toList, "true".toList),
      ("ds.*.connector".toList, "googleSheets".toList)] : List (List Char × List Char)),
      ('=' ∉ p.1 ∧ '&' ∉ p.1) ∧ '&' ∉ p.2 := by decide +kernel
  have hk : ∀ v : List Char, '&' ∉ v → ∀ p ∈ ([("ds.dscc.spreadsheetUrl".toList, v), ("ds.*.spreadsheetId".toList, v)] :
      List (List Char × List Char)), ('=' ∉ p.1 ∧ '&' ∉ p.1) ∧ '&' ∉ p.2 := by
    intro v hv p hp
    simp only [List.mem_cons, List.not_mem_nil, or_false] at hp
    rcases hp with rfl | rfl
    · exact ⟨(by decide +kernel : '=' ∉ "ds.dscc.spreadsheetUrl".toList ∧ '&' ∉ "ds.dscc.spreadsheetUrl".toList), hv⟩
    · exact ⟨(by decide +kernel : '=' ∉ "ds.*.spreadsheetId".toList ∧ '&' ∉ "ds.*.spreadsheetId".toList), hv⟩
  have hidamp : '&' ∉ ss.id := fun h => (idChar_facts (hid _ h)).2.2 rfl
  have all : ∀ p ∈ linkParams ss, ('=' ∉ p.1 ∧ '&' ∉ p.1) ∧ '&' ∉ p.2 := by
    intro p hp
    unfold linkParams at hp
    rcases List.mem_append.mp hp with hp | hp
    · rcases List.mem_append.mp hp with hp | hp
      · rcases List.mem_append.mp hp with hp | hp
        · refine hfix p ?_
          simp only [List.mem_cons, List.not_mem_nil, or_false] at hp ⊢
          rcases hp with h | h <;> simp [h]
        · split at hp
          · simp only [List.mem_cons, List.not_mem_nil, or_false] at hp
            rcases hp with h | h | h
            · exact hfix p (by simp [h])
            · exact hfix p (by simp [h])
            · exact hk _ (quote_no_amp ss.url) p (by simp [h])
          · simp at hp
      · simp only [List.mem_cons, List.not_mem_nil, or_false] at hp
        rcases hp with h | h | h | h
        · exact hfix p (by simp [h])
        · exact hfix p (by simp [h])
        · exact hfix p (by simp [h])
        · exact hk _ hidamp p (by simp [h])
    · exact hs p hp
  exact ⟨fun p hp => (all p hp).1, fun p hp => (all p hp).2⟩

theorem link_params (ss : Spreadsheet) (hid : ∀ c ∈ ss.id, IdChar c) :
    params (reportUrl ss) = (linkParams ss).map fun p => (p.1, decode p.2) := by
  obtain ⟨h1, h2⟩ := linkParams_ok ss hid
  have hne : linkParams ss ≠ [] := by
    unfold linkParams
    rw [List.append_assoc, List.append_assoc, List.cons_append]
    exact List.cons_ne_nil _ _
  exact params_link (linkParams ss) hne h1 h2

theorem values_link (ss : Spreadsheet) (hid : ∀ c ∈ ss.id, IdChar c) (name : String) :
    values (reportUrl ss) name =
      ((linkParams ss).filter fun p => p.1 = name.toList).map fun p => decode p.2 := by
  unfold values
  rw [link_params ss hid, List.filter_map, List.map_map]
  rfl

theorem filter_source (tabs : List (String × ℕ)) (s : String × String) (k : List Char) :
    ((sourceParam tabs s).filter fun p => p.1 = k) =
      if ("ds." ++ s.2 ++ ".worksheetId").toList = k then sourceParam tabs s else [] := by
  unfold sourceParam
  split
  · split
    · next h => rw [List.filter_cons_of_pos (by rw [decide_eq_true_eq]; exact h)]; rfl
    · next h => rw [List.filter_cons_of_neg (by rw [decide_eq_true_eq]; exact h)]; rfl
  · simp

theorem decode_number (i : ℕ) : decode (number i) = ascii (Nat.toDigits 10 i) :=
  decode_plain _ fun _ hc => ⟨(digit_facts (number_digits i _ hc)).1, (digit_facts (number_digits i _ hc)).2.1⟩

/-- Read as any browser reads it, the link names the spreadsheet by its identifier, gives the address of the spreadsheet
to the connector of optimizations exactly if there is a tab of budget optimizations, and gives to each source of the
report the sheet of its tab, once if there is the tab and not at all otherwise. -/
theorem link_exact (ss : Spreadsheet) (hid : ∀ c ∈ ss.id, IdChar c) :
    values (reportUrl ss) "ds.*.spreadsheetId" = [ascii ss.id] ∧
    values (reportUrl ss) "ds.dscc.spreadsheetUrl" =
      (if (ss.tabs.lookup "budget_opt_specs").isSome then [ss.url] else []) ∧
    ∀ s ∈ sources, values (reportUrl ss) ("ds." ++ s.2 ++ ".worksheetId") =
      ((ss.tabs.lookup s.1).toList.map fun i => ascii (Nat.toDigits 10 i)) := by
  have hd : decode ss.id = ascii ss.id :=
    decode_plain _ fun c hc => ⟨(idChar_facts (hid c hc)).1, (idChar_facts (hid c hc)).2.1⟩
  have hsrc : ∀ k : List Char, (∀ s ∈ sources, ("ds." ++ s.2 ++ ".worksheetId").toList ≠ k) →
      ((sources.flatMap (sourceParam ss.tabs)).filter fun p => p.1 = k) = [] := by
    intro k hk
    rw [List.filter_eq_nil_iff]
    intro p hp
    obtain ⟨s, h1, h2⟩ := List.mem_flatMap.mp hp
    have := filter_source ss.tabs s k
    rw [if_neg (hk s h1), List.filter_eq_nil_iff] at this
    exact this p h2
  refine ⟨?_, ?_, ?_⟩
  · rw [values_link ss hid]
    unfold linkParams
    rw [List.filter_append, List.filter_append, List.filter_append, hsrc _ (by decide +kernel)]
    split <;> simp [hd]
  · rw [values_link ss hid]
    unfold linkParams
    rw [List.filter_append, List.filter_append, List.filter_append, hsrc _ (by decide +kernel)]
    split <;> simp [quote_roundtrip]
  · intro s hs
    rw [values_link ss hid]
    unfold linkParams
    rw [List.filter_append, List.filter_append, List.filter_append]
    have h0 : ∀ k ∈ (["c.reportId".toList, "r.measurementId".toList, "ds.dscc.connector".toList,
        "ds.dscc.connectorId".toList, "ds.dscc.spreadsheetUrl".toList, "ds.*.refreshFields".toList,
        "ds.*.keepDatasourceName".toList, "ds.*.connector".toList, "ds.*.spreadsheetId".toList] : List (List Char)),
        ∀ s ∈ sources, k ≠ ("ds." ++ s.2 ++ ".worksheetId").toList := by decide +kernel
    have e : ∀ k v, k ∈ (["c.reportId".toList, "r.measurementId".toList, "ds.dscc.connector".toList,
        "ds.dscc.connectorId".toList, "ds.dscc.spreadsheetUrl".toList, "ds.*.refreshFields".toList,
        "ds.*.keepDatasourceName".toList, "ds.*.connector".toList, "ds.*.spreadsheetId".toList] : List (List Char)) →
        ∀ r : List (List Char × List Char),
        (((k, v) :: r).filter fun p => p.1 = ("ds." ++ s.2 ++ ".worksheetId").toList) =
          r.filter fun p => p.1 = ("ds." ++ s.2 ++ ".worksheetId").toList := by
      intro k v hk r
      rw [List.filter_cons_of_neg]
      simpa using h0 k hk s hs
    have hfirst : (([("c.reportId".toList, "fbd3aeff-fc00-45fd-83f7-1ec5f21c9f56".toList),
        ("r.measurementId".toList, "G-R6C81BNHJ4".toList)] : List (List Char × List Char)).filter
          fun p => p.1 = ("ds." ++ s.2 ++ ".worksheetId").toList) = [] := by
      rw [e _ _ (by simp), e _ _ (by simp)]; rfl
    have hsecond : ((if (ss.tabs.lookup "budget_opt_specs").isSome then
        [("ds.dscc.connector".toList, "community".toList),
         ("ds.dscc.connectorId".toList,
           "AKfycbx-HSSApXV7VTvYCgzvifyQ-bRlB3Oo_uAAvRKBkwUG1nOVIO_dTlpTmVASYM7oeN0D".toList),
         ("ds.dscc.spreadsheetUrl".toList, quotePlus ss.url)] else []).filter
          fun p => p.1 = ("ds." ++ s.2 ++ ".worksheetId").toList) = [] := by
      split
      · rw [e _ _ (by simp), e _ _ (by simp), e _ _ (by simp)]; rfl
      · rfl
    have hthird : (([("ds.*.refreshFields".toList, "false".toList), ("ds.*.keepDatasourceName".toList, "true".toList),
        ("ds.*.connector".toList, "googleSheets".toList), ("ds.*.spreadsheetId".toList, ss.id)] :
          List (List Char × List Char)).filter fun p => p.1 = ("ds." ++ s.2 ++ ".worksheetId").toList) = [] := by
      rw [e _ _ (by simp), e _ _ (by simp), e _ _ (by simp), e _ _ (by simp)]; rfl
    rw [hfirst, hsecond, hthird]
    simp only [List.nil_append]
    have hfs : ((sources.flatMap (sourceParam ss.tabs)).filter
        fun p => p.1 = ("ds." ++ s.2 ++ ".worksheetId").toList) = sourceParam ss.tabs s := by
      have hinj : ∀ a ∈ sources, ∀ b ∈ sources, ("ds." ++ a.2 ++ ".worksheetId").toList =
          ("ds." ++ b.2 ++ ".worksheetId").toList ↔ a = b := by decide +kernel
      rw [List.filter_flatMap]
      simp only [filter_source]
      have : ∀ l : List (String × String), l.Nodup → (∀ a ∈ l, a ∈ sources) →
          (l.flatMap fun a => if ("ds." ++ a.2 ++ ".worksheetId").toList = ("ds." ++ s.2 ++ ".worksheetId").toList
            then sourceParam ss.tabs a else []) = if s ∈ l then sourceParam ss.tabs s else [] := by
        intro l
        induction l with
        | nil => simp
        | cons a l ih =>
          intro hn hl
          have hi := ih (List.nodup_cons.mp hn).2 (fun b hb => hl b (List.mem_cons_of_mem _ hb))
          rw [List.flatMap_cons, hi]
          by_cases ha : a = s
          · subst ha
            simp [(List.nodup_cons.mp hn).1]
          · rw [if_neg (fun h => ha ((hinj a (hl a (by simp)) s hs).mp h))]
            simp [Ne.symm ha]
      rw [this sources (by decide +kernel) (fun a h => h), if_pos hs]
    rw [hfs]
    unfold sourceParam
    cases ss.tabs.lookup s.1 with
    | none => rfl
    | some i => simp [decode_number]

/-- There are exactly as many warnings as parts of the report that the link gives nothing to. -/
theorem warnings_exact (ss : Spreadsheet) (hid : ∀ c ∈ ss.id, IdChar c) :
    warningCount ss = (("ds.dscc.spreadsheetUrl" :: sources.map fun s => "ds." ++ s.2 ++ ".worksheetId").filter
      fun n => values (reportUrl ss) n = []).length := by
  obtain ⟨_, h2, h3⟩ := link_exact ss hid
  have hs : ∀ l : List (String × String), (∀ s ∈ l, s ∈ sources) →
      ((l.map Prod.fst).filter fun t => (ss.tabs.lookup t).isNone).length =
        ((l.map fun s => "ds." ++ s.2 ++ ".worksheetId").filter fun n => values (reportUrl ss) n = []).length := by
    intro l
    induction l with
    | nil => intro _; rfl
    | cons a l ih =>
      intro hl
      have hi := ih fun s h => hl s (List.mem_cons_of_mem _ h)
      have ha := h3 a (hl a (by simp))
      simp only [List.map_cons, List.filter_cons, ha]
      cases ss.tabs.lookup a.1 with
      | none => simpa using hi
      | some i => simpa using hi
  unfold warningCount
  simp only [List.filter_cons, h2]
  cases ss.tabs.lookup "budget_opt_specs" with
  | none => simpa using hs sources fun _ h => h
  | some i => simpa using hs sources fun _ h => h

/-- Finding: reach and frequency optimizations alone are not linked; only the tab of budget optimizations counts. -/
theorem rf_alone_not_linked (url : List (Fin 256)) (id : List Char) (i j : ℕ) (hid : ∀ c ∈ id, IdChar c) :
    values (reportUrl ⟨url, id, [("rf_opt_specs", i), ("rf_opt_results", j)]⟩) "ds.dscc.spreadsheetUrl" = [] := by
  rw [(link_exact _ hid).2.1]
  have : (([("rf_opt_specs", i), ("rf_opt_results", j)] : List (String × ℕ)).lookup "budget_opt_specs").isSome = false := by
    simp [List.lookup]
  simp [this]

/-! ## The upload -/

/-- The sheets added for these titles. -/
def made (S : Service) : List Sheet → List String → List Sheet
  | _, [] => []
  | l, t :: ts => ⟨S.newId l, t, []⟩ :: made S (l ++ [⟨S.newId l, t, []⟩]) ts

theorem made_titles (S : Service) (l : List Sheet) (ts : List String) : (made S l ts).map Sheet.title = ts := by
  induction ts generalizing l with
  | nil => rfl
  | cons t ts ih => simp [made, ih]

theorem made_cells (S : Service) (l : List Sheet) (ts : List String) : ∀ s ∈ made S l ts, s.cells = [] := by
  induction ts generalizing l with
  | nil => simp [made]
  | cons t ts ih =>
    intro s hs
    rcases List.mem_cons.mp hs with rfl | h
    · rfl
    · exact ih _ s h

theorem made_ids (S : Service) (hF : Fresh S) (l : List Sheet) (ts : List String) :
    (∀ s ∈ made S l ts, s.id ∉ l.map Sheet.id) ∧ ((made S l ts).map Sheet.id).Nodup := by
  induction ts generalizing l with
  | nil => simp [made]
  | cons t ts ih =>
    obtain ⟨h1, h2⟩ := ih (l ++ [⟨S.newId l, t, []⟩])
    refine ⟨?_, ?_⟩
    · intro s hs
      rcases List.mem_cons.mp hs with rfl | h
      · exact hF l
      · intro hm
        exact h1 s h (by rw [List.map_append]; exact List.mem_append_left _ hm)
    · simp only [made, List.map_cons, List.nodup_cons]
      refine ⟨?_, h2⟩
      intro hm
      obtain ⟨s, hs, he⟩ := List.mem_map.mp hm
      exact h1 s hs (by rw [he]; simp)

theorem batch_adds (S : Service) (ts : List String) (rest : List Request) (l : List Sheet) (hn : ts.Nodup)
    (hd : ∀ t ∈ ts, t ∉ l.map Sheet.title) :
    S.batch (ts.map Request.add ++ rest) l =
      match S.batch rest (l ++ made S l ts) with
      | .error e => .error e
      | .ok (l', reps) => .ok (l', (made S l ts).map (fun s => some (s.title, s.id)) ++ reps) := by
  induction ts generalizing l with
  | nil =>
    simp only [List.map_nil, List.nil_append, made, List.append_nil]
    cases S.batch rest l <;> rfl
  | cons t ts ih =>
    obtain ⟨h1, h2⟩ := List.nodup_cons.mp hn
    have hr : S.request l (.add t) = .ok (l ++ [⟨S.newId l, t, []⟩], some (t, S.newId l)) := by
      simp only [Service.request]
      rw [if_neg (hd t (by simp))]
    simp only [List.map_cons, List.cons_append, Service.batch, hr]
    rw [ih (l ++ [(⟨S.newId l, t, []⟩ : Sheet)]) h2 (by
      intro t' ht'
      rw [List.map_append, List.mem_append, not_or]
      refine ⟨hd t' (List.mem_cons_of_mem _ ht'), ?_⟩
      simp only [List.map_cons, List.map_nil, List.mem_cons, List.not_mem_nil, or_false]
      rintro rfl
      exact h1 ht')]
    simp only [made, List.append_assoc, List.cons_append, List.nil_append, List.map_cons]
    cases S.batch rest (l ++ ⟨S.newId l, t, []⟩ :: made S (l ++ [⟨S.newId l, t, []⟩]) ts) <;> rfl

theorem batch_clash (S : Service) (ts : List String) (rest : List Request) (l : List Sheet) (t : String)
    (ht : t ∈ ts) (hl : t ∈ l.map Sheet.title) :
    S.batch (ts.map Request.add ++ rest) l = .error .titleExists := by
  induction ts generalizing l with
  | nil => simp at ht
  | cons a ts ih =>
    simp only [List.map_cons, List.cons_append, Service.batch]
    by_cases ha : a ∈ l.map Sheet.title
    · simp only [Service.request]
      rw [if_pos ha]
    · have hr : S.request l (.add a) = .ok (l ++ [⟨S.newId l, a, []⟩], some (a, S.newId l)) := by
        simp only [Service.request]
        rw [if_neg ha]
      have hne : t ∈ ts := by
        rcases List.mem_cons.mp ht with rfl | h
        · exact absurd hl ha
        · exact h
      simp only [hr]
      rw [ih _ hne (by rw [List.map_append]; exact List.mem_append_left _ hl)]

theorem filter_made (S : Service) (hF : Fresh S) (d : String) (ts : List String) :
    ((([⟨0, d, []⟩] : List Sheet) ++ made S [⟨0, d, []⟩] ts).filter fun s => s.id ≠ 0) = made S [⟨0, d, []⟩] ts := by
  rw [List.filter_append]
  have h1 : (([⟨0, d, []⟩] : List Sheet).filter fun s => s.id ≠ 0) = [] := by simp
  rw [h1, List.nil_append, List.filter_eq_self]
  intro s hs
  have := (made_ids S hF [⟨0, d, []⟩] ts).1 s hs
  simpa using this

theorem fill_exact (S : Service) (ds : List (String × List (List Val))) (hn : (ds.map Prod.fst).Nodup)
    (l : List Sheet) (hl : ∀ t ∈ ds.map Prod.fst, t ∈ l.map Sheet.title) :
    S.fill ds l = .ok (l.map fun s =>
      match ds.lookup s.title with
      | some g => { s with cells := g.map (List.map S.enter) }
      | none => s) := by
  induction ds generalizing l with
  | nil => simp [Service.fill]
  | cons d ds ih =>
    obtain ⟨t, g⟩ := d
    simp only [List.map_cons, List.nodup_cons] at hn
    simp only [Service.fill]
    rw [if_pos (hl t (by simp))]
    have htl : (l.map fun s => if s.title = t then { s with cells := g.map (List.map S.enter) } else s).map
        Sheet.title = l.map Sheet.title := by
      rw [List.map_map]
      refine List.map_congr_left ?_
      intro s _
      simp only [Function.comp_apply]
      split <;> rfl
    rw [ih hn.2 _ (by
      intro t' ht'
      rw [htl]
      exact hl t' (List.mem_cons_of_mem _ ht'))]
    congr 1
    rw [List.map_map]
    refine List.map_congr_left ?_
    intro s _
    simp only [Function.comp_apply]
    by_cases hs : s.title = t
    · have hnone : ds.lookup t = none := by
        rw [List.lookup_eq_none_iff]
        intro p hp
        simp only [bne_iff_ne, ne_eq]
        rintro rfl
        exact hn.1 (List.mem_map_of_mem (f := Prod.fst) hp)
      simp [hs, hnone, List.lookup_cons]
    · have hb : (s.title == t) = false := beq_false_of_ne hs
      simp only [hs, if_false, List.lookup_cons, hb]

theorem cleaned_shown (S : Service) (t : Table) :
    (grid (cleanTable t)).map (List.map S.enter) = shown S t := by
  unfold grid cleanTable shown
  simp only [List.map_cons, List.map_map, List.cons.injEq]
  refine ⟨rfl, List.map_congr_left ?_⟩
  intro r _
  simp only [Function.comp_apply, List.map_map]
  refine List.map_congr_left ?_
  intro v _
  cases v <;> simp [clean]

theorem titles_clean (data : List (String × Table)) :
    (data.map fun d => (d.1, cleanTable d.2)).map Prod.fst = data.map Prod.fst := by
  rw [List.map_map]; rfl

theorem lookup_of_mem {β : Type} (l : List (String × β)) (hn : (l.map Prod.fst).Nodup) {k : String} {v : β}
    (h : (k, v) ∈ l) : l.lookup k = some v := by
  induction l with
  | nil => simp at h
  | cons a l ih =>
    obtain ⟨k', v'⟩ := a
    simp only [List.map_cons, List.nodup_cons] at hn
    rcases List.mem_cons.mp h with h | hl
    · simp only [Prod.mk.injEq] at h
      obtain ⟨rfl, rfl⟩ := h
      simp [List.lookup_cons]
    · have hne : (k == k') = false := by
        apply beq_false_of_ne
        rintro rfl
        exact hn.1 (List.mem_map.mpr ⟨(k, v), hl, rfl⟩)
      rw [List.lookup_cons, hne]
      exact ih hn.2 hl

/-- What the batch of requests does. -/
theorem batch_upload (S : Service) (hF : Fresh S) (data : List (String × Table)) (hn : (data.map Prod.fst).Nodup)
    (hne : data ≠ []) (hd : S.defaultTitle ∉ data.map Prod.fst) :
    S.batch (requests (data.map fun d => (d.1, cleanTable d.2))) [⟨0, S.defaultTitle, []⟩] =
      .ok (made S [⟨0, S.defaultTitle, []⟩] (data.map Prod.fst),
        (made S [⟨0, S.defaultTitle, []⟩] (data.map Prod.fst)).map (fun s => some (s.title, s.id)) ++ [none]) := by
  have hreq : requests (data.map fun d => (d.1, cleanTable d.2)) =
      (data.map Prod.fst).map Request.add ++ [.delete 0] := by
    simp [requests, Function.comp_def]
  rw [hreq, batch_adds S _ _ _ hn (by
    intro t ht
    simp only [List.map_cons, List.map_nil, List.mem_cons, List.not_mem_nil, or_false]
    rintro rfl
    exact hd ht)]
  have hlen : (([⟨0, S.defaultTitle, []⟩] : List Sheet) ++ made S [⟨0, S.defaultTitle, []⟩] (data.map Prod.fst)).length ≠ 1 := by
    have := congrArg List.length (made_titles S [⟨0, S.defaultTitle, []⟩] (data.map Prod.fst))
    rw [List.length_map, List.length_map] at this
    rw [List.length_append, this]
    have : 0 < data.length := List.length_pos_iff.mpr hne
    simp only [List.length_cons, List.length_nil]
    omega
  have hdel : S.request ([⟨0, S.defaultTitle, []⟩] ++ made S [⟨0, S.defaultTitle, []⟩] (data.map Prod.fst)) (.delete 0) =
      .ok (made S [⟨0, S.defaultTitle, []⟩] (data.map Prod.fst), none) := by
    simp only [Service.request]
    rw [if_neg (by simp), if_neg hlen, filter_made S hF]
  simp only [Service.batch, hdel]

/-- An upload succeeds exactly if there is a table and none has the name of the sheet every new spreadsheet has.
Otherwise it raises and leaves a new spreadsheet behind without any of the tables. -/
theorem upload_ok_iff (S : Service) (hF : Fresh S) (url : List (Fin 256)) (id : List Char)
    (data : List (String × Table)) (hn : (data.map Prod.fst).Nodup) :
    ((∃ ss, (upload S url id data).2 = .ok ss) ↔ data ≠ [] ∧ S.defaultTitle ∉ data.map Prod.fst) ∧
    ((¬ ∃ ss, (upload S url id data).2 = .ok ss) → (upload S url id data).1 = [⟨0, S.defaultTitle, []⟩]) := by
  have hreq : requests (data.map fun d => (d.1, cleanTable d.2)) =
      (data.map Prod.fst).map Request.add ++ [.delete 0] := by
    simp [requests, Function.comp_def]
  by_cases hne : data = []
  · subst hne
    have hu : upload S url id [] = ([⟨0, S.defaultTitle, []⟩], .error .lastSheet) := by
      simp [upload, requests, Service.batch, Service.request]
    rw [hu]
    simp
  by_cases hd : S.defaultTitle ∈ data.map Prod.fst
  · have hb := batch_clash S (data.map Prod.fst) [.delete 0] [⟨0, S.defaultTitle, []⟩] S.defaultTitle hd (by simp)
    have hu : upload S url id data = ([⟨0, S.defaultTitle, []⟩], .error .titleExists) := by
      simp only [upload]
      rw [hreq, hb]
    rw [hu]
    simp [hd]
  · have hb := batch_upload S hF data hn hne hd
    have hf := fill_exact S ((data.map fun d => (d.1, cleanTable d.2)).map fun d => (d.1, grid d.2)) (by
      rw [List.map_map, List.map_map]; exact hn) (made S [⟨0, S.defaultTitle, []⟩] (data.map Prod.fst)) (by
      intro t ht
      rw [made_titles]
      rw [List.map_map, List.map_map] at ht
      exact ht)
    have hu : ∃ l ss, upload S url id data = (l, .ok ss) := by
      simp only [upload]
      rw [hb]
      simp only []
      rw [hf]
      exact ⟨_, _, rfl⟩
    obtain ⟨l, ss, hu⟩ := hu
    rw [hu]
    refine ⟨⟨fun _ => ⟨hne, hd⟩, fun _ => ⟨ss, rfl⟩⟩, fun h => absurd ⟨ss, rfl⟩ h⟩

/-- After an upload the spreadsheet has exactly one sheet for each table, in order, that shows the names of the columns
and all rows, with blanks for values that are not finite numbers; the identifiers returned are those of the
sheets, and different for different tables. -/
theorem upload_exact (S : Service) (hF : Fresh S) (url : List (Fin 256)) (id : List Char)
    (data : List (String × Table)) (hn : (data.map Prod.fst).Nodup) (ss : Spreadsheet)
    (h : (upload S url id data).2 = .ok ss) :
    ((upload S url id data).1.map fun s => (s.title, s.cells)) = data.map (fun d => (d.1, shown S d.2)) ∧
    ((upload S url id data).1.map Sheet.id).Nodup ∧
    ss.tabs = ((upload S url id data).1.map fun s => (s.title, s.id)) ∧ ss.url = url ∧ ss.id = id := by
  obtain ⟨hne, hd⟩ := (upload_ok_iff S hF url id data hn).1.mp ⟨ss, h⟩
  have hb := batch_upload S hF data hn hne hd
  set m := made S [⟨0, S.defaultTitle, []⟩] (data.map Prod.fst) with hm
  set ds := (data.map fun d => (d.1, cleanTable d.2)).map fun d => (d.1, grid d.2) with hds
  have hdk : ds.map Prod.fst = data.map Prod.fst := by rw [hds, List.map_map, List.map_map]; rfl
  have hf := fill_exact S ds (by rw [hdk]; exact hn) m (by
    intro t ht
    rw [hm, made_titles]
    rw [hdk] at ht
    exact ht)
  set l := m.map fun s =>
      match ds.lookup s.title with
      | some g => { s with cells := g.map (List.map S.enter) }
      | none => s with hl
  have hu : upload S url id data = (l, .ok ⟨url, id, tabIds (m.map (fun s => some (s.title, s.id)) ++ [none])⟩) := by
    simp only [upload]
    rw [hb]
    simp only []
    rw [hf]
  rw [hu] at h ⊢
  have hss : ss = ⟨url, id, tabIds (m.map (fun s => some (s.title, s.id)) ++ [none])⟩ := by
    injection h with h; exact h.symm
  subst hss
  have hid : l.map Sheet.id = m.map Sheet.id := by
    rw [hl, List.map_map]
    refine List.map_congr_left ?_
    intro s _
    simp only [Function.comp_apply]
    split <;> rfl
  have htabs : tabIds (m.map (fun s => some (s.title, s.id)) ++ [none]) = m.map fun s => (s.title, s.id) := by
    unfold tabIds
    rw [List.filterMap_append, List.filterMap_map]
    simp [Function.comp_def]
  have hti : (l.map fun s => (s.title, s.id)) = m.map fun s => (s.title, s.id) := by
    rw [hl, List.map_map]
    refine List.map_congr_left ?_
    intro s _
    simp only [Function.comp_apply]
    split <;> rfl
  refine ⟨?_, by rw [hid]; exact (made_ids S hF _ _).2, by rw [hti]; exact htabs, rfl, rfl⟩
  have hlook : ∀ d ∈ data, ds.lookup d.1 = some (grid (cleanTable d.2)) := by
    intro d hdm
    have hmem : (d.1, grid (cleanTable d.2)) ∈ ds := by
      rw [hds, List.map_map]
      exact List.mem_map.mpr ⟨d, hdm, rfl⟩
    exact lookup_of_mem ds (by rw [hdk]; exact hn) hmem
  have hpair : (l.map fun s => (s.title, s.cells)) = m.map fun s =>
      (s.title, match ds.lookup s.title with
        | some g => g.map (List.map S.enter)
        | none => s.cells) := by
    rw [hl, List.map_map]
    refine List.map_congr_left ?_
    intro s _
    simp only [Function.comp_apply]
    split <;> rfl
  have hcells : ∀ s ∈ m, s.cells = [] := made_cells S _ _
  have hstep : (m.map fun s => (s.title, match ds.lookup s.title with
        | some g => g.map (List.map S.enter)
        | none => s.cells)) = (m.map Sheet.title).map fun t => (t, match ds.lookup t with
        | some g => g.map (List.map S.enter)
        | none => []) := by
    rw [List.map_map]
    refine List.map_congr_left ?_
    intro s hs
    simp only [Function.comp_apply]
    rw [hcells s hs]
  show (l.map fun s => (s.title, s.cells)) = _
  rw [hpair, hstep, hm, made_titles, List.map_map]
  refine List.map_congr_left ?_
  intro d hdm
  simp only [Function.comp_apply]
  rw [hlook d hdm]
  simp only [cleaned_shown]

/-- From table to report: after an upload, the link gives to the source of a tab the identifier of one sheet, and that
sheet shows the table of the tab. -/
theorem report_shows_table (S : Service) (hF : Fresh S) (url : List (Fin 256)) (id : List Char)
    (hid : ∀ c ∈ id, IdChar c) (data : List (String × Table)) (hn : (data.map Prod.fst).Nodup) (ss : Spreadsheet)
    (h : (upload S url id data).2 = .ok ss) (tab source : String) (hs : (tab, source) ∈ sources) (t : Table)
    (ht : (tab, t) ∈ data) :
    ∃ s ∈ (upload S url id data).1, s.title = tab ∧ s.cells = shown S t ∧
      values (reportUrl ss) ("ds." ++ source ++ ".worksheetId") = [ascii (Nat.toDigits 10 s.id)] := by
  obtain ⟨h1, h2, h3, h4, h5⟩ := upload_exact S hF url id data hn ss h
  have hmem : (tab, shown S t) ∈ (upload S url id data).1.map fun s => (s.title, s.cells) := by
    rw [h1]; exact List.mem_map.mpr ⟨(tab, t), ht, rfl⟩
  obtain ⟨s, hsm, he⟩ := List.mem_map.mp hmem
  have ht1 : s.title = tab := congrArg Prod.fst he
  refine ⟨s, hsm, ht1, congrArg Prod.snd he, ?_⟩
  have hk := (link_exact ss (by rw [h5]; exact hid)).2.2 (tab, source) hs
  simp only at hk
  rw [hk]
  have htabs : ss.tabs.map Prod.fst = data.map Prod.fst := by
    rw [h3, List.map_map]
    have := congrArg (List.map Prod.fst) h1
    rw [List.map_map, List.map_map] at this
    exact this
  have hlook : ss.tabs.lookup tab = some s.id := by
    have hmem2 : (tab, s.id) ∈ ss.tabs := by
      rw [h3, ← ht1]; exact List.mem_map.mpr ⟨s, hsm, rfl⟩
    exact lookup_of_mem ss.tabs (by rw [htabs]; exact hn) hmem2
  rw [hlook]
  rfl

/-! ## Cases that meet the hypotheses -/

/-- A service that numbers new sheets. -/
def demoService : Service := ⟨fun l => (l.map Sheet.id).sum + 1, fun v => v, "Sheet1"⟩

theorem demo_fresh : Fresh demoService := by
  intro l h
  have : ∀ l : List ℕ, ∀ n ∈ l, n ≤ l.sum := fun l n hn => List.le_sum_of_mem hn
  have := this _ _ h
  simp only [demoService] at this
  omega

example : (upload demoService [104, 116] "1A-b".toList
    [("ModelFit", ⟨["a", "b"], [[.num 1, .nan], [.inf, .text "x"]]⟩), ("MediaROI", ⟨["c"], []⟩)]).1.map
      (fun s => (s.id, s.title, s.cells)) =
    [(1, "ModelFit", [[.text "a", .text "b"], [.num 1, .none], [.none, .text "x"]]), (2, "MediaROI", [[.text "c"]])] := by
  decide +kernel

example : values (reportUrl ⟨[97, 38, 32, 255], "1A-b".toList, [("budget_opt_specs", 5), ("MediaROI", 120)]⟩)
    "ds.ds_roi.worksheetId" = [ascii "120".toList] := by
  decide +kernel

example : quotePlus [97, 38, 32, 255] = "a%26+%FF".toList := by decide +kernel

example : (upload demoService [] [] []).2 = .error .lastSheet := by rfl

end Verif.Publish.Props
