import Mathlib.Data.List.TakeWhile
import Mathlib.Tactic
import Verif.Spec.SaveLoad

/-! # Saving and loading: theorems -/

namespace Verif.SaveLoad.Props

open Verif.SaveLoad Verif.SaveLoad.Spec

variable {L : Lib}

theorem endsWith_iff (p : Path) (s : String) : endsWith p s = true ↔ s.toList <:+ p := by
  unfold endsWith; exact List.isSuffixOf_iff_suffix

theorem groupOk_iff (d : L.Data) (k : L.Knots) (f : Coord → Option ℕ) :
    groupOk d k f = true ↔ ∀ c, (f c).getD 0 = expected d k c := by
  simp only [groupOk, coordOk, Bool.and_eq_true, decide_eq_true_eq]
  constructor
  · rintro ⟨⟨⟨⟨⟨⟨⟨⟨h1, h2⟩, h3⟩, h4⟩, h5⟩, h6⟩, h7⟩, h8⟩, h9⟩ c
    cases c <;> assumption
  · intro h
    exact ⟨⟨⟨⟨⟨⟨⟨⟨h .geo, h .control⟩, h .knots⟩, h .time⟩, h .media⟩, h .rf⟩, h .organicMedia⟩,
      h .organicRf⟩, h .nonMedia⟩

theorem groupOk?_iff (d : L.Data) (k : L.Knots) (o : Option (Coord → Option ℕ)) :
    groupOk? d k o = true ↔ ∀ f, o = some f → ∀ c, (f c).getD 0 = expected d k c := by
  cases o with
  | none => simp [groupOk?]
  | some f => simp [groupOk?, groupOk_iff]

theorem infOk_iff (d : L.Data) (k : L.Knots) (i : L.Inf) :
    infOk d k i = true ↔ SamplesFit d k i := by
  unfold infOk SamplesFit
  rw [Bool.and_eq_true, groupOk?_iff, groupOk?_iff]
  constructor
  · rintro ⟨h1, h2⟩ g f hf
    cases g
    · exact h1 f hf
    · exact h2 f hf
  · intro h
    exact ⟨fun f hf => h .prior f hf, fun f hf => h .posterior f hf⟩

/-- The message of a model whose parts can be written, and what is read from it. -/
theorem deserialize_serialize (m : Obj L) (hm : PartsRoundTrip m)
    (ha : L.accept m.data m.spec m.prior m.eda = .ok ()) (b p : ℕ) :
    ∃ k, serialize m = .ok k ∧
      deserialize b p k =
        if infOk m.data (L.knots m.data m.spec) m.inf then
          .ok (⟨m.data, m.spec, m.prior, m.eda, m.inf, L.knots m.data m.spec, none, b, p⟩,
            (if m.backend ≠ 0 ∧ m.backend ≠ b then [.backend] else []) ++
              (if m.precision ≠ 0 ∧ m.precision ≠ p then [.precision] else []))
        else .error .coordinate := by
  obtain ⟨⟨d, hd, hd'⟩, ⟨s, hs, hs'⟩, ⟨pr, hp, hp'⟩, ⟨i, hi, hi'⟩, ⟨e, he, he'⟩⟩ := hm
  refine ⟨⟨d, some ⟨some current, s, none, some pr, i, some e, m.backend, m.precision⟩⟩, ?_, ?_⟩
  · unfold serialize modelMsg
    simp only [hs, hp, hi, he, hd]
  · have hk : readKnots current m.data m.spec = .ok (L.knots m.data m.spec) := by
      have h1 : current.le cutoff170 = false := by decide
      have h2 : current.le cutoff171 = false := by decide
      unfold readKnots
      rw [h1, h2]
      cases L.aks m.spec <;> rfl
    unfold deserialize
    simp only [hs', readPrior, hp', hd', hi', readEda, he', ha, hk, warnings, List.append_nil]

theorem contents_supported (cd : Codec L) (hl : Lawful cd) (p : Path) (hp : Supported p)
    (k : Kernel L) : ∃ c, contents cd p k = .ok c ∧ parse cd p c = .ok k := by
  unfold contents parse
  by_cases h1 : endsWith p ".binpb" = true
  · refine ⟨cd.bin k, by rw [if_pos h1], ?_⟩
    rw [if_pos h1, hl.bin]
  · have h2 : (endsWith p ".textproto" || endsWith p ".txtpb") = true := by
      rw [Bool.or_eq_true, endsWith_iff, endsWith_iff]
      rcases hp with h | h | h
      · exact absurd ((endsWith_iff _ _).2 h) h1
      · exact Or.inl h
      · exact Or.inr h
    refine ⟨cd.text k, by rw [if_neg h1, if_pos h2], ?_⟩
    rw [if_neg h1, if_pos h2, hl.text]

theorem parse_empty (cd : Codec L) (hl : Lawful cd) (p : Path) (hp : Supported p) :
    ∃ k, parse cd p [] = .ok k ∧ k.model = none := by
  unfold parse
  by_cases h1 : endsWith p ".binpb" = true
  · obtain ⟨k, hk, hk'⟩ := hl.emptyBin
    exact ⟨k, by rw [if_pos h1, hk], hk'⟩
  · have h2 : (endsWith p ".textproto" || endsWith p ".txtpb") = true := by
      rw [Bool.or_eq_true, endsWith_iff, endsWith_iff]
      rcases hp with h | h | h
      · exact absurd ((endsWith_iff _ _).2 h) h1
      · exact Or.inl h
      · exact Or.inr h
    obtain ⟨k, hk, hk'⟩ := hl.emptyText
    exact ⟨k, by rw [if_neg h1, if_pos h2, hk], hk'⟩

theorem existsPath_dir (fs : FS) (p : Path) (hp : p ≠ []) (h : fs.dirs p = true) :
    fs.existsPath p = true := by
  unfold FS.existsPath; rw [if_neg hp, h]; rfl

theorem mkdirs_dirs (fs : FS) (p : Path) : (fs.mkdirs p).dirs p = true := by
  simp [FS.mkdirs]

/-- The states and the result of a save reach the opened file. -/
theorem save_reaches (cd : Codec L) (os : Os) (fs : FS) (p : Path) (m : Obj L)
    (hos : os.mkdir = true) (hop : os.opens = true) (hr : Reachable fs p) :
    ∃ fs' : FS, (∀ x, fs'.files x = fs.files x) ∧ (∀ x, fs.dirs x = true → fs'.dirs x = true) ∧
      ∃ pre, save cd os fs p m =
        (pre ++ fs'.put p [] :: (body cd os (fs'.put p []) p m).1,
          (body cd os (fs'.put p []) p m).2) := by
  obtain ⟨hne, hd⟩ := hr
  by_cases he : fs.dirs (dirname p) = true
  · refine ⟨fs, fun _ => rfl, fun _ h => h, [fs], ?_⟩
    unfold save openAndWrite
    rw [if_pos (existsPath_dir fs _ hne he), hop, he]
    rfl
  · have hf : fs.files (dirname p) = none := hd.resolve_left he
    have hex : ¬ fs.existsPath (dirname p) = true := by
      unfold FS.existsPath
      rw [if_neg hne, hf]
      simpa using he
    refine ⟨fs.mkdirs (dirname p), fun _ => rfl, fun x h => by simp [FS.mkdirs, h],
      [fs, fs.mkdirs (dirname p)], ?_⟩
    unfold save openAndWrite
    rw [if_neg hex, hos, hop, mkdirs_dirs]
    simp [hne]

theorem final_append (fs : FS) (pre : List FS) (a : FS) (l : List FS) (e : Except Err Unit) :
    final fs (pre ++ a :: l, e) = l.getLastD a := by
  unfold final
  simp only [List.getLastD_eq_getLast?, List.getLast?_append, List.getLast?_cons]
  cases l.getLast? <;> simp

theorem getLastD_map_range {α : Type} (f : ℕ → α) (n : ℕ) (a : α) :
    ((List.range (n + 1)).map f).getLastD a = f n := by
  rw [List.range_succ, List.map_append]
  simp [List.getLastD_eq_getLast?]

/-- **C61.** After saving a valid model under a supported name, loading gives the same data,
specification, priors, EDA specification and samples, with the knots computed from the data, provided
the samples fit these knots; else it raises an exception.  A difference of backend or precision is
reported by a warning. -/
theorem load_after_save (cd : Codec L) (hl : Lawful cd) (os : Os) (hos : Allows os) (fs : FS)
    (p : Path) (hr : Reachable fs p) (hp : Supported p) (m : Obj L) (hm : PartsRoundTrip m)
    (ha : L.accept m.data m.spec m.prior m.eda = .ok ()) (b pr : ℕ) :
    (save cd os fs p m).2 = .ok () ∧
      (SamplesFit m.data (L.knots m.data m.spec) m.inf →
        ∃ w, load cd b pr (final fs (save cd os fs p m)) p =
          .ok (⟨m.data, m.spec, m.prior, m.eda, m.inf, L.knots m.data m.spec, none, b, pr⟩, w) ∧
          (.backend ∈ w ↔ m.backend ≠ 0 ∧ m.backend ≠ b) ∧
          (.precision ∈ w ↔ m.precision ≠ 0 ∧ m.precision ≠ pr) ∧ .noEda ∉ w) ∧
      (¬ SamplesFit m.data (L.knots m.data m.spec) m.inf →
        load cd b pr (final fs (save cd os fs p m)) p = .error .coordinate) := by
  obtain ⟨fs', -, -, pre, hsave⟩ := save_reaches cd os fs p m hos.1 hos.2.1 hr
  obtain ⟨k, hk, hdes⟩ := deserialize_serialize m hm ha b pr
  obtain ⟨c, hc, hpar⟩ := contents_supported cd hl p hp k
  have hbody : body cd os (fs'.put p []) p m =
      ((List.range (c.length + 1)).map fun i => (fs'.put p []).put p (c.take i), .ok ()) := by
    unfold body
    simp only [hk, hc, hos.2.2]
  rw [hbody] at hsave
  have hfin : (final fs (save cd os fs p m)).files p = some c := by
    rw [hsave, final_append, getLastD_map_range]
    simp [FS.put]
  have hload : load cd b pr (final fs (save cd os fs p m)) p = deserialize b pr k := by
    unfold load
    simp only [hfin, hpar]
  refine ⟨by rw [hsave], fun hfit => ?_, fun hfit => ?_⟩
  · refine ⟨_, by rw [hload, hdes, if_pos ((infOk_iff _ _ _).2 hfit)], ?_, ?_, ?_⟩
    · by_cases h1 : m.backend ≠ 0 ∧ m.backend ≠ b <;>
        by_cases h2 : m.precision ≠ 0 ∧ m.precision ≠ pr <;> simp [h1, h2]
    · by_cases h1 : m.backend ≠ 0 ∧ m.backend ≠ b <;>
        by_cases h2 : m.precision ≠ 0 ∧ m.precision ≠ pr <;> simp [h1, h2]
    · by_cases h1 : m.backend ≠ 0 ∧ m.backend ≠ b <;>
        by_cases h2 : m.precision ≠ 0 ∧ m.precision ≠ pr <;> simp [h1, h2]
  · rw [hload, hdes, if_neg (fun h => hfit ((infOk_iff _ _ _).1 h))]

/-- **C61.** In particular a model with the knots of its own specification comes back, up to the result
of the review. -/
theorem load_saved (cd : Codec L) (hl : Lawful cd) (os : Os) (hos : Allows os) (fs : FS)
    (p : Path) (hr : Reachable fs p) (hp : Supported p) (m : Obj L) (hm : PartsRoundTrip m)
    (hv : Valid m) (hk : m.knots = L.knots m.data m.spec) :
    load cd m.backend m.precision (final fs (save cd os fs p m)) p =
      .ok ({ m with health := none }, []) := by
  obtain ⟨-, h, -⟩ := load_after_save cd hl os hos fs p hr hp m hm hv.1 m.backend m.precision
  obtain ⟨w, hw, h1, h2, h3⟩ := h (hk ▸ hv.2)
  have : w = [] := by
    cases w with
    | nil => rfl
    | cons x rest =>
      exfalso
      cases x
      · exact (h1.1 List.mem_cons_self).2 rfl
      · exact (h2.1 List.mem_cons_self).2 rfl
      · exact h3 List.mem_cons_self
  rw [hw, this, ← hk]

/-- A save that reports success has written everything, whatever the system did. -/
theorem success_complete (cd : Codec L) (os : Os) (fs : FS) (p : Path) (m : Obj L)
    (h : (save cd os fs p m).2 = .ok ()) : ∃ k c, serialize m = .ok k ∧ contents cd p k = .ok c ∧
      (final fs (save cd os fs p m)).files p = some c := by
  have hbody : ∀ fs' : FS, (body cd os fs' p m).2 = .ok () → ∃ k c, serialize m = .ok k ∧
      contents cd p k = .ok c ∧ (body cd os fs' p m).1 =
        (List.range (c.length + 1)).map fun i => fs'.put p (c.take i) := by
    intro fs' hb
    unfold body at hb ⊢
    cases hk : serialize m with
    | error e => rw [hk] at hb; cases hb
    | ok k =>
      rw [hk] at hb
      simp only at hb ⊢
      cases hc : contents cd p k with
      | error e => rw [hc] at hb; cases hb
      | ok c =>
        rw [hc] at hb
        simp only at hb ⊢
        refine ⟨k, c, rfl, hc, ?_⟩
        cases hsp : os.space with
        | none => rfl
        | some n =>
          rw [hsp] at hb
          simp only at hb ⊢
          by_cases hl : c.length ≤ n
          · rw [if_pos hl]
          · rw [if_neg hl] at hb; cases hb
  have hopen : ∀ (fs' : FS) (pre : List FS), (openAndWrite cd os fs' p m).2 = .ok () →
      ∃ k c, serialize m = .ok k ∧ contents cd p k = .ok c ∧
        (final fs (pre ++ (openAndWrite cd os fs' p m).1, (.ok () : Except Err Unit))).files p =
          some c := by
    intro fs' pre ho
    unfold openAndWrite at ho ⊢
    by_cases hd : (os.opens && fs'.dirs (dirname p)) = true
    · rw [if_pos hd] at ho ⊢
      obtain ⟨k, c, hk, hc, hb⟩ := hbody _ ho
      refine ⟨k, c, hk, hc, ?_⟩
      simp only
      rw [hb, final_append, List.getLastD_cons, getLastD_map_range]
      simp [FS.put]
    · rw [if_neg hd] at ho; cases ho
  unfold save at h ⊢
  split at h
  · rename_i he
    rw [if_pos he]
    obtain ⟨k, c, hk, hc, hf⟩ := hopen fs [] h
    exact ⟨k, c, hk, hc, hf⟩
  · rename_i he
    rw [if_neg he]
    split at h
    · cases h
    · rename_i hd
      rw [if_neg hd]
      obtain ⟨k, c, hk, hc, hf⟩ := hopen (fs.mkdirs (dirname p)) [fs] h
      exact ⟨k, c, hk, hc, hf⟩

/-- **C61.** Whatever the system did, if saving reports success then the model comes back. -/
theorem reported_success_loads (cd : Codec L) (hl : Lawful cd) (os : Os) (fs : FS) (p : Path)
    (hp : Supported p) (m : Obj L) (hm : PartsRoundTrip m) (hv : Valid m)
    (hk : m.knots = L.knots m.data m.spec) (h : (save cd os fs p m).2 = .ok ()) :
    load cd m.backend m.precision (final fs (save cd os fs p m)) p =
      .ok ({ m with health := none }, []) := by
  obtain ⟨k, c, hs, hc, hf⟩ := success_complete cd os fs p m h
  obtain ⟨k', hs', hdes⟩ := deserialize_serialize m hm hv.1 m.backend m.precision
  rw [hs] at hs'
  cases hs'
  obtain ⟨c', hc', hpar⟩ := contents_supported cd hl p hp k
  rw [hc] at hc'
  cases hc'
  unfold load
  simp only [hf, hpar, hdes]
  rw [if_pos ((infOk_iff _ _ _).2 (hk ▸ hv.2))]
  simp [hk]

/-- **C61, violated.** The result of `review()` is not saved. -/
theorem review_lost (cd : Codec L) (hl : Lawful cd) (os : Os) (hos : Allows os) (fs : FS)
    (p : Path) (hr : Reachable fs p) (hp : Supported p) (m : Obj L) (hm : PartsRoundTrip m)
    (hv : Valid m) (hk : m.knots = L.knots m.data m.spec) (hh : m.health ≠ none) :
    (save cd os fs p m).2 = .ok () ∧
      ∃ m', load cd m.backend m.precision (final fs (save cd os fs p m)) p = .ok (m', []) ∧
        m' ≠ m := by
  refine ⟨(load_after_save cd hl os hos fs p hr hp m hm hv.1 0 0).1, _,
    load_saved cd hl os hos fs p hr hp m hm hv hk, fun h => hh ?_⟩
  rw [← h]

/-- **C61, violated.** A model loaded from a file of an old version has the knots of the old algorithm.
If they are not those of the present one, saving this model and loading it again does not give it back:
it raises an exception, or the model has other knots. -/
theorem resaved_old_model_changes (cd : Codec L) (hl : Lawful cd) (os : Os) (hos : Allows os)
    (fs : FS) (p : Path) (hr : Reachable fs p) (hp : Supported p) (m : Obj L)
    (hm : PartsRoundTrip m) (hv : Valid m) (hk : m.knots ≠ L.knots m.data m.spec) (b pr : ℕ) :
    (save cd os fs p m).2 = .ok () ∧
      (load cd b pr (final fs (save cd os fs p m)) p = .error .coordinate ∨
        ∃ m' w, load cd b pr (final fs (save cd os fs p m)) p = .ok (m', w) ∧ m'.inf = m.inf ∧
          m'.knots ≠ m.knots) := by
  obtain ⟨h0, h1, h2⟩ := load_after_save cd hl os hos fs p hr hp m hm hv.1 b pr
  refine ⟨h0, ?_⟩
  by_cases hfit : SamplesFit m.data (L.knots m.data m.spec) m.inf
  · obtain ⟨w, hw, -⟩ := h1 hfit
    exact Or.inr ⟨_, w, hw, rfl, fun h => hk h.symm⟩
  · exact Or.inl (h2 hfit)

theorem le_iff (v w : Version) : v.le w = true ↔ UpTo v w.major w.minor w.patch := by
  unfold Version.le UpTo
  split_ifs <;> simp only [decide_eq_true_eq] <;> omega

/-- **C61.** Whatever is loaded is a valid model, with the knots of the version that saved it. -/
theorem loaded_valid (cd : Codec L) (b pr : ℕ) (fs : FS) (p : Path) (m : Obj L) (w : List Warning)
    (h : load cd b pr fs p = .ok (m, w)) :
    Valid m ∧ m.backend = b ∧ m.precision = pr ∧ ∃ c k msg v, fs.files p = some c ∧
      parse cd p c = .ok k ∧ k.model = some msg ∧ msg.version = some v ∧
      (L.aks m.spec = true → UpTo v 1 7 0 → L.legacy170 m.data = .ok m.knots) ∧
      (L.aks m.spec = true → ¬ UpTo v 1 7 0 → UpTo v 1 7 1 →
        L.legacy171 m.data = .ok m.knots) ∧
      (L.aks m.spec = false ∨ ¬ UpTo v 1 7 1 → m.knots = L.knots m.data m.spec) := by
  unfold load at h
  cases hf : fs.files p with
  | none => rw [hf] at h; cases h
  | some c =>
    rw [hf] at h
    simp only at h
    cases hpar : parse cd p c with
    | error e => rw [hpar] at h; cases h
    | ok k =>
      rw [hpar] at h
      simp only at h
      unfold deserialize at h
      split at h
      · cases h
      · rename_i msg hmsg
        split at h
        · cases h
        · rename_i v hv
          iterate 7 (split at h; · cases h)
          rename_i s hs _ pr' hpr' _ d hd _ i hi _ e he _ u ha _ kn hkn
          split at h
          · rename_i hinf
            cases h
            refine ⟨⟨ha, (infOk_iff _ _ _).1 hinf⟩, rfl, rfl, c, k, msg, v, rfl, hpar, hmsg, hv,
              ?_, ?_, ?_⟩
            · intro h1 h2
              unfold readKnots at hkn
              rwa [if_pos h1, if_pos ((le_iff _ _).2 h2)] at hkn
            · intro h1 h2 h3
              unfold readKnots at hkn
              rwa [if_pos h1, if_neg (fun h => h2 ((le_iff _ _).1 h)), if_pos ((le_iff _ _).2 h3)] at hkn
            · intro h1
              unfold readKnots at hkn
              rcases h1 with h1 | h1
              · rw [if_neg (by rw [h1]; simp)] at hkn
                cases hkn; rfl
              · have h2 : ¬ UpTo v 1 7 0 := by
                  intro hle
                  apply h1
                  unfold UpTo at hle ⊢
                  omega
                by_cases h3 : L.aks s = true
                · rw [if_pos h3, if_neg (fun h => h2 ((le_iff _ _).1 h)),
                    if_neg (fun h => h1 ((le_iff _ _).1 h))] at hkn
                  cases hkn; rfl
                · rw [if_neg h3] at hkn
                  cases hkn; rfl
          · cases h

/-- The states of the body concern the file only. -/
theorem body_states (cd : Codec L) (os : Os) (fs : FS) (p : Path) (m : Obj L) (st : FS)
    (h : st ∈ (body cd os fs p m).1) : ∃ k c n, serialize m = .ok k ∧ contents cd p k = .ok c ∧
      st = fs.put p (c.take n) := by
  unfold body at h
  cases hk : serialize m with
  | error e => rw [hk] at h; simp at h
  | ok k =>
    rw [hk] at h
    simp only at h
    cases hc : contents cd p k with
    | error e => rw [hc] at h; simp at h
    | ok c =>
      rw [hc] at h
      simp only at h
      have : ∃ n, st = fs.put p (c.take n) := by
        cases hsp : os.space with
        | none =>
          rw [hsp] at h
          obtain ⟨n, -, hn⟩ := List.mem_map.1 h
          exact ⟨n, hn.symm⟩
        | some q =>
          rw [hsp] at h
          simp only at h
          split at h
          · obtain ⟨n, -, hn⟩ := List.mem_map.1 h
            exact ⟨n, hn.symm⟩
          · obtain ⟨n, -, hn⟩ := List.mem_map.1 h
            exact ⟨n, hn.symm⟩
      obtain ⟨n, hn⟩ := this
      exact ⟨k, c, n, rfl, hc, hn⟩

theorem openAndWrite_states (cd : Codec L) (os : Os) (fs : FS) (p : Path) (m : Obj L) (st : FS)
    (h : st ∈ (openAndWrite cd os fs p m).1) :
    st.dirs = fs.dirs ∧ (∀ x, x ≠ p → st.files x = fs.files x) ∧
      (st.files p = fs.files p ∨ st.files p = some [] ∨ ∃ k c n, serialize m = .ok k ∧
        contents cd p k = .ok c ∧ st.files p = some (c.take n)) := by
  unfold openAndWrite at h
  split at h
  · rcases List.mem_cons.1 h with rfl | h
    · exact ⟨rfl, fun _ _ => rfl, Or.inl rfl⟩
    rcases List.mem_cons.1 h with rfl | h
    · exact ⟨rfl, fun x hx => by simp [FS.put, hx], Or.inr (Or.inl (by simp [FS.put]))⟩
    obtain ⟨k, c, n, hk, hc, rfl⟩ := body_states cd os _ p m st h
    exact ⟨rfl, fun x hx => by simp [FS.put, hx],
      Or.inr (Or.inr ⟨k, c, n, hk, hc, by simp [FS.put]⟩)⟩
  · rw [List.mem_singleton] at h
    subst h
    exact ⟨rfl, fun _ _ => rfl, Or.inl rfl⟩

/-- **C61.** At every point of a save, successful or not, all other files are as before, all
directories are still there, and the file itself is as before or holds a beginning of the new
contents. -/
theorem crash_states (cd : Codec L) (os : Os) (fs : FS) (p : Path) (m : Obj L) (st : FS)
    (h : st ∈ (save cd os fs p m).1) :
    (∀ x, x ≠ p → st.files x = fs.files x) ∧ (∀ x, fs.dirs x = true → st.dirs x = true) ∧
      (st.files p = fs.files p ∨ st.files p = some [] ∨ ∃ k c n, serialize m = .ok k ∧
        contents cd p k = .ok c ∧ st.files p = some (c.take n)) := by
  unfold save at h
  split at h
  · obtain ⟨h1, h2, h3⟩ := openAndWrite_states cd os fs p m st h
    exact ⟨h2, fun x hx => by rw [h1]; exact hx, h3⟩
  · split at h
    · rw [List.mem_singleton] at h
      subst h
      exact ⟨fun _ _ => rfl, fun _ h => h, Or.inl rfl⟩
    · rcases List.mem_cons.1 h with rfl | h
      · exact ⟨fun _ _ => rfl, fun _ h => h, Or.inl rfl⟩
      · obtain ⟨h1, h2, h3⟩ := openAndWrite_states cd os _ p m st h
        exact ⟨h2, fun x hx => by rw [h1]; simp [FS.mkdirs, hx], h3⟩

/-- **C61, violated.** Saving is not atomic: there is always a point at which the model saved before is
gone and the file cannot be loaded. -/
theorem crash_loses_saved_model (cd : Codec L) (hl : Lawful cd) (os : Os) (hmk : os.mkdir = true)
    (hop : os.opens = true) (fs : FS) (p : Path) (hr : Reachable fs p) (hp : Supported p)
    (m : Obj L) (b pr : ℕ) :
    ∃ st ∈ (save cd os fs p m).1, load cd b pr st p = .error .notMeridian := by
  obtain ⟨fs', -, -, pre, hsave⟩ := save_reaches cd os fs p m hmk hop hr
  obtain ⟨k, hk, hk'⟩ := parse_empty cd hl p hp
  refine ⟨fs'.put p [], by rw [hsave]; simp, ?_⟩
  unfold load
  simp only [FS.put, if_true, hk, deserialize, hk']

/-- **C61, violated.** If the model cannot be written as a message (for instance because of an
unregistered function), the exception is raised after the file was emptied: what was saved under this
name is lost. -/
theorem failed_save_loses_saved_model (cd : Codec L) (hl : Lawful cd) (os : Os)
    (hmk : os.mkdir = true) (hop : os.opens = true) (fs : FS) (p : Path) (hr : Reachable fs p)
    (hp : Supported p) (m : Obj L) (e : Err) (he : serialize m = .error e) (b pr : ℕ) :
    (save cd os fs p m).2 = .error e ∧ (final fs (save cd os fs p m)).files p = some [] ∧
      load cd b pr (final fs (save cd os fs p m)) p = .error .notMeridian := by
  obtain ⟨fs', -, -, pre, hsave⟩ := save_reaches cd os fs p m hmk hop hr
  have hbody : body cd os (fs'.put p []) p m = ([], .error e) := by
    unfold body; simp only [he]
  rw [hbody] at hsave
  have hfin : (final fs (save cd os fs p m)).files p = some [] := by
    rw [hsave, final_append]
    simp [FS.put]
  obtain ⟨k, hk, hk'⟩ := parse_empty cd hl p hp
  refine ⟨by rw [hsave], hfin, ?_⟩
  unfold load
  simp only [hfin, hk, deserialize, hk']

/-- **C61.** Other file types are refused by both functions. -/
theorem unsupported_refused (cd : Codec L) (os : Os) (fs : FS) (p : Path) (hp : ¬ Supported p)
    (m : Obj L) (b pr : ℕ) :
    (∃ e, (save cd os fs p m).2 = .error e) ∧ ∃ e, load cd b pr fs p = .error e := by
  have h1 : ¬ endsWith p ".binpb" = true := fun h => hp (Or.inl ((endsWith_iff _ _).1 h))
  have h2 : ¬ (endsWith p ".textproto" || endsWith p ".txtpb") = true := by
    rw [Bool.or_eq_true, endsWith_iff, endsWith_iff]
    rintro (h | h)
    · exact hp (Or.inr (Or.inl h))
    · exact hp (Or.inr (Or.inr h))
  have hbody : ∀ fs, ∃ e, (body cd os fs p m).2 = .error e := by
    intro fs
    unfold body
    cases hk : serialize m with
    | error e => exact ⟨e, rfl⟩
    | ok k =>
      have : contents cd p k = .error .unsupported := by
        unfold contents; rw [if_neg h1, if_neg h2]
      simp only [this]
      exact ⟨_, rfl⟩
  have hopen : ∀ fs, ∃ e, (openAndWrite cd os fs p m).2 = .error e := by
    intro fs
    unfold openAndWrite
    split
    · exact hbody _
    · exact ⟨_, rfl⟩
  constructor
  · unfold save
    split
    · exact hopen _
    · split
      · exact ⟨_, rfl⟩
      · exact hopen _
  · unfold load
    cases fs.files p with
    | none => exact ⟨_, rfl⟩
    | some c =>
      have : parse cd p c = .error .unsupported := by
        unfold parse; rw [if_neg h1, if_neg h2]
      simp only [this]
      exact ⟨_, rfl⟩

/-- **C61, violated.** Refusing an unsupported name empties the file of this name. -/
theorem unsupported_empties_file (cd : Codec L) (os : Os) (hmk : os.mkdir = true)
    (hop : os.opens = true) (fs : FS) (p : Path) (hr : Reachable fs p) (hp : ¬ Supported p)
    (m : Obj L) : (final fs (save cd os fs p m)).files p = some [] := by
  obtain ⟨fs', -, -, pre, hsave⟩ := save_reaches cd os fs p m hmk hop hr
  have h1 : ¬ endsWith p ".binpb" = true := fun h => hp (Or.inl ((endsWith_iff _ _).1 h))
  have h2 : ¬ (endsWith p ".textproto" || endsWith p ".txtpb") = true := by
    rw [Bool.or_eq_true, endsWith_iff, endsWith_iff]
    rintro (h | h)
    · exact hp (Or.inr (Or.inl h))
    · exact hp (Or.inr (Or.inr h))
  have hbody : (body cd os (fs'.put p []) p m).1 = [] := by
    unfold body
    cases hk : serialize m with
    | error e => rfl
    | ok k =>
      have : contents cd p k = .error .unsupported := by
        unfold contents; rw [if_neg h1, if_neg h2]
      simp only [this]
  rw [hsave, hbody, final_append]
  simp [FS.put]

theorem dirname_bare (p : Path) (h : '/' ∉ p) : dirname p = [] := by
  have : (p.reverse.dropWhile fun c => decide (c ≠ '/')) = [] := by
    apply List.dropWhile_eq_nil_iff.2
    intro c hc
    simp only [ne_eq, decide_not, Bool.not_eq_true', decide_eq_false_iff_not]
    rintro rfl
    exact h (List.mem_reverse.1 hc)
  unfold dirname
  simp only [this]
  rfl

/-- The directory of `dir/name` is `dir`. -/
theorem dirname_of (dir name : Path) (hd : dir ≠ []) (hs : dir.getLast? ≠ some '/')
    (hn : '/' ∉ name) : dirname (dir ++ '/' :: name) = dir := by
  have hhead : ((dir ++ '/' :: name).reverse.dropWhile fun c => decide (c ≠ '/')) =
      '/' :: dir.reverse := by
    rw [List.reverse_append, List.reverse_cons, List.append_assoc, List.dropWhile_append,
      List.dropWhile_eq_nil_iff.2]
    · simp
    · intro c hc
      simp only [ne_eq, decide_not, Bool.not_eq_true', decide_eq_false_iff_not]
      rintro rfl
      exact hn (List.mem_reverse.1 hc)
  obtain ⟨pre, z, rfl⟩ : ∃ pre z, dir = pre ++ [z] :=
    ⟨dir.dropLast, dir.getLast hd, (List.dropLast_append_getLast hd).symm⟩
  have hz : z ≠ '/' := by
    rintro rfl
    exact hs (by simp)
  unfold dirname
  simp only [hhead]
  rw [if_neg]
  · unfold rstrip
    simp [hz]
  · simp [hz]

/-- **C61.** Saving under `dir/name`, where `dir` is an existing directory, reports success. -/
theorem saved_in_directory (cd : Codec L) (hl : Lawful cd) (os : Os) (hos : Allows os) (fs : FS)
    (dir name : Path) (hd : dir ≠ []) (hs : dir.getLast? ≠ some '/') (hn : '/' ∉ name)
    (hdir : fs.dirs dir = true) (hp : Supported (dir ++ '/' :: name)) (m : Obj L)
    (hm : PartsRoundTrip m) (hv : Valid m) :
    (save cd os fs (dir ++ '/' :: name) m).2 = .ok () := by
  have hdn := dirname_of dir name hd hs hn
  refine (load_after_save cd hl os hos fs _ ⟨?_, Or.inl ?_⟩ hp m hm hv.1 0 0).1
  · rw [hdn]; exact hd
  · rw [hdn]; exact hdir

/-- **C61, violated.** A name without directory, such as `model.binpb`, cannot be saved. -/
theorem bare_name_refused (cd : Codec L) (os : Os) (fs : FS) (p : Path) (h : '/' ∉ p) (m : Obj L) :
    save cd os fs p m = ([fs], .error .os) := by
  unfold save
  rw [dirname_bare p h]
  rfl

/-! ## Concrete cases -/

/-- A small library: the data is the number of geos, the knots a number computed from the data by three
algorithms; negative priors cannot be written. -/
abbrev lib : Lib where
  Data := ℕ
  Spec := Bool
  Prior := ℕ
  Inf := ℕ
  Eda := Unit
  Knots := ℕ
  Health := Unit
  MData := ℕ
  MSpec := Bool
  MPrior := ℕ
  MLegacy := Empty
  MInf := ℕ
  MEda := Unit
  serData := .ok
  deData := .ok
  serSpec := .ok
  deSpec := .ok
  serPrior := fun n => if n = 0 then .error .part else .ok n
  dePrior := .ok
  deLegacy := fun _ => .error .part
  serInf := .ok
  deInf := .ok
  serEda := .ok
  deEda := .ok
  defaultEda := ()
  accept := fun d _ _ _ => if d = 0 then .error .part else .ok ()
  aks := id
  knots := fun d _ => d
  nKnots := id
  legacy170 := fun d => .ok (d + 1)
  legacy171 := fun d => .ok (d + 2)
  size := fun d c => if c = .geo then d else 0
  coords := fun i g => if g = .posterior then
      some fun c => if c = .geo then some 3 else if c = .knots then some i else none
    else none

/-- Messages as lists of numbers. -/
def enc (k : Kernel lib) : List ℕ :=
  match (k.data : ℕ), k.model with
  | d, none => if d = 0 then [] else [d]
  | d, some ⟨v, (s : Bool), _, p, (i : ℕ), (e : Option Unit), b, pr⟩ =>
    let v' := match v with
      | none => [0]
      | some ⟨x, y, z⟩ => [1, x, y, z]
    let p' := match p with
      | none => [0]
      | some (x : ℕ) => [1, x]
    [d, if s then 1 else 0, i, if e.isSome then 1 else 0, b, pr] ++ p' ++ v'

/-- The version at the end of a message. -/
def decVersion : List ℕ → Option (Option Version)
  | [0] => some none
  | [1, x, y, z] => some (some ⟨x, y, z⟩)
  | _ => none

/-- Reading. -/
def dec : List ℕ → Option (Kernel lib)
  | [] => some ⟨(0 : ℕ), none⟩
  | [d] => some ⟨d, none⟩
  | d :: s :: i :: e :: b :: pr :: 0 :: rest =>
    match decVersion rest with
    | none => none
    | some v => some ⟨d, some ⟨v, decide (s = 1), none, none, i, if e = 1 then some () else none, b, pr⟩⟩
  | d :: s :: i :: e :: b :: pr :: 1 :: x :: rest =>
    match decVersion rest with
    | none => none
    | some v =>
      some ⟨d, some ⟨v, decide (s = 1), none, some x, i, if e = 1 then some () else none, b, pr⟩⟩
  | _ => none

theorem dec_enc (k : Kernel lib) : dec (enc k) = some k := by
  obtain ⟨d, m⟩ := k
  cases m with
  | none =>
    by_cases h : d = (0 : ℕ)
    · subst h; rfl
    · simp only [enc]
      rw [if_neg h]; rfl
  | some m =>
    obtain ⟨v, s, l, p, i, e, b, pr⟩ := m
    have hl : l = none := by
      cases l with
      | none => rfl
      | some x => exact x.elim
    subst hl
    cases v <;> cases p <;> cases s <;> cases e <;> rfl

/-- A codec. -/
def codec : Codec lib := ⟨enc, dec, enc, dec⟩

theorem codec_lawful : Lawful codec :=
  ⟨dec_enc, dec_enc, ⟨_, rfl, rfl⟩, ⟨_, rfl, rfl⟩⟩

/-- A fitted model with three knots. -/
def fitted : Obj lib := ⟨(3 : ℕ), true, (1 : ℕ), (), (3 : ℕ), (3 : ℕ), some (), 1, 1⟩

/-- The same, loaded from an old file: four knots. -/
def old : Obj lib := ⟨(3 : ℕ), true, (1 : ℕ), (), (4 : ℕ), (4 : ℕ), none, 1, 1⟩

/-- A disk with one directory, and a file in it. -/
def disk : FS := ⟨fun p => p = "/m".toList, fun p => if p = "/m/a.binpb".toList then some [7] else none⟩

/-- The path of the file. -/
def path : Path := "/m/a.binpb".toList

example : dirname path = "/m".toList := by decide +kernel
example : dirname "/a.binpb".toList = "/".toList := by decide +kernel
example : dirname "x/y//a.binpb".toList = "x/y".toList := by decide +kernel
example : Reachable disk path := ⟨by decide +kernel, Or.inl (by decide +kernel)⟩
example : Supported path := Or.inl (by decide +kernel)
example : ¬ Supported "/m/a.pb".toList := by unfold Supported; decide +kernel
example : Allows ⟨true, true, none⟩ := ⟨rfl, rfl, rfl⟩
example : PartsRoundTrip fitted :=
  ⟨⟨_, rfl, rfl⟩, ⟨_, rfl, rfl⟩, ⟨_, rfl, rfl⟩, ⟨_, rfl, rfl⟩, ⟨_, rfl, rfl⟩⟩

theorem fit_of (i k : ℕ) (h : i = k) : SamplesFit (L := lib) (3 : ℕ) k i := by
  subst h
  intro g f hf c
  have : g = .posterior := by
    cases g with
    | prior => simp at hf
    | posterior => rfl
  subst this
  simp only [if_true, Option.some.injEq] at hf
  subst hf
  cases c <;> rfl

example : Valid fitted := ⟨rfl, fit_of 3 3 rfl⟩
example : Valid old := ⟨rfl, fit_of 4 4 rfl⟩
example : (save codec ⟨true, true, some 1000⟩ disk path fitted).2 = .ok () := by rfl
example : dirname "/home/me/model.binpb".toList = "/home/me".toList := by decide +kernel
example : old.knots ≠ lib.knots old.data old.spec := by decide
example : serialize { fitted with prior := (0 : ℕ) } = .error .part := rfl
example : (save codec ⟨true, true, none⟩ disk path old).2 = .ok () ∧
    load codec 1 1 (final disk (save codec ⟨true, true, none⟩ disk path old)) path =
      .error .coordinate := by
  obtain ⟨h, -, h2⟩ := load_after_save codec codec_lawful ⟨true, true, none⟩ ⟨rfl, rfl, rfl⟩ disk path
    ⟨by decide +kernel, Or.inl (by decide +kernel)⟩ (Or.inl (by decide +kernel)) old
    ⟨⟨_, rfl, rfl⟩, ⟨_, rfl, rfl⟩, ⟨_, rfl, rfl⟩, ⟨_, rfl, rfl⟩, ⟨_, rfl, rfl⟩⟩ rfl 1 1
  refine ⟨h, h2 fun hf => ?_⟩
  have := hf .posterior _ rfl .knots
  exact absurd this (by decide)

end Verif.SaveLoad.Props
