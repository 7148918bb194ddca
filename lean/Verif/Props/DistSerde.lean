import Verif.Spec.DistSerde
import Verif.Props.Registry
import Mathlib.Data.Rat.Floor
import Mathlib.Tactic.NormNum

/-!
# Saved priors come back
-/

namespace Verif.DistSerde.Props

open Verif.DistSerde Verif.DistSerde.Spec
open Verif.Registry (Fn Reg)
open Verif.Registry.Spec (IsDict)

variable {A P : Type}

/-! ### What can be saved -/

theorem functionProto_iff (env : Env A P) (reg : Reg) (cls : Cls) (param : String) (f : Fn) :
    (∃ p, functionProto env reg cls param f = .ok p) ↔
      SavableFn (fun g f => g.ident = f.ident) env reg cls param f := by
  unfold functionProto isDefault SavableFn
  cases hd : env.default cls param with
  | none => simp
  | some v =>
    have key : (∃ e ∈ reg.items, e.2.ident = f.ident) ↔
        (Registry.functionKey reg f).isSome = true :=
      Registry.Props.functionKey_isSome.symm
    rw [key]
    cases v with
    | fn g =>
      by_cases hg : g.ident = f.ident
      · simp [hg]
      · cases Registry.functionKey reg f <;> simp [hg]
    | _ => cases Registry.functionKey reg f <;> simp

mutual

theorem toProto_iff (env : Env A P) (reg : Reg) (cls : Cls) (param : String) (v : Val A) :
    (∃ p, toProto env reg cls param v = .ok p) ↔
      Savable (fun g f => g.ident = f.ident) (fun x => (env.make x).isSome) env reg cls param v := by
  cases v with
  | float x => simp [toProto, Savable]
  | int n =>
    simp only [toProto, Savable]
    by_cases h : -2 ^ 31 ≤ n ∧ n < 2 ^ 31
    · rw [if_pos h]; exact ⟨fun _ => h, fun _ => ⟨_, rfl⟩⟩
    · rw [if_neg h]
      exact ⟨fun ⟨_, e⟩ => (by cases e), fun e => absurd e h⟩
  | bool b => simp [toProto, Savable]
  | npBool b => simp [toProto, Savable]
  | str s => simp [toProto, Savable]
  | none => simp [toProto, Savable]
  | list l =>
    simp only [Savable, ← listProto_iff env reg cls param l, toProto]
    cases listProto env reg cls param l <;> simp
  | dict l =>
    simp only [Savable, ← dictProto_iff env reg cls param l, toProto]
    cases dictProto env reg cls param l <;> simp
  | dist c l =>
    simp only [Savable, ← paramsProto_iff env reg (.dist c) l, toProto]
    by_cases hk : env.known (.dist c) = true
    · rw [if_pos hk]
      cases paramsProto env reg (.dist c) l <;> simp [hk]
    · rw [if_neg hk]; simp [hk]
  | bij c l =>
    simp only [Savable, ← paramsProto_iff env reg (.bij c) l, toProto]
    by_cases hk : env.known (.bij c) = true
    · rw [if_pos hk]
      cases paramsProto env reg (.bij c) l <;> simp [hk]
    · rw [if_neg hk]; simp [hk]
  | reparam b => simp [toProto, Savable]
  | fn f =>
    simp only [toProto, Savable]
    exact functionProto_iff env reg cls param f
  | other a =>
    cases a with
    | none => simp [toProto, Savable]
    | some x =>
      simp only [toProto, Savable, Option.some.injEq, exists_eq_left']
      cases env.make x <;> simp

theorem listProto_iff (env : Env A P) (reg : Reg) (cls : Cls) (param : String) (l : Vals A) :
    (∃ p, listProto env reg cls param l = .ok p) ↔
      SavableList (fun g f => g.ident = f.ident) (fun x => (env.make x).isSome) env reg cls param l := by
  cases l with
  | nil => simp [listProto, SavableList]
  | cons v l =>
    simp only [SavableList, ← toProto_iff env reg cls param v, ← listProto_iff env reg cls param l,
      listProto]
    cases toProto env reg cls param v <;> simp
    cases listProto env reg cls param l <;> simp

theorem dictProto_iff (env : Env A P) (reg : Reg) (cls : Cls) (param : String) (l : Fields A) :
    (∃ p, dictProto env reg cls param l = .ok p) ↔
      SavableDict (fun g f => g.ident = f.ident) (fun x => (env.make x).isSome) env reg cls param l := by
  cases l with
  | nil => simp [dictProto, SavableDict]
  | cons k v l =>
    simp only [SavableDict, ← toProto_iff env reg cls param v, ← dictProto_iff env reg cls param l,
      dictProto]
    cases toProto env reg cls param v <;> simp
    cases dictProto env reg cls param l <;> simp

theorem paramsProto_iff (env : Env A P) (reg : Reg) (cls : Cls) (l : Fields A) :
    (∃ p, paramsProto env reg cls l = .ok p) ↔
      SavableParams (fun g f => g.ident = f.ident) (fun x => (env.make x).isSome) env reg cls l := by
  cases l with
  | nil => simp [paramsProto, SavableParams]
  | cons k v l =>
    simp only [SavableParams, ← toProto_iff env reg cls k v, ← paramsProto_iff env reg cls l,
      paramsProto]
    cases toProto env reg cls k v <;> simp
    cases paramsProto env reg cls l <;> simp

end

/-! ### Values come back -/

section values

variable {env : Env A P} {reg reg' : Reg} {tensor : A → A}

/-- A saved function is the one that is loaded. -/
theorem function_round_trip (h1 : OneObject env reg) (hd : IsDict reg.items)
    (hext : ∀ k f, reg.items.lookup k = some f → reg'.items.lookup k = some f)
    {cls : Cls} {param : String} {f : Fn} (hs : SavableFn Eq env reg cls param f) :
    ∃ p, functionProto env reg cls param f = .ok p ∧
      fromProto env reg' cls param p = .ok (.fn f) := by
  obtain ⟨hsome, hs⟩ := hs
  have hplay : OneObject.InPlay env reg f := by
    rcases hs with ⟨g, hg, rfl⟩ | ⟨e, he, rfl⟩
    · exact Or.inr ⟨_, _, hg⟩
    · exact Or.inl ⟨e, he, rfl⟩
  have hreg : (∃ e ∈ reg.items, e.2 = f) → ∃ k, Registry.functionKey reg f = some k ∧
      reg'.items.lookup k = some f := by
    rintro ⟨e, he, hef⟩
    obtain ⟨k, hk⟩ := Option.isSome_iff_exists.1
      (Registry.Props.functionKey_isSome.2 ⟨e, he, by rw [hef]⟩)
    refine ⟨k, hk, hext _ _ (Registry.Props.functionKey_some hd ?_ hk)⟩
    exact fun e' he' hi => h1 _ _ (Or.inl ⟨e', he', rfl⟩) hplay hi
  unfold functionProto isDefault
  cases hdef : env.default cls param with
  | none => rw [hdef] at hsome; cases hsome
  | some v =>
    by_cases hv : ∃ g, v = .fn g ∧ g.ident = f.ident
    · obtain ⟨g, rfl, hg⟩ := hv
      have : g = f := h1 _ _ (Or.inr ⟨_, _, hdef⟩) hplay hg
      subst this
      refine ⟨.usesDefault true, by simp, ?_⟩
      simp [fromProto, functionOf, hdef]
    · have hmem : ∃ e ∈ reg.items, e.2 = f := by
        rcases hs with ⟨g, hg, rfl⟩ | h
        · rw [hdef] at hg
          exact absurd ⟨_, Option.some.inj hg, rfl⟩ hv
        · exact h
      obtain ⟨k, hk, hl⟩ := hreg hmem
      refine ⟨.functionKey k, ?_, by simp [fromProto, functionOf, hl]⟩
      cases v with
      | fn g =>
        have : ¬ g.ident = f.ident := fun h => hv ⟨g, rfl, h⟩
        simp [this, hk]
      | _ => simp [hk]

mutual

theorem value_round_trip {cls : Cls} {param r : String} (h1 : OneObject env reg) (hd : IsDict reg.items)
    (hext : ∀ k f, reg.items.lookup k = some f → reg'.items.lookup k = some f) (v : Val A)
    (hs : Savable Eq (ReadsAs env tensor) env reg cls param v)
    (hn : r = param ∧ NoFnInDict v ∨ NoFn v) :
    ∃ p, toProto env reg cls param v = .ok p ∧ fromProto env reg' cls r p =
      .ok (expected (fun x => env.toFloat (env.round32 x)) tensor v) := by
  cases v with
  | float x => exact ⟨_, rfl, rfl⟩
  | int n =>
    simp only [Savable] at hs
    exact ⟨.int n, by simp only [toProto, if_pos hs], rfl⟩
  | bool b => exact ⟨_, rfl, rfl⟩
  | npBool b => exact ⟨_, rfl, rfl⟩
  | str s => exact ⟨_, rfl, rfl⟩
  | none => exact ⟨_, rfl, rfl⟩
  | list l =>
    simp only [Savable] at hs
    obtain ⟨p, hp, hq⟩ := list_round_trip (r := r) h1 hd hext l hs (by simpa only [NoFnInDict, NoFn] using hn)
    exact ⟨.list p, by simp only [toProto, hp], by simp only [fromProto, hq, expected]⟩
  | dict l =>
    simp only [Savable] at hs
    have hn : NoFnFields l := by simpa only [NoFnInDict, NoFn, ← or_and_right, or_iff_right_of_imp And.right] using hn
    obtain ⟨p, hp, hq⟩ := dict_round_trip h1 hd hext l hs hn
    exact ⟨.dict p, by simp only [toProto, hp], by simp only [fromProto, hq, expected]⟩
  | dist c l =>
    simp only [Savable] at hs
    have hn : NoFnInDictFields l := by simpa only [NoFnInDict, NoFn, or_iff_right_of_imp And.right] using hn
    obtain ⟨p, hp, hq⟩ := params_round_trip h1 hd hext l hs.2 hn
    exact ⟨.dist c p, by simp only [toProto, hp, if_pos hs.1],
      by simp only [fromProto, hq, expected, if_pos hs.1]⟩
  | bij c l =>
    simp only [Savable] at hs
    have hn : NoFnInDictFields l := by simpa only [NoFnInDict, NoFn, or_iff_right_of_imp And.right] using hn
    obtain ⟨p, hp, hq⟩ := params_round_trip h1 hd hext l hs.2 hn
    exact ⟨.bij c p, by simp only [toProto, hp, if_pos hs.1],
      by simp only [fromProto, hq, expected, if_pos hs.1]⟩
  | reparam b => exact ⟨_, rfl, rfl⟩
  | fn f =>
    simp only [Savable] at hs
    rcases hn with ⟨rfl, -⟩ | hn
    · simpa only [toProto, expected] using function_round_trip h1 hd hext hs
    · simp only [NoFn] at hn
  | other a =>
    simp only [Savable] at hs
    obtain ⟨x, rfl, p, hp, hq⟩ := hs
    exact ⟨.tensor p, by simp only [toProto, hp], by simp only [fromProto, hq, expected]⟩

theorem list_round_trip {cls : Cls} {param r : String} (h1 : OneObject env reg) (hd : IsDict reg.items)
    (hext : ∀ k f, reg.items.lookup k = some f → reg'.items.lookup k = some f) (l : Vals A)
    (hs : SavableList Eq (ReadsAs env tensor) env reg cls param l)
    (hn : r = param ∧ NoFnInDictList l ∨ NoFnList l) :
    ∃ p, listProto env reg cls param l = .ok p ∧ listOf env reg' cls r p =
      .ok (expectedList (fun x => env.toFloat (env.round32 x)) tensor l) := by
  cases l with
  | nil => exact ⟨_, rfl, rfl⟩
  | cons v l =>
    simp only [SavableList] at hs
    simp only [NoFnInDictList, NoFnList] at hn
    obtain ⟨p, hp, hq⟩ := value_round_trip (r := r) h1 hd hext v hs.1 (hn.imp (fun h => ⟨h.1, h.2.1⟩) (·.1))
    obtain ⟨ps, hps, hqs⟩ := list_round_trip (r := r) h1 hd hext l hs.2 (hn.imp (fun h => ⟨h.1, h.2.2⟩) (·.2))
    exact ⟨.cons p ps, by simp only [listProto, hp, hps], by simp only [listOf, hq, hqs, expectedList]⟩

theorem dict_round_trip {cls : Cls} {param : String} (h1 : OneObject env reg) (hd : IsDict reg.items)
    (hext : ∀ k f, reg.items.lookup k = some f → reg'.items.lookup k = some f) (l : Fields A)
    (hs : SavableDict Eq (ReadsAs env tensor) env reg cls param l) (hn : NoFnFields l) :
    ∃ p, dictProto env reg cls param l = .ok p ∧ fieldsOf env reg' cls p =
      .ok (expectedFields (fun x => env.toFloat (env.round32 x)) tensor l) := by
  cases l with
  | nil => exact ⟨_, rfl, rfl⟩
  | cons k v l =>
    simp only [SavableDict] at hs
    simp only [NoFnFields] at hn
    obtain ⟨p, hp, hq⟩ := value_round_trip (r := k) h1 hd hext v hs.1 (Or.inr hn.1)
    obtain ⟨ps, hps, hqs⟩ := dict_round_trip h1 hd hext l hs.2 hn.2
    exact ⟨.cons k p ps, by simp only [dictProto, hp, hps],
      by simp only [fieldsOf, hq, hqs, expectedFields]⟩

theorem params_round_trip {cls : Cls} (h1 : OneObject env reg) (hd : IsDict reg.items)
    (hext : ∀ k f, reg.items.lookup k = some f → reg'.items.lookup k = some f) (l : Fields A)
    (hs : SavableParams Eq (ReadsAs env tensor) env reg cls l) (hn : NoFnInDictFields l) :
    ∃ p, paramsProto env reg cls l = .ok p ∧ fieldsOf env reg' cls p =
      .ok (expectedFields (fun x => env.toFloat (env.round32 x)) tensor l) := by
  cases l with
  | nil => exact ⟨_, rfl, rfl⟩
  | cons k v l =>
    simp only [SavableParams] at hs
    simp only [NoFnInDictFields] at hn
    obtain ⟨p, hp, hq⟩ := value_round_trip (r := k) h1 hd hext v hs.1 (Or.inl ⟨rfl, hn.1⟩)
    obtain ⟨ps, hps, hqs⟩ := params_round_trip h1 hd hext l hs.2 hn.2
    exact ⟨.cons k p ps, by simp only [paramsProto, hp, hps],
      by simp only [fieldsOf, hq, hqs, expectedFields]⟩

end

end values

/-! ### The container -/

theorem lookup_of_fun {β : Type} {l : List (String × β)} {f : String → β}
    (h : ∀ e ∈ l, e.2 = f e.1) {x : String} (hx : x ∈ l.map Prod.fst) : l.lookup x = some (f x) := by
  induction l with
  | nil => simp at hx
  | cons e rest ih =>
    obtain ⟨k, v⟩ := e
    rw [List.lookup_cons]
    by_cases hk : x = k
    · subst hk
      have := h _ List.mem_cons_self
      simp only at this
      simp [this]
    · have : (x == k) = false := by simpa using hk
      rw [this]
      refine ih (fun e he => h e (List.mem_cons_of_mem _ he)) ?_
      simpa [hk] using hx

theorem hashes_exist (hash : String → String) {items : List (String × Fn)}
    (h : ∀ e ∈ items, e.2.source.isSome) : ∃ l, Registry.hashes hash items = .ok l := by
  induction items with
  | nil => exact ⟨[], rfl⟩
  | cons e rest ih =>
    obtain ⟨l, hl⟩ := ih fun e he => h e (List.mem_cons_of_mem _ he)
    obtain ⟨src, hs⟩ := Option.isSome_iff_exists.1 (h e List.mem_cons_self)
    refine ⟨(e.1, hash src) :: l, ?_⟩
    rw [Registry.Props.hashes_ok_iff] at hl ⊢
    exact .cons ⟨rfl, src, hs, rfl⟩ hl

section container

variable {env : Env A P} {reg reg' : Reg} {tensor : A → A} {hash : String → String}
  {prior : String → Prior A}

/-- What a prior becomes: the same class with the expected parameters. -/
def back (env : Env A P) (tensor : A → A) (d : Prior A) : Prior A :=
  ⟨d.cls, expectedFields (fun x => env.toFloat (env.round32 x)) tensor d.params⟩

theorem dist_round_trip (h1 : OneObject env reg) (hd : IsDict reg.items)
    (hext : ∀ k f, reg.items.lookup k = some f → reg'.items.lookup k = some f) {d : Prior A}
    (hk : env.known (.dist d.cls) = true)
    (hs : SavableParams Eq (ReadsAs env tensor) env reg (.dist d.cls) d.params)
    (hn : NoFnInDictFields d.params) :
    ∃ p, distProto env reg d = .ok p ∧ distOf env reg' p.1 p.2 = .ok (back env tensor d) := by
  obtain ⟨p, hp, hq⟩ := params_round_trip h1 hd hext d.params hs hn
  refine ⟨(d.cls, p), ?_, ?_⟩
  · simp only [distProto, if_pos hk, hp]
  · simp only [distOf, if_pos hk, hq, back]

theorem savePriors_spec {g : String → String × PFields P}
    (hg : ∀ x ∈ priorFields, distProto env reg (prior x) = .ok (g x)) (xs : List String) :
    savePriors env reg prior xs = .ok ((xs.filter (· ∈ priorFields)).map fun x => (x, g x)) := by
  induction xs with
  | nil => rfl
  | cons x rest ih =>
    unfold savePriors
    by_cases hx : x ∈ priorFields
    · rw [if_pos hx, hg x hx]
      simp [ih, hx]
    · rw [if_neg hx, ih]
      simp [hx]

theorem loadPriors_spec {g : String → String × PFields P} {v : String → Prior A} {force : Bool}
    {s : Saved P}
    (hval : force = false → Registry.validate hash reg' s.hashes = .ok ())
    (hsome : ∀ x ∈ priorFields, s.priors.lookup x = some (g x))
    (hnone : ∀ x, x ∉ priorFields → s.priors.lookup x = none)
    (hg : ∀ x ∈ priorFields, distOf env reg' (g x).1 (g x).2 = .ok (v x)) (xs : List String) :
    loadPriors hash env reg' force s xs =
      .ok ((xs.filter (fun x => x ∈ messageFields ∧ x ∈ priorFields)).map fun x => (x, v x)) := by
  have hv : (if force = true then .ok () else Registry.validate hash reg' s.hashes) = .ok () := by
    cases force
    · simpa using hval rfl
    · simp
  induction xs with
  | nil => rfl
  | cons x rest ih =>
    unfold loadPriors
    by_cases hm : x ∈ messageFields
    · rw [if_pos hm]
      by_cases hx : x ∈ priorFields
      · rw [hsome x hx]
        simp only [hv, hg x hx, ih]
        simp [hm, hx]
      · rw [hnone x hx]
        simp only [ih]
        simp [hx]
    · rw [if_neg hm, ih]
      simp [hm]

/-- C53: saved priors come back, in full: every field of the container is the same distribution, of
the same class, with the expected parameters. The functions registered at loading may be more. -/
theorem priors_round_trip (h1 : OneObject env reg) (hd : IsDict reg.items)
    (hext : ∀ k f, reg.items.lookup k = some f → reg'.items.lookup k = some f)
    (hc : reg.cache = none) (hsrc : ∀ e ∈ reg.items, e.2.source.isSome)
    (hk : ∀ x ∈ priorFields, env.known (.dist (prior x).cls) = true)
    (hs : ∀ x ∈ priorFields,
      SavableParams Eq (ReadsAs env tensor) env reg (.dist (prior x).cls) (prior x).params)
    (hn : ∀ x ∈ priorFields, NoFnInDictFields (prior x).params)
    (force : Bool) (defaults : String → Prior A) :
    ∃ s r loaded, save hash env reg prior = .ok (s, r) ∧
      load hash env reg' force defaults s = .ok loaded ∧
      ∀ x ∈ priorFields, (loaded x).cls = (prior x).cls ∧
        (loaded x).params =
          expectedFields (fun y => env.toFloat (env.round32 y)) tensor (prior x).params := by
  have hg : ∀ x, ∃ p : String × PFields P, x ∈ priorFields →
      distProto env reg (prior x) = .ok p ∧
        distOf env reg' p.1 p.2 = .ok (back env tensor (prior x)) := by
    intro x
    by_cases hx : x ∈ priorFields
    · obtain ⟨p, hp⟩ := dist_round_trip h1 hd hext (hk x hx) (hs x hx) (hn x hx)
      exact ⟨p, fun _ => hp⟩
    · exact ⟨("", .nil), fun h => absurd h hx⟩
  choose g hg using hg
  obtain ⟨l, hl⟩ := hashes_exist hash hsrc
  have hreg : Registry.hashedRegistry hash reg = .ok (l, { reg with cache := some l }) := by
    simp [Registry.hashedRegistry, hc, hl]
  have hsave : save hash env reg prior =
      .ok (⟨(allParameters.filter (· ∈ priorFields)).map fun x => (x, g x), l⟩,
        { reg with cache := some l }) := by
    unfold save
    rw [savePriors_spec (fun x hx => (hg x hx).1)]
    simp only [hreg]
  have hall : ∀ x ∈ priorFields, x ∈ allParameters := by decide
  have hmsg : ∀ x ∈ priorFields, x ∈ messageFields := by decide
  refine ⟨_, _, fun x => (((allParameters.filter (fun x => x ∈ messageFields ∧ x ∈ priorFields)).map
    fun x => (x, back env tensor (prior x))).lookup x).getD (defaults x), hsave, ?_, ?_⟩
  · unfold load
    rw [loadPriors_spec (g := g) (v := fun x => back env tensor (prior x))]
    · intro _
      rw [Registry.Props.saved_accepted_iff hd hc hreg]
      intro k f hf
      obtain ⟨src, h⟩ := Option.isSome_iff_exists.1 (hsrc _ (Registry.Props.mem_of_lookup hf))
      exact ⟨src, h, f, src, hext k f hf, h, rfl⟩
    · intro x hx
      refine lookup_of_fun ?_ ?_
      · simp only [List.mem_map, forall_exists_index, and_imp]
        rintro _ y - rfl
        rfl
      · simpa [hx] using hall x hx
    · intro x hx
      rw [List.lookup_eq_none_iff]
      simp only [List.mem_map, List.mem_filter, forall_exists_index, and_imp]
      rintro _ y - hy rfl
      simp only [decide_eq_true_eq] at hy
      simp only [bne_iff_ne, ne_eq]
      rintro rfl
      exact hx hy
    · exact fun x hx => (hg x hx).2
  · intro x hx
    beta_reduce
    rw [lookup_of_fun (f := fun x => back env tensor (prior x))]
    · exact ⟨rfl, rfl⟩
    · simp only [List.mem_map, forall_exists_index, and_imp]
      rintro _ y - rfl
      rfl
    · simpa [hx, hmsg x hx] using hall x hx

end container

/-! ### A concrete case and limits -/

/-- A user-defined function. -/
def myMatmul : Fn := ⟨1, some "def my_matmul(a, b): ..."⟩

/-- A default of the library. -/
def defaultFn : Fn := ⟨2, some "def default(x): ..."⟩

/-- A backend with three classes; arrays are lists of numbers. -/
def env0 : Env (List ℚ) (List ℚ) where
  known c := c ∈ [.dist "LogNormal", .dist "TransformedDistribution", .bij "Shift"]
  default c x :=
    if c = .dist "LogNormal" then
      if x = "experimental_fn" then some (.fn defaultFn)
      else if x ∈ ["loc", "scale", "validate_args", "name", "fns"] then some .none else none
    else if c = .dist "TransformedDistribution" then
      if x ∈ ["distribution", "bijector", "name"] then some .none else none
    else if x = "shift" then some .none else none
  round32 x := (⌊x * 2 ^ 20⌋ : ℤ) / 2 ^ 20
  toFloat x := x
  make a := some a
  read p := some p

/-- The registry of the example. -/
def reg0 : Reg := ⟨[("matmul", myMatmul)], none⟩

/-- A shifted log-normal prior. -/
def shifted : Prior (List ℚ) :=
  ⟨"TransformedDistribution",
    .cons "distribution" (.dist "LogNormal"
      (.cons "loc" (.float (1 / 5)) (.cons "scale" (.other (some [1, 2]))
        (.cons "experimental_fn" (.fn defaultFn) (.cons "fns" (.list (.cons (.fn myMatmul) .nil))
          (.cons "validate_args" (.bool false) .nil))))))
      (.cons "bijector" (.bij "Shift" (.cons "shift" (.int 3) .nil))
        (.cons "name" (.str "prior") .nil))⟩

theorem reg0_oneObject : OneObject env0 reg0 := by
  have key : ∀ f, OneObject.InPlay env0 reg0 f → f = myMatmul ∨ f = defaultFn := by
    rintro f (⟨e, he, rfl⟩ | ⟨c, x, h⟩)
    · simp only [reg0, List.mem_singleton] at he
      subst he
      exact Or.inl rfl
    · right
      simp only [env0] at h
      split_ifs at h <;> simp_all
  rintro f g hf hg h
  rcases key f hf with rfl | rfl <;> rcases key g hg with rfl | rfl
  · rfl
  · cases h
  · cases h
  · rfl

/-- The hypotheses of `priors_round_trip` are met, with every prior the shifted log-normal. -/
example : ∃ s r loaded, save id env0 reg0 (fun _ => shifted) = .ok (s, r) ∧
    load id env0 reg0 false (fun _ => ⟨"LogNormal", .nil⟩) s = .ok loaded ∧
    ∀ x ∈ priorFields, (loaded x).cls = "TransformedDistribution" ∧
      (loaded x).params =
        expectedFields (fun y => env0.toFloat (env0.round32 y)) id shifted.params := by
  refine priors_round_trip (hash := id) (tensor := id) reg0_oneObject (by unfold IsDict; decide)
    (fun _ _ h => h) rfl (by decide) (fun _ _ => by decide) (fun _ _ => ?_) (fun _ _ => ?_) false _
  · simp [shifted, Savable, SavableParams, SavableList, SavableFn, ReadsAs, env0, reg0]
  · simp [shifted, NoFnInDictFields, NoFnInDict, NoFnInDictList]

/-- Numbers are kept to 32 bits only. -/
example : fromProto env0 reg0 (.dist "LogNormal") "loc" (.scalar (env0.round32 (1 / 5))) =
    .ok (.float (209715 / 1048576)) := by
  simp only [fromProto, env0]
  norm_num

/-- An integer beyond 32 bits, such as a large prior bound, cannot be saved. -/
theorem large_int_not_saved (env : Env A P) (reg : Reg) (cls : Cls) (param : String) {n : ℤ}
    (h : 2 ^ 31 ≤ n) : toProto env reg cls param (.int n) = .error .intRange := by
  simp only [toProto]
  rw [if_neg]
  omega

/-- A function that is neither the default of its parameter nor registered cannot be saved, and the
error says so. -/
theorem unregistered_not_saved (env : Env A P) (reg : Reg) (cls : Cls) (param : String) (f : Fn)
    (hp : (env.default cls param).isSome)
    (hd : ∀ g, env.default cls param = some (.fn g) → g.ident ≠ f.ident)
    (hr : ∀ e ∈ reg.items, e.2.ident ≠ f.ident) :
    toProto env reg cls param (.fn f) = .error .notRegistered := by
  have hk : Registry.functionKey reg f = none := by
    cases h : Registry.functionKey reg f with
    | none => rfl
    | some k =>
      obtain ⟨e, he, hi⟩ := Registry.Props.functionKey_isSome.1 (by rw [h]; rfl)
      exact absurd hi (hr e he)
  simp only [toProto, functionProto, isDefault]
  cases hv : env.default cls param with
  | none => rw [hv] at hp; cases hp
  | some v =>
    cases v with
    | fn g => simp [hd g hv, hk]
    | _ => simp [hk]

/-- The default function of a parameter inside a dictionary is saved but cannot be loaded: the key in
the dictionary is taken for the name of the parameter. -/
theorem default_in_dict_lost :
    ∃ p, toProto env0 reg0 (.dist "LogNormal") "experimental_fn"
        (.dict (.cons "inner" (.fn defaultFn) .nil)) = .ok p ∧
      fromProto env0 reg0 (.dist "LogNormal") "experimental_fn" p = .error .noSuchParameter :=
  ⟨.dict (.cons "inner" (.usesDefault true) .nil), by
    simp [toProto, dictProto, functionProto, isDefault, env0], by
    simp [fromProto, fieldsOf, functionOf, env0]⟩

/-- A tuple of distributions, as the parameter of an independent multivariate distribution, cannot be
saved (a list can). -/
theorem tuple_not_saved (env : Env A P) (reg : Reg) (cls : Cls) (param : String) :
    toProto env reg cls param (.other none) = .error .unsupported := rfl

end Verif.DistSerde.Props
