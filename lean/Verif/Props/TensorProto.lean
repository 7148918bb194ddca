import Verif.Spec.TensorProto
import Mathlib.Tactic.Ring
import Mathlib.Tactic.Linarith

/-!
# Tensor messages keep arrays
-/

namespace Verif.TensorProto.Props

open Verif.TensorProto Verif.TensorProto.Spec

theorem toBytes_length (k n : ℕ) : (toBytes k n).length = k := by
  induction k generalizing n with
  | zero => rfl
  | succ k ih => simp [toBytes, ih]

theorem ofBytes_toBytes (k n : ℕ) (h : n < 256 ^ k) : ofBytes (toBytes k n) = n := by
  induction k generalizing n with
  | zero => simp only [pow_zero] at h; simp only [toBytes, ofBytes]; omega
  | succ k ih =>
    have h1 : n / 256 < 256 ^ k := by
      rw [pow_succ] at h
      exact Nat.div_lt_of_lt_mul (by linarith)
    simp only [toBytes, ofBytes, ih _ h1, UInt8.toNat_ofNat']
    omega

theorem chunks_cons {k : ℕ} (hk : 0 < k) (b l : List UInt8) (hb : b.length = k) :
    chunks k (b ++ l) = b :: chunks k l := by
  unfold chunks
  have e : (b ++ l).length / k = l.length / k + 1 := by
    rw [List.length_append, hb, Nat.add_comm, Nat.add_div_right _ hk]
  rw [e, List.range_succ_eq_map, List.map_cons, List.map_map]
  refine congrArg₂ _ ?_ ?_
  · simp [← hb]
  · apply List.map_congr_left
    intro i _
    simp only [Function.comp_apply]
    have : (i.succ) * k = k + i * k := by rw [Nat.succ_mul, Nat.add_comm]
    rw [this, ← List.drop_drop]
    congr 2
    rw [← hb, List.drop_left]

theorem chunks_flatMap {k : ℕ} (hk : 0 < k) (l : List Elem) (f : Elem → List UInt8)
    (hf : ∀ x ∈ l, (f x).length = k) : chunks k (l.flatMap f) = l.map f := by
  induction l with
  | nil => simp [chunks]
  | cons x l ih =>
    rw [List.flatMap_cons, chunks_cons hk _ _ (hf x (by simp)),
      ih fun y hy => hf y (List.mem_cons_of_mem _ hy), List.map_cons]

theorem flatMap_length {k : ℕ} (l : List Elem) (f : Elem → List UInt8)
    (hf : ∀ x ∈ l, (f x).length = k) : (l.flatMap f).length = l.length * k := by
  induction l with
  | nil => simp
  | cons x l ih =>
    rw [List.flatMap_cons, List.length_append, hf x (by simp),
      ih fun y hy => hf y (List.mem_cons_of_mem _ hy), List.length_cons]
    ring

/-- The items are as large as numpy's. -/
theorem size_bits (d : DType) : 256 ^ d.size = 2 ^ bits d := by
  cases d <;> rfl

/-- Bytes of an array of numbers are read back. -/
theorem frombuffer_tobytes {d : DType} (hd : Numeric d) {l : List Elem} (hl : ∀ x ∈ l, ElemOf d x) :
    frombuffer d.size (fun b => .bits (ofBytes b)) (l.flatMap (elemBytes d.size)) = .ok l := by
  have hk : 0 < d.size := by
    obtain ⟨h1, h2, h3⟩ := hd
    cases d <;> first | decide | contradiction
  have hb : ∀ x ∈ l, ∃ n, x = .bits n ∧ n < 256 ^ d.size := by
    intro x hx
    have := hl x hx
    cases x with
    | bits n => exact ⟨n, rfl, by rw [size_bits]; exact this.2.2.2⟩
    | bytes s => exact absurd this hd.1
    | text s => exact absurd this hd.2.1
  have hlen : ∀ x ∈ l, (elemBytes d.size x).length = d.size := by
    intro x hx
    obtain ⟨n, rfl, -⟩ := hb x hx
    exact toBytes_length _ _
  unfold frombuffer
  rw [if_neg, chunks_flatMap hk _ _ hlen, List.map_map]
  · congr 1
    conv_rhs => rw [← List.map_id l]
    apply List.map_congr_left
    intro x hx
    obtain ⟨n, rfl, hn⟩ := hb x hx
    simp [elemBytes, ofBytes_toBytes _ _ hn]
  · rw [flatMap_length _ _ hlen]
    simp only [Nat.mul_mod_left, ne_eq, not_true_eq_false, or_false]
    omega

theorem tobytes_ne_nil {d : DType} (hd : Numeric d) {l : List Elem} (hl : ∀ x ∈ l, ElemOf d x)
    (hne : l ≠ []) : l.flatMap (elemBytes d.size) ≠ [] := by
  cases l with
  | nil => exact absurd rfl hne
  | cons x l =>
    intro h
    rw [List.flatMap_cons, List.append_eq_nil_iff] at h
    have := hl x (by simp)
    cases x with
    | bits n =>
      have h1 := congrArg List.length h.1
      simp only [elemBytes, toBytes_length, List.length_nil] at h1
      obtain ⟨h2, h3, h4⟩ := hd
      cases d <;> contradiction
    | bytes s => exact hd.1 this
    | text s => exact hd.2.1 this

theorem arrayType_protoType {d : DType} (hd : Numeric d) {t : PType} (h : protoType d = some t) :
    arrayType t = some d ∧ t ≠ .string := by
  obtain ⟨h2, h3, h4⟩ := hd
  cases d <;> cases h <;> first | contradiction | exact ⟨rfl, by decide⟩

theorem reshape_self {a : Arr} (h : a.data.length = a.shape.prod) :
    reshape a.dtype a.data a.shape = .ok a := by
  unfold reshape; rw [if_pos h]

theorem readContent_make {a : Arr} (hw : WellFormed a) (hd : Numeric a.dtype) (p : Proto)
    (hs : p.shape = a.shape) (hc : p.content = a.data.flatMap (elemBytes a.dtype.size)) :
    readContent p a.dtype = .ok a := by
  unfold readContent
  rw [if_neg hd.1, hc, frombuffer_tobytes hd hw.elems, hs]
  exact reshape_self hw.size

/-- Arrays of numbers and booleans come back unchanged, but for those listed in `Lost`: these
cannot be read. -/
theorem numbers_round_trip {a : Arr} (hw : WellFormed a) (hd : Numeric a.dtype) :
    ∃ p, make a = .ok p ∧ (¬ Lost a → read p = .ok a) ∧ (Lost a → ∃ e, read p = .error e) := by
  obtain ⟨t, ht⟩ : ∃ t, protoType a.dtype = some t := by
    obtain ⟨h2, h3, h4⟩ := hd
    cases hh : a.dtype <;> first | exact ⟨_, rfl⟩ | exact absurd hh (by assumption)
  obtain ⟨hat, hts⟩ := arrayType_protoType hd ht
  unfold make
  rw [ht]
  simp only
  by_cases hbig : 1 < a.data.length
  · rw [if_pos ⟨hts, hbig⟩]
    refine ⟨_, rfl, fun _ => ?_, fun hl => ?_⟩
    · have hne := tobytes_ne_nil hd hw.elems (by intro h; rw [h] at hbig; simp at hbig)
      unfold read
      simp only [hat]
      rw [if_pos hne]
      exact readContent_make hw hd _ rfl rfl
    · exfalso
      rcases hl with ⟨-, h⟩ | ⟨-, h, -⟩
      · omega
      · rw [h] at hbig; simp at hbig
  · rw [if_neg (fun h => hbig h.2)]
    -- the case of one element written as bytes
    have hcontent : a.dtype ∉ common → a.dtype ≠ .u32 → a.dtype ≠ .u64 →
        ∃ p : Proto, (Except.ok (Proto.mk t a.shape (a.data.flatMap (elemBytes a.dtype.size))
            [] [] [] [] [] [] [] []) : Except Err Proto) = .ok p ∧
          (¬ Lost a → read p = .ok a) ∧ (Lost a → ∃ e, read p = .error e) := by
      intro hc h32 h64
      refine ⟨_, rfl, fun hl => ?_, fun hl => ?_⟩
      · unfold read
        simp only [hat]
        by_cases hnil : a.data = []
        · rw [if_neg (by simp [hnil])]
          have hall : (a.shape.all fun n => decide (n = 0)) = true := by
            rw [List.all_eq_true]
            intro n hn
            by_contra h0
            exact hl (Or.inr ⟨hc, hnil, n, hn, by simpa using h0⟩)
          have hr : reshape a.dtype [] a.shape = .ok a := by
            have := reshape_self hw.size
            rwa [hnil] at this
          clear hat ht hts
          cases hdt : a.dtype <;>
            first
            | (exfalso; rw [hdt] at hc; exact hc (by decide))
            | (simp only [ne_eq, not_true_eq_false, if_false, hall, if_true]; rw [← hdt]; exact hr)
        · rw [if_pos (tobytes_ne_nil hd hw.elems hnil)]
          exact readContent_make hw hd _ rfl rfl
      · rcases hl with ⟨h | h, -⟩ | ⟨-, hnil, n, hn, hn0⟩
        · exact absurd h h32
        · exact absurd h h64
        · unfold read
          simp only [hat]
          rw [if_neg (by simp [hnil])]
          have hall : (a.shape.all fun n => decide (n = 0)) = false := by
            rw [List.all_eq_false]
            exact ⟨n, hn, by simpa using hn0⟩
          clear hat ht hts
          cases hdt : a.dtype <;>
            first
            | (exfalso; rw [hdt] at hc; exact hc (by decide))
            | (simp only [ne_eq, not_true_eq_false, if_false, hall]; exact ⟨_, rfl⟩)
    -- the common dtypes
    have hcommon : a.dtype ∈ common → ¬ Lost a := by
      intro hc hl
      rcases hl with ⟨h | h, -⟩ | ⟨h, -⟩
      · rw [h] at hc; revert hc; decide
      · rw [h] at hc; revert hc; decide
      · exact h hc
    -- unsigned integers
    have hunsigned : ∀ p : Proto, (a.dtype = .u32 ∨ a.dtype = .u64) → p.dtype = t →
        p.shape = a.shape → p.content = [] → p.stringVal = [] →
        (¬ Lost a → read p = .ok a) ∧ (Lost a → ∃ e, read p = .error e) := by
      intro p hu hp hsh hcn hsv
      have hread : read p = if a.shape.all (fun n => decide (n = 0)) then reshape a.dtype [] a.shape
          else .error .unsupported := by
        unfold read
        rw [hp, hat]
        simp only [hcn, hsv, hsh]
        rcases hu with h | h <;> rw [h] <;> simp
      rw [hread]
      have hlen : a.data.length = 0 ∨ a.data.length = 1 := by omega
      constructor
      · intro hl
        rcases hlen with h0 | h1
        · have hnil : a.data = [] := List.length_eq_zero_iff.1 h0
          have hall : (a.shape.all fun n => decide (n = 0)) = true := by
            rw [List.all_eq_true]
            intro n hn
            by_contra hn0
            refine hl (Or.inr ⟨?_, hnil, n, hn, by simpa using hn0⟩)
            rcases hu with h | h <;> rw [h] <;> decide
          rw [if_pos hall]
          have := reshape_self hw.size
          rwa [hnil] at this
        · exact absurd (Or.inl ⟨hu, h1⟩) hl
      · intro hl
        by_cases hall : (a.shape.all fun n => decide (n = 0)) = true
        · rw [if_pos hall]
          rcases hl with ⟨-, h1⟩ | ⟨-, -, n, hn, hn0⟩
          · unfold reshape
            rw [if_neg]
            · exact ⟨_, rfl⟩
            · rw [← hw.size, h1]; simp
          · rw [List.all_eq_true] at hall
            exact absurd (by simpa using hall n hn) hn0
        · rw [if_neg hall]
          exact ⟨_, rfl⟩
    have hself := reshape_self hw.size
    cases hdt : a.dtype <;> rw [hdt] at ht <;> cases ht <;>
      first
      | exact absurd rfl hts
      | (simp only
         refine ⟨_, rfl, fun _ => ?_, fun hl => absurd hl (hcommon (by rw [hdt]; decide))⟩
         unfold read
         simp only [arrayType, ne_eq, not_true_eq_false, if_false]
         rw [← hdt]
         exact hself)
      | (simp only
         refine ⟨_, rfl, hunsigned _ (by simp [hdt]) rfl rfl rfl rfl⟩)
      | (have := hcontent (by rw [hdt]; decide) (by rw [hdt]; decide) (by rw [hdt]; decide)
         rw [hdt] at this
         exact this)

/-- An array is written exactly if its dtype is supported. -/
theorem written_iff (a : Arr) : (∃ p, make a = .ok p) ↔ a.dtype ≠ .other := by
  unfold make
  cases hd : a.dtype <;> simp only [protoType] <;> (try split_ifs) <;> simp

/-- Strings come back as bytes in UTF-8. -/
theorem strings_become_bytes {a : Arr} (hw : WellFormed a) (hd : a.dtype = .text ∨ a.dtype = .bytes)
    (hne : a.data ≠ []) :
    ∃ p, make a = .ok p ∧
      read p = .ok { dtype := .bytes, shape := a.shape, data := a.data.map fun x => .bytes (encodeString x) } := by
  have ht : protoType a.dtype = some .string := by rcases hd with h | h <;> rw [h] <;> rfl
  unfold make
  rw [ht]
  simp only [ne_eq, not_true_eq_false, false_and, if_false]
  refine ⟨_, rfl, ?_⟩
  unfold read
  simp only [arrayType, ne_eq, not_true_eq_false, if_false]
  rw [if_pos (by simpa using hne)]
  unfold reshape
  rw [if_pos (by simpa using hw.size), List.map_map]
  rfl

/-! ## Examples -/

/-- A matrix of 32 bit floats. -/
def matrix0 : Arr := ⟨.f32, [2, 1], [.bits 1065353216, .bits 1073741824]⟩
/-- A single unsigned integer. -/
def one0 : Arr := ⟨.u32, [1], [.bits 7]⟩
/-- An empty table of bytes. -/
def empty0 : Arr := ⟨.u8, [0, 3], []⟩

example : WellFormed matrix0 ∧ Numeric matrix0.dtype ∧ ¬ Lost matrix0 := by
  refine ⟨⟨rfl, ?_⟩, ?_, ?_⟩
  · simp [matrix0, ElemOf, bits]
  · exact ⟨by decide, by decide, by decide⟩
  · simp [Lost, matrix0]
example : (match make matrix0 with | .ok p => p.content | .error _ => []) =
    [0, 0, 128, 63, 0, 0, 0, 64] := by decide +kernel
example : Lost one0 ∧ Lost empty0 := by
  refine ⟨Or.inl ⟨Or.inl rfl, rfl⟩, Or.inr ⟨by decide, rfl, 3, ?_, by decide⟩⟩
  simp [empty0]
example : WellFormed one0 ∧ WellFormed empty0 :=
  ⟨⟨rfl, by simp [one0, ElemOf, bits]⟩, ⟨rfl, by simp [empty0]⟩⟩
example : ((make one0).bind read, (make empty0).bind read) =
    (.error .unsupported, .error .unsupported) := by decide +kernel
example : (make ⟨.u32, [], [.bits 7]⟩).bind read = .error .reshape := by decide +kernel

end Verif.TensorProto.Props
