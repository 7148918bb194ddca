import Mathlib.Data.List.Basic
import Mathlib.Data.List.Dedup
import Mathlib.Data.Rat.Floor

/-!
# Array operations of the two backends

`meridian/backend/__init__.py`: `boolean_mask`, `split`, `unique_with_counts`, `get_indices_where`,
`gather` and `arange`, as the JAX and the TensorFlow backend provide them.  What the libraries do
(`jnp.moveaxis`, `jnp.split`, `jnp.take`, `tf.boolean_mask`, …) is written from their documentation.
Axes are counted from the front.
-/

namespace Verif.ArrayOps

/-- An array: its shape, and its entries by index. -/
structure Tensor (α : Type) where
  shape : List ℕ
  entry : List ℕ → α

inductive Err
  | shape
  | range
  | step
deriving DecidableEq

/-- Puts `x` at position `i`. -/
def insertAt {β : Type} (i : ℕ) (x : β) (l : List β) : List β := l.take i ++ x :: l.drop i

/-- Drops position `i`. -/
def removeAt {β : Type} (i : ℕ) (l : List β) : List β := l.take i ++ l.drop (i + 1)

/-- `jnp.moveaxis(t, src, dst)`. -/
def moveaxis {α : Type} (t : Tensor α) (src dst : ℕ) : Tensor α where
  shape := insertAt dst (t.shape.getD src 0) (removeAt src t.shape)
  entry idx := t.entry (insertAt src (idx.getD dst 0) (removeAt dst idx))

/-- All indices of an array of this shape, the last index fastest. -/
def indices : List ℕ → List (List ℕ)
  | [] => [[]]
  | n :: s => (List.range n).flatMap fun i => (indices s).map (i :: ·)

/-- `jnp.where(condition)` stacked (`_jax_get_indices_where`, `meridian/backend/__init__.py:473-477`) and
`tf.where(condition)` (lines 480-484): the indices where the condition holds, the last index fastest. -/
def indicesWhere (c : Tensor Bool) : List (List ℕ) := (indices c.shape).filter c.entry

/-- Indexing by a mask of the leading axes, `t[mask]`. -/
def maskLeading {α : Type} (t : Tensor α) (mask : Tensor Bool) : Except Err (Tensor α) :=
  if mask.shape = [] ∨ mask.shape ≠ t.shape.take mask.shape.length then .error .shape
  else .ok
    { shape := (indicesWhere mask).length :: t.shape.drop mask.shape.length
      entry := fun idx => t.entry ((indicesWhere mask).getD (idx.headD 0) [] ++ idx.tail) }

/-- `_jax_boolean_mask`, `meridian/backend/__init__.py:524-533`. -/
def jaxMask {α : Type} (t : Tensor α) (mask : Tensor Bool) (axis : ℕ) : Except Err (Tensor α) :=
  if t.shape.length ≤ axis then .error .shape
  else (maskLeading (moveaxis t axis 0) mask).map fun m => moveaxis m 0 axis

/-- `_tf_boolean_mask`, `meridian/backend/__init__.py:536-540`: `tf.boolean_mask` replaces the axes from
`axis` on that the mask has by one axis of the entries where the mask holds. -/
def tfMask {α : Type} (t : Tensor α) (mask : Tensor Bool) (axis : ℕ) : Except Err (Tensor α) :=
  if mask.shape = [] ∨ mask.shape ≠ (t.shape.drop axis).take mask.shape.length then .error .shape
  else .ok
    { shape := t.shape.take axis ++ (indicesWhere mask).length :: t.shape.drop (axis + mask.shape.length)
      entry := fun idx => t.entry
        (idx.take axis ++ (indicesWhere mask).getD (idx.getD axis 0) [] ++ idx.drop (axis + 1)) }

/-- The part `a, a + 1, …, b - 1` of an axis, cut at its length. -/
def slice {α : Type} (t : Tensor α) (axis a b : ℕ) : Tensor α where
  shape := t.shape.set axis (min b (t.shape.getD axis 0) - min a (t.shape.getD axis 0))
  entry idx := t.entry (idx.modify axis (· + min a (t.shape.getD axis 0)))

/-- Sums of the first sizes: `cumsum`. -/
def cumsum : ℕ → List ℕ → List ℕ
  | _, [] => []
  | a, s :: l => (a + s) :: cumsum (a + s) l

/-- `_jax_split` with sizes, `meridian/backend/__init__.py:487-495`: `jnp.split` at the sums of the sizes
without the last. -/
def jaxSplit {α : Type} (t : Tensor α) (sizes : List ℕ) (axis : ℕ) : Except Err (List (Tensor α)) :=
  if t.shape.length ≤ axis then .error .shape
  else
    let cuts := (cumsum 0 sizes).dropLast
    .ok (List.zipWith (fun a b => slice t axis a b) (0 :: cuts) (cuts ++ [t.shape.getD axis 0]))

/-- The parts of the given sizes one after the other. -/
def parts {α : Type} (t : Tensor α) (axis : ℕ) : ℕ → List ℕ → List (Tensor α)
  | _, [] => []
  | a, s :: l =>
    ⟨t.shape.set axis s, fun idx => t.entry (idx.modify axis (· + a))⟩ :: parts t axis (a + s) l

/-- `tf.split` with sizes: they must add up to the length of the axis. -/
def tfSplit {α : Type} (t : Tensor α) (sizes : List ℕ) (axis : ℕ) : Except Err (List (Tensor α)) :=
  if t.shape.length ≤ axis then .error .shape
  else if sizes.sum ≠ t.shape.getD axis 0 then .error .shape
  else .ok (parts t axis 0 sizes)

/-- The values of a list, each at its first place. -/
def firsts : List ℕ → List ℕ
  | [] => []
  | a :: l => a :: (firsts l).filter fun b => b ≠ a

/-- Insertion into a sorted list. -/
def insertSorted (a : ℕ) : List ℕ → List ℕ
  | [] => [a]
  | b :: l => if a ≤ b then a :: b :: l else b :: insertSorted a l

/-- `_jax_unique_with_counts`, `meridian/backend/__init__.py:507-514`: `jnp.unique` gives the values in
rising order. -/
def jaxUnique (x : List ℕ) : List (ℕ × ℕ) :=
  ((firsts x).foldr insertSorted []).map fun v => (v, x.count v)

/-- `_tf_unique_with_counts`, `meridian/backend/__init__.py:517-521`: `tf.unique_with_counts` gives the
values in the order of their first places. -/
def tfUnique (x : List ℕ) : List (ℕ × ℕ) := (firsts x).map fun v => (v, x.count v)

/-- The columns that are bad in every row, `meridian/model/context.py:291-301` and 404-411: the columns of
all places where the condition holds, their values with counts, and those counted `rows` times; the data
are the names at these positions. -/
def badColumns (unique : List ℕ → List (ℕ × ℕ)) (c : Tensor Bool) (rows : ℕ) : List ℕ :=
  ((unique ((indicesWhere c).map fun idx => idx.getD 1 0)).filter fun p => p.2 = rows).map Prod.fst

/-- `jnp.take` (`_jax_gather`, `meridian/backend/__init__.py:543-555`, for numbers): negative positions
count from the end, positions out of range give the fill value. -/
def jaxGather {α : Type} (fill : α) (t : Tensor α) (pos : List ℤ) (axis : ℕ) : Tensor α where
  shape := t.shape.set axis pos.length
  entry idx :=
    let n : ℤ := t.shape.getD axis 0
    let p := pos.getD (idx.getD axis 0) 0
    let q := if p < 0 then p + n else p
    if 0 ≤ q ∧ q < n then t.entry (idx.set axis q.toNat) else fill

/-- `tf.gather` (`_tf_gather`, `meridian/backend/__init__.py:558-562`): positions out of range are refused. -/
def tfGather {α : Type} (t : Tensor α) (pos : List ℤ) (axis : ℕ) : Except Err (Tensor α) :=
  if ∀ p ∈ pos, 0 ≤ p ∧ p < (t.shape.getD axis 0 : ℕ) then
    .ok ⟨t.shape.set axis pos.length, fun idx => t.entry (idx.set axis (pos.getD (idx.getD axis 0) 0).toNat)⟩
  else .error .range

/-- The number of values of a range: `ceil((stop - start) / step)`, at least 0. -/
def rangeLength (start stop step : ℤ) : ℕ := ⌈((stop - start : ℤ) : ℚ) / step⌉.toNat

/-- The values of a range. -/
def values (start step : ℤ) (n : ℕ) : List ℤ := (List.range n).map fun i : ℕ => start + step * (i : ℤ)

/-- `_jax_arange`, `meridian/backend/__init__.py:188-201`, for whole numbers. -/
def jaxArange (start stop step : ℤ) : Except Err (List ℤ) :=
  if step = 0 then .error .step else .ok (values start step (rangeLength start stop step))

/-- `_tf_arange`, `meridian/backend/__init__.py:204-218`, for whole numbers: `tf.range` requires the stop to
lie in the direction of the step. -/
def tfArange (start stop step : ℤ) : Except Err (List ℤ) :=
  if step = 0 ∨ (0 < step ∧ stop < start) ∨ (step < 0 ∧ start < stop) then .error .step
  else .ok (values start step (rangeLength start stop step))

end Verif.ArrayOps
