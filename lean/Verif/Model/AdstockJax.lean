import Verif.Model.Adstock

/-!
# The JAX adstock processes

`meridian/backend/__init__.py:949-1045`.  Tensors are index functions together with their
dimensions; a `Buffer` is the row-major storage that `reshape` reinterprets.  All batch dimensions
are merged into one (row-major) batch index.
-/

namespace Verif.Adstock.Jax

/-- Row-major storage of a tensor. -/
abbrev Buffer := ℕ → ℝ

/-- Row-major buffer of a tensor with trailing dimensions `d2, d3, d4`. -/
def toBuffer (d2 d3 d4 : ℕ) (f : ℕ → ℕ → ℕ → ℕ → ℝ) : Buffer := fun k =>
  f (k / (d2 * d3 * d4)) (k / (d3 * d4) % d2) (k / d4 % d3) (k % d4)

/-- A rank-4 view with trailing dimensions `d2, d3, d4` of a buffer. -/
def view4 (d2 d3 d4 : ℕ) (buf : Buffer) (i j k l : ℕ) : ℝ := buf (((i * d2 + j) * d3 + k) * d4 + l)

/-- A rank-2 view (a leading or middle dimension of size 1 does not change the layout). -/
def view2 (d : ℕ) (buf : Buffer) (i j : ℕ) : ℝ := buf (i * d + j)

/-- `conv_general_dilated` with `NCH/OIH/NCH` layout, unit strides and dilations, `VALID` padding
and one feature group per channel: a sliding dot product (no kernel flip) per channel.
`meridian/backend/__init__.py:999-1009`. -/
noncomputable def conv (W : ℕ) (lhs kernel : ℕ → ℕ → ℝ) (k t : ℕ) : ℝ :=
  ((List.range W).map fun i => lhs k (t + i) * kernel k i).sum

/-- `_jax_adstock_process_conv`, `meridian/backend/__init__.py:949-1019`.
`media` is `none`-batched (`inl`, shape `(G, T, C)`) or has the batch dimension of the weights
(`inr`, shape `(B, G, T, C)`); `weights` has shape `(B, C, W)`.  The result has shape
`(B, G, min n_times_output (T - W + 1), C)`. -/
noncomputable def convProcess (G T C W : ℕ)
    (media : (ℕ → ℕ → ℕ → ℝ) ⊕ (ℕ → ℕ → ℕ → ℕ → ℝ)) (weights : ℕ → ℕ → ℕ → ℝ)
    (b g t c : ℕ) : ℝ :=
  -- broadcast_to, lines 971-973
  let media4 : ℕ → ℕ → ℕ → ℕ → ℝ := match media with
    | .inl m => fun _ => m
    | .inr m => m
  -- transpose and reshape, lines 980-983
  let mediaReshaped := view2 T (toBuffer G C T fun b g c t => media4 b g t c)
  -- expand, tile and reshape the kernel, lines 986-993
  let kernel := view2 W (toBuffer G C W fun b _ c w => weights b c w)
  let out := conv W mediaReshaped kernel
  -- reshape back and transpose, lines 1011-1017
  let tOut := T - W + 1
  let outBuffer : Buffer := fun k => out (k / tOut) (k % tOut)
  view4 G C tOut outBuffer b g c t

end Verif.Adstock.Jax
