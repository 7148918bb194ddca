import Verif.Model.AdstockJax
import Verif.Lemmas.Adstock

/-!
# Both backends compute the same adstock: property C06
-/

namespace Verif.Adstock.Props

open Finset Verif.Adstock Jax

theorem toBuffer_view {d2 d3 d4 i j k l : ℕ} (f : ℕ → ℕ → ℕ → ℕ → ℝ) (hj : j < d2) (hk : k < d3)
    (hl : l < d4) : toBuffer d2 d3 d4 f (((i * d2 + j) * d3 + k) * d4 + l) = f i j k l := by
  unfold toBuffer
  have e1 : (((i * d2 + j) * d3 + k) * d4 + l) / d4 = (i * d2 + j) * d3 + k := by
    rw [mul_comm _ d4, Nat.mul_add_div (by omega), Nat.div_eq_of_lt hl, add_zero]
  have e2 : ((i * d2 + j) * d3 + k) / d3 = i * d2 + j := by
    rw [mul_comm _ d3, Nat.mul_add_div (by omega), Nat.div_eq_of_lt hk, add_zero]
  have e3 : (i * d2 + j) / d2 = i := by
    rw [mul_comm _ d2, Nat.mul_add_div (by omega), Nat.div_eq_of_lt hj, add_zero]
  have f1 : (((i * d2 + j) * d3 + k) * d4 + l) / (d3 * d4) = i * d2 + j := by
    rw [mul_comm d3 d4, ← Nat.div_div_eq_div_mul, e1, e2]
  have f2 : (((i * d2 + j) * d3 + k) * d4 + l) / (d2 * d3 * d4) = i := by
    rw [show d2 * d3 * d4 = d3 * d4 * d2 by ring, ← Nat.div_div_eq_div_mul, f1, e3]
  rw [f2, f1, e1]
  rw [mul_comm _ d4, Nat.mul_add_mod, Nat.mod_eq_of_lt hl]
  rw [mul_comm _ d3, Nat.mul_add_mod, Nat.mod_eq_of_lt hk]
  rw [mul_comm _ d2, Nat.mul_add_mod, Nat.mod_eq_of_lt hj]

/-- The media of batch entry `b`, with or without a batch dimension. -/
def mediaOf (media : (ℕ → ℕ → ℕ → ℝ) ⊕ (ℕ → ℕ → ℕ → ℕ → ℝ)) (b : ℕ) : ℕ → ℕ → ℕ → ℝ :=
  match media with
  | .inl m => m
  | .inr m => m b

/-- **C06.** For all dimensions, media (with or without batch dimension), weights, and every output
length the data supports, the convolution-based JAX process returns, for every batch entry, geo and
channel, exactly the series the TensorFlow process returns for that geo and channel. -/
theorem conv_process_eq_tf_process (G T C W nOut : ℕ)
    (media : (ℕ → ℕ → ℕ → ℝ) ⊕ (ℕ → ℕ → ℕ → ℕ → ℝ)) (weights : ℕ → ℕ → ℕ → ℝ)
    (hT : nOut + W ≤ T + 1) (b g c : ℕ) (hg : g < G) (hc : c < C) :
    tfAdstockProcess ((List.range T).map fun t => mediaOf media b g t c)
        ((List.range W).map fun w => weights b c w) nOut
      = .ok ((List.range nOut).map fun t => convProcess G T C W media weights b g t c) := by
  rw [tfAdstockProcess_eq (by right; simp; omega)]
  congr 1
  apply List.map_congr_left
  intro t ht
  have ht := List.mem_range.1 ht
  have htO : t < T - W + 1 := by omega
  unfold convProcess view4
  simp only [List.length_map, List.length_range]
  have e1 : (((b * G + g) * C + c) * (T - W + 1) + t) / (T - W + 1) = (b * G + g) * C + c := by
    rw [mul_comm _ (T - W + 1), Nat.mul_add_div (by omega), Nat.div_eq_of_lt htO, add_zero]
  have e2 : (((b * G + g) * C + c) * (T - W + 1) + t) % (T - W + 1) = t := by
    rw [mul_comm _ (T - W + 1), Nat.mul_add_mod, Nat.mod_eq_of_lt htO]
  rw [e1, e2]
  unfold conv view2
  rw [sum_map_range']
  apply Finset.sum_congr rfl
  intro i hi
  have hi := mem_range.1 hi
  rw [toBuffer_view _ hg hc (by omega), toBuffer_view _ hg hc hi]
  have h1 : ((List.range W).map fun w => weights b c w).getD i 0 = weights b c i := by
    rw [List.getD_eq_getElem?_getD, List.getElem?_map, List.getElem?_range hi]; rfl
  have h2 : ((List.range T).map fun t => mediaOf media b g t c).getD (i + t) 0
      = mediaOf media b g (i + t) c := by
    rw [List.getD_eq_getElem?_getD, List.getElem?_map, List.getElem?_range (by omega)]; rfl
  rw [h1, h2, mul_comm, add_comm i t]
  cases media <;> rfl

/-- The hypotheses at work: 2 batch entries, 2 geos, 3 periods, 2 channels, window 2. -/
example : convProcess 2 3 2 2 (.inr fun b g t c => b + 2 * g + 4 * t + 20 * c)
    (fun b c w => b + c + w) 1 1 1 1 = 2 * (1 + 2 + 4 + 20) + 3 * (1 + 2 + 8 + 20) := by
  have := conv_process_eq_tf_process 2 3 2 2 2 (.inr fun b g t c => b + 2 * g + 4 * t + 20 * c)
    (fun b c w => b + c + w) (by norm_num) 1 1 1 (by norm_num) (by norm_num)
  rw [tfAdstockProcess_eq (by right; simp)] at this
  injection this with this
  have h := congrArg (fun l => l[1]?) this
  simp [Finset.sum_range_succ, mediaOf, List.range_succ] at h
  rw [← h]; norm_num

end Verif.Adstock.Props
