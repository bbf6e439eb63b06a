import Verif.Proofs.Pillow
import Mathlib.Algebra.BigOperators.Intervals
import Mathlib.Algebra.BigOperators.Field
import Mathlib.Algebra.BigOperators.Ring.Finset
/-!
# Pillow's bilinear resampling as a sum over all pixels
-/

namespace Verif.Pillow
open Verif Finset

theorem sum_range' (g : Nat → ℚ) (a l : Nat) : ((List.range' a l).map g).sum = ∑ x ∈ Ico a (a + l), g x := by
  induction l with
  | zero => simp
  | succ l ih =>
    rw [List.range'_1_concat, List.map_append, List.sum_append, ih, ← Nat.add_assoc, Finset.sum_Ico_succ_top (by omega)]
    simp

/-- Pixels outside the window have no weight. -/
theorem weight_outside {n m i x : Nat} (hx : x < n) (h : x < first n m i ∨ last n m i ≤ x) : weight n m i x = 0 := by
  have hs := filterScale_pos n m
  have key : ∀ t : ℚ, 1 ≤ |t| → triangle t = 0 := fun t ht => by unfold triangle; rw [if_neg (not_lt.2 ht)]
  unfold weight
  apply key
  rw [mul_one_div]
  rcases h with h | h
  · unfold first at h
    have h1 : ((x : Int) + 1) ≤ trunc (center n m i - filterScale n m + 1 / 2) := by omega
    unfold trunc at h1
    split at h1
    · rename_i hneg
      have : 0 ≤ ⌊-(center n m i - filterScale n m + 1 / 2)⌋ := Int.floor_nonneg.2 (by linarith)
      omega
    · have h2 := Int.le_floor.1 h1
      push_cast at h2
      rw [le_abs]
      right
      rw [← neg_div, le_div_iff₀ hs]
      linarith
  · unfold last at h
    have h1 : trunc (center n m i + filterScale n m + 1 / 2) ≤ x := by
      rcases min_le_iff.1 h with h' | h' <;> omega
    unfold trunc at h1
    rw [le_abs]
    left
    rw [le_div_iff₀ hs]
    split at h1
    · rename_i hneg
      have : (0 : ℚ) ≤ x := by positivity
      linarith
    · have h2 : ⌊center n m i + filterScale n m + 1 / 2⌋ < (x : Int) + 1 := by omega
      have h3 := Int.floor_lt.1 h2
      push_cast at h3
      linarith

theorem window_sum {n m i : Nat} (g : Nat → ℚ) (hg : ∀ x, x < n → weight n m i x = 0 → g x = 0) :
    ((List.range' (first n m i) (last n m i - first n m i)).map g).sum = ∑ x ∈ range n, g x := by
  rw [sum_range']
  apply Finset.sum_subset
  · intro x hx
    rw [Finset.mem_Ico] at hx
    have : last n m i ≤ n := min_le_left _ _
    rw [Finset.mem_range]; omega
  · intro x hx hnot
    rw [Finset.mem_range] at hx
    rw [Finset.mem_Ico] at hnot
    exact hg x hx (weight_outside hx (by omega))

theorem total_eq (n m i : Nat) : total n m i = ∑ x ∈ range n, weight n m i x := window_sum _ (fun _ _ h => h)

/-- One pass is the weighted mean over all pixels. -/
theorem pass_sum {n m i : Nat} (hi : i < m) (hn : 0 < n) (f : Nat → ℚ) :
    pass n m f i = ∑ x ∈ range n, f x * (weight n m i x / total n m i) := by
  rw [pass_eq hi hn]
  exact window_sum _ (fun x _ h => by rw [h]; simp)

theorem pass_congr {n m i : Nat} (hi : i < m) (hn : 0 < n) {f g : Nat → ℚ} (h : ∀ x, x < n → f x = g x) : pass n m f i = pass n m g i := by
  rw [pass_sum hi hn, pass_sum hi hn]
  exact Finset.sum_congr rfl (fun x hx => by rw [h x (Finset.mem_range.1 hx)])

theorem pass_linear {n m i : Nat} (hi : i < m) (hn : 0 < n) (a b : ℚ) (f g : Nat → ℚ) :
    pass n m (fun x => a * f x + b * g x) i = a * pass n m f i + b * pass n m g i := by
  rw [pass_sum hi hn, pass_sum hi hn, pass_sum hi hn, Finset.mul_sum, Finset.mul_sum, ← Finset.sum_add_distrib]
  exact Finset.sum_congr rfl (fun x _ => by ring)

theorem triangle_neg (x : ℚ) : triangle (-x) = triangle x := by unfold triangle; rw [abs_neg]

theorem center_mirror {n m i : Nat} (hi : i < m) : center n m (m - 1 - i) = n - center n m i := by
  unfold center
  have hm : (m : ℚ) ≠ 0 := by exact_mod_cast (show m ≠ 0 by omega)
  rw [Nat.cast_sub (by omega), Nat.cast_sub (by omega)]
  field_simp
  push_cast
  ring

theorem weight_mirror {n m i x : Nat} (hi : i < m) (hx : x < n) : weight n m (m - 1 - i) (n - 1 - x) = weight n m i x := by
  unfold weight
  rw [center_mirror hi, ← triangle_neg, Nat.cast_sub (by omega), Nat.cast_sub (by omega)]
  congr 1
  push_cast
  ring

theorem total_mirror {n m i : Nat} (hi : i < m) : total n m (m - 1 - i) = total n m i := by
  rw [total_eq, total_eq, ← Finset.sum_range_reflect]
  exact Finset.sum_congr rfl (fun x hx => weight_mirror hi (Finset.mem_range.1 hx))

/-- The mirrored row gives the mirrored result. -/
theorem pass_mirror {n m i : Nat} (hi : i < m) (hn : 0 < n) (f : Nat → ℚ) : pass n m (fun x => f (n - 1 - x)) (m - 1 - i) = pass n m f i := by
  rw [pass_sum (by omega) hn, pass_sum hi hn, ← Finset.sum_range_reflect, total_mirror hi]
  refine Finset.sum_congr rfl (fun x hx => ?_)
  have hx' := Finset.mem_range.1 hx
  rw [weight_mirror hi hx', show n - 1 - (n - 1 - x) = x by omega]

/-- The two passes can be exchanged. -/
theorem pass_comm {n m n' m' i j : Nat} (hi : i < m) (hn : 0 < n) (hj : j < m') (hn' : 0 < n') (f : Nat → Nat → ℚ) :
    pass n m (fun x => pass n' m' (fun y => f x y) j) i = pass n' m' (fun y => pass n m (fun x => f x y) i) j := by
  rw [pass_sum hi hn, pass_sum hj hn']
  simp only [pass_sum hi hn, pass_sum hj hn', Finset.sum_mul]
  rw [Finset.sum_comm]
  exact Finset.sum_congr rfl (fun y _ => Finset.sum_congr rfl (fun x _ => by ring))

theorem pass_const {n m i : Nat} (hi : i < m) (hn : 0 < n) (q : ℚ) : pass n m (fun _ => q) i = q :=
  le_antisymm (pass_range hi hn (fun _ _ => ⟨le_refl q, le_refl q⟩)).2 (pass_range hi hn (fun _ _ => ⟨le_refl q, le_refl q⟩)).1

/-- Shrinking by a whole factor `k`, away from the two ends: the mean of the pixel numbers is the centre of the output pixel. -/
theorem pass_id {k m i : Nat} (hk : 0 < k) (h0 : 0 < i) (h1 : i + 1 < m) :
    pass (k * m) m (fun x => (x : ℚ)) i = ((i : ℚ) + 1 / 2) * k - 1 / 2 := by
  have hm : 0 < m := by omega
  have hi : i < m := by omega
  have hn : 0 < k * m := Nat.mul_pos hk hm
  have hmq : (m : ℚ) ≠ 0 := by exact_mod_cast hm.ne'
  have hkq : (1 : ℚ) ≤ k := by exact_mod_cast hk
  have hc : center (k * m) m i = ((i : ℚ) + 1 / 2) * k := by unfold center; push_cast; field_simp
  have hs : filterScale (k * m) m = k := by
    unfold filterScale; push_cast; rw [mul_div_assoc, div_self hmq, mul_one]; exact max_eq_right hkq
  have hw (x : Nat) : weight (k * m) m i x = triangle (((x : ℚ) - ((i : ℚ) + 1 / 2) * k + 1 / 2) * (1 / k)) := by unfold weight; rw [hc, hs]
  have ht := (total_pos hi hn).ne'
  -- the first moment about the centre vanishes
  have hz : ∑ x ∈ range (k * m), ((x : ℚ) - (((i : ℚ) + 1 / 2) * k - 1 / 2)) * weight (k * m) m i x = 0 := by
    have hsub : ∑ x ∈ range ((2 * i + 1) * k), ((x : ℚ) - (((i : ℚ) + 1 / 2) * k - 1 / 2)) * weight (k * m) m i x = 0 := by
      have e := Finset.sum_range_reflect (fun x : Nat => ((x : ℚ) - (((i : ℚ) + 1 / 2) * k - 1 / 2)) * weight (k * m) m i x) ((2 * i + 1) * k)
      have e2 : ∑ x ∈ range ((2 * i + 1) * k), (((((2 * i + 1) * k - 1 - x : Nat) : ℚ)) - (((i : ℚ) + 1 / 2) * k - 1 / 2)) * weight (k * m) m i ((2 * i + 1) * k - 1 - x) =
          ∑ x ∈ range ((2 * i + 1) * k), -(((x : ℚ) - (((i : ℚ) + 1 / 2) * k - 1 / 2)) * weight (k * m) m i x) := by
        refine Finset.sum_congr rfl (fun x hx => ?_)
        have hx' := Finset.mem_range.1 hx
        have hcast : (((2 * i + 1) * k - 1 - x : Nat) : ℚ) = (2 * i + 1) * k - 1 - x := by
          rw [Nat.cast_sub (by omega), Nat.cast_sub (by omega)]; push_cast; ring
        rw [hw, hw, hcast, ← triangle_neg]
        have : -((((2 * (i : ℚ) + 1) * k - 1 - x) - ((i : ℚ) + 1 / 2) * k + 1 / 2) * (1 / k)) = ((x : ℚ) - ((i : ℚ) + 1 / 2) * k + 1 / 2) * (1 / k) := by ring
        rw [this]
        ring
      rw [e2, Finset.sum_neg_distrib] at e
      linarith
    have far (x : Nat) (hx : (i + 2) * k ≤ x) : weight (k * m) m i x = 0 := by
      rw [hw]
      unfold triangle
      rw [if_neg]
      have hxq : ((i : ℚ) + 2) * k ≤ x := by exact_mod_cast hx
      rw [not_lt, le_abs]
      left
      rw [mul_one_div, le_div_iff₀ (by linarith)]
      linarith
    -- both sums reduce to the pixels that have weight
    have cut (N : Nat) (hN : (i + 2) * k ≤ N) : ∑ x ∈ range N, ((x : ℚ) - (((i : ℚ) + 1 / 2) * k - 1 / 2)) * weight (k * m) m i x =
        ∑ x ∈ range ((i + 2) * k), ((x : ℚ) - (((i : ℚ) + 1 / 2) * k - 1 / 2)) * weight (k * m) m i x := by
      symm
      apply Finset.sum_subset
      · intro x hx; rw [Finset.mem_range] at hx ⊢; omega
      · intro x _ hx
        rw [Finset.mem_range] at hx
        rw [far x (by omega), mul_zero]
    have hA : (i + 2) * k ≤ k * m := by rw [Nat.mul_comm]; exact Nat.mul_le_mul_left k (by omega)
    have hB : (i + 2) * k ≤ (2 * i + 1) * k := Nat.mul_le_mul_right k (by omega)
    rw [cut _ hA, ← cut _ hB, hsub]
  rw [pass_sum hi hn]
  have hone : ∑ x ∈ range (k * m), weight (k * m) m i x / total (k * m) m i = 1 := by
    rw [← Finset.sum_div, ← total_eq, div_self ht]
  have : ∑ x ∈ range (k * m), (x : ℚ) * (weight (k * m) m i x / total (k * m) m i) =
      (∑ x ∈ range (k * m), ((x : ℚ) - (((i : ℚ) + 1 / 2) * k - 1 / 2)) * weight (k * m) m i x) / total (k * m) m i +
        (((i : ℚ) + 1 / 2) * k - 1 / 2) * ∑ x ∈ range (k * m), weight (k * m) m i x / total (k * m) m i := by
    rw [Finset.sum_div, Finset.mul_sum, ← Finset.sum_add_distrib]
    exact Finset.sum_congr rfl (fun x _ => by ring)
  rw [this, hz, hone]
  ring

end Verif.Pillow
