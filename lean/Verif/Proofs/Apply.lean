import Verif.Model.Apply
import Verif.Spec.Apply
import Verif.Proofs.Interp
import Mathlib.Algebra.BigOperators.Ring.Finset
import Mathlib.Algebra.Order.BigOperators.Group.Finset
import Mathlib.Algebra.Order.BigOperators.Ring.Finset
/-!
# Auxiliary facts about warping
-/

set_option linter.unusedSectionVars false

namespace Verif.Apply
open Verif Interp Spec Finset

variable {K : Type*} [Field K] [LinearOrder K] [FloorRing K] [IsStrictOrderedRing K]

omit [FloorRing K] in
theorem hat_nonneg (t : K) : 0 ≤ hat t := le_max_left _ _

/-- The two pixels that share a point at `x`. -/
theorem hat_split (x : K) (i : Int) :
    hat (x - (i : K)) = (if i = ⌊x⌋ then 1 - (x - (⌊x⌋ : K)) else 0) + (if i = ⌊x⌋ + 1 then x - (⌊x⌋ : K) else 0) := by
  have h1 := Int.floor_le x
  have h2 := Int.lt_floor_add_one x
  unfold hat
  by_cases e0 : i = ⌊x⌋
  · rw [if_pos e0, if_neg (by omega), e0, abs_of_nonneg (by linarith), max_eq_right (by linarith)]; ring
  · rw [if_neg e0]
    by_cases e1 : i = ⌊x⌋ + 1
    · rw [if_pos e1, e1]; push_cast
      rw [abs_of_nonpos (by linarith), max_eq_right (by linarith)]; ring
    · rw [if_neg e1, add_zero]
      rcases lt_or_ge i ⌊x⌋ with h | h
      · have : (i : K) + 1 ≤ ⌊x⌋ := by exact_mod_cast h
        rw [abs_of_nonneg (by linarith), max_eq_left (by linarith)]
      · have : (⌊x⌋ : K) + 1 + 1 ≤ i := by exact_mod_cast (by omega : ⌊x⌋ + 1 + 1 ≤ i)
        rw [abs_of_nonpos (by linarith), max_eq_left (by linarith)]

/-- One guarded deposit. -/
theorem addAt_guard (H W : Nat) (img : Nat → Nat → K) (yi xi : Int) (a : K) {j i : Nat} (hj : j < H) (hi : i < W) :
    (if 0 ≤ xi ∧ xi < W ∧ 0 ≤ yi ∧ yi < H then addAt img yi.toNat xi.toNat a else img) j i =
      img j i + (if (i : Int) = xi ∧ (j : Int) = yi then a else 0) := by
  by_cases h : 0 ≤ xi ∧ xi < W ∧ 0 ≤ yi ∧ yi < H
  · rw [if_pos h]
    unfold addAt
    by_cases e : (i : Int) = xi ∧ (j : Int) = yi
    · rw [if_pos e, if_pos (by omega)]
    · rw [if_neg e, if_neg (by omega), add_zero]
  · rw [if_neg h, if_neg (by omega), add_zero]

/-- What one pixel deposits. -/
theorem deposit_eq (H W : Nat) (img : Nat → Nat → K) (x y val : K) {j i : Nat} (hj : j < H) (hi : i < W) :
    deposit H W img x y val j i = img j i + val * hat (x - (i : K)) * hat (y - (j : K)) := by
  have hx := hat_split x (i : Int)
  have hy := hat_split y (j : Int)
  rw [Int.cast_natCast] at hx hy
  unfold deposit
  simp only [List.foldl_cons, List.foldl_nil]
  rw [addAt_guard H W _ _ _ _ hj hi, addAt_guard H W _ _ _ _ hj hi, addAt_guard H W _ _ _ _ hj hi,
    addAt_guard H W _ _ _ _ hj hi, hx, hy]
  simp only [add_zero]
  by_cases a0 : (i : Int) = ⌊x⌋ <;> by_cases b0 : (j : Int) = ⌊y⌋
  all_goals
    by_cases a1 : (i : Int) = ⌊x⌋ + 1 <;> by_cases b1 : (j : Int) = ⌊y⌋ + 1
    all_goals first | (exfalso; omega) | (simp only [a0, b0, a1, b1]; simp; try ring)

theorem forward_fold (H W : Nat) (tx ty : Nat → K) (val : Nat → K) {j i : Nat} (hj : j < H)
    (hi : i < W) (n : Nat) (img : Nat → Nat → K) :
    (List.range n).foldl (fun img k => deposit H W img (tx k) (ty k) (val k)) img j i =
      img j i + ∑ k ∈ range n, val k * hat (tx k - (i : K)) * hat (ty k - (j : K)) := by
  induction n with
  | zero => simp
  | succ n ih =>
    rw [List.range_succ, List.foldl_append, List.foldl_cons, List.foldl_nil, deposit_eq H W _ _ _ _ hj hi, ih, sum_range_succ]
    ring

omit [FloorRing K] [LinearOrder K] [IsStrictOrderedRing K] in
theorem sum_rows (H W : Nat) (f : Nat → Nat → K) :
    ∑ k ∈ range (H * W), f (k / W) (k % W) = ∑ y ∈ range H, ∑ x ∈ range W, f y x := by
  induction H with
  | zero => simp
  | succ H ih =>
    rw [Nat.succ_mul, sum_range_add, sum_range_succ, ih]
    congr 1
    refine sum_congr rfl (fun x hx => ?_)
    have hx' := mem_range.1 hx
    rw [Nat.mul_comm H W, Nat.mul_add_div (by omega), Nat.mul_add_mod, Nat.div_eq_of_lt hx', Nat.mod_eq_of_lt hx', Nat.add_zero]

theorem forward_eq (H W : Nat) (image : Nat → Nat → K) (flow : Nat → Nat → K × K) (dt : K) {j i : Nat} (hj : j < H)
    (hi : i < W) :
    forward H W image flow dt j i =
      splat H W image (fun y x => (x : K) + (flow y x).1 * dt) (fun y x => (y : K) + (flow y x).2 * dt) j i := by
  unfold forward splat
  dsimp only
  rw [forward_fold H W (fun k => ((k % W : Nat) : K) + (flow (k / W) (k % W)).1 * dt)
    (fun k => ((k / W : Nat) : K) + (flow (k / W) (k % W)).2 * dt) (fun k => image (k / W) (k % W)) hj hi, zero_add]
  exact sum_rows H W (fun y x => image y x * hat ((x : K) + (flow y x).1 * dt - i) * hat ((y : K) + (flow y x).2 * dt - j))

omit [LinearOrder K] [FloorRing K] [IsStrictOrderedRing K] in
theorem sum_indicator (n : Nat) (k : Int) (c : K) :
    ∑ i ∈ range n, (if (i : Int) = k then c else 0) = if 0 ≤ k ∧ k < n then c else 0 := by
  by_cases h : 0 ≤ k ∧ k < n
  · rw [if_pos h, sum_eq_single_of_mem k.toNat (mem_range.2 (by omega)), if_pos (by omega)]
    intro b _ hb
    rw [if_neg (by omega)]
  · rw [if_neg h]
    refine sum_eq_zero (fun i hi => ?_)
    have := mem_range.1 hi
    rw [if_neg (by omega)]

/-- The shares given to the pixels of a row sum up to at most one, and to one if the point is inside. -/
theorem sum_hat (n : Nat) (x : K) :
    (∑ i ∈ range n, hat (x - (i : K)) ≤ 1) ∧ (0 ≤ x → x ≤ (n : K) - 1 → ∑ i ∈ range n, hat (x - (i : K)) = 1) := by
  have h1 := Int.floor_le x
  have h2 := Int.lt_floor_add_one x
  have e : ∑ i ∈ range n, hat (x - (i : K)) =
      (if 0 ≤ ⌊x⌋ ∧ ⌊x⌋ < n then 1 - (x - (⌊x⌋ : K)) else 0) + (if 0 ≤ ⌊x⌋ + 1 ∧ ⌊x⌋ + 1 < n then x - (⌊x⌋ : K) else 0) := by
    rw [← sum_indicator n ⌊x⌋, ← sum_indicator n (⌊x⌋ + 1), ← sum_add_distrib]
    refine sum_congr rfl (fun i _ => ?_)
    have := hat_split x (i : Int)
    rw [Int.cast_natCast] at this
    exact this
  constructor
  · rw [e]
    split <;> split <;> linarith
  · intro hx0 hx1
    rw [e]
    have hf0 : 0 ≤ ⌊x⌋ := Int.floor_nonneg.2 hx0
    have hf1 : ⌊x⌋ ≤ n - 1 := by
      have : (⌊x⌋ : K) ≤ ((n - 1 : Int) : K) := by push_cast; linarith
      exact_mod_cast this
    rw [if_pos (by omega)]
    by_cases h : ⌊x⌋ + 1 < n
    · rw [if_pos (by omega)]; ring
    · rw [if_neg (by omega)]
      have : ((n - 1 : Int) : K) ≤ ⌊x⌋ := by exact_mod_cast (by omega : (n : Int) - 1 ≤ ⌊x⌋)
      push_cast at this
      linarith

/-- The shares given to all pixels. -/
theorem total_splat (H W : Nat) (image tx ty : Nat → Nat → K) :
    total H W (splat H W image tx ty) =
      ∑ y ∈ range H, ∑ x ∈ range W, image y x * (∑ i ∈ range W, hat (tx y x - (i : K))) * (∑ j ∈ range H, hat (ty y x - (j : K))) := by
  unfold total splat
  have : ∀ y x, image y x * (∑ i ∈ range W, hat (tx y x - (i : K))) * (∑ j ∈ range H, hat (ty y x - (j : K))) =
      ∑ j ∈ range H, ∑ i ∈ range W, image y x * hat (tx y x - (i : K)) * hat (ty y x - (j : K)) := by
    intro y x
    rw [mul_sum]
    refine sum_congr rfl (fun j _ => ?_)
    rw [mul_sum, sum_mul]
  simp only [this]
  calc ∑ j ∈ range H, ∑ i ∈ range W, ∑ y ∈ range H, ∑ x ∈ range W, image y x * hat (tx y x - (i : K)) * hat (ty y x - (j : K))
      = ∑ j ∈ range H, ∑ y ∈ range H, ∑ x ∈ range W, ∑ i ∈ range W, image y x * hat (tx y x - (i : K)) * hat (ty y x - (j : K)) := by
        refine sum_congr rfl (fun j _ => ?_)
        rw [sum_comm]
        refine sum_congr rfl (fun y _ => ?_)
        rw [sum_comm]
    _ = ∑ y ∈ range H, ∑ x ∈ range W, ∑ j ∈ range H, ∑ i ∈ range W, image y x * hat (tx y x - (i : K)) * hat (ty y x - (j : K)) := by
        rw [sum_comm]
        refine sum_congr rfl (fun y _ => ?_)
        rw [sum_comm]

omit [FloorRing K] in
theorem total_congr {H W : Nat} {f g : Nat → Nat → K} (h : ∀ j i, j < H → i < W → f j i = g j i) :
    total H W f = total H W g := by
  unfold total
  exact sum_congr rfl (fun j hj => sum_congr rfl (fun i hi => h j i (mem_range.1 hj) (mem_range.1 hi)))

/-- Interpolation at an integer point, in or outside the image. -/
theorem bilinear_int {H W : Nat} (hH : 0 < H) (hW : 0 < W) (image : Nat → Nat → K) (x y : Int) :
    bilinear image H W (x : K) (y : K) = image (nearest H y) (nearest W x) := by
  have key : ∀ (n : Nat) (f : Nat → K) (k : Int), 0 < n → lin f n (k : K) = f (nearest n k) := by
    intro n f k hn
    have e : (clipIx n k).toNat = nearest n k := by unfold clipIx nearest; split <;> [skip; split] <;> omega
    rw [← lin3_eq hn]
    unfold lin3
    rw [Int.floor_intCast, Int.ceil_intCast, e]; ring
  rw [bilinear_eq, key H _ y hH, key W _ x hW]

end Verif.Apply
