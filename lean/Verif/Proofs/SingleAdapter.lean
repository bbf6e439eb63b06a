import Verif.Model.SingleAdapter
import Verif.Proofs.SingleMove
import Verif.Props.Interp
import Verif.Spec.Single
/-!
# Rounding errors of the adapter
-/

namespace Verif.Single
open Verif Interp Adapter

/-- The rounding error of Python's floats. -/
local notation "υ" => (1 / 2 ^ 53 : ℚ)

theorem upsilon_num : υ = 1 / 9007199254740992 := by norm_num

theorem r64_eps {fl64 : ℚ → ℚ} (h : Rounds64 fl64) (x : ℚ) : |fl64 x - x| ≤ υ * |x| := by
  have := h x
  rwa [div_eq_inv_mul, ← one_div] at this

/-- Rounding something that is near `x`. -/
theorem r64_near {fl64 : ℚ → ℚ} (h : Rounds64 fl64) {x x' e B : ℚ} (hx : |x' - x| ≤ e) (hB : |x| ≤ B) : |fl64 x' - x| ≤ e + υ * (B + e) := by
  have h1 := r64_eps h x'
  have h2 := abs_of_err hx
  have h3 := abs_add_le (fl64 x' - x') (x' - x)
  rw [sub_add_sub_cancel] at h3
  have h4 : υ * |x'| ≤ υ * (B + e) := mul_le_mul_of_nonneg_left (by linarith) (by norm_num)
  linarith

/-- `n / resolution * res` as Python computes it. -/
theorem length_err {fl64 : ℚ → ℚ} (h : Rounds64 fl64) (n : Nat) (resolution res : ℚ) :
    |fl64 (fl64 ((n : ℚ) / resolution) * res) - (n : ℚ) / resolution * res| ≤ (2 + 1 / 100) * υ * |(n : ℚ) / resolution * res| := by
  have h1 : |fl64 ((n : ℚ) / resolution) * res - (n : ℚ) / resolution * res| ≤ υ * |(n : ℚ) / resolution * res| := by
    rw [← sub_mul, abs_mul, abs_mul, ← mul_assoc]
    exact mul_le_mul_of_nonneg_right (r64_eps h _) (abs_nonneg _)
  have h2 := r64_near h h1 le_rfl
  have := abs_nonneg ((n : ℚ) / resolution * res)
  refine h2.trans ?_
  simp only [upsilon_num]
  linarith

/-- The start of the image on the grid. -/
theorem imageStart_err {fl64 : ℚ → ℚ} (h : Rounds64 fl64) (bo res resolution : ℚ) (n : Nat) {S : ℚ} (hS : |bo * res| + |(n : ℚ) / resolution * res| ≤ S) :
    |imageStart fl64 bo res n resolution - Adapter.imageStart bo res n resolution| ≤ 4 * υ * S := by
  unfold imageStart Adapter.imageStart
  have h1 := r64_eps h (bo * res)
  have h2 := length_err h n resolution res
  have h3 : |fl64 (bo * res) + fl64 (fl64 ((n : ℚ) / resolution) * res) - (bo * res + (n : ℚ) / resolution * res)| ≤ (2 + 1 / 100) * υ * S := by
    have e : fl64 (bo * res) + fl64 (fl64 ((n : ℚ) / resolution) * res) - (bo * res + (n : ℚ) / resolution * res) =
      (fl64 (bo * res) - bo * res) + (fl64 (fl64 ((n : ℚ) / resolution) * res) - (n : ℚ) / resolution * res) := by ring
    rw [e]
    refine (abs_add_le _ _).trans ?_
    have := abs_nonneg (bo * res)
    simp only [upsilon_num] at *
    linarith
  refine (r64_near h h3 (abs_add_le _ _)).trans ?_
  have := abs_nonneg (bo * res)
  have := abs_nonneg ((n : ℚ) / resolution * res)
  simp only [upsilon_num]
  linarith

/-- The end of a grid. -/
theorem gridEnd_err {fl64 : ℚ → ℚ} (h : Rounds64 fl64) {s' s : ℚ} (resolution res : ℚ) (n : Nat) {S : ℚ} (hs : |s' - s| ≤ 4 * υ * S)
    (hS : |s| + |(n : ℚ) / resolution * res| + 1 ≤ S) :
    |gridEnd fl64 s' n resolution res - (s + (n : ℚ) / resolution * res - 1)| ≤ 10 * υ * S := by
  unfold gridEnd
  have h2 := length_err h n resolution res
  have := abs_nonneg s
  have := abs_nonneg ((n : ℚ) / resolution * res)
  have h3 : |s' + fl64 (fl64 ((n : ℚ) / resolution) * res) - (s + (n : ℚ) / resolution * res)| ≤ (6 + 1 / 100) * υ * S := by
    have e : s' + fl64 (fl64 ((n : ℚ) / resolution) * res) - (s + (n : ℚ) / resolution * res) =
      (s' - s) + (fl64 (fl64 ((n : ℚ) / resolution) * res) - (n : ℚ) / resolution * res) := by ring
    rw [e]
    refine (abs_add_le _ _).trans ?_
    simp only [upsilon_num] at *
    linarith
  have hb : |s + (n : ℚ) / resolution * res| ≤ S := (abs_add_le _ _).trans (by linarith)
  have h4 := r64_near h h3 hb
  have h5 : |fl64 (s' + fl64 (fl64 ((n : ℚ) / resolution) * res)) - 1 - (s + (n : ℚ) / resolution * res - 1)| ≤ (7 + 1 / 10) * υ * S := by
    rw [sub_sub_sub_cancel_right]
    refine h4.trans ?_
    simp only [upsilon_num]
    linarith
  have hb' : |s + (n : ℚ) / resolution * res - 1| ≤ S := by
    refine (abs_sub _ _).trans ?_
    rw [abs_one]
    have := abs_add_le s ((n : ℚ) / resolution * res)
    linarith
  refine (r64_near h h5 hb').trans ?_
  simp only [upsilon_num]
  linarith

/-- A grid between two end points known up to small errors. -/
theorem linspace_err {r : Nat → ℚ → ℚ} (hr : Rounds r) {s s' t t' S : ℚ} (hs : |s' - s| ≤ 10 * υ * S) (ht : |t' - t| ≤ 10 * υ * S) (hsS : |s| ≤ S) (htS : |t| ≤ S)
    {n i : Nat} (hi : i < n) : |linspace r s' t' n i - Adapter.linspace s t n i| ≤ 6 * S / 2 ^ 24 := by
  have hS : 0 ≤ S := (abs_nonneg _).trans hsS
  have conv (k : Nat) {x x' : ℚ} (hx : |x' - x| ≤ 10 * υ * S) (hxS : |x| ≤ S) : |r k x' - x| ≤ (1 + 1 / 100) * ε * S := by
    have h1 := rounds_eps hr k x'
    have h2 := abs_of_err hx
    have h3 := abs_add_le (r k x' - x') (x' - x)
    rw [sub_add_sub_cancel] at h3
    simp only [upsilon_num, eps_num] at *
    linarith
  have e0 := conv 0 hs hsS
  have e1 := conv 1 ht htS
  unfold linspace Adapter.linspace
  dsimp only
  by_cases hn : n ≤ 1
  · rw [if_pos hn, if_pos hn]
    refine e0.trans ?_
    simp only [eps_num]
    norm_num
    linarith
  · rw [if_neg hn, if_neg hn]
    have hn1 : (0 : ℚ) < (n : ℚ) - 1 := by
      have : (1 : ℚ) < n := by exact_mod_cast (by omega : 1 < n)
      linarith
    by_cases hl : i + 1 = n
    · rw [if_pos hl]
      have : s + (i : ℚ) * ((t - s) / ((n : ℚ) - 1)) = t := by
        have : ((i : ℚ)) = (n : ℚ) - 1 := by rw [← hl]; push_cast; ring
        rw [this]; field_simp; ring
      rw [this]
      refine e1.trans ?_
      simp only [eps_num]
      norm_num
      linarith
    · rw [if_neg hl]
      have ex : s + (i : ℚ) * ((t - s) / ((n : ℚ) - 1)) = s * (1 - (i : ℚ) / ((n : ℚ) - 1)) + t * ((i : ℚ) / ((n : ℚ) - 1)) := by
        field_simp; ring
      rw [ex]
      have w0 : 0 ≤ (i : ℚ) / ((n : ℚ) - 1) := by positivity
      have w1 : (i : ℚ) / ((n : ℚ) - 1) ≤ 1 := by
        rw [div_le_one hn1]
        have : ((i + 1 : Nat) : ℚ) ≤ n := by exact_mod_cast hi
        push_cast at this; linarith
      generalize (i : ℚ) / ((n : ℚ) - 1) = w at *
      have hw := rounds_eps hr 2 w
      obtain ⟨ew, ec⟩ := weights w0 w1 hw (rounds_eps hr 3 _)
      rw [abs_of_nonneg w0] at hw
      generalize r 2 w = w' at *
      generalize r 3 (1 - w') = c' at *
      have c0 : 0 ≤ 1 - w := by linarith
      have p1 := prod_err e0 ec hsS (abs_of_nonneg c0).le (rounds_eps hr 4 _)
      have p2 := prod_err e1 hw htS (abs_of_nonneg w0).le (rounds_eps hr 5 _)
      have a1 : |s * (1 - w)| ≤ S * (1 - w) := by rw [abs_mul, abs_of_nonneg c0]; exact mul_le_mul_of_nonneg_right hsS c0
      have a2 : |t * w| ≤ S * w := by rw [abs_mul, abs_of_nonneg w0]; exact mul_le_mul_of_nonneg_right htS w0
      have hb : |s * (1 - w) + t * w| ≤ S := (abs_add_le _ _).trans (by linarith)
      have q := sum_err p1 p2 hb (rounds_eps hr 6 _)
      refine q.trans ?_
      have k1 : 0 ≤ S * w := mul_nonneg hS w0
      have k2 : 0 ≤ S * (1 - w) := mul_nonneg hS c0
      generalize |s * (1 - w)| = A1 at *
      generalize |t * w| = A2 at *
      rw [div_eq_mul_one_div (6 * S)]
      simp only [eps_num]
      linarith

end Verif.Single
