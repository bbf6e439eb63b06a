import Verif.Proofs.Single
import Verif.Proofs.Adapter
/-!
# Rounding errors of the motion of particles
-/

namespace Verif.Single
open Verif Interp Adapter

theorem eps_num : ε = 1 / 16777216 := by norm_num

/-- One coordinate of `step2`: position `Y`, interpolated velocity `V` with error, factors `res` and `dt`. -/
theorem axis_step {r : Nat → ℚ → ℚ} (hr : Rounds r) (n1 n2 n3 n4 n5 : Nat) {Y V V' res dt M : ℚ} (hV : |V| ≤ M) (hV' : |V' - V| ≤ 10 * M / 2 ^ 24) :
    |r n5 (Y + r n4 (r n3 (V' * r n2 res) * r n1 dt)) - (Y + V * res * dt)| ≤ (|Y| + 16 * (M * |res * dt|)) / 2 ^ 24 := by
  have hM : 0 ≤ M := (abs_nonneg _).trans hV
  have h1 := prod_err hV' (rounds_eps hr n2 res) hV (le_refl _) (rounds_eps hr n3 _)
  have h1' : |r n3 (V' * r n2 res) - V * res| ≤ (12 + 1 / 100) * ε * (M * |res|) := by
    refine h1.trans ?_
    have e1 : |V * res| ≤ M * |res| := by rw [abs_mul]; exact mul_le_mul_of_nonneg_right hV (abs_nonneg _)
    have e2 : 0 ≤ M * |res| := mul_nonneg hM (abs_nonneg _)
    simp only [eps_num]
    linarith
  have hA : |V * res| ≤ M * |res| := by rw [abs_mul]; exact mul_le_mul_of_nonneg_right hV (abs_nonneg _)
  have h2 := prod_err h1' (rounds_eps hr n1 dt) hA (le_refl _) (rounds_eps hr n4 _)
  have hD : |V * res * dt| ≤ M * |res * dt| := by
    rw [abs_mul, abs_mul res, ← mul_assoc]; exact mul_le_mul_of_nonneg_right hA (abs_nonneg _)
  have hD0 : 0 ≤ M * |res * dt| := mul_nonneg hM (abs_nonneg _)
  have h2' : |r n4 (r n3 (V' * r n2 res) * r n1 dt) - V * res * dt| ≤ (14 + 1 / 10) * ε * (M * |res * dt|) := by
    refine h2.trans ?_
    rw [abs_mul res] at hD hD0 ⊢
    simp only [eps_num]
    linarith
  have h3 := sum_err (show |Y - Y| ≤ 0 by simp) h2' (show |Y + V * res * dt| ≤ |Y| + M * |res * dt| from (abs_add_le _ _).trans (by linarith))
    (rounds_eps hr n5 _)
  refine h3.trans ?_
  have := abs_nonneg Y
  simp only [eps_num]
  linarith

/-- One coordinate of `move`. -/
theorem axis_move {α α' y Y' V V' c q out M g : ℚ} (hα : 0 < α) (hα' : |α' - α| ≤ (2 * ε + ε ^ 2) * α) (hY : |Y' - y * α'| ≤ ε * |y * α'|)
    (hV : |V| ≤ M) (hg : |V' - V| ≤ g) (hq : |q - (Y' + V' * c)| ≤ (|Y'| + 16 * (M * |c|)) / 2 ^ 24) (hout : |out - q / α'| ≤ (2 * ε + ε ^ 2) * |q / α'|) :
    |out - (y + V * c / α)| ≤ ε * (5 * |y| + 21 * (M * |c| / α)) + (1 + 1 / 100) * (g * |c| / α) := by
  have hM : 0 ≤ M := (abs_nonneg _).trans hV
  have hg0 : 0 ≤ g := (abs_nonneg _).trans hg
  have ha := abs_le.1 hα'
  have hpos : 0 < α' := by
    have : (2 * ε + ε ^ 2) * α ≤ α / 2 := by simp only [eps_num]; linarith
    have := (neg_le_neg this).trans ha.1
    linarith
  -- the reciprocals
  obtain ⟨t, ht⟩ : ∃ t, t = 1 / α := ⟨_, rfl⟩
  obtain ⟨s, hs⟩ : ∃ s, s = 1 / α' := ⟨_, rfl⟩
  have htα : t * α = 1 := by rw [ht]; field_simp
  have hsα : s * α' = 1 := by rw [hs]; field_simp
  have ht0 : 0 < t := by rw [ht]; positivity
  have hs0 : 0 < s := by rw [hs]; positivity
  have hst : s ≤ (1 + 3 * ε) * t := by
    have : (1 - 2 * ε - ε ^ 2) * α ≤ α' := by linarith [ha.1]
    have h1 : (1 - 2 * ε - ε ^ 2) * α * (s * t) ≤ α' * (s * t) := mul_le_mul_of_nonneg_right this (mul_pos hs0 ht0).le
    have h2 : α * (s * t) = s := by rw [mul_comm s, ← mul_assoc, mul_comm α, htα, one_mul]
    have h3 : α' * (s * t) = t := by rw [← mul_assoc, mul_comm α', hsα, one_mul]
    rw [mul_assoc, h2, h3] at h1
    simp only [eps_num] at h1 ⊢
    linarith
  have hst' : |s - t| ≤ (2 + 1 / 10) * ε * t := by
    have e : s - t = (α - α') * (s * t) := by
      have h2 : α * (s * t) = s := by rw [mul_comm s, ← mul_assoc, mul_comm α, htα, one_mul]
      have h3 : α' * (s * t) = t := by rw [← mul_assoc, mul_comm α', hsα, one_mul]
      rw [sub_mul, h2, h3]
    rw [e, abs_mul, abs_of_pos (mul_pos hs0 ht0), abs_sub_comm]
    have h1 := mul_le_mul_of_nonneg_right hα' (mul_pos hs0 ht0).le
    have h2 : α * (s * t) = s := by rw [mul_comm s, ← mul_assoc, mul_comm α, htα, one_mul]
    rw [mul_assoc, h2] at h1
    refine h1.trans ?_
    simp only [eps_num] at hst ⊢
    linarith
  have hy0 := abs_nonneg y
  have hc0 := abs_nonneg c
  have hYs : |Y' * s - y| ≤ ε * |y| := by
    have e : Y' * s - y = (Y' - y * α') * s := by rw [sub_mul, mul_assoc y, mul_comm α', hsα, mul_one]
    rw [e, abs_mul, abs_of_pos hs0]
    have := mul_le_mul_of_nonneg_right hY hs0.le
    rwa [abs_mul, abs_of_pos hpos, mul_assoc, mul_assoc, mul_comm α', hsα, mul_one] at this
  have hY's : |Y'| * s ≤ |y| + ε * |y| := by
    have := abs_of_err hYs
    rwa [abs_mul, abs_of_pos hs0] at this
  have hD0 : 0 ≤ M * |c| := mul_nonneg hM hc0
  have hDt0 : 0 ≤ M * |c| * t := mul_nonneg hD0 ht0.le
  have hgt0 : 0 ≤ g * |c| * t := mul_nonneg (mul_nonneg hg0 hc0) ht0.le
  have hDs : M * |c| * s ≤ (1 + 3 * ε) * (M * |c| * t) := by
    have := mul_le_mul_of_nonneg_left hst hD0; linarith
  have hgs : g * |c| * s ≤ (1 + 3 * ε) * (g * |c| * t) := by
    have := mul_le_mul_of_nonneg_left hst (mul_nonneg hg0 hc0); linarith
  -- the quotient
  have e : q * s - (y + V * c * t) = (q - (Y' + V' * c)) * s + (Y' * s - y) + (V' - V) * c * s + V * c * (s - t) := by ring
  have k1 : |(q - (Y' + V' * c)) * s| ≤ ε * (|Y'| * s + 16 * (M * |c| * s)) := by
    rw [abs_mul, abs_of_pos hs0]
    have := mul_le_mul_of_nonneg_right hq hs0.le
    refine this.trans (le_of_eq ?_)
    rw [show ε = 1 / 2 ^ 24 from rfl]; ring
  have k3 : |(V' - V) * c * s| ≤ g * |c| * s := by
    rw [abs_mul, abs_mul, abs_of_pos hs0]
    exact mul_le_mul_of_nonneg_right (mul_le_mul_of_nonneg_right hg hc0) hs0.le
  have k4 : |V * c * (s - t)| ≤ (2 + 1 / 10) * ε * (M * |c| * t) := by
    rw [abs_mul, abs_mul]
    have h1 : |V| * |c| ≤ M * |c| := mul_le_mul_of_nonneg_right hV hc0
    have h2 := mul_le_mul h1 hst' (abs_nonneg _) hD0
    linarith
  have k : |q * s - (y + V * c * t)| ≤ ε * (2 * |y| + (18 + 1 / 5) * (M * |c| * t)) + ε * (1 / 100) * (|y| + M * |c| * t) + (1 + 1 / 1000) * (g * |c| * t) := by
    rw [e]
    refine (abs_add_le _ _).trans ((add_le_add_left ((abs_add_le _ _).trans (add_le_add_left (abs_add_le _ _) _)) _).trans ?_)
    simp only [eps_num] at *
    linarith
  have hb : |y + V * c * t| ≤ |y| + M * |c| * t := by
    refine (abs_add_le _ _).trans (add_le_add_right ?_ _)
    rw [abs_mul, abs_mul, abs_of_pos ht0]
    exact mul_le_mul_of_nonneg_right (mul_le_mul_of_nonneg_right hV hc0) ht0.le
  have hqs : q / α' = q * s := by rw [hs]; ring
  rw [hqs] at hout
  have k5 := abs_of_err k
  have hε : (0 : ℚ) ≤ 2 * ε + ε ^ 2 := by norm_num
  have k6 := hout.trans (mul_le_mul_of_nonneg_left k5 hε)
  have k7 := abs_add_le (out - q * s) (q * s - (y + V * c * t))
  rw [sub_add_sub_cancel] at k7
  have r1 : V * c / α = V * c * t := by rw [ht]; ring
  have r2 : M * |c| / α = M * |c| * t := by rw [ht]; ring
  have r3 : g * |c| / α = g * |c| * t := by rw [ht]; ring
  rw [r1, r2, r3]
  simp only [eps_num] at *
  linarith

/-- The scale factor of one axis. -/
theorem alpha_err {r : Nat → ℚ → ℚ} (hr : Rounds r) {fl64 : ℚ → ℚ} (h64 : ∀ x, |fl64 x - x| ≤ |x| / 2 ^ 24) (n : Nat) {α : ℚ} (hα : 0 < α) :
    |r n (fl64 α) - α| ≤ (2 * ε + ε ^ 2) * α := by
  have h1 : |fl64 α - α| ≤ ε * α := by
    have := h64 α
    rwa [abs_of_pos hα, div_eq_inv_mul, ← one_div] at this
  have h2 := abs_of_err h1
  rw [abs_of_pos hα] at h2
  have hε : (0 : ℚ) < ε := by norm_num
  have h3 := (rounds_eps hr n (fl64 α)).trans (mul_le_mul_of_nonneg_left h2 hε.le)
  have h4 := abs_add_le (r n (fl64 α) - fl64 α) (fl64 α - α)
  rw [sub_add_sub_cancel] at h4
  calc _ ≤ _ := h4
    _ ≤ ε * (α + ε * α) + ε * α := add_le_add h3 h1
    _ = _ := by ring

/-- The way back to pixels on one axis. -/
theorem back_err {r : Nat → ℚ → ℚ} (hr : Rounds r) (recip : Bool) (n m : Nat) (q α : ℚ) :
    |back recip (r n) (r m) q α - q / α| ≤ (2 * ε + ε ^ 2) * |q / α| := by
  have hε : (0 : ℚ) < ε := by norm_num
  cases recip
  · refine (rounds_eps hr m (q / α)).trans (mul_le_mul_of_nonneg_right ?_ (abs_nonneg _))
    norm_num
  · show |r m (q * r n (1 / α)) - q / α| ≤ _
    have h1 : |q * r n (1 / α) - q / α| ≤ ε * |q / α| := by
      rw [div_eq_mul_one_div q α, ← mul_sub, abs_mul, abs_mul q]
      have := mul_le_mul_of_nonneg_left (rounds_eps hr n (1 / α)) (abs_nonneg q)
      linarith
    have h3 := (rounds_eps hr m (q * r n (1 / α))).trans (mul_le_mul_of_nonneg_left (abs_of_err h1) hε.le)
    have h4 := abs_add_le (r m (q * r n (1 / α)) - q * r n (1 / α)) (q * r n (1 / α) - q / α)
    rw [sub_add_sub_cancel] at h4
    calc _ ≤ _ := h4
      _ ≤ ε * (|q / α| + ε * |q / α|) + ε * |q / α| := add_le_add h3 h1
      _ = _ := by ring

/-- The scaled coordinate of one axis. -/
theorem scaled_err {r : Nat → ℚ → ℚ} (hr : Rounds r) (n : Nat) {α α' y : ℚ} (hα : 0 < α) (hα' : |α' - α| ≤ (2 * ε + ε ^ 2) * α) :
    |r n (y * α') - y * α| ≤ (3 + 1 / 100) * ε * (|y| * α) := by
  have h1 := rounds_eps hr n (y * α')
  have h2 : |y * α' - y * α| ≤ (2 * ε + ε ^ 2) * (|y| * α) := by
    rw [← mul_sub, abs_mul]
    have := mul_le_mul_of_nonneg_left hα' (abs_nonneg y)
    linarith
  have h3 := abs_of_err h2
  rw [abs_mul y α, abs_of_pos hα] at h3
  have hε : (0 : ℚ) < ε := by norm_num
  have h4 := h1.trans (mul_le_mul_of_nonneg_left h3 hε.le)
  have h5 := abs_add_le (r n (y * α') - y * α') (y * α' - y * α)
  rw [sub_add_sub_cancel] at h5
  have h6 : 0 ≤ |y| * α := mul_nonneg (abs_nonneg _) hα.le
  simp only [eps_num] at *
  linarith

end Verif.Single
