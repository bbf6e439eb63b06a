import Verif.Props.Single
import Verif.Proofs.RoundingScale
/-!
# C124 for all resolutions that are powers of two
-/

namespace Verif.Single
open Verif Interp Adapter Render

/-- **C124**: the images of a still flow in the arithmetic of the machine (partial). If the number of grid steps per pixel of the flow field of the region is a power of two
(1, 2, 4, ... or 1/2, 1/4, ..., not necessarily the same for rows and columns), then particles at single-precision positions stay exactly where they are, and the images
agree. Missing: other resolutions (`C124_refuted`). -/
theorem C124_still_powers_partial {r : Nat → ℚ → ℚ} (hr : Hardware r) (recip : Bool) (bounds : Nat × Nat) (flow : Field2 ℚ)
    (hb : 0 < bounds.1 ∧ 0 < bounds.2) (h0 : ∀ j i, flow.at_ j i = (0, 0)) {k1 k2 : Int} (hs1 : (flow.H : ℚ) = 2 ^ k1 * bounds.1)
    (hs2 : (flow.W : ℚ) = 2 ^ k2 * bounds.2) (dt resX resY : ℚ) (exp fl : ℚ → ℚ) (rad : Nat)
    (ps : List (Render.Particle ℚ)) (hps : ∀ p, p ∈ ps → binary32 p.y = p.y ∧ binary32 p.x = p.x) :
    Render.render exp fl rad bounds.1 bounds.2 (ps.map (moved binary64 r recip bounds flow dt resX resY)) = Render.render exp fl rad bounds.1 bounds.2 ps := by
  congr 1
  refine (List.map_congr_left (fun p hp => ?_)).trans (List.map_id _)
  obtain ⟨hy, hx⟩ := hps p hp
  have e0 : binary32 0 = 0 := by have := binary32_int (N := 0) (by decide); exact_mod_cast this
  have e1 : binary32 1 = 1 := by have := binary32_int (N := 1) (by decide); exact_mod_cast this
  have d1 : binary64 1 = 1 := by have := binary64_int (N := 1) (by decide); exact_mod_cast this
  have z (i : Nat) : r i 0 = 0 := hardware_fix hr i e0
  have sc {y : ℚ} (hy : binary32 y = y) (k : Int) : binary32 (y * 2 ^ k) = y * 2 ^ k := by rw [mul_comm, binary32_scale, hy]
  have pw32 (k : Int) : binary32 (2 ^ k) = 2 ^ k := by have := sc e1 k; rwa [one_mul] at this
  have pw64 (k : Int) : binary64 (2 ^ k) = 2 ^ k := by
    have := binary64_scale k 1; rwa [d1, mul_one] at this
  have bl (n : Nat) (x y : ℚ) : bilinear (fun i => r (i + n)) (fun _ _ => (0 : ℚ)) flow.H flow.W x y = 0 := by
    unfold bilinear; simp only [mul_zero, z, add_zero]
  have a1 : (flow.H : ℚ) / bounds.1 = 2 ^ k1 := by
    rw [hs1]; exact mul_div_cancel_right₀ _ (by exact_mod_cast hb.1.ne')
  have a2 : (flow.W : ℚ) / bounds.2 = 2 ^ k2 := by
    rw [hs2]; exact mul_div_cancel_right₀ _ (by exact_mod_cast hb.2.ne')
  have ne (k : Int) : (2 : ℚ) ^ k ≠ 0 := zpow_ne_zero _ (by norm_num)
  have bk (n m : Nat) (k : Int) {y : ℚ} (hy : binary32 y = y) : back recip (r n) (r m) (y * 2 ^ k) (2 ^ k) = y := by
    have h1 : (1 : ℚ) / 2 ^ k = 2 ^ (-k) := by rw [zpow_neg, one_div]
    have h2 : y * 2 ^ k * 2 ^ (-k) = y := by rw [mul_assoc, zpow_neg, mul_inv_cancel₀ (ne k), mul_one]
    unfold back
    rw [h1, hardware_fix hr n (pw32 (-k)), h2, mul_div_cancel_right₀ _ (ne k), hardware_fix hr m hy, ite_self]
  have : move binary64 r recip bounds flow dt resX resY p.y p.x = (p.y, p.x) := by
    unfold move step2
    simp only [a1, a2, pw64, hardware_fix hr 9 (pw32 k1), hardware_fix hr 10 (pw32 k2), h0, bl, zero_mul, z, add_zero, hardware_fix hr 11 (sc hy k1),
      hardware_fix hr 12 (sc hx k2), hardware_fix hr 6 (sc hy k1), hardware_fix hr 8 (sc hx k2), bk 13 14 k1 hy, bk 15 16 k2 hx]
  unfold moved
  rw [this]
  rfl

/-- Half a grid step per pixel for rows and two for columns, and a particle between pixels. -/
example : let flow : Field2 ℚ := { H := 3, W := 10, at_ := fun _ _ => (0, 0) }
    (flow.H : ℚ) = 2 ^ (-1 : Int) * (6 : Nat) ∧ (flow.W : ℚ) = 2 ^ (1 : Int) * (5 : Nat) ∧ binary32 (5 / 4) = 5 / 4 := by
  refine ⟨by norm_num, by norm_num, by decide +kernel⟩

end Verif.Single
