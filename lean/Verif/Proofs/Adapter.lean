import Verif.Model.Adapter
import Verif.Props.Interp
import Mathlib.Tactic.FieldSimp
/-!
# Auxiliary facts about the flow field adapter
-/

set_option linter.unusedSectionVars false

namespace Verif.Adapter
open Verif Interp Apply

variable {K : Type*} [Field K] [LinearOrder K] [FloorRing K] [IsStrictOrderedRing K]

/-- A grid of unit steps. -/
theorem linspace_unit (s : K) {n i : Nat} (hi : i < n) {L : K} (hL : L = n) : linspace s (s + L - 1) n i = s + i := by
  unfold linspace
  subst hL
  by_cases h : n ≤ 1
  · rw [if_pos h]
    have : i = 0 := by omega
    subst this; simp
  · rw [if_neg h]
    have h2 : ((n : K) - 1) ≠ 0 := by
      have : (1 : K) < n := by exact_mod_cast (by omega : 1 < n)
      linarith
    have : (s + (n : K) - 1 - s) / ((n : K) - 1) = 1 := by
      rw [show s + (n : K) - 1 - s = (n : K) - 1 by ring, div_self h2]
    rw [this, mul_one]

/-- The whole number a rounded count gives for a whole number. -/
theorem count_exact (bounds k : Nat) (resolution res : K) (hk : 0 < k) (h : (bounds : K) / resolution * res = k) :
    count id bounds resolution res = k := by
  unfold count
  simp only [id]
  rw [h, Int.floor_natCast, Int.toNat_natCast]
  omega

/-- If all grid values near the point are near `v`, so is the interpolated value. -/
theorem lin_near {n : Nat} (hn : 0 < n) {g : Nat → K} {c v e : K}
    (h : ∀ i, i < n → |(i : K) - clipCo n c| ≤ 1 → |g i - v| ≤ e) : |lin g n c - v| ≤ e := by
  obtain ⟨h0, h1⟩ := weight_mem hn c
  have hf := floor_clip hn c
  have hfl := Int.floor_le (clipCo n c)
  have hlt := Int.lt_floor_add_one (clipCo n c)
  have c0 : ((clipIx n ⌊c⌋).toNat : K) = (⌊clipCo n c⌋ : K) := by
    rw [← Int.cast_natCast, Int.toNat_of_nonneg (clipIx_mem hn _).1, hf]
  have a0 := abs_le.1 (h _ (clipIx_lt hn ⌊c⌋) (by rw [c0, abs_le]; constructor <;> linarith))
  have a1 := abs_le.1 (h _ (clipIx_lt hn (clipIx n ⌊c⌋ + 1)) (by
    rw [← Int.cast_natCast, Int.toNat_of_nonneg (clipIx_mem hn _).1, hf]
    by_cases hb : ⌊clipCo n c⌋ + 1 ≤ (n : Int) - 1
    · have hg : 0 ≤ ⌊clipCo n c⌋ := Int.floor_nonneg.2 (clipCo_mem hn c).1
      rw [clipIx_of_mem (by omega) hb, abs_le]; push_cast; constructor <;> linarith
    · have hg : 0 ≤ ⌊clipCo n c⌋ := Int.floor_nonneg.2 (clipCo_mem hn c).1
      have : clipIx n (⌊clipCo n c⌋ + 1) = n - 1 := by unfold clipIx; omega
      have h2 := (clipCo_mem hn c).2
      have h3 : ((n : Int) : K) ≤ ((⌊clipCo n c⌋ + 1 : Int) : K) := by exact_mod_cast (by omega : (n : Int) ≤ ⌊clipCo n c⌋ + 1)
      push_cast at h3
      rw [this, abs_le]; push_cast; constructor <;> linarith))
  unfold lin
  rw [abs_le]
  constructor <;> nlinarith

theorem bilinear_near {H W : Nat} (hH : 0 < H) (hW : 0 < W) {g : Nat → Nat → K} {x y v e : K}
    (h : ∀ j i, j < H → i < W → |(j : K) - clipCo H y| ≤ 1 → |(i : K) - clipCo W x| ≤ 1 → |g j i - v| ≤ e) :
    |bilinear g H W x y - v| ≤ e := by
  rw [bilinear_eq]
  exact lin_near hH (fun j hj hjy => lin_near hW (fun i hi hix => h j i hj hi hjy hix))

/-- The motion written out. -/
theorem move_eq (bounds : Nat × Nat) (flow : Field2 K) (dt resX resY y x : K) (h1 : 0 < bounds.1) (h2 : 0 < bounds.2)
    (hH : 0 < flow.H) (hW : 0 < flow.W) :
    move bounds flow dt resX resY y x =
      (y + bilinear (fun j i => (flow.at_ j i).2) flow.H flow.W (x * (flow.W / bounds.2)) (y * (flow.H / bounds.1)) *
          (resY * dt * (bounds.1 / flow.H)),
       x + bilinear (fun j i => (flow.at_ j i).1) flow.H flow.W (x * (flow.W / bounds.2)) (y * (flow.H / bounds.1)) *
          (resX * dt * (bounds.2 / flow.W))) := by
  have b1 : (bounds.1 : K) ≠ 0 := by exact_mod_cast h1.ne'
  have b2 : (bounds.2 : K) ≠ 0 := by exact_mod_cast h2.ne'
  have b3 : (flow.H : K) ≠ 0 := by exact_mod_cast hH.ne'
  have b4 : (flow.W : K) ≠ 0 := by exact_mod_cast hW.ne'
  unfold move step2
  simp only [if_true, if_false, one_ne_zero]
  congr 1
  · field_simp
  · field_simp

theorem tile_take {α : Type*} (l : List α) (hl : l ≠ []) (b : Nat) :
    ((List.replicate ((b + l.length - 1) / l.length) l).flatten.take b).length = b ∧
    ∀ k, k < b → ((List.replicate ((b + l.length - 1) / l.length) l).flatten.take b)[k]? = l[k % l.length]? := by
  have hpos : 0 < l.length := List.length_pos_iff.2 hl
  have hr : b ≤ (b + l.length - 1) / l.length * l.length := by
    have h1 := Nat.div_add_mod (b + l.length - 1) l.length
    have h2 := Nat.mod_lt (b + l.length - 1) hpos
    rw [Nat.mul_comm] at h1
    omega
  have key : ∀ (r k : Nat), k < r * l.length → (List.replicate r l).flatten[k]? = l[k % l.length]? := by
    intro r
    induction r with
    | zero => intro k hk; omega
    | succ r ih =>
      intro k hk
      rw [List.replicate_succ, List.flatten_cons]
      by_cases h : k < l.length
      · rw [List.getElem?_append_left h, Nat.mod_eq_of_lt h]
      · rw [List.getElem?_append_right (by omega), ih (k - l.length) (by rw [Nat.succ_mul] at hk; omega)]
        rw [Nat.mod_eq_sub_mod (by omega : l.length ≤ k)]
  constructor
  · rw [List.length_take, List.length_flatten, List.map_replicate, List.sum_replicate_nat]
    omega
  · intro k hk
    rw [List.getElem?_take_of_lt hk, key _ _ (by omega)]

end Verif.Adapter
