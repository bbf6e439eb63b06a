import Verif.Spec.Unseen
import Verif.Proofs.Synthetic
import Verif.Props.Place
/-!
# Lemmas for the part of a flow field that matters
-/

namespace Verif.Interp

variable {K : Type*} [Field K] [LinearOrder K] [FloorRing K] [IsStrictOrderedRing K]

/-- Interpolation looks only at entries less than one step away. -/
theorem lin_local {n : Nat} (hn : 0 < n) {f g : Nat → K} (x : K) (h : ∀ j, j < n → |(j : K) - clipCo n x| < 1 → f j = g j) : lin f n x = lin g n x := by
  rw [lin_clip hn f, lin_clip hn g]
  obtain ⟨h0, h1⟩ := clipCo_mem hn x
  generalize clipCo n x = c at h h0 h1
  have hfl : 0 ≤ ⌊c⌋ := Int.floor_nonneg.2 h0
  have hfu : ⌊c⌋ ≤ (n : Int) - 1 := by
    have : (⌊c⌋ : K) ≤ (n : K) - 1 := (Int.floor_le c).trans h1
    exact_mod_cast this
  have e0 : clipIx n ⌊c⌋ = ⌊c⌋ := clipIx_of_mem hfl hfu
  have hcast : ((⌊c⌋.toNat : Nat) : K) = (⌊c⌋ : K) := by rw [← Int.cast_natCast, Int.toNat_of_nonneg hfl]
  have f1 := Int.floor_le c
  have f2 := Int.lt_floor_add_one c
  have q0 : f ⌊c⌋.toNat = g ⌊c⌋.toNat := h _ (by omega) (by rw [hcast, abs_lt]; constructor <;> linarith)
  unfold lin
  rw [e0, clipCo_of_mem h0 h1, q0]
  rcases eq_or_lt_of_le f1 with hw | hw
  · rw [← hw]; simp
  · have q1 : f (clipIx n (⌊c⌋ + 1)).toNat = g (clipIx n (⌊c⌋ + 1)).toNat := by
      by_cases hl : ⌊c⌋ + 1 ≤ (n : Int) - 1
      · rw [clipIx_of_mem (by omega) hl]
        have hc2 : (((⌊c⌋ + 1).toNat : Nat) : K) = (⌊c⌋ : K) + 1 := by
          rw [← Int.cast_natCast, Int.toNat_of_nonneg (by omega)]; push_cast; rfl
        exact h _ (by omega) (by rw [hc2, abs_lt]; constructor <;> linarith)
      · have : clipIx n (⌊c⌋ + 1) = ⌊c⌋ := by unfold clipIx; omega
        rw [this]; exact q0
    rw [q1]

theorem bilinear_local {H W : Nat} (hH : 0 < H) (hW : 0 < W) {f g : Nat → Nat → K} (x y : K)
    (h : ∀ j i, j < H → i < W → |(j : K) - clipCo H y| < 1 → |(i : K) - clipCo W x| < 1 → f j i = g j i) :
    bilinear f H W x y = bilinear g H W x y := by
  rw [bilinear_eq, bilinear_eq]
  exact lin_local hH y (fun j hj hj' => lin_local hW x (fun i hi hi' => h j i hj hi hj' hi'))

end Verif.Interp

namespace Verif.Unseen
open Verif Interp Adapter

/-- The points of `linspace` lie between its ends. -/
theorem linspace_mem (s e : ℚ) {n i : Nat} (hi : i < n) : min s e ≤ linspace s e n i ∧ linspace s e n i ≤ max s e ∧ (n ≤ 1 → linspace s e n i = s) := by
  unfold linspace
  split
  · exact ⟨min_le_left _ _, le_max_left _ _, fun _ => rfl⟩
  · rename_i hn
    have h1 : (0 : ℚ) < (n : ℚ) - 1 := by
      have : (1 : ℚ) < n := by exact_mod_cast (by omega : 1 < n)
      linarith
    have hi' : (i : ℚ) ≤ (n : ℚ) - 1 := by
      have : ((i + 1 : Nat) : ℚ) ≤ n := by exact_mod_cast hi
      push_cast at this; linarith
    have hi0 : (0 : ℚ) ≤ i := Nat.cast_nonneg i
    have e1 : s + i * ((e - s) / ((n : ℚ) - 1)) = (1 - i / ((n : ℚ) - 1)) * s + i / ((n : ℚ) - 1) * e := by field_simp; ring
    have w0 : 0 ≤ (i : ℚ) / ((n : ℚ) - 1) := div_nonneg hi0 h1.le
    have w1 : (i : ℚ) / ((n : ℚ) - 1) ≤ 1 := (div_le_one h1).2 hi'
    rw [e1]
    generalize (i : ℚ) / ((n : ℚ) - 1) = w at w0 w1
    refine ⟨?_, ?_, fun h => absurd h hn⟩
    · nlinarith [min_le_left s e, min_le_right s e]
    · nlinarith [le_max_left s e, le_max_right s e]

/-- On one axis, which grid points matter for a point of the image or of the region. -/
theorem near_of_point {o len M m grid : ℚ} {H : Nat} (hH : 0 < H) (hgrid : 0 < grid) (ho : 0 ≤ o) (hlen : 0 < len) (hm : 0 ≤ m)
    (hfit : (o - M) * grid ≤ H) {Y : ℚ} (hlo : (o - M) * grid - 1 < max Y 0) (hhi : Y < (o + len + m) * grid) {j : Nat}
    (h : |(j : ℚ) - clipCo H Y| < 1) : (o - M) * grid - 2 < j ∧ j < (o + len + m) * grid + 1 := by
  have hpos : 0 < (o + len + m) * grid := mul_pos (by linarith) hgrid
  rw [abs_lt] at h
  unfold clipCo at h
  rcases le_total (max Y 0) ((H : ℚ) - 1) with h1 | h1
  · rw [min_eq_left h1] at h
    refine ⟨by linarith [h.1], ?_⟩
    rcases max_cases Y 0 with ⟨e, _⟩ | ⟨e, _⟩ <;> rw [e] at h <;> linarith [h.2]
  · rw [min_eq_right h1] at h
    refine ⟨by linarith [h.1], ?_⟩
    rcases max_cases Y 0 with ⟨e, _⟩ | ⟨e, _⟩ <;> rw [e] at h1 <;> linarith [h.2]

/-- The points at which the reported flow and the flow of the region are read, on one axis. -/
theorem axis_points {R res o M m : ℚ} {n : Nat} (hR : 0 < R) (hres : 0 < res) (hM : 0 ≤ M) (hm : 0 ≤ m) (ho : 0 ≤ o) (hn : 0 < n) :
    let pad := ⌈max 0 (-(o - M)) * res⌉
    let start := imageStart (max 0 (o - M)) res ⌊M * R⌋.toNat R
    let rstart := max 0 (o - M) * res
    let b := ⌊(n : ℚ) + M * R + m * R⌋
    (∀ k i, i < k → (o - M) * res - 1 < max (linspace start (start + (n : ℚ) / R * res - 1) k i - (pad.toNat : ℚ)) 0 ∧
      linspace start (start + (n : ℚ) / R * res - 1) k i - (pad.toNat : ℚ) < (o + (n : ℚ) / R + m) * res) ∧
    (∀ i, i < count id b.toNat R res →
      (o - M) * res - 1 < max (linspace rstart (rstart + ((b.toNat : Nat) : ℚ) / R * res - 1) (count id b.toNat R res) i - (pad.toNat : ℚ)) 0 ∧
      linspace rstart (rstart + ((b.toNat : Nat) : ℚ) / R * res - 1) (count id b.toNat R res) i - (pad.toNat : ℚ) < (o + (n : ℚ) / R + m) * res) := by
  intro pad start rstart b
  obtain ⟨s1, _, _⟩ := start_near (o := o) hR hres hM
  have hstart : start - (pad.toNat : ℚ) ≤ o * res := s1
  have hn' : (0 : ℚ) < n := by exact_mod_cast hn
  have hL : 0 < (n : ℚ) / R := div_pos hn' hR
  have hLr : 0 < (n : ℚ) / R * res := mul_pos hL hres
  have hmr : 0 ≤ m * res := mul_nonneg hm hres.le
  have hpad0 : 0 ≤ pad := Int.ceil_nonneg (mul_nonneg (le_max_left _ _) hres.le)
  have hp : ((pad.toNat : Nat) : ℚ) = (pad : ℚ) := by rw [← Int.cast_natCast, Int.toNat_of_nonneg hpad0]
  have c1 : max 0 (-(o - M)) * res ≤ pad := Int.le_ceil _
  have hsr : rstart ≤ start := by
    show _ ≤ imageStart _ _ _ _
    unfold imageStart
    have : 0 ≤ ((⌊M * R⌋.toNat : Nat) : ℚ) / R * res := mul_nonneg (div_nonneg (Nat.cast_nonneg _) hR.le) hres.le
    linarith
  have hr1 : (o - M) * res ≤ rstart := mul_le_mul_of_nonneg_right (le_max_right _ _) hres.le
  have hr2 : rstart - (pad : ℚ) ≤ (o - M) * res := by
    show max 0 (o - M) * res - _ ≤ _
    have : max 0 (o - M) - max 0 (-(o - M)) = o - M := by
      rcases le_total (o - M) 0 with h | h
      · rw [max_eq_left h, max_eq_right (by linarith)]; ring
      · rw [max_eq_right h, max_eq_left (by linarith)]; ring
    have e : max 0 (o - M) * res - max 0 (-(o - M)) * res = (o - M) * res := by rw [← sub_mul, this]
    linarith
  have ht : (o + (n : ℚ) / R + m) * res = o * res + (n : ℚ) / R * res + m * res := by ring
  have hpz : pad = 0 ∨ o - M < 0 := by
    by_cases h : o - M < 0
    · exact .inr h
    · left
      show ⌈max 0 (-(o - M)) * res⌉ = 0
      rw [max_eq_left (by linarith), zero_mul, Int.ceil_zero]
  have lower : ∀ Y : ℚ, (o - M) * res - 1 < Y → (o - M) * res - 1 < max (Y - (pad : ℚ)) 0 := by
    intro Y hY
    rcases hpz with h | h
    · rw [h, Int.cast_zero, sub_zero]; exact lt_of_lt_of_le hY (le_max_left _ _)
    · refine lt_of_lt_of_le ?_ (le_max_right _ _)
      have := mul_neg_of_neg_of_pos h hres
      linarith
  rw [hp] at hstart ⊢
  constructor
  · intro k i hi
    obtain ⟨l1, l2, _⟩ := linspace_mem start (start + (n : ℚ) / R * res - 1) hi
    constructor
    · refine lower _ (lt_of_lt_of_le ?_ l1)
      rw [lt_min_iff]
      constructor <;> linarith
    · rw [ht]
      rcases max_cases start (start + (n : ℚ) / R * res - 1) with ⟨e, _⟩ | ⟨e, _⟩ <;> rw [e] at l2 <;> linarith
  · intro i hi
    obtain ⟨l1, l2, l3⟩ := linspace_mem rstart (rstart + ((b.toNat : Nat) : ℚ) / R * res - 1) hi
    have hb0 : 0 ≤ b := Int.floor_nonneg.2 (by positivity)
    have hb : ((b.toNat : Nat) : ℚ) = (b : ℚ) := by rw [← Int.cast_natCast, Int.toNat_of_nonneg hb0]
    have hbu : (b : ℚ) / R * res ≤ ((n : ℚ) / R + M + m) * res := by
      refine mul_le_mul_of_nonneg_right ?_ hres.le
      rw [div_le_iff₀ hR]
      have := Int.floor_le ((n : ℚ) + M * R + m * R)
      have e : ((n : ℚ) / R + M + m) * R = n + M * R + m * R := by field_simp
      rw [e]; exact this
    have hbu' : ((n : ℚ) / R + M + m) * res = (n : ℚ) / R * res + M * res + m * res := by ring
    have hoM : (o - M) * res = o * res - M * res := sub_mul _ _ _
    by_cases hc : count id b.toNat R res ≤ 1
    · rw [l3 hc]
      constructor
      · exact lower _ (by linarith)
      · rw [ht]; linarith
    · have hge : 1 ≤ ((b.toNat : Nat) : ℚ) / R * res := by
        unfold count at hc
        simp only [id] at hc
        have : 1 ≤ ⌊((b.toNat : Nat) : ℚ) / R * res⌋ := by omega
        have h2 := Int.floor_le (((b.toNat : Nat) : ℚ) / R * res)
        have h3 : (1 : ℚ) ≤ (⌊((b.toNat : Nat) : ℚ) / R * res⌋ : ℚ) := by exact_mod_cast this
        linarith
      rw [min_eq_left (by linarith)] at l1
      rw [max_eq_right (by linarith)] at l2
      constructor
      · exact lower _ (by linarith)
      · rw [ht]
        rw [hb] at l2 ⊢
        have h0 : 0 ≤ M * res := mul_nonneg hM hres.le
        linarith

end Verif.Unseen
