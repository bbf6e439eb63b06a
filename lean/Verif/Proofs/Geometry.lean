import Verif.Model.Geometry
import Mathlib.Tactic.Linarith
import Mathlib.Tactic.Ring
import Mathlib.Tactic.FieldSimp
import Mathlib.Tactic.Positivity
import Mathlib.Algebra.Order.Floor.Ring
/-!
# Auxiliary facts about the geometry
-/

namespace Verif.Geometry
open Verif

theorem trunc_nonneg {q : ℚ} (h : 0 ≤ q) : trunc q = ⌊q⌋ := by
  unfold trunc
  rw [if_neg (not_lt.2 h)]

/-- What the constructor has checked, and what it returns, in exact arithmetic. -/
theorem build_ok {fl32 : ℚ → ℚ} {a : Args} {g : Geo} (h : build id fl32 a = .ok g) :
    0 < a.flowFieldSize.1 ∧ 0 < a.flowFieldSize.2 ∧ 0 < a.flowShape.1 ∧ 0 < a.flowShape.2 ∧ 0 < a.resolution ∧
    a.minSpeedX ≤ a.maxSpeedX ∧ a.minSpeedY ≤ a.maxSpeedY ∧
    max 0 a.maxSpeedY * a.dt ≤ a.imgOffset.1 ∧ max 0 a.maxSpeedX * a.dt ≤ a.imgOffset.2 ∧
    a.imgOffset.1 + a.imageShape.1 / a.resolution - min 0 a.minSpeedY * a.dt ≤ a.flowFieldSize.1 ∧
    a.imgOffset.2 + a.imageShape.2 / a.resolution - min 0 a.minSpeedX * a.dt ≤ a.flowFieldSize.2 ∧
    g = store id fl32 a (max 0 a.maxSpeedX) (max 0 a.maxSpeedY) (min 0 a.minSpeedX) (min 0 a.minSpeedY) := by
  unfold build at h
  dsimp only at h
  split at h
  · cases h
  rename_i h1
  split at h
  · cases h
  rename_i h2
  split at h
  · cases h
  rename_i h3
  split at h
  · cases h
  rename_i h4
  split at h
  · cases h
  rename_i h5
  split at h
  · cases h
  rename_i h6
  split at h
  · cases h
  rename_i h7
  simp only [not_or, not_not, not_lt, not_le, offset0, bounds0, id] at h1 h2 h3 h4 h5 h6 h7
  cases h
  refine ⟨h1.1, h1.2, h2.1, h2.2, h3, h4, h5, ?_, ?_, ?_, ?_, rfl⟩
  · linarith [h6.1]
  · linarith [h6.2]
  · linarith [h7.1]
  · linarith [h7.2]

/-- Axis quantities in exact arithmetic: the margin between the region's border and the window, in measure units. -/
def margin (a : Args) (maxX maxY maxSpeed : ℚ) : ℚ := maxSpeed * a.dt + extra id a maxX maxY maxSpeed

theorem extra_nonneg (a : Args) (maxX maxY maxSpeed : ℚ) : 0 ≤ extra id a maxX maxY maxSpeed := by
  unfold extra
  split
  · exact le_max_left _ _
  · exact le_refl _

theorem offset1_eq (a : Args) (maxX maxY maxSpeed o : ℚ) :
    offset1 id a maxX maxY maxSpeed o = o - margin a maxX maxY maxSpeed := by
  unfold offset1 margin
  split
  · simp only [offset0, id]; ring
  · rename_i h; simp only [offset0, extra, id, if_neg h]; ring

theorem bounds1_eq (a : Args) (maxX maxY maxSpeed minSpeed : ℚ) (n : Nat) :
    bounds1 id a maxX maxY maxSpeed minSpeed n = n / a.resolution + margin a maxX maxY maxSpeed - minSpeed * a.dt := by
  unfold bounds1 margin
  split
  · simp only [bounds0, id]; ring
  · rename_i h; simp only [bounds0, extra, id, if_neg h]; ring

/-- The stored offset on an axis. -/
def axisOffset (a : Args) (maxX maxY maxSpeed : ℚ) : Int := ⌊margin a maxX maxY maxSpeed * a.resolution⌋

/-- The stored size on an axis. -/
def axisBounds (a : Args) (maxX maxY maxSpeed minSpeed : ℚ) (n : Nat) : Int :=
  ⌊n + margin a maxX maxY maxSpeed * a.resolution - minSpeed * a.dt * a.resolution⌋

theorem axis_inside {M m res : ℚ} (n : Nat) (hM : 0 ≤ M) (hm : m ≤ 0) (hr : 0 < res) :
    0 ≤ ⌊M * res⌋ ∧ ⌊M * res⌋ + n ≤ ⌊(n : ℚ) + M * res - m * res⌋ := by
  have h1 : 0 ≤ M * res := mul_nonneg hM hr.le
  have h2 : 0 ≤ -(m * res) := by nlinarith
  refine ⟨Int.floor_nonneg.2 h1, ?_⟩
  rw [Int.le_floor]
  push_cast
  have := Int.floor_le (M * res)
  linarith

/-- The stored offsets and sizes in exact arithmetic. -/
theorem store_eq {fl32 : ℚ → ℚ} {a : Args} {maxX maxY minX minY : ℚ} (hdt : 0 ≤ a.dt) (hr : 0 < a.resolution)
    (hx : 0 ≤ maxX) (hy : 0 ≤ maxY) (hnx : minX ≤ 0) (hny : minY ≤ 0) :
    (store id fl32 a maxX maxY minX minY).imgOffset = (axisOffset a maxX maxY maxY, axisOffset a maxX maxY maxX) ∧
    (store id fl32 a maxX maxY minX minY).bounds =
      (axisBounds a maxX maxY maxY minY a.imageShape.1, axisBounds a maxX maxY maxX minX a.imageShape.2) ∧
    (store id fl32 a maxX maxY minX minY).boundsOffset =
      (max 0 (a.imgOffset.1 - margin a maxX maxY maxY), max 0 (a.imgOffset.2 - margin a maxX maxY maxX)) := by
  have hm : ∀ s, 0 ≤ s → 0 ≤ margin a maxX maxY s := fun s hs =>
    add_nonneg (mul_nonneg hs hdt) (extra_nonneg _ _ _ _)
  have hb : ∀ (s t : ℚ) (n : Nat), 0 ≤ s → t ≤ 0 →
      trunc (((n : ℚ) / a.resolution + margin a maxX maxY s - t * a.dt) * a.resolution) = axisBounds a maxX maxY s t n := by
    intro s t n hs ht
    have he : ((n : ℚ) / a.resolution + margin a maxX maxY s - t * a.dt) * a.resolution =
        n + margin a maxX maxY s * a.resolution - t * a.dt * a.resolution := by
      field_simp
    have h1 := mul_nonneg (hm s hs) hr.le
    have h2 : 0 ≤ -(t * a.dt * a.resolution) := by
      have := mul_nonneg (mul_nonneg (neg_nonneg.2 ht) hdt) hr.le
      linarith
    have h3 : (0 : ℚ) ≤ n := Nat.cast_nonneg n
    rw [he, trunc_nonneg (by linarith)]
    rfl
  refine ⟨?_, ?_, ?_⟩
  · simp only [store, offset1_eq, id, sub_sub_cancel]
    rw [trunc_nonneg (mul_nonneg (hm _ hy) hr.le), trunc_nonneg (mul_nonneg (hm _ hx) hr.le)]
    rfl
  · simp only [store, bounds1_eq, id]
    rw [hb _ _ _ hy hny, hb _ _ _ hx hnx]
  · simp only [store, offset1_eq]

/-- The region covers the window and the reach of the declared speeds up to less than one pixel; exactly if the reach is a
whole number of pixels. -/
theorem axis_reach {M s t res : ℚ} (n : Nat) (hM : s ≤ M) (hs : 0 ≤ s) (ht : t ≤ 0) (hr : 0 < res) (x δ : ℚ)
    (hδ1 : t * res ≤ δ) (hδ2 : δ ≤ s * res)
    (hvis : (⌊M * res⌋ ≤ x ∧ x ≤ ⌊M * res⌋ + n) ∨ (⌊M * res⌋ ≤ x + δ ∧ x + δ ≤ ⌊M * res⌋ + n)) :
    (-1 < x ∧ x < ⌊(n : ℚ) + M * res - t * res⌋ + 1) ∧
    ((∃ k : Int, s * res = k) → (∃ k : Int, t * res = k) → 0 ≤ x ∧ x ≤ ⌊(n : ℚ) + M * res - t * res⌋) := by
  have h1 : s * res ≤ M * res := mul_le_mul_of_nonneg_right hM hr.le
  have hs' : 0 ≤ s * res := mul_nonneg hs hr.le
  have ht' : t * res ≤ 0 := by nlinarith
  have h2 := Int.floor_le (M * res)
  have h3 := Int.lt_floor_add_one (M * res)
  have h4 := Int.floor_le ((n : ℚ) + M * res - t * res)
  have h5 := Int.lt_floor_add_one ((n : ℚ) + M * res - t * res)
  have h6 : (0 : ℚ) ≤ ⌊M * res⌋ := by
    have : 0 ≤ ⌊M * res⌋ := Int.floor_nonneg.2 (by linarith)
    exact_mod_cast this
  have h7 : (⌊M * res⌋ : ℚ) + n ≤ ⌊(n : ℚ) + M * res - t * res⌋ := by
    have : ⌊M * res⌋ + n ≤ ⌊(n : ℚ) + M * res - t * res⌋ := by
      rw [Int.le_floor]; push_cast; linarith
    exact_mod_cast this
  constructor
  · rcases hvis with ⟨ha, hb⟩ | ⟨ha, hb⟩
    · constructor <;> linarith
    · constructor <;> linarith
  · rintro ⟨k, hk⟩ ⟨l, hl⟩
    have h8 : (k : ℚ) ≤ ⌊M * res⌋ := by
      have : k ≤ ⌊M * res⌋ := by rw [Int.le_floor]; linarith
      exact_mod_cast this
    have h9 : (⌊M * res⌋ : ℚ) + n - l ≤ ⌊(n : ℚ) + M * res - t * res⌋ := by
      have : ⌊M * res⌋ + n - l ≤ ⌊(n : ℚ) + M * res - t * res⌋ := by
        rw [Int.le_floor]; push_cast; linarith
      exact_mod_cast this
    rcases hvis with ⟨ha, hb⟩ | ⟨ha, hb⟩
    · constructor <;> linarith
    · constructor <;> linarith

end Verif.Geometry
