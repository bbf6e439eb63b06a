import Verif.Proofs.Apply
import Verif.Props.Interp
import Mathlib.Data.Rat.BigOperators
/-!
# Properties of flow application (C53-C56)

In exact arithmetic, over every ordered field with a floor function.
-/

set_option linter.unusedSectionVars false

namespace Verif.Apply
open Verif Interp Apply.Spec Finset

variable {K : Type*} [Field K] [LinearOrder K] [FloorRing K] [IsStrictOrderedRing K]

/-! ## Particles -/

/-- **C53**: two-dimensional particles move independently, in order, and each by the interpolated velocity. -/
theorem C53_each_particle (p : Positions K) (H W C : Nat) (f : Nat → Nat → Nat → K) (dt resX resY resZ : K)
    (hc : p.cols = 2) :
    ∃ out, particles p (.plane H W C f) dt resX resY resZ = .ok out ∧ out.length = p.rows.length ∧
      ∀ (n : Nat) (y x : K), p.rows[n]? = some [y, x] → out[n]? = some
        [y + bilinear (fun j i => f j i 1) H W x y * resY * dt, x + bilinear (fun j i => f j i 0) H W x y * resX * dt] := by
  refine ⟨p.rows.map (step2 H W f dt resX resY), ?_, by simp, ?_⟩
  · unfold particles; rw [if_pos hc]
  · intro n y x h
    rw [List.getElem?_map, h]; rfl

/-- **C53**: the same in three dimensions, with a flow on a volume. -/
theorem C53_each_particle_volume (p : Positions K) (D H W C : Nat) (f : Nat → Nat → Nat → Nat → K) (dt resX resY resZ : K)
    (hc : p.cols = 3) :
    ∃ out, particles p (.space D H W C f) dt resX resY resZ = .ok out ∧ out.length = p.rows.length ∧
      ∀ (n : Nat) (z y x : K), p.rows[n]? = some [z, y, x] → out[n]? = some
        [z + trilinear (fun k j i => f k j i 2) D H W x y z * resZ * dt,
         y + trilinear (fun k j i => f k j i 1) D H W x y z * resY * dt,
         x + trilinear (fun k j i => f k j i 0) D H W x y z * resX * dt] := by
  refine ⟨p.rows.map (step3 D H W f dt resX resY resZ), ?_, by simp, ?_⟩
  · unfold particles; rw [if_neg (by omega)]; dsimp only; rw [if_pos hc]
  · intro n z y x h
    rw [List.getElem?_map, h]; rfl

/-- **C53**: in a uniform flow `(u, v)` every particle moves by exactly `(v * res_y * dt, u * res_x * dt)`, wherever it is, and
for `dt = 0` it does not move. -/
theorem C53_uniform_flow (p : Positions K) {H W : Nat} (hH : 0 < H) (hW : 0 < W) (C : Nat) (f : Nat → Nat → Nat → K)
    (u v dt resX resY resZ : K) (hc : p.cols = 2)
    (hf : dt = 0 ∨ ∀ j i, j < H → i < W → f j i 0 = u ∧ f j i 1 = v) :
    ∃ out, particles p (.plane H W C f) dt resX resY resZ = .ok out ∧
      ∀ (n : Nat) (y x : K), p.rows[n]? = some [y, x] → out[n]? = some [y + v * resY * dt, x + u * resX * dt] := by
  obtain ⟨out, h1, _, h3⟩ := C53_each_particle p H W C f dt resX resY resZ hc
  refine ⟨out, h1, fun n y x h => ?_⟩
  rw [h3 n y x h]
  rcases hf with h0 | hf
  · simp only [h0, mul_zero]
  · have hb : ∀ c a, (∀ j i, j < H → i < W → f j i c = a) → bilinear (fun j i => f j i c) H W x y = a := fun c a hca =>
      le_antisymm (C51_in_range _ hH hW (fun j i hj hi => ⟨(hca j i hj hi).ge, (hca j i hj hi).le⟩) x y).2
        (C51_in_range _ hH hW (fun j i hj hi => ⟨(hca j i hj hi).ge, (hca j i hj hi).le⟩) x y).1
    rw [hb 0 u (fun j i hj hi => (hf j i hj hi).1), hb 1 v (fun j i hj hi => (hf j i hj hi).2)]

/-- **C53**: no particle moves further than the largest speed on each axis allows. -/
theorem C53_speed_bound (p : Positions K) {H W : Nat} (hH : 0 < H) (hW : 0 < W) (C : Nat) (f : Nat → Nat → Nat → K)
    (U V dt resX resY resZ : K) (hc : p.cols = 2)
    (hf : ∀ j i, j < H → i < W → |f j i 0| ≤ U ∧ |f j i 1| ≤ V) :
    ∃ out, particles p (.plane H W C f) dt resX resY resZ = .ok out ∧
      ∀ (n : Nat) (y x : K), p.rows[n]? = some [y, x] → ∃ y' x', out[n]? = some [y', x'] ∧
        |y' - y| ≤ V * |resY * dt| ∧ |x' - x| ≤ U * |resX * dt| := by
  obtain ⟨out, h1, _, h3⟩ := C53_each_particle p H W C f dt resX resY resZ hc
  refine ⟨out, h1, fun n y x h => ⟨_, _, h3 n y x h, ?_, ?_⟩⟩
  · rw [add_sub_cancel_left, mul_assoc, abs_mul]
    refine mul_le_mul_of_nonneg_right ?_ (abs_nonneg _)
    exact abs_le.2 (C51_in_range _ hH hW (fun j i hj hi => abs_le.1 (hf j i hj hi).2) x y)
  · rw [add_sub_cancel_left, mul_assoc, abs_mul]
    refine mul_le_mul_of_nonneg_right ?_ (abs_nonneg _)
    exact abs_le.2 (C51_in_range _ hH hW (fun j i hj hi => abs_le.1 (hf j i hj hi).1) x y)

/-- **C53** (partial): every two-dimensional input accepted by the input check is processed. Missing from C53: the
three-dimensional ones (`C53_refuted`). -/
theorem C53_accepted_processed_partial (p : Positions K) (flow : Flow K) (dt resX resY resZ : K) (vdt vx vy vz : Val)
    (hacc : inputCheck [p.rows.length, p.cols] flow.shape vdt vx vy vz = .ok ()) (hc : p.cols = 2) :
    ∃ out, particles p flow dt resX resY resZ = .ok out := by
  unfold inputCheck at hacc
  split at hacc
  · cases hacc
  split at hacc
  · cases hacc
  rename_i _ h2
  cases flow with
  | plane H W C f => exact ⟨_, by unfold particles; rw [if_pos hc]⟩
  | space D H W C f => exact absurd (not_not.1 h2).1 (by simp [Flow.shape])

/-- **C53 is false in three dimensions**: every three-dimensional input that the input check accepts makes the function
fail. -/
theorem C53_refuted (p : Positions K) (flow : Flow K) (dt resX resY resZ : K) (vdt vx vy vz : Val)
    (hacc : inputCheck [p.rows.length, p.cols] flow.shape vdt vx vy vz = .ok ()) (hc : p.cols = 3) :
    particles p flow dt resX resY resZ = .error .valueError := by
  unfold inputCheck at hacc
  split at hacc
  · cases hacc
  split at hacc
  · cases hacc
  rename_i _ h2
  cases flow with
  | plane H W C f => unfold particles; rw [if_neg (by omega)]
  | space D H W C f => exact absurd (not_not.1 h2).1 (by simp [Flow.shape])

/-- Two particles in a 3×3 flow, and inputs accepted by the check in two and in three dimensions. -/
def demoFlow : Nat → Nat → Nat → ℚ := fun j i c => if c = 0 then i else 2 * j

/-- `C53_uniform_flow` and `C53_speed_bound`. -/
example := C53_uniform_flow (⟨2, [[1, 1], [1 / 2, 3 / 2]]⟩ : Positions ℚ) (H := 3) (W := 3) (by decide) (by decide) 2 (fun _ _ c => if c = 0 then 5 else -3) 5 (-3)
  (1 / 2) 2 4 1 rfl (.inr (fun _ _ _ _ => by simp))
example := C53_speed_bound (⟨2, [[1, 1], [1 / 2, 3 / 2]]⟩ : Positions ℚ) (H := 3) (W := 3) (by decide) (by decide) 2 demoFlow 2 4 (1 / 2) 2 4 1 rfl
  (fun j i hj hi => by
    have h1 : (j : ℚ) ≤ 2 := by exact_mod_cast Nat.le_of_lt_succ hj
    have h2 : (i : ℚ) ≤ 2 := by exact_mod_cast Nat.le_of_lt_succ hi
    have : (0 : ℚ) ≤ j := by positivity
    have : (0 : ℚ) ≤ i := by positivity
    simp only [demoFlow]
    constructor <;> rw [abs_le] <;> constructor <;> norm_num <;> linarith)

/-- `C53_each_particle`, `C53_each_particle_volume`, `C53_accepted_processed_partial` and `C53_refuted`. -/
example := C53_each_particle (⟨2, [[1, 1], [1 / 2, 3 / 2]]⟩ : Positions ℚ) 3 3 2 demoFlow (1 / 2) 2 4 1 rfl
example := C53_each_particle_volume (⟨3, [[1, 1, 0], [1 / 2, 3 / 2, 2]]⟩ : Positions ℚ) 4 3 3 3 (fun k j i c => k + demoFlow j i c) (1 / 2) 2 4 1 rfl
example := C53_accepted_processed_partial (⟨2, [[1, 1], [1 / 2, 3 / 2]]⟩ : Positions ℚ) (.plane 3 3 2 demoFlow) (1 / 2) 2 4 1
  (.float (.fin 1)) (.int 2) (.int 4) (.float (.fin 1)) (by decide +kernel) rfl
example := C53_refuted (⟨3, [[1, 1, 0], [1 / 2, 3 / 2, 2]]⟩ : Positions ℚ) (.plane 3 3 3 demoFlow) (1 / 2) 2 4 1
  (.float (.fin 1)) (.int 2) (.int 4) (.float (.fin 1)) (by decide +kernel) rfl

example : particles (⟨2, [[1, 1], [1 / 2, 3 / 2]]⟩ : Positions ℚ) (.plane 3 3 2 demoFlow) (1 / 2) 2 4 1 =
    .ok [[5, 2], [5 / 2, 3]] := by decide +kernel
example : inputCheck [2, 2] [3, 3, 2] (.float (.fin 1)) (.int 2) (.int 4) (.float (.fin 1)) = .ok () := by decide +kernel
example : inputCheck [5, 3] [3, 3, 3] (.float (.fin 1)) (.int 2) (.int 4) (.float (.fin 1)) = .ok () := by decide +kernel
example : inputCheck [5, 3] [4, 3, 3, 3] (.float (.fin 1)) (.int 2) (.int 4) (.float (.fin 1)) = .error .valueError := by
  decide +kernel

/-! ## Forward warping -/

/-- **C54**: the result is the splat of the image along the flow. -/
theorem C54_splat (H W : Nat) (image : Nat → Nat → K) (flow : Nat → Nat → K × K) (dt : K) {j i : Nat} (hj : j < H) (hi : i < W) :
    forward H W image flow dt j i =
      splat H W image (fun y x => (x : K) + (flow y x).1 * dt) (fun y x => (y : K) + (flow y x).2 * dt) j i :=
  forward_eq H W image flow dt hj hi

/-- **C54**: for a non-negative image no intensity is created. -/
theorem C54_total_le (H W : Nat) (image : Nat → Nat → K) (flow : Nat → Nat → K × K) (dt : K)
    (hpos : ∀ j i, j < H → i < W → 0 ≤ image j i) :
    total H W (forward H W image flow dt) ≤ total H W image ∧
    ∀ j i, j < H → i < W → 0 ≤ forward H W image flow dt j i := by
  constructor
  · rw [total_congr (fun j i hj hi => forward_eq H W image flow dt hj hi), total_splat]
    unfold total
    refine sum_le_sum (fun y hy => sum_le_sum (fun x hx => ?_))
    have h0 := hpos y x (mem_range.1 hy) (mem_range.1 hx)
    have h1 := (sum_hat W ((x : K) + (flow y x).1 * dt)).1
    have h2 := (sum_hat H ((y : K) + (flow y x).2 * dt)).1
    have h3 : 0 ≤ ∑ i ∈ range W, hat ((x : K) + (flow y x).1 * dt - (i : K)) := sum_nonneg (fun i _ => hat_nonneg _)
    calc _ ≤ image y x * 1 * 1 := by
          refine mul_le_mul (mul_le_mul_of_nonneg_left h1 h0) h2 (sum_nonneg (fun i _ => hat_nonneg _)) (by rw [mul_one]; exact h0)
      _ = image y x := by ring
  · intro j i hj hi
    rw [forward_eq H W image flow dt hj hi]
    exact sum_nonneg (fun y hy => sum_nonneg (fun x hx =>
      mul_nonneg (mul_nonneg (hpos y x (mem_range.1 hy) (mem_range.1 hx)) (hat_nonneg _)) (hat_nonneg _)))

/-- **C54**: if all targets stay inside, the total intensity is conserved, whatever the signs. -/
theorem C54_total_eq (H W : Nat) (image : Nat → Nat → K) (flow : Nat → Nat → K × K) (dt : K)
    (hin : ∀ y x, y < H → x < W → (0 ≤ (x : K) + (flow y x).1 * dt ∧ (x : K) + (flow y x).1 * dt ≤ (W : K) - 1) ∧
      (0 ≤ (y : K) + (flow y x).2 * dt ∧ (y : K) + (flow y x).2 * dt ≤ (H : K) - 1)) :
    total H W (forward H W image flow dt) = total H W image := by
  rw [total_congr (fun j i hj hi => forward_eq H W image flow dt hj hi), total_splat]
  unfold total
  refine sum_congr rfl (fun y hy => sum_congr rfl (fun x hx => ?_))
  obtain ⟨⟨a, b⟩, c, d⟩ := hin y x (mem_range.1 hy) (mem_range.1 hx)
  rw [(sum_hat W _).2 a b, (sum_hat H _).2 c d]; ring

/-- **C54**: a flow by a whole number `(a, b)` of pixels is a shift; what leaves the image is lost and what enters is
black. -/
theorem C54_integer_shift (H W : Nat) (image : Nat → Nat → K) (flow : Nat → Nat → K × K) (dt : K) (a b : Int)
    (hf : ∀ y x, y < H → x < W → (flow y x).1 * dt = a ∧ (flow y x).2 * dt = b) {j i : Nat} (hj : j < H) (hi : i < W) :
    forward H W image flow dt j i =
      if 0 ≤ (i : Int) - a ∧ (i : Int) - a < W ∧ 0 ≤ (j : Int) - b ∧ (j : Int) - b < H then
        image ((j : Int) - b).toNat ((i : Int) - a).toNat
      else 0 := by
  rw [forward_eq H W image flow dt hj hi]
  unfold splat
  have hz : ∀ k : Int, hat (k : K) = if k = 0 then 1 else 0 := by
    intro k
    have := hat_split (k : K) 0
    rw [Int.floor_intCast] at this
    have e : hat ((k : K) - ((0 : Int) : K)) = hat (k : K) := by push_cast; rw [sub_zero]
    rw [← e, this]
    by_cases h : k = 0
    · rw [if_pos h.symm, if_pos h, h]; simp
    · rw [if_neg (Ne.symm h), if_neg h]; simp
  have hs : ∀ y x, y < H → x < W → image y x * hat ((x : K) + (flow y x).1 * dt - i) * hat ((y : K) + (flow y x).2 * dt - j) =
      if (x : Int) = i - a ∧ (y : Int) = j - b then image y x else 0 := by
    intro y x hy hx
    obtain ⟨h1, h2⟩ := hf y x hy hx
    have e1 : (x : K) + (flow y x).1 * dt - i = (((x : Int) + a - i : Int) : K) := by rw [h1]; push_cast; ring
    have e2 : (y : K) + (flow y x).2 * dt - j = (((y : Int) + b - j : Int) : K) := by rw [h2]; push_cast; ring
    rw [e1, e2, hz, hz]
    by_cases p1 : (x : Int) = i - a
    · by_cases p2 : (y : Int) = j - b
      · rw [if_pos (by omega), if_pos (by omega), if_pos ⟨p1, p2⟩]; ring
      · rw [if_neg (c := (y : Int) + b - j = 0) (by omega), mul_zero, if_neg (c := (x : Int) = i - a ∧ _) (fun h => p2 h.2)]
    · rw [if_neg (c := (x : Int) + a - i = 0) (by omega), mul_zero, zero_mul, if_neg (c := (x : Int) = i - a ∧ _) (fun h => p1 h.1)]
  rw [sum_congr rfl (fun y hy => sum_congr rfl (fun x hx => hs y x (mem_range.1 hy) (mem_range.1 hx)))]
  by_cases h : 0 ≤ (i : Int) - a ∧ (i : Int) - a < W ∧ 0 ≤ (j : Int) - b ∧ (j : Int) - b < H
  · rw [if_pos h, sum_eq_single_of_mem ((j : Int) - b).toNat (mem_range.2 (by omega)),
      sum_eq_single_of_mem ((i : Int) - a).toNat (mem_range.2 (by omega)), if_pos (by omega)]
    · intro x _ hx
      rw [if_neg (by omega)]
    · intro y _ hy
      exact sum_eq_zero (fun x _ => if_neg (by omega))
  · rw [if_neg h]
    refine sum_eq_zero (fun y hy => sum_eq_zero (fun x hx => if_neg ?_))
    have := mem_range.1 hy
    have := mem_range.1 hx
    omega

/-- **C54**: the zero flow, and `dt = 0`, change nothing. -/
theorem C54_identity (H W : Nat) (image : Nat → Nat → K) (flow : Nat → Nat → K × K) (dt : K)
    (hf : dt = 0 ∨ ∀ y x, y < H → x < W → flow y x = (0, 0)) {j i : Nat} (hj : j < H) (hi : i < W) :
    forward H W image flow dt j i = image j i := by
  rw [C54_integer_shift H W image flow dt 0 0 ?_ hj hi]
  · rw [if_pos (by omega)]; simp
  · intro y x hy hx
    rcases hf with h | h
    · rw [h]; simp
    · rw [h y x hy hx]; simp

/-- A 2×3 image whose pixels move right and down by one and a half and a half: some intensity leaves, the rest is shared. -/
def demo23 : Nat → Nat → ℚ := fun j i => if j = 0 ∧ i = 0 then 8 else if j = 1 then 4 else 0

/-- `C54_total_eq` and `C54_integer_shift`. -/
example := C54_total_eq 2 3 demo23 (fun _ x => (1 - (x : ℚ), 0)) (1 / 2) (fun y x hy hx => by
  have h1 : (y : ℚ) ≤ 1 := by exact_mod_cast Nat.le_of_lt_succ hy
  have h2 : (x : ℚ) ≤ 2 := by exact_mod_cast Nat.le_of_lt_succ hx
  have : (0 : ℚ) ≤ y := by positivity
  have : (0 : ℚ) ≤ x := by positivity
  refine ⟨⟨?_, ?_⟩, ?_, ?_⟩ <;> norm_num <;> linarith)
example := C54_integer_shift 2 3 demo23 (fun _ _ => (4, -2)) (1 / 2) 2 (-1) (fun _ _ _ _ => by norm_num) (j := 0) (i := 2) (by decide) (by decide)

/-- `C54_total_le` and `C54_identity`. -/
example := C54_total_le 2 3 demo23 (fun _ _ => (3, 1)) (1 / 2) (fun j i _ _ => by unfold demo23; split_ifs <;> norm_num)
example := C54_identity 2 3 demo23 (fun _ _ => (3, 1)) 0 (.inl rfl) (j := 1) (i := 2) (by decide) (by decide)

example : (List.range 2).map (fun j => (List.range 3).map (forward 2 3 demo23 (fun _ _ => (3, 1)) (1 / 2) j)) =
    [[0, 2, 2], [0, 3, 4]] := by decide +kernel
example : total 2 3 demo23 = 20 := by decide +kernel
example : total 2 3 (forward 2 3 demo23 (fun _ x => (1 - (x : ℚ), 0)) (1 / 2)) = 20 := by decide +kernel

/-! ## Backward warping -/

/-- **C55**: an integer uniform flow is a shift with edge replication. -/
theorem C55_integer_shift {H W : Nat} (image : Nat → Nat → K) (flow : Nat → Nat → K × K) (dt : K) (a b : Int) {j i : Nat}
    (hj : j < H) (hi : i < W) (hf : (flow j i).1 * dt = a ∧ (flow j i).2 * dt = b) :
    backward H W image flow dt j i = image (nearest H ((j : Int) - b)) (nearest W ((i : Int) - a)) := by
  unfold backward
  have e1 : (i : K) - (flow j i).1 * dt = ((i - a : Int) : K) := by rw [hf.1]; push_cast; rfl
  have e2 : (j : K) - (flow j i).2 * dt = ((j - b : Int) : K) := by rw [hf.2]; push_cast; rfl
  rw [e1, e2, bilinear_int (by omega) (by omega)]

/-- **C55**: the zero flow, and `dt = 0`, change nothing. -/
theorem C55_identity {H W : Nat} (image : Nat → Nat → K) (flow : Nat → Nat → K × K) (dt : K)
    (hf : dt = 0 ∨ ∀ y x, y < H → x < W → flow y x = (0, 0)) {j i : Nat} (hj : j < H) (hi : i < W) :
    backward H W image flow dt j i = image j i := by
  rw [C55_integer_shift image flow dt 0 0 hj hi]
  · congr 1 <;> (unfold nearest; rw [if_neg (by omega), if_neg (by omega)]; omega)
  · rcases hf with h | h
    · rw [h]; simp
    · rw [h j i hj hi]; simp

/-- **C55**: the result lies between the minimum and the maximum of the image. -/
theorem C55_in_range {H W : Nat} (hH : 0 < H) (hW : 0 < W) (image : Nat → Nat → K) (flow : Nat → Nat → K × K) (dt : K) {lo hi : K}
    (h : ∀ j i, j < H → i < W → lo ≤ image j i ∧ image j i ≤ hi) (j i : Nat) :
    lo ≤ backward H W image flow dt j i ∧ backward H W image flow dt j i ≤ hi :=
  C51_in_range image hH hW h _ _

/-- **C55**: a pixel is sampled where the documentation says, `(y - v * dt, x - u * dt)`: on an image affine in the
coordinates, whenever that point is inside. -/
theorem C55_sample_point {H W : Nat} (hH : 0 < H) (hW : 0 < W) (image : Nat → Nat → K) (flow : Nat → Nat → K × K) (dt a b c : K)
    (h : ∀ j i, j < H → i < W → image j i = a * i + b * j + c) (j i : Nat)
    (hx : 0 ≤ (i : K) - (flow j i).1 * dt ∧ (i : K) - (flow j i).1 * dt ≤ (W : K) - 1)
    (hy : 0 ≤ (j : K) - (flow j i).2 * dt ∧ (j : K) - (flow j i).2 * dt ≤ (H : K) - 1) :
    backward H W image flow dt j i = a * (i - (flow j i).1 * dt) + b * (j - (flow j i).2 * dt) + c :=
  C51_affine image hH hW a b c h hx hy

example := C55_integer_shift (H := 2) (W := 3) demo23 (fun _ _ => (4, -2)) (1 / 2) 2 (-1) (j := 0) (i := 2) (by decide) (by decide) (by norm_num)
example := C55_in_range (H := 2) (W := 3) (by decide) (by decide) demo23 (fun _ _ => (3, 1)) (1 / 2) (lo := 0) (hi := 8)
  (fun j i _ _ => by unfold demo23; split_ifs <;> norm_num) 1 2

/-- `C55_identity` and `C55_sample_point`. -/
example := C55_identity (H := 2) (W := 3) demo23 (fun _ _ => (0, 0)) (1 / 2) (.inr (fun _ _ _ _ => rfl)) (j := 1) (i := 2) (by decide) (by decide)
example := C55_sample_point (H := 3) (W := 4) (by decide) (by decide) (fun j i => (2 : ℚ) * i + 5 * j + 1) (fun _ _ => (3, -1)) (1 / 2) 2 5 1
  (fun _ _ _ _ => rfl) 1 2 (by norm_num) (by norm_num)

example : (List.range 2).map (fun j => (List.range 3).map (backward 2 3 demo23 (fun _ _ => (3, 1)) (1 / 2) j)) =
    [[8, 8, 4], [6, 6, 4]] := by decide +kernel

/-! ## Callables -/

/-- **C56**: warping with a callable equals warping with any array that holds the callable's values at the pixels, `x` being
the column and `y` the row, forward as well as backward. -/
theorem C56_callable_is_array {H W : Nat} (image : Nat → Nat → K) (flow : K → K → K → K × K) (array : Nat → Nat → K × K) (t dt : K)
    (ha : ∀ y x, y < H → x < W → array y x = flow t (x : K) (y : K)) {j i : Nat} (hj : j < H) (hi : i < W) :
    warpCallable H W image flow t dt true j i = forward H W image array dt j i ∧
    warpCallable H W image flow t dt false j i = backward H W image array dt j i := by
  constructor
  · show forward H W image (fun y x => flow t (x : K) (y : K)) dt j i = _
    rw [forward_eq H W image _ dt hj hi, forward_eq H W image array dt hj hi]
    unfold splat
    refine sum_congr rfl (fun y hy => sum_congr rfl (fun x hx => ?_))
    dsimp only
    rw [ha y x (mem_range.1 hy) (mem_range.1 hx)]
  · show backward H W image (fun y x => flow t (x : K) (y : K)) dt j i = _
    unfold backward
    rw [ha j i hj hi]

/-- **C56** (partial): the library's array generator produces the array for the callable with `x` and `y` exchanged, at
time 1, so warping agrees for callables that do not distinguish them. Missing from C56: all others (`C56_refuted`). -/
theorem C56_generator_partial {H W : Nat} (image : Nat → Nat → K) (flow : K → K → K → K × K) (dt : K) {j i : Nat} (hj : j < H) (hi : i < W) :
    (∀ fwd, (fwd = true → forward H W image (arrayOf flow) dt j i = warpCallable H W image (fun t x y => flow t y x) 1 dt fwd j i) ∧
      (fwd = false → backward H W image (arrayOf flow) dt j i = warpCallable H W image (fun t x y => flow t y x) 1 dt fwd j i)) := by
  have := C56_callable_is_array (H := H) (W := W) image (fun t x y => flow t y x) (arrayOf flow) 1 dt (fun _ _ _ _ => rfl) hj hi
  intro fwd
  constructor
  · rintro rfl; exact this.1.symm
  · rintro rfl; exact this.2.symm

/-- `C56_callable_is_array`, with a flow that changes with time and place, and `C56_generator_partial`. -/
example := C56_callable_is_array (H := 2) (W := 3) demo23 (fun t x y => (t * x, y + 1)) (fun y x => (2 * (x : ℚ), (y : ℚ) + 1)) 2 (1 / 2) (fun _ _ _ _ => rfl)
  (j := 1) (i := 2) (by decide) (by decide)
example := C56_generator_partial (H := 2) (W := 3) demo23 (fun t x y => (t * x, y + 1)) (1 / 2) (j := 1) (i := 2) (by decide) (by decide)

/-- **C56 is false**: for a shear (`u = y`) the generated array has `u = x`. -/
theorem C56_refuted : ∃ (flow : ℚ → ℚ → ℚ → ℚ × ℚ) (image : Nat → Nat → ℚ),
    arrayOf flow 1 2 ≠ flow 1 2 1 ∧
    warpCallable 3 3 image flow 1 1 false 0 1 ≠ backward 3 3 image (arrayOf flow) 1 0 1 :=
  ⟨fun _ _ y => (y, 0), fun _ i => i, by decide +kernel, by decide +kernel⟩

end Verif.Apply
