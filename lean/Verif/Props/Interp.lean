import Verif.Proofs.Interp
import Verif.Spec.Interp
import Mathlib.Data.Rat.Floor
/-!
# Properties of the interpolation functions (C51, C52)

In exact arithmetic, over every ordered field with a floor function, so in particular for real coordinates.
-/

namespace Verif.Interp
open Spec

variable {K : Type*} [Field K] [LinearOrder K] [FloorRing K] [IsStrictOrderedRing K]

theorem clamp_eq {n : Nat} (hn : 0 < n) (x : K) : clipCo n x = clamp n x := by
  have h1 : (1 : K) ≤ n := by exact_mod_cast hn
  unfold clipCo clamp
  rcases lt_or_ge x 0 with h | h
  · rw [if_pos h, max_eq_right h.le, min_eq_left (by linarith)]
  · rw [if_neg (not_lt.2 h), max_eq_left h]
    rcases lt_or_ge ((n : K) - 1) x with h' | h'
    · rw [if_pos h', min_eq_right h'.le]
    · rw [if_neg (not_lt.2 h'), min_eq_left h']

/-- **C51**: a stored value is returned at a grid point. -/
theorem C51_grid_points (image : Nat → Nat → K) {H W i j : Nat} (hj : j < H) (hi : i < W) :
    bilinear image H W (i : K) (j : K) = image j i := by
  rw [bilinear_eq, lin_grid hj, lin_grid hi]

/-- **C51**: inside a cell (borders included) it is bilinear interpolation between the four corners. -/
theorem C51_cells (image : Nat → Nat → K) {H W i j : Nat} (hj : j + 1 < H) (hi : i + 1 < W) {s t : K}
    (hs : 0 ≤ s ∧ s ≤ 1) (ht : 0 ≤ t ∧ t ≤ 1) :
    bilinear image H W (i + s) (j + t) =
      cell (image j i) (image j (i + 1)) (image (j + 1) i) (image (j + 1) (i + 1)) s t := by
  rw [bilinear_eq, lin_cell hj _ ht.1 ht.2, lin_cell hi _ hs.1 hs.2, lin_cell hi _ hs.1 hs.2]
  unfold cell between; ring

/-- **C51**: outside the image the coordinates are clamped. -/
theorem C51_clamps (image : Nat → Nat → K) {H W : Nat} (hH : 0 < H) (hW : 0 < W) (x y : K) :
    bilinear image H W x y = bilinear image H W (clamp W x) (clamp H y) := by
  rw [← clamp_eq hW, ← clamp_eq hH, bilinear_eq, bilinear_eq, lin_clip hH]
  congr 1
  funext j
  exact lin_clip hW _ _

/-- **C51**: the result is between the smallest and the largest image value. -/
theorem C51_in_range (image : Nat → Nat → K) {H W : Nat} (hH : 0 < H) (hW : 0 < W) {lo hi : K}
    (h : ∀ j i, j < H → i < W → lo ≤ image j i ∧ image j i ≤ hi) (x y : K) :
    lo ≤ bilinear image H W x y ∧ bilinear image H W x y ≤ hi := by
  rw [bilinear_eq]
  constructor
  · rw [← lin_const lo H y]
    refine lin_mono hH (fun j hj => ?_) y
    conv_lhs => rw [← lin_const lo W x]
    exact lin_mono hW (fun i hi => (h j i hj hi).1) x
  · rw [← lin_const hi H y]
    refine lin_mono hH (fun j hj => ?_) y
    conv_rhs => rw [← lin_const hi W x]
    exact lin_mono hW (fun i hi => (h j i hj hi).2) x

/-- **C51**: affine functions are reproduced inside the grid. -/
theorem C51_affine (image : Nat → Nat → K) {H W : Nat} (hH : 0 < H) (hW : 0 < W) (a b c : K)
    (h : ∀ j i, j < H → i < W → image j i = a * i + b * j + c) {x y : K} (hx : 0 ≤ x ∧ x ≤ (W : K) - 1)
    (hy : 0 ≤ y ∧ y ≤ (H : K) - 1) : bilinear image H W x y = a * x + b * y + c := by
  rw [bilinear_eq]
  have h1 : ∀ j, j < H → lin (image j) W x = b * j + (a * x + c) := by
    intro j hj
    rw [lin_congr hW (g := fun i => a * i + (b * j + c)) (fun i hi => by rw [h j i hj hi]; ring) x,
      lin_affine hW _ _ hx.1 hx.2]
    ring
  rw [lin_congr hH h1 y, lin_affine hH _ _ hy.1 hy.2]
  ring

omit [IsStrictOrderedRing K] in
/-- **C51**: linear in the image. -/
theorem C51_linear (image image' : Nat → Nat → K) (a b : K) (H W : Nat) (x y : K) :
    bilinear (fun j i => a * image j i + b * image' j i) H W x y =
      a * bilinear image H W x y + b * bilinear image' H W x y := by
  simp only [bilinear_eq, lin_comb]

/-- **C51**: continuous, uniformly: if neighbouring pixels differ by at most `Lx` along `x` and `Ly` along `y`, the
interpolated values of any two points differ by at most `Lx` times their distance in `x` plus `Ly` times the one in `y`. -/
theorem C51_continuous (image : Nat → Nat → K) {H W : Nat} (hH : 0 < H) (hW : 0 < W) {Lx Ly : K} (hLx : 0 ≤ Lx)
    (hLy : 0 ≤ Ly) (hx : ∀ j i, j < H → i + 1 < W → |image j (i + 1) - image j i| ≤ Lx)
    (hy : ∀ j i, j + 1 < H → i < W → |image (j + 1) i - image j i| ≤ Ly) (x y x' y' : K) :
    |bilinear image H W x y - bilinear image H W x' y'| ≤ Lx * |x - x'| + Ly * |y - y'| := by
  have h1 : |bilinear image H W x y - bilinear image H W x' y| ≤ Lx * |x - x'| := by
    rw [bilinear_eq, bilinear_eq]
    exact lin_diff hH (fun j hj => lin_lipschitz hW hLx (hx j · hj) x x') y
  have h2 : |bilinear image H W x' y - bilinear image H W x' y'| ≤ Ly * |y - y'| := by
    rw [bilinear_eq, bilinear_eq]
    exact lin_lipschitz hH hLy (fun j hj => lin_diff hW (hy j · hj) x') y y'
  calc _ = |(bilinear image H W x y - bilinear image H W x' y) +
          (bilinear image H W x' y - bilinear image H W x' y')| := by ring_nf
    _ ≤ _ := (abs_add_le _ _).trans (add_le_add h1 h2)

/-- A 3×4 image, a point in a cell, one on the last column, one outside. -/
def demoImage : Nat → Nat → ℚ := fun j i => 10 * j + i * i

/-- `C51_in_range`, `C51_affine` and `C51_continuous`. -/
example := C51_in_range demoImage (H := 3) (W := 4) (by decide) (by decide) (lo := 0) (hi := 29) (fun j i hj hi => by
  have h1 : (j : ℚ) ≤ 2 := by exact_mod_cast Nat.le_of_lt_succ hj
  have h2 : (i : ℚ) ≤ 3 := by exact_mod_cast Nat.le_of_lt_succ hi
  have : (0 : ℚ) ≤ j := by positivity
  have : (0 : ℚ) ≤ i := by positivity
  unfold demoImage
  constructor <;> nlinarith) (7 / 2) (-1)
example := C51_affine (fun j i => 2 * (i : ℚ) + 3 * j + 5) (H := 3) (W := 4) (by decide) (by decide) 2 3 5 (fun _ _ _ _ => rfl) (x := 5 / 2) (y := 1 / 3)
  (by norm_num) (by norm_num)
example := C51_continuous demoImage (H := 3) (W := 4) (by decide) (by decide) (Lx := 5) (Ly := 10) (by norm_num) (by norm_num)
  (fun j i _ hi => by
    have h2 : (i : ℚ) ≤ 2 := by exact_mod_cast Nat.le_of_lt_succ (Nat.lt_of_succ_lt_succ hi)
    have : (0 : ℚ) ≤ i := by positivity
    unfold demoImage; push_cast
    rw [abs_le]; constructor <;> nlinarith)
  (fun j i _ _ => by unfold demoImage; push_cast; rw [abs_le]; constructor <;> linarith) 1 0 (7 / 3) (1 / 2)

example : bilinear demoImage 3 4 (3 / 2) (1 / 4) = 5 := by decide +kernel
example : cell (demoImage 0 1) (demoImage 0 2) (demoImage 1 1) (demoImage 1 2) (1 / 2) (1 / 4) = 5 := by decide +kernel
example : bilinear demoImage 3 4 3 (1 / 2) = 14 := by decide +kernel
example : bilinear demoImage 3 4 (-7 / 3) (100) = 20 := by decide +kernel

/-- **C52**: a stored value is returned at a grid point. -/
theorem C52_grid_points (volume : Nat → Nat → Nat → K) {D H W i j k : Nat} (hk : k < D) (hj : j < H) (hi : i < W) :
    trilinear volume D H W (i : K) (j : K) (k : K) = volume k j i := by
  rw [trilinear_eq, lin3_eq (by omega), lin_grid hk, lin3_eq (by omega), lin_grid hj, lin3_eq (by omega), lin_grid hi]

/-- **C52**: for all coordinates, it interpolates linearly along `z` between the bilinear interpolations in the slices; in
particular for an integer `z` it is the bilinear interpolation in that slice. -/
theorem C52_slices (volume : Nat → Nat → Nat → K) {D H W : Nat} (hH : 0 < H) (hW : 0 < W) (x y : K) :
    (∀ k, k < D → trilinear volume D H W x y (k : K) = bilinear (volume k) H W x y) ∧
    (∀ k t, k + 1 < D → 0 ≤ t → t ≤ 1 → trilinear volume D H W x y ((k : K) + t) =
      between (bilinear (volume k) H W x y) (bilinear (volume (k + 1)) H W x y) t) := by
  have hs : ∀ k, lin3 (fun j => lin3 (volume k j) W x) H y = bilinear (volume k) H W x y := by
    intro k
    rw [lin3_eq hH, bilinear_eq]
    congr 1
    funext j
    exact lin3_eq hW _ _
  constructor
  · intro k hk
    rw [trilinear_eq, lin3_eq (by omega), lin_grid hk, hs]
  · intro k t hk h0 h1
    rw [trilinear_eq, lin3_eq (by omega), lin_cell hk _ h0 h1, hs, hs]
    unfold between; ring

/-- **C52**: outside the volume the coordinates are clamped. -/
theorem C52_clamps (volume : Nat → Nat → Nat → K) {D H W : Nat} (hD : 0 < D) (hH : 0 < H) (hW : 0 < W) (x y z : K) :
    trilinear volume D H W x y z = trilinear volume D H W (clamp W x) (clamp H y) (clamp D z) := by
  rw [← clamp_eq hW, ← clamp_eq hH, ← clamp_eq hD, trilinear_eq, trilinear_eq, lin3_eq hD, lin3_eq hD, lin_clip hD]
  congr 1
  funext k
  rw [lin3_eq hH, lin3_eq hH, lin_clip hH]
  congr 1
  funext j
  rw [lin3_eq hW, lin3_eq hW, lin_clip hW]

/-- **C52**: the result is between the smallest and the largest value; in particular constants are reproduced. -/
theorem C52_in_range (volume : Nat → Nat → Nat → K) {D H W : Nat} (hD : 0 < D) (hH : 0 < H) (hW : 0 < W) {lo hi : K}
    (h : ∀ k j i, k < D → j < H → i < W → lo ≤ volume k j i ∧ volume k j i ≤ hi) (x y z : K) :
    lo ≤ trilinear volume D H W x y z ∧ trilinear volume D H W x y z ≤ hi := by
  rw [trilinear_eq, lin3_eq hD]
  have hb : ∀ k, k < D → lo ≤ lin3 (fun j => lin3 (volume k j) W x) H y ∧ lin3 (fun j => lin3 (volume k j) W x) H y ≤ hi := by
    intro k hk
    have := C51_in_range (volume k) hH hW (fun j i => h k j i hk) x y
    rw [bilinear_eq] at this
    rw [lin3_eq hH]
    have e : (fun j => lin3 (volume k j) W x) = fun j => lin (volume k j) W x := by funext j; exact lin3_eq hW _ _
    rw [e]; exact this
  constructor
  · conv_lhs => rw [← lin_const lo D z]
    exact lin_mono hD (fun k hk => (hb k hk).1) z
  · conv_rhs => rw [← lin_const hi D z]
    exact lin_mono hD (fun k hk => (hb k hk).2) z

theorem C52_constants (c : K) {D H W : Nat} (hD : 0 < D) (hH : 0 < H) (hW : 0 < W) (x y z : K) :
    trilinear (fun _ _ _ => c) D H W x y z = c :=
  le_antisymm (C52_in_range _ hD hH hW (fun _ _ _ _ _ _ => ⟨le_refl c, le_refl c⟩) x y z).2
    (C52_in_range _ hD hH hW (fun _ _ _ _ _ _ => ⟨le_refl c, le_refl c⟩) x y z).1

omit [IsStrictOrderedRing K] in
/-- **C52**: linear in the volume. -/
theorem C52_linear (volume volume' : Nat → Nat → Nat → K) (a b : K) (D H W : Nat) (x y z : K) :
    trilinear (fun k j i => a * volume k j i + b * volume' k j i) D H W x y z =
      a * trilinear volume D H W x y z + b * trilinear volume' D H W x y z := by
  unfold trilinear; ring

/-- **C52**: functions affine in the coordinates are reproduced inside the grid. -/
theorem C52_affine (volume : Nat → Nat → Nat → K) {D H W : Nat} (hD : 0 < D) (hH : 0 < H) (hW : 0 < W) (a b c d : K)
    (h : ∀ k j i, k < D → j < H → i < W → volume k j i = a * i + b * j + c * k + d) {x y z : K}
    (hx : 0 ≤ x ∧ x ≤ (W : K) - 1) (hy : 0 ≤ y ∧ y ≤ (H : K) - 1) (hz : 0 ≤ z ∧ z ≤ (D : K) - 1) :
    trilinear volume D H W x y z = a * x + b * y + c * z + d := by
  have hs : ∀ k, k < D → lin3 (fun j => lin3 (volume k j) W x) H y = c * k + (a * x + b * y + d) := by
    intro k hk
    have := C51_affine (volume k) hH hW a b (c * k + d) (fun j i hj hi => by rw [h k j i hk hj hi]; ring) hx hy
    rw [bilinear_eq] at this
    have e : (fun j => lin3 (volume k j) W x) = fun j => lin (volume k j) W x := by funext j; exact lin3_eq hW _ _
    rw [lin3_eq hH, e, this]; ring
  rw [trilinear_eq, lin3_eq hD, lin_congr hD hs z, lin_affine hD _ _ hz.1 hz.2]; ring

/-- A 2×3×4 volume: inside a cell, and outside. -/
def demoVolume : Nat → Nat → Nat → ℚ := fun k j i => 100 * k + demoImage j i

/-- `C52_affine`. -/
example := C52_affine (fun k j i => 2 * (i : ℚ) + 3 * j + 7 * k + 5) (D := 2) (H := 3) (W := 4) (by decide) (by decide) (by decide) 2 3 7 5
  (fun _ _ _ _ _ _ => rfl) (x := 5 / 2) (y := 1 / 3) (z := 1 / 2) (by norm_num) (by norm_num) (by norm_num)

example : trilinear demoVolume 2 3 4 (3 / 2) (1 / 4) (1 / 10) = 15 := by decide +kernel
example : trilinear demoVolume 2 3 4 (9 / 2) (-1 / 4) 7 = 109 := by decide +kernel

end Verif.Interp
