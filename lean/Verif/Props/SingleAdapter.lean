import Verif.Proofs.SingleAdapter
import Verif.Props.Single
/-!
# The adapter in the arithmetic of the machine (C137, C138)
-/

namespace Verif.Single
open Verif Interp Adapter

/-- Python's floats meet the assumption. -/
theorem binary64_rounds64 : Rounds64 binary64 := binary64_err

/-- Grid steps from the corner of the flow field to the far end of the particle region along `y`, plus one. -/
def reachY (a : Args ℚ) : ℚ := |a.boundsOffset.1 * a.resY| + (a.bounds.1 : ℚ) / a.resolution * a.resY + 1

/-- Grid steps from the corner of the flow field to the far end of the particle region along `x`, plus one. -/
def reachX (a : Args ℚ) : ℚ := |a.boundsOffset.2 * a.resX| + (a.bounds.2 : ℚ) / a.resolution * a.resX + 1

/-- Interpolation at a point that is off by some rounding errors. -/
theorem bilinear_near {r : Nat → ℚ → ℚ} (hr : Rounds r) (g : Nat → Nat → ℚ) {H W : Nat} (hH : 0 < H) (hW : 0 < W) {M Lx Ly Sx Sy : ℚ} (hLx : 0 ≤ Lx) (hLy : 0 ≤ Ly)
    (hM : ∀ j i, j < H → i < W → |g j i| ≤ M) (hvx : ∀ j i, j < H → i + 1 < W → |g j (i + 1) - g j i| ≤ Lx)
    (hvy : ∀ j i, j + 1 < H → i < W → |g (j + 1) i - g j i| ≤ Ly) {x x' y y' : ℚ} (hx : |x' - x| ≤ 6 * Sx / 2 ^ 24) (hy : |y' - y| ≤ 6 * Sy / 2 ^ 24) :
    |bilinear r g H W x' y' - Interp.bilinear g H W x y| ≤ (10 * M + 6 * (Lx * Sx + Ly * Sy)) / 2 ^ 24 := by
  have h1 := bilinear_error hr g hH hW hM x' y'
  have h2 := C51_continuous g hH hW hLx hLy hvx hvy x' y' x y
  have h3 := mul_le_mul_of_nonneg_left hx hLx
  have h4 := mul_le_mul_of_nonneg_left hy hLy
  have h5 := abs_add_le (bilinear r g H W x' y' - Interp.bilinear g H W x' y') (Interp.bilinear g H W x' y' - Interp.bilinear g H W x y)
  rw [sub_add_sub_cancel] at h5
  calc _ ≤ _ := h5
    _ ≤ 10 * M / 2 ^ 24 + (Lx * (6 * Sx / 2 ^ 24) + Ly * (6 * Sy / 2 ^ 24)) := add_le_add h1 (h2.trans (add_le_add h3 h4))
    _ = _ := by ring

/-- The grid of one axis, from a start `s` and with `size` pixels. -/
theorem grid_err {r : Nat → ℚ → ℚ} (hr : Rounds r) {fl64 : ℚ → ℚ} (h64 : Rounds64 fl64) {s s' S : ℚ} (res resolution : ℚ) (size : Nat)
    (hs : |s' - s| ≤ 4 * (1 / 2 ^ 53) * S) (hS : |s| + |(size : ℚ) / resolution * res| + 1 ≤ S) {n i : Nat} (hi : i < n) :
    |linspace r s' (gridEnd fl64 s' size resolution res) n i - Adapter.linspace s (s + (size : ℚ) / resolution * res - 1) n i| ≤ 6 * S / 2 ^ 24 := by
  have h2 := gridEnd_err h64 resolution res size hs hS
  have a0 := abs_nonneg s
  have a1 := abs_nonneg ((size : ℚ) / resolution * res)
  refine linspace_err hr (hs.trans ?_) h2 (by linarith) ?_ hi
  · have : 0 ≤ S := by linarith
    norm_num; linarith
  · refine (abs_sub _ _).trans ?_
    rw [abs_one]
    have := abs_add_le s ((size : ℚ) / resolution * res)
    linarith

theorem length_nonneg {res resolution : ℚ} (hres : 0 < res) (hresolution : 0 < resolution) (n : Nat) : 0 ≤ (n : ℚ) / resolution * res := by positivity

theorem length_le {res resolution : ℚ} (hres : 0 < res) (hresolution : 0 < resolution) {off size bounds : Nat} (hb : off + size ≤ bounds) :
    (off : ℚ) / resolution * res + (size : ℚ) / resolution * res ≤ (bounds : ℚ) / resolution * res := by
  have e (n : Nat) : (n : ℚ) / resolution * res = (n : ℚ) * (res / resolution) := by rw [div_mul_eq_mul_div, mul_div_assoc]
  rw [e, e, e, ← add_mul]
  refine mul_le_mul_of_nonneg_right ?_ (div_pos hres hresolution).le
  exact_mod_cast hb

/-- The grid of the image on one axis. -/
theorem image_grid {r : Nat → ℚ → ℚ} (hr : Rounds r) {fl64 : ℚ → ℚ} (h64 : Rounds64 fl64) (bo : ℚ) {res resolution : ℚ} {off size bounds : Nat} (hres : 0 < res)
    (hresolution : 0 < resolution) (hb : off + size ≤ bounds) {n i : Nat} (hi : i < n) :
    |linspace r (imageStart fl64 bo res off resolution) (gridEnd fl64 (imageStart fl64 bo res off resolution) size resolution res) n i -
        Adapter.linspace (Adapter.imageStart bo res off resolution) (Adapter.imageStart bo res off resolution + (size : ℚ) / resolution * res - 1) n i| ≤
      6 * (|bo * res| + (bounds : ℚ) / resolution * res + 1) / 2 ^ 24 := by
  have p := length_nonneg hres hresolution
  have hb' := length_le hres hresolution hb
  have := p off
  have := p size
  refine grid_err hr h64 res resolution size (imageStart_err h64 bo res resolution off (by rw [abs_of_nonneg (p off)]; linarith)) ?_ hi
  rw [abs_of_nonneg (p size)]
  have : |Adapter.imageStart bo res off resolution| ≤ |bo * res| + (off : ℚ) / resolution * res := by
    unfold Adapter.imageStart
    refine (abs_add_le _ _).trans ?_
    rw [abs_of_nonneg (p off)]
  linarith

/-- The grid of the particle region on one axis. -/
theorem region_grid {r : Nat → ℚ → ℚ} (hr : Rounds r) {fl64 : ℚ → ℚ} (h64 : Rounds64 fl64) (bo : ℚ) {res resolution : ℚ} {bounds : Nat} (hres : 0 < res)
    (hresolution : 0 < resolution) {n i : Nat} (hi : i < n) :
    |linspace r (fl64 (bo * res)) (gridEnd fl64 (fl64 (bo * res)) bounds resolution res) n i -
        Adapter.linspace (bo * res) (bo * res + (bounds : ℚ) / resolution * res - 1) n i| ≤
      6 * (|bo * res| + (bounds : ℚ) / resolution * res + 1) / 2 ^ 24 := by
  have p := length_nonneg hres hresolution bounds
  have a := abs_nonneg (bo * res)
  refine grid_err hr h64 res resolution bounds ((h64 _).trans ?_) ?_ hi
  · generalize |bo * res| = A at *
    norm_num; linarith
  · rw [abs_of_nonneg p]

/-- A flow field with its padding. -/
theorem pad_bounded {f : Field2 ℚ} {M : ℚ} (hH : 0 < f.H) (hW : 0 < f.W) (hM : ∀ j i, j < f.H → i < f.W → |(f.at_ j i).1| ≤ M ∧ |(f.at_ j i).2| ≤ M) (p : Nat × Nat) :
    ∀ j i, j < (padEdge p f).H → i < (padEdge p f).W → |((padEdge p f).at_ j i).1| ≤ M ∧ |((padEdge p f).at_ j i).2| ≤ M := by
  intro j i hj hi
  have hj' : j < f.H + p.1 := hj
  have hi' : i < f.W + p.2 := hi
  exact hM _ _ (by omega) (by omega)

/-- The resized flow before the change of units. -/
theorem resized_err {r : Nat → ℚ → ℚ} (hr : Rounds r) {fl64 : ℚ → ℚ} (h64 : Rounds64 fl64) (a : Args ℚ) (f : Field2 ℚ) (hH : 0 < f.H) (hW : 0 < f.W)
    (hres : 0 < a.resolution) (hx : 0 < a.resX) (hy : 0 < a.resY)
    (h1 : a.imgOffset.1 + a.imageShape.1 ≤ a.bounds.1) (h2 : a.imgOffset.2 + a.imageShape.2 ≤ a.bounds.2) {M Lx Ly : ℚ} (hLx : 0 ≤ Lx) (hLy : 0 ≤ Ly)
    (hM : ∀ j i, j < f.H → i < f.W → |(f.at_ j i).1| ≤ M ∧ |(f.at_ j i).2| ≤ M) (hv : VariesAtMost f Lx Ly) {j i : Nat} (hj : j < a.newShape.1)
    (hi : i < a.newShape.2) :
    |((resized fl64 r a f).at_ j i).1 - ((Adapter.resized a f).at_ j i).1| ≤ (10 * M + 6 * (Lx * reachX a + Ly * reachY a)) / 2 ^ 24 ∧
    |((resized fl64 r a f).at_ j i).2 - ((Adapter.resized a f).at_ j i).2| ≤ (10 * M + 6 * (Lx * reachX a + Ly * reachY a)) / 2 ^ 24 := by
  have hrr (n : Nat) : Rounds (fun i => r (i + n)) := fun i x => hr (i + n) x
  have gy := image_grid (hrr 40) h64 a.boundsOffset.1 hy hres h1 hj
  have gx := image_grid (hrr 50) h64 a.boundsOffset.2 hx hres h2 hi
  exact ⟨bilinear_near hr _ hH hW hLx hLy (fun j i hj hi => (hM j i hj hi).1) (fun j i hj hi => (hv.1 j i hj hi).1) (fun j i hj hi => (hv.2 j i hj hi).1) gx gy,
    bilinear_near (hrr 20) _ hH hW hLx hLy (fun j i hj hi => (hM j i hj hi).2) (fun j i hj hi => (hv.1 j i hj hi).2) (fun j i hj hi => (hv.2 j i hj hi).2) gx gy⟩

theorem region_err {r : Nat → ℚ → ℚ} (hr : Rounds r) {fl64 : ℚ → ℚ} (h64 : Rounds64 fl64) (a : Args ℚ) (f : Field2 ℚ) (hH : 0 < f.H) (hW : 0 < f.W)
    (hres : 0 < a.resolution) (hx : 0 < a.resX) (hy : 0 < a.resY) {M Lx Ly : ℚ} (hLx : 0 ≤ Lx) (hLy : 0 ≤ Ly)
    (hM : ∀ j i, j < f.H → i < f.W → |(f.at_ j i).1| ≤ M ∧ |(f.at_ j i).2| ≤ M) (hv : VariesAtMost f Lx Ly) {j i : Nat} (hj : j < (region fl64 r a f).H)
    (hi : i < (region fl64 r a f).W) :
    |((region fl64 r a f).at_ j i).1 - ((Adapter.region fl64 a f).at_ j i).1| ≤ (10 * M + 6 * (Lx * reachX a + Ly * reachY a)) / 2 ^ 24 ∧
    |((region fl64 r a f).at_ j i).2 - ((Adapter.region fl64 a f).at_ j i).2| ≤ (10 * M + 6 * (Lx * reachX a + Ly * reachY a)) / 2 ^ 24 := by
  have hrr (n : Nat) : Rounds (fun i => r (i + n)) := fun i x => hr (i + n) x
  have gy := region_grid (hrr 40) h64 a.boundsOffset.1 (bounds := a.bounds.1) hy hres hj
  have gx := region_grid (hrr 50) h64 a.boundsOffset.2 (bounds := a.bounds.2) hx hres hi
  exact ⟨bilinear_near hr _ hH hW hLx hLy (fun j i hj hi => (hM j i hj hi).1) (fun j i hj hi => (hv.1 j i hj hi).1) (fun j i hj hi => (hv.2 j i hj hi).1) gx gy,
    bilinear_near (hrr 20) _ hH hW hLx hLy (fun j i hj hi => (hM j i hj hi).2) (fun j i hj hi => (hv.1 j i hj hi).2) (fun j i hj hi => (hv.2 j i hj hi).2) gx gy⟩

/-- The change of units of one component. -/
theorem units_err {r : Nat → ℚ → ℚ} (hr : Rounds r) {fl64 : ℚ → ℚ} (h64 : Rounds64 fl64) (k : Nat) {V V' c M E : ℚ} (hV : |V| ≤ M) (hE : 0 ≤ E)
    (hV' : |V' - V| ≤ (10 * M + 6 * E) / 2 ^ 24) : |r k (V' * r 0 (fl64 c)) - V * c| ≤ (13 * M + 7 * E) * |c| / 2 ^ 24 := by
  have hM : 0 ≤ M := (abs_nonneg _).trans hV
  have c0 := abs_nonneg c
  have hc : |r 0 (fl64 c) - c| ≤ (1 + 1 / 100) * (1 / 2 ^ 24) * |c| := by
    have h1 := rounds_eps hr 0 (fl64 c)
    have h2 := h64 c
    have h3 := abs_of_err h2
    have h4 := abs_add_le (r 0 (fl64 c) - fl64 c) (fl64 c - c)
    rw [sub_add_sub_cancel] at h4
    norm_num at h1 h2 h3 ⊢
    linarith
  have h1 := prod_err hV' hc hV le_rfl (rounds_eps hr k _)
  have h2 : |V * c| ≤ M * |c| := by rw [abs_mul]; exact mul_le_mul_of_nonneg_right hV c0
  have h3 : 0 ≤ M * |c| := mul_nonneg hM c0
  have h4 : 0 ≤ E * |c| := mul_nonneg hE c0
  refine h1.trans ?_
  generalize |V * c| = A at *
  rw [div_eq_mul_one_div (10 * M + 6 * E), div_eq_mul_one_div ((13 * M + 7 * E) * |c|)]
  simp only [eps_num]
  linarith

/-- An interpolated value is not larger than the entries. -/
theorem bilinear_le (g : Nat → Nat → ℚ) {H W : Nat} (hH : 0 < H) (hW : 0 < W) {M : ℚ} (hM : ∀ j i, j < H → i < W → |g j i| ≤ M) (x y : ℚ) :
    |Interp.bilinear g H W x y| ≤ M :=
  abs_le.2 (C51_in_range g hH hW (lo := -M) (hi := M) (fun j i hj hi => abs_le.1 (hM j i hj hi)) x y)

/-- **C137**: the flow reported by the machine. It differs from the one reported in exact arithmetic by at most `2 ^ -24` times: 13 times the largest velocity, and
seven times what the flow changes over the region, both converted to the units of the output. -/
theorem C137_reported {r : Nat → ℚ → ℚ} (hr : Rounds r) {fl64 : ℚ → ℚ} (h64 : Rounds64 fl64) (a : Args ℚ) (f : Field2 ℚ) (hH : 0 < f.H) (hW : 0 < f.W)
    (hres : 0 < a.resolution) (hx : 0 < a.resX) (hy : 0 < a.resY)
    (h1 : a.imgOffset.1 + a.imageShape.1 ≤ a.bounds.1) (h2 : a.imgOffset.2 + a.imageShape.2 ≤ a.bounds.2) {M Lx Ly : ℚ} (hLx : 0 ≤ Lx) (hLy : 0 ≤ Ly)
    (hM : ∀ j i, j < f.H → i < f.W → |(f.at_ j i).1| ≤ M ∧ |(f.at_ j i).2| ≤ M) (hv : VariesAtMost f Lx Ly) {j i : Nat} (hj : j < a.newShape.1)
    (hi : i < a.newShape.2) :
    let out := (processSingle fl64 r a f).1.at_ j i
    let exact := (Adapter.processSingle id a f).1.at_ j i
    let factor := if a.pixels then |a.resolution * a.dt| else 1
    |out.1 - exact.1| ≤ (13 * M + 7 * (Lx * reachX a + Ly * reachY a)) * factor / 2 ^ 24 ∧
    |out.2 - exact.2| ≤ (13 * M + 7 * (Lx * reachX a + Ly * reachY a)) * factor / 2 ^ 24 := by
  have hrr (n : Nat) : Rounds (fun i => r (i + n)) := fun i x => hr (i + n) x
  have hgH : 0 < (padEdge a.padding f).H := Nat.add_pos_left hH _
  have hgW : 0 < (padEdge a.padding f).W := Nat.add_pos_left hW _
  have hgM := pad_bounded hH hW hM a.padding
  have hgv := pad_varies a.padding hH hW hLx hLy hv
  have e := resized_err (hrr 100) h64 a (padEdge a.padding f) hgH hgW hres hx hy h1 h2 hLx hLy hgM hgv hj hi
  have hM0 : 0 ≤ M := (abs_nonneg _).trans (hM 0 0 hH hW).1
  have rx : 0 ≤ reachX a := by unfold reachX; have := length_nonneg hx hres a.bounds.2; positivity
  have ry : 0 ≤ reachY a := by unfold reachY; have := length_nonneg hy hres a.bounds.1; positivity
  have hE : 0 ≤ Lx * reachX a + Ly * reachY a := by positivity
  dsimp only
  unfold processSingle Adapter.processSingle units Adapter.units
  dsimp only
  by_cases hp : a.pixels = true
  · rw [if_pos hp, if_pos hp, if_pos hp]
    exact ⟨units_err (hrr 160) h64 1 (bilinear_le _ hgH hgW (fun j i hj hi => (hgM j i hj hi).1) _ _) hE e.1,
      units_err (hrr 160) h64 2 (bilinear_le _ hgH hgW (fun j i hj hi => (hgM j i hj hi).2) _ _) hE e.2⟩
  · rw [if_neg hp, if_neg hp, if_neg hp]
    refine ⟨e.1.trans ?_, e.2.trans ?_⟩ <;> · gcongr; linarith

/-- **C137**: the flow on the particle region, which moves the particles. The machine's has the same number of grid points, and its values differ by at most
`2 ^ -24` times: ten times the largest velocity, and six times what the flow changes over the region. -/
theorem C137_region {r : Nat → ℚ → ℚ} (hr : Rounds r) {fl64 : ℚ → ℚ} (h64 : Rounds64 fl64) (a : Args ℚ) (f : Field2 ℚ) (hH : 0 < f.H) (hW : 0 < f.W)
    (hres : 0 < a.resolution) (hx : 0 < a.resX) (hy : 0 < a.resY) {M Lx Ly : ℚ} (hLx : 0 ≤ Lx) (hLy : 0 ≤ Ly)
    (hM : ∀ j i, j < f.H → i < f.W → |(f.at_ j i).1| ≤ M ∧ |(f.at_ j i).2| ≤ M) (hv : VariesAtMost f Lx Ly) :
    let out := (processSingle fl64 r a f).2
    let exact := (Adapter.processSingle fl64 a f).2
    (out.H = exact.H ∧ out.W = exact.W) ∧ ∀ j i, j < out.H → i < out.W →
      |(out.at_ j i).1 - (exact.at_ j i).1| ≤ (10 * M + 6 * (Lx * reachX a + Ly * reachY a)) / 2 ^ 24 ∧
      |(out.at_ j i).2 - (exact.at_ j i).2| ≤ (10 * M + 6 * (Lx * reachX a + Ly * reachY a)) / 2 ^ 24 := by
  have hrr (n : Nat) : Rounds (fun i => r (i + n)) := fun i x => hr (i + n) x
  refine ⟨⟨rfl, rfl⟩, fun j i hj hi => ?_⟩
  exact region_err (hrr 200) h64 a (padEdge a.padding f) (Nat.add_pos_left hH _) (Nat.add_pos_left hW _) hres hx hy hLx hLy (pad_bounded hH hW hM a.padding)
    (pad_varies a.padding hH hW hLx hLy hv) hj hi

/-- The flow on a region of whole grid steps varies like the flow field itself. -/
theorem region_varies (a : Args ℚ) (f : Field2 ℚ) (hH : 0 < f.H) (hW : 0 < f.W) {Lx Ly : ℚ} (hLx : 0 ≤ Lx) (hLy : 0 ≤ Ly) (hv : VariesAtMost f Lx Ly)
    {ky kx : Nat} (hky0 : 0 < ky) (hkx0 : 0 < kx) (hky : (a.bounds.1 : ℚ) / a.resolution * a.resY = ky) (hkx : (a.bounds.2 : ℚ) / a.resolution * a.resX = kx) :
    VariesAtMost (Adapter.region id a f) Lx Ly := by
  have cy : (Adapter.region id a f).H = ky := count_exact _ _ _ _ hky0 hky
  have cx : (Adapter.region id a f).W = kx := count_exact _ _ _ _ hkx0 hkx
  have cy' : count id a.bounds.1 a.resolution a.resY = ky := count_exact _ _ _ _ hky0 hky
  have cx' : count id a.bounds.2 a.resolution a.resX = kx := count_exact _ _ _ _ hkx0 hkx
  have at_eq {j i : Nat} (hj : j < ky) (hi : i < kx) : (Adapter.region id a f).at_ j i =
      (Interp.bilinear (fun j i => (f.at_ j i).1) f.H f.W (a.boundsOffset.2 * a.resX + i) (a.boundsOffset.1 * a.resY + j),
        Interp.bilinear (fun j i => (f.at_ j i).2) f.H f.W (a.boundsOffset.2 * a.resX + i) (a.boundsOffset.1 * a.resY + j)) := by
    unfold Adapter.region Adapter.sample
    dsimp only
    rw [cy', cx', linspace_unit _ hj hky, linspace_unit _ hi hkx]
  have c (g : Nat → Nat → ℚ) (hx : ∀ j i, j < f.H → i + 1 < f.W → |g j (i + 1) - g j i| ≤ Lx)
      (hy : ∀ j i, j + 1 < f.H → i < f.W → |g (j + 1) i - g j i| ≤ Ly) (x y : ℚ) :
      |Interp.bilinear g f.H f.W (x + 1) y - Interp.bilinear g f.H f.W x y| ≤ Lx ∧ |Interp.bilinear g f.H f.W x (y + 1) - Interp.bilinear g f.H f.W x y| ≤ Ly := by
    have h1 := C51_continuous g hH hW hLx hLy hx hy (x + 1) y x y
    have h2 := C51_continuous g hH hW hLx hLy hx hy x (y + 1) x y
    simp only [add_sub_cancel_left, sub_self, abs_one, abs_zero, mul_one, mul_zero, add_zero, zero_add] at h1 h2
    exact ⟨h1, h2⟩
  have c1 := c (fun j i => (f.at_ j i).1) (fun j i hj hi => (hv.1 j i hj hi).1) (fun j i hj hi => (hv.2 j i hj hi).1)
  have c2 := c (fun j i => (f.at_ j i).2) (fun j i hj hi => (hv.1 j i hj hi).2) (fun j i hj hi => (hv.2 j i hj hi).2)
  constructor
  · intro j i hj hi
    rw [cy] at hj; rw [cx] at hi
    rw [at_eq hj hi, at_eq hj (by omega : i < kx)]
    push_cast
    rw [← add_assoc]
    exact ⟨(c1 _ _).1, (c2 _ _).1⟩
  · intro j i hj hi
    rw [cy] at hj; rw [cx] at hi
    rw [at_eq hj hi, at_eq (by omega : j < ky) hi]
    push_cast
    rw [← add_assoc]
    exact ⟨(c1 _ _).2, (c2 _ _).2⟩

/-- **C138**: the flow reported by the machine describes the motion of the particles on the machine (partial). If the region is a whole number of grid steps long, and Python
counts them right, then the displacement of a particle at a pixel differs from the flow reported there by at most what the flow changes within `1 + 2 |q - 1|` grid steps (`q` grid
steps per pixel), plus `2 ^ -24` times: five times the size of the region in pixels, 45 times the largest displacement, and 20 times what the displacement changes over the region.
Missing: regions that are not a whole number of grid steps long. -/
theorem C138_motion_partial {r r' : Nat → ℚ → ℚ} (hr : Rounds r) (hr' : Rounds r') {fl64 : ℚ → ℚ} (h64 : Rounds64 fl64) (recip : Bool) (a : Args ℚ) (f : Field2 ℚ)
    (hH : 0 < f.H) (hW : 0 < f.W) (hres : 0 < a.resolution) (hx : 0 < a.resX) (hy : 0 < a.resY) (hdt : 0 ≤ a.dt) (hn : a.newShape = a.imageShape) (hp : a.pixels = true)
    (h1 : a.imgOffset.1 + a.imageShape.1 ≤ a.bounds.1) (h2 : a.imgOffset.2 + a.imageShape.2 ≤ a.bounds.2)
    (hky : (((processSingle fl64 r a f).2.H : Nat) : ℚ) = (a.bounds.1 : ℚ) / a.resolution * a.resY)
    (hkx : (((processSingle fl64 r a f).2.W : Nat) : ℚ) = (a.bounds.2 : ℚ) / a.resolution * a.resX)
    {M Lx Ly : ℚ} (hLx : 0 ≤ Lx) (hLy : 0 ≤ Ly)
    (hM : ∀ j i, j < f.H → i < f.W → |(f.at_ j i).1| ≤ M ∧ |(f.at_ j i).2| ≤ M) (hv : VariesAtMost f Lx Ly)
    {j i : Nat} (hj : j < a.imageShape.1) (hi : i < a.imageShape.2) :
    let out := (processSingle fl64 r a f).1.at_ j i
    let p' := move fl64 r' recip a.bounds (processSingle fl64 r a f).2 a.dt a.resX a.resY ((a.imgOffset.1 + j : Nat) : ℚ) ((a.imgOffset.2 + i : Nat) : ℚ)
    let tol := (Lx * (1 + 2 * |a.resX / a.resolution - 1|) + Ly * (1 + 2 * |a.resY / a.resolution - 1|)) * (a.resolution * a.dt)
    let err := (45 * M + 20 * (Lx * reachX a + Ly * reachY a)) * (a.resolution * a.dt)
    |p'.1 - ((a.imgOffset.1 + j : Nat) : ℚ) - out.2| ≤ tol + (5 * a.bounds.1 + err) / 2 ^ 24 ∧
    |p'.2 - ((a.imgOffset.2 + i : Nat) : ℚ) - out.1| ≤ tol + (5 * a.bounds.2 + err) / 2 ^ 24 := by
  have h24 : ∀ x, |fl64 x - x| ≤ |x| / 2 ^ 24 := fun x => (h64 x).trans (by have := abs_nonneg x; norm_num; linarith)
  have hb1 : 0 < a.bounds.1 := by omega
  have hb2 : 0 < a.bounds.2 := by omega
  have b1 : (0 : ℚ) < a.bounds.1 := by exact_mod_cast hb1
  have b2 : (0 : ℚ) < a.bounds.2 := by exact_mod_cast hb2
  obtain ⟨ky, eky⟩ : ∃ ky, ky = (processSingle fl64 r a f).2.H := ⟨_, rfl⟩
  obtain ⟨kx, ekx⟩ : ∃ kx, kx = (processSingle fl64 r a f).2.W := ⟨_, rfl⟩
  rw [← eky] at hky
  rw [← ekx] at hkx
  have ky0 : (0 : ℚ) < ky := by rw [hky]; positivity
  have kx0 : (0 : ℚ) < kx := by rw [hkx]; positivity
  have kyp : 0 < ky := by exact_mod_cast ky0
  have kxp : 0 < kx := by exact_mod_cast kx0
  have cy : count id a.bounds.1 a.resolution a.resY = ky := count_exact _ _ _ _ kyp hky.symm
  have cx : count id a.bounds.2 a.resolution a.resX = kx := count_exact _ _ _ _ kxp hkx.symm
  have cy' : count fl64 a.bounds.1 a.resolution a.resY = ky := eky.symm
  have cx' : count fl64 a.bounds.2 a.resolution a.resX = kx := ekx.symm
  have same : (Adapter.processSingle fl64 a f).2 = (Adapter.processSingle id a f).2 := by
    unfold Adapter.processSingle Adapter.region
    dsimp only
    rw [cy, cx, cy', cx']
  have rep := C137_reported hr h64 a f hH hW hres hx hy h1 h2 hLx hLy hM hv (j := j) (i := i) (by rw [hn]; exact hj) (by rw [hn]; exact hi)
  obtain ⟨-, reg⟩ := C137_region hr h64 a f hH hW hres hx hy hLx hLy hM hv
  rw [same] at reg
  rw [← eky, ← ekx] at reg
  have close := C58_close_partial a f hLx hLy hv hH hW hres hx hy hdt hn hp h1 h2 ⟨ky, hky.symm⟩ ⟨kx, hkx.symm⟩ hj hi
  have rx : 0 ≤ reachX a := by unfold reachX; have := length_nonneg hx hres a.bounds.2; positivity
  have ry : 0 ≤ reachY a := by unfold reachY; have := length_nonneg hy hres a.bounds.1; positivity
  have kxr : (kx : ℚ) ≤ reachX a := by rw [hkx]; unfold reachX; linarith [abs_nonneg (a.boundsOffset.2 * a.resX)]
  have kyr : (ky : ℚ) ≤ reachY a := by rw [hky]; unfold reachY; linarith [abs_nonneg (a.boundsOffset.1 * a.resY)]
  have hE' : Lx * kx + Ly * ky ≤ Lx * reachX a + Ly * reachY a :=
    add_le_add (mul_le_mul_of_nonneg_left kxr hLx) (mul_le_mul_of_nonneg_left kyr hLy)
  have hE0 : 0 ≤ Lx * kx + Ly * ky := by positivity
  have hM0 : 0 ≤ M := (abs_nonneg _).trans (hM 0 0 hH hW).1
  have hgH : 0 < (padEdge a.padding f).H := Nat.add_pos_left hH _
  have hgW : 0 < (padEdge a.padding f).W := Nat.add_pos_left hW _
  have hgM := pad_bounded hH hW hM a.padding
  have hgv := pad_varies a.padding hH hW hLx hLy hv
  obtain ⟨G, hG⟩ : ∃ G, G = (Adapter.processSingle id a f).2 := ⟨_, rfl⟩
  have GH : G.H = ky := by rw [hG]; exact cy
  have GW : G.W = kx := by rw [hG]; exact cx
  have Gv : VariesAtMost G Lx Ly := by rw [hG]; exact region_varies a _ hgH hgW hLx hLy hgv kyp kxp hky.symm hkx.symm
  have GM : ∀ j i, |(G.at_ j i).1| ≤ M ∧ |(G.at_ j i).2| ≤ M := by
    intro j i
    rw [hG]
    exact ⟨bilinear_le _ hgH hgW (fun j i hj hi => (hgM j i hj hi).1) _ _, bilinear_le _ hgH hgW (fun j i hj hi => (hgM j i hj hi).2) _ _⟩
  dsimp only at rep reg close ⊢
  rw [← hG] at reg close
  obtain ⟨E, hE⟩ : ∃ E, E = Lx * reachX a + Ly * reachY a := ⟨_, rfl⟩
  rw [← hE] at rep reg hE' ⊢
  obtain ⟨at', hat⟩ : ∃ at', at' = (processSingle fl64 r a f).2.at_ := ⟨_, rfl⟩
  have mach : (processSingle fl64 r a f).2 = { G with at_ := at' } := by
    have : (processSingle fl64 r a f).2 = { H := ky, W := kx, at_ := at' } := by rw [eky, ekx, hat]
    rw [this, ← GH, ← GW]
  rw [← hat] at reg
  have hEp : 0 ≤ E := hE0.trans hE'
  have mv := motion_near hr' h24 recip a.bounds G at' a.dt a.resX a.resY ((a.imgOffset.1 + j : Nat) : ℚ) ((a.imgOffset.2 + i : Nat) : ℚ) ⟨hb1, hb2⟩
    (by rw [GH, GW]; exact ⟨kyp, kxp⟩) (M := M + (10 * M + 6 * E) / 2 ^ 24) (e := (10 * M + 6 * E) / 2 ^ 24) hLx hLy
    (fun j i _ _ => by
      have h : 0 ≤ (10 * M + 6 * E) / 2 ^ 24 := by positivity
      exact ⟨(GM j i).1.trans (by linarith), (GM j i).2.trans (by linarith)⟩) Gv
    (fun j i hj hi => by
      rw [GH] at hj; rw [GW] at hi
      exact ⟨(abs_of_err (reg j i hj hi).1).trans (by linarith [(GM j i).1]), (abs_of_err (reg j i hj hi).2).trans (by linarith [(GM j i).2])⟩)
    (fun j i hj hi => by rw [GH] at hj; rw [GW] at hi; exact reg j i hj hi)
    ⟨by positivity, by exact_mod_cast (by omega : a.imgOffset.1 + j ≤ a.bounds.1)⟩ ⟨by positivity, by exact_mod_cast (by omega : a.imgOffset.2 + i ≤ a.bounds.2)⟩
  rw [← mach, GH, GW] at mv
  have f1 : |a.resY * a.dt| * ((a.bounds.1 : ℚ) / ky) = a.resolution * a.dt := by
    rw [abs_of_nonneg (by positivity), hky]; field_simp
  have f2 : |a.resX * a.dt| * ((a.bounds.2 : ℚ) / kx) = a.resolution * a.dt := by
    rw [abs_of_nonneg (by positivity), hkx]; field_simp
  rw [f1, f2] at mv
  rw [if_pos hp, abs_of_nonneg (mul_nonneg hres.le hdt)] at rep
  have c0 : 0 ≤ a.resolution * a.dt := by positivity
  generalize a.resolution * a.dt = c at *
  have fin {P Q x o o' t b : ℚ} (hm : |P - Q| ≤ (5 * b + (21 * (M + (10 * M + 6 * E) / 2 ^ 24) + 4 * (Lx * kx + Ly * ky)) * c) / 2 ^ 24 + (1 + 1 / 100) * ((10 * M + 6 * E) / 2 ^ 24) * c)
      (hc : |Q - x - o| ≤ t) (ho : |o' - o| ≤ (13 * M + 7 * E) * c / 2 ^ 24) : |P - x - o'| ≤ t + (5 * b + (45 * M + 20 * E) * c) / 2 ^ 24 := by
    have e : P - x - o' = (P - Q) + (Q - x - o) + (o - o') := by ring
    rw [e]
    rw [abs_sub_comm] at ho
    refine (abs_add_le _ _).trans ((add_le_add_left (abs_add_le _ _) _).trans ?_)
    have k1 := mul_le_mul_of_nonneg_right hE' c0
    have k2 : 0 ≤ M * c := mul_nonneg hM0 c0
    have k3 : 0 ≤ E * c := mul_nonneg hEp c0
    norm_num at hm ho ⊢
    linarith
  exact ⟨fin mv.1 close.1 rep.2, fin mv.2 close.2 rep.1⟩

/-! ## Concrete cases -/

/-- Three grid steps per unit of length, seven pixels per unit, a region of 14 pixels, that is six grid steps. -/
def demoArgs : Args ℚ :=
  { newShape := (7, 7), imageShape := (7, 7), imgOffset := (3, 2), resolution := 7, resX := 3, resY := 3, bounds := (14, 14), boundsOffset := (1 / 3, 0), batchSize := 1,
    pixels := true, dt := 1 / 10, padding := (1, 0) }

/-- A flow that changes by a tenth from grid point to grid point. -/
def demoField : Field2 ℚ := { H := 9, W := 9, at_ := fun j i => ((j : ℚ) / 10, (i : ℚ) / 10 - 1 / 3) }

example : VariesAtMost demoField (1 / 10) (1 / 10) ∧ ∀ j i, j < demoField.H → i < demoField.W → |(demoField.at_ j i).1| ≤ 1 ∧ |(demoField.at_ j i).2| ≤ 1 := by
  refine ⟨⟨fun j i _ _ => ?_, fun j i _ _ => ?_⟩, fun j i hj hi => ?_⟩
  · unfold demoField; push_cast; ring_nf; norm_num
  · unfold demoField; push_cast; ring_nf; norm_num
  · have hj' : ((j : Nat) : ℚ) < 9 := by exact_mod_cast hj
    have hi' : ((i : Nat) : ℚ) < 9 := by exact_mod_cast hi
    have : (0 : ℚ) ≤ j := by positivity
    have : (0 : ℚ) ≤ i := by positivity
    unfold demoField
    constructor <;> rw [abs_le] <;> constructor <;> dsimp only <;> linarith

-- The hypotheses on the region, and what the machine reports at a pixel and does to the particle there, beside the exact flow.
example : (((processSingle binary64 (fun _ => binary32) demoArgs demoField).2.H : Nat) : ℚ) = (demoArgs.bounds.1 : ℚ) / demoArgs.resolution * demoArgs.resY ∧
    (processSingle binary64 (fun _ => binary32) demoArgs demoField).1.at_ 2 4 = (9171545 / 67108864, -1342177 / 16777216) ∧ (Adapter.processSingle id demoArgs demoField).1.at_ 2 4 = (41 / 300, -2 / 25) ∧
    move binary64 (fun _ => binary32) true demoArgs.bounds (processSingle binary64 (fun _ => binary32) demoArgs demoField).2 demoArgs.dt demoArgs.resX demoArgs.resY 5 6 =
      (10373911 / 2097152, 3224371 / 524288) := by
  decide +kernel

end Verif.Single
