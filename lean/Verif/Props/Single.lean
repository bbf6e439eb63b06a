import Verif.Proofs.SingleMove
import Verif.Spec.Single
import Verif.Props.Interp
import Verif.Props.Adapter
import Verif.Props.Render
/-!
# Single precision (C122-C125)
-/

namespace Verif.Single
open Verif Interp Adapter Render

/-- What the hardware does meets the assumption. -/
theorem hardware_rounds {r : Nat → ℚ → ℚ} (h : Hardware r) : Rounds r := by
  intro i x
  rcases h i with h | h
  · rw [h]; exact binary32_err x
  · rw [h, id, sub_self, abs_zero]; positivity

/-- Without any rounding it is the exact interpolation. -/
theorem bilinear_exact (image : Nat → Nat → ℚ) (H W : Nat) (x y : ℚ) :
    bilinear (fun _ => id) image H W x y = Interp.bilinear image H W x y := rfl

/-- **C122**: bilinear interpolation in single precision differs from exact interpolation by at most ten rounding errors of the largest entry, for
every image, point and fusing of operations. -/
theorem C122_bilinear {r : Nat → ℚ → ℚ} (hr : Rounds r) (image : Nat → Nat → ℚ) {H W : Nat} (hH : 0 < H) (hW : 0 < W) {M : ℚ}
    (hM : ∀ j i, j < H → i < W → |image j i| ≤ M) (x y : ℚ) :
    |bilinear r image H W x y - Interp.bilinear image H W x y| ≤ 10 * M / 2 ^ 24 := bilinear_error hr image hH hW hM x y

/-- **C122**: trilinear interpolation, seventeen rounding errors. -/
theorem C122_trilinear {r : Nat → ℚ → ℚ} (hr : Rounds r) (volume : Nat → Nat → Nat → ℚ) {D H W : Nat} (hD : 0 < D) (hH : 0 < H) (hW : 0 < W)
    {M : ℚ} (hM : ∀ k j i, k < D → j < H → i < W → |volume k j i| ≤ M) (x y z : ℚ) :
    |trilinear r volume D H W x y z - Interp.trilinear volume D H W x y z| ≤ 17 * M / 2 ^ 24 := trilinear_error hr volume hD hH hW hM x y z

/-- The motion of a particle along a flow field `flow'` in single precision, compared with the exact motion along `flow`, whose entries differ from those of `flow'` by at
most `e`. -/
theorem motion_near {r : Nat → ℚ → ℚ} (hr : Rounds r) {fl64 : ℚ → ℚ} (h64 : ∀ x, |fl64 x - x| ≤ |x| / 2 ^ 24) (recip : Bool) (bounds : Nat × Nat) (flow : Field2 ℚ)
    (at' : Nat → Nat → ℚ × ℚ) (dt resX resY y x : ℚ) (hb : 0 < bounds.1 ∧ 0 < bounds.2) (hs : 0 < flow.H ∧ 0 < flow.W) {M Lx Ly e : ℚ} (hLx : 0 ≤ Lx) (hLy : 0 ≤ Ly)
    (hM : ∀ j i, j < flow.H → i < flow.W → |(flow.at_ j i).1| ≤ M ∧ |(flow.at_ j i).2| ≤ M) (hv : VariesAtMost flow Lx Ly)
    (hM' : ∀ j i, j < flow.H → i < flow.W → |(at' j i).1| ≤ M ∧ |(at' j i).2| ≤ M)
    (he : ∀ j i, j < flow.H → i < flow.W → |(at' j i).1 - (flow.at_ j i).1| ≤ e ∧ |(at' j i).2 - (flow.at_ j i).2| ≤ e)
    (hy : 0 ≤ y ∧ y ≤ bounds.1) (hx : 0 ≤ x ∧ x ≤ bounds.2) :
    |(move fl64 r recip bounds { flow with at_ := at' } dt resX resY y x).1 - (Adapter.move bounds flow dt resX resY y x).1| ≤
        (5 * bounds.1 + (21 * M + 4 * (Lx * flow.W + Ly * flow.H)) * (|resY * dt| * (bounds.1 / flow.H))) / 2 ^ 24 + (1 + 1 / 100) * e * (|resY * dt| * (bounds.1 / flow.H)) ∧
    |(move fl64 r recip bounds { flow with at_ := at' } dt resX resY y x).2 - (Adapter.move bounds flow dt resX resY y x).2| ≤
        (5 * bounds.2 + (21 * M + 4 * (Lx * flow.W + Ly * flow.H)) * (|resX * dt| * (bounds.2 / flow.W))) / 2 ^ 24 + (1 + 1 / 100) * e * (|resX * dt| * (bounds.2 / flow.W)) := by
  have b1 : (0 : ℚ) < bounds.1 := by exact_mod_cast hb.1
  have b2 : (0 : ℚ) < bounds.2 := by exact_mod_cast hb.2
  have b3 : (0 : ℚ) < flow.H := by exact_mod_cast hs.1
  have b4 : (0 : ℚ) < flow.W := by exact_mod_cast hs.2
  have p1 : (0 : ℚ) < flow.H / bounds.1 := by positivity
  have p2 : (0 : ℚ) < flow.W / bounds.2 := by positivity
  rw [Adapter.move_eq _ _ _ _ _ _ _ hb.1 hb.2 hs.1 hs.2]
  have a1 := alpha_err hr h64 9 p1
  have a2 := alpha_err hr h64 10 p2
  have s1 := scaled_err hr 11 (y := y) p1 a1
  have s2 := scaled_err hr 12 (y := x) p2 a2
  have y1 : |y| * (flow.H / bounds.1) ≤ flow.H := by
    rw [abs_of_nonneg hy.1, mul_div_assoc', div_le_iff₀ b1]; nlinarith [hy.2]
  have x1 : |x| * (flow.W / bounds.2) ≤ flow.W := by
    rw [abs_of_nonneg hx.1, mul_div_assoc', div_le_iff₀ b2]; nlinarith [hx.2]
  unfold move step2
  dsimp only
  generalize hα1 : r 9 (fl64 ((flow.H : ℚ) / bounds.1)) = α1 at *
  generalize hα2 : r 10 (fl64 ((flow.W : ℚ) / bounds.2)) = α2 at *
  have r1 := rounds_eps hr 11 (y * α1)
  have r2 := rounds_eps hr 12 (x * α2)
  generalize r 11 (y * α1) = Y at *
  generalize r 12 (x * α2) = X at *
  have hrr (n : Nat) : Rounds (fun i => r (i + n)) := fun i x => hr (i + n) x
  have hM0 : 0 ≤ M := (abs_nonneg _).trans (hM 0 0 hs.1 hs.2).1
  have inM (g : Nat → Nat → ℚ) (hg : ∀ j i, j < flow.H → i < flow.W → |g j i| ≤ M) (x y : ℚ) : |Interp.bilinear g flow.H flow.W x y| ≤ M := by
    have := C51_in_range g hs.1 hs.2 (lo := -M) (hi := M) (fun j i hj hi => abs_le.1 (hg j i hj hi)) x y
    exact abs_le.2 this
  have he0 : 0 ≤ e := (abs_nonneg _).trans (he 0 0 hs.1 hs.2).1
  have near (g g' : Nat → Nat → ℚ) (hd : ∀ j i, j < flow.H → i < flow.W → |g' j i - g j i| ≤ e) (hx : ∀ j i, j < flow.H → i + 1 < flow.W → |g j (i + 1) - g j i| ≤ Lx)
      (hy : ∀ j i, j + 1 < flow.H → i < flow.W → |g (j + 1) i - g j i| ≤ Ly) :
      |Interp.bilinear g' flow.H flow.W X Y - Interp.bilinear g flow.H flow.W (x * (flow.W / bounds.2)) (y * (flow.H / bounds.1))| ≤
        (3 + 1 / 100) * ε * (Lx * flow.W + Ly * flow.H) + e := by
    have d : |Interp.bilinear g' flow.H flow.W X Y - Interp.bilinear g flow.H flow.W X Y| ≤ e := by
      have h1 := C51_linear g' g 1 (-1) flow.H flow.W X Y
      have h2 := C51_in_range (fun j i => 1 * g' j i + -1 * g j i) hs.1 hs.2 (lo := -e) (hi := e)
        (fun j i hj hi => by
          rw [one_mul, neg_one_mul, ← sub_eq_add_neg]
          exact abs_le.1 (hd j i hj hi)) X Y
      rw [h1, one_mul, neg_one_mul, ← sub_eq_add_neg] at h2
      exact abs_le.2 h2
    have tri := abs_add_le (Interp.bilinear g' flow.H flow.W X Y - Interp.bilinear g flow.H flow.W X Y)
      (Interp.bilinear g flow.H flow.W X Y - Interp.bilinear g flow.H flow.W (x * (flow.W / bounds.2)) (y * (flow.H / bounds.1)))
    rw [sub_add_sub_cancel, add_comm] at tri
    refine tri.trans (add_le_add ?_ d)
    refine (C51_continuous g hs.1 hs.2 hLx hLy hx hy _ _ _ _).trans ?_
    have hε : (0 : ℚ) ≤ (3 + 1 / 100) * ε := by norm_num
    have k1 := mul_le_mul_of_nonneg_left (s2.trans (mul_le_mul_of_nonneg_left x1 hε)) hLx
    have k2 := mul_le_mul_of_nonneg_left (s1.trans (mul_le_mul_of_nonneg_left y1 hε)) hLy
    calc _ ≤ _ := add_le_add k1 k2
      _ = _ := by ring
  have fin {b H c E : ℚ} (hb : 0 < b) (hH : 0 < H) {z out V : ℚ} (hz : 0 ≤ z ∧ z ≤ b) (hE : 0 ≤ E)
      (h : |out - (z + V * c / (H / b))| ≤ ε * (5 * |z| + 21 * (M * |c| / (H / b))) + (1 + 1 / 100) * (((3 + 1 / 100) * ε * E + e) * |c| / (H / b))) :
      |out - (z + V * (c * (b / H)))| ≤ (5 * b + (21 * M + 4 * E) * (|c| * (b / H))) / 2 ^ 24 + (1 + 1 / 100) * e * (|c| * (b / H)) := by
    have e1 (v : ℚ) : v / (H / b) = v * (b / H) := by rw [div_div_eq_mul_div, mul_div_assoc]
    rw [e1, e1, e1, mul_assoc V] at h
    refine h.trans ?_
    rw [abs_of_nonneg hz.1]
    have k0 : 0 ≤ |c| * (b / H) := mul_nonneg (abs_nonneg _) (div_pos hb hH).le
    have k1 : 0 ≤ E * (|c| * (b / H)) := mul_nonneg hE k0
    have k2 : 0 ≤ M * (|c| * (b / H)) := mul_nonneg hM0 k0
    simp only [eps_num]
    linarith [hz.2]
  have hE : 0 ≤ Lx * flow.W + Ly * flow.H := by positivity
  constructor
  · refine fin b1 b3 hy hE ?_
    have hM2 : ∀ j i, j < flow.H → i < flow.W → |(flow.at_ j i).2| ≤ M := fun j i hj hi => (hM j i hj hi).2
    refine axis_move p1 a1 r1 (inM _ hM2 _ _) (near _ (fun j i => (at' j i).2) (fun j i hj hi => (he j i hj hi).2) (fun j i hj hi => (hv.1 j i hj hi).2) (fun j i hj hi => (hv.2 j i hj hi).2)) ?_
      (back_err hr recip 13 14 _ _)
    rw [← mul_assoc]
    have hM2' : ∀ j i, j < flow.H → i < flow.W → |(at' j i).2| ≤ M := fun j i hj hi => (hM' j i hj hi).2
    exact axis_step hr 0 3 4 5 6 (inM _ hM2' _ _) (bilinear_error (hrr 40) _ hs.1 hs.2 hM2' _ _)
  · refine fin b2 b4 hx hE ?_
    have hM1 : ∀ j i, j < flow.H → i < flow.W → |(flow.at_ j i).1| ≤ M := fun j i hj hi => (hM j i hj hi).1
    refine axis_move p2 a2 r2 (inM _ hM1 _ _) (near _ (fun j i => (at' j i).1) (fun j i hj hi => (he j i hj hi).1) (fun j i hj hi => (hv.1 j i hj hi).1) (fun j i hj hi => (hv.2 j i hj hi).1)) ?_
      (back_err hr recip 15 16 _ _)
    rw [← mul_assoc]
    have hM1' : ∀ j i, j < flow.H → i < flow.W → |(at' j i).1| ≤ M := fun j i hj hi => (hM' j i hj hi).1
    exact axis_step hr 0 1 2 7 8 (inM _ hM1' _ _) (bilinear_error (hrr 20) _ hs.1 hs.2 hM1' _ _)

/-- **C123**: the motion of a particle between the images, in single precision. A particle of the region, `bounds` pixels in size, ends where exact arithmetic
puts it, up to `2 ^ -24` times: five times the size of the region, 21 times the largest displacement (in pixels), and four times the displacement that the
variation of the flow over the region amounts to. -/
theorem C123_motion {r : Nat → ℚ → ℚ} (hr : Rounds r) {fl64 : ℚ → ℚ} (h64 : ∀ x, |fl64 x - x| ≤ |x| / 2 ^ 24) (recip : Bool) (bounds : Nat × Nat) (flow : Field2 ℚ)
    (dt resX resY y x : ℚ) (hb : 0 < bounds.1 ∧ 0 < bounds.2) (hs : 0 < flow.H ∧ 0 < flow.W) {M Lx Ly : ℚ} (hLx : 0 ≤ Lx) (hLy : 0 ≤ Ly)
    (hM : ∀ j i, j < flow.H → i < flow.W → |(flow.at_ j i).1| ≤ M ∧ |(flow.at_ j i).2| ≤ M) (hv : VariesAtMost flow Lx Ly)
    (hy : 0 ≤ y ∧ y ≤ bounds.1) (hx : 0 ≤ x ∧ x ≤ bounds.2) :
    |(move fl64 r recip bounds flow dt resX resY y x).1 - (Adapter.move bounds flow dt resX resY y x).1| ≤
        (5 * bounds.1 + (21 * M + 4 * (Lx * flow.W + Ly * flow.H)) * (|resY * dt| * (bounds.1 / flow.H))) / 2 ^ 24 ∧
    |(move fl64 r recip bounds flow dt resX resY y x).2 - (Adapter.move bounds flow dt resX resY y x).2| ≤
        (5 * bounds.2 + (21 * M + 4 * (Lx * flow.W + Ly * flow.H)) * (|resX * dt| * (bounds.2 / flow.W))) / 2 ^ 24 := by
  have h := motion_near hr h64 recip bounds flow flow.at_ dt resX resY y x hb hs (e := 0) hLx hLy hM hv hM (fun j i _ _ => by simp) hy hx
  simpa only [mul_zero, zero_mul, add_zero] using h

/-- **C123**, the particle of the second image: near where exact arithmetic puts it, with the size, orientation and brightness it has in the first. -/
theorem C123_particle {r : Nat → ℚ → ℚ} (hr : Rounds r) {fl64 : ℚ → ℚ} (h64 : ∀ x, |fl64 x - x| ≤ |x| / 2 ^ 24) (recip : Bool) (bounds : Nat × Nat) (flow : Field2 ℚ)
    (dt resX resY : ℚ) (p : Render.Particle ℚ) (hb : 0 < bounds.1 ∧ 0 < bounds.2) (hs : 0 < flow.H ∧ 0 < flow.W) {M Lx Ly : ℚ} (hLx : 0 ≤ Lx) (hLy : 0 ≤ Ly)
    (hM : ∀ j i, j < flow.H → i < flow.W → |(flow.at_ j i).1| ≤ M ∧ |(flow.at_ j i).2| ≤ M) (hv : VariesAtMost flow Lx Ly)
    (hy : 0 ≤ p.y ∧ p.y ≤ bounds.1) (hx : 0 ≤ p.x ∧ p.x ≤ bounds.2) :
    let q := moved fl64 r recip bounds flow dt resX resY p
    |q.y - (Adapter.move bounds flow dt resX resY p.y p.x).1| ≤
        (5 * bounds.1 + (21 * M + 4 * (Lx * flow.W + Ly * flow.H)) * (|resY * dt| * (bounds.1 / flow.H))) / 2 ^ 24 ∧
    |q.x - (Adapter.move bounds flow dt resX resY p.y p.x).2| ≤
        (5 * bounds.2 + (21 * M + 4 * (Lx * flow.W + Ly * flow.H)) * (|resX * dt| * (bounds.2 / flow.W))) / 2 ^ 24 ∧
    q.dx = p.dx ∧ q.dy = p.dy ∧ q.rho = p.rho ∧ q.amp = p.amp := by
  intro q
  obtain ⟨h1, h2⟩ := C123_motion hr h64 recip bounds flow dt resX resY p.y p.x hb hs hLx hLy hM hv hy hx
  exact ⟨h1, h2, rfl, rfl, rfl, rfl⟩

/-- Rounding leaves single-precision numbers as they are. -/
theorem hardware_fix {r : Nat → ℚ → ℚ} (h : Hardware r) (i : Nat) {y : ℚ} (hy : binary32 y = y) : r i y = y := by
  rcases h i with h | h <;> rw [h]
  · exact hy
  · rfl

/-- **C124**: the images of a still flow in the arithmetic of the machine (partial). If the flow field of the region has one grid step per pixel, then particles at
single-precision positions stay exactly where they are, and the images agree. Missing: other resolutions (`C124_refuted`). -/
theorem C124_still_partial {r : Nat → ℚ → ℚ} (hr : Hardware r) {fl64 : ℚ → ℚ} (h64 : fl64 1 = 1) (recip : Bool) (bounds : Nat × Nat) (flow : Field2 ℚ)
    (hb : 0 < bounds.1 ∧ 0 < bounds.2) (h0 : ∀ j i, flow.at_ j i = (0, 0)) (hs : (flow.H, flow.W) = bounds) (dt resX resY : ℚ) (exp fl : ℚ → ℚ) (rad : Nat)
    (ps : List (Render.Particle ℚ)) (hps : ∀ p, p ∈ ps → binary32 p.y = p.y ∧ binary32 p.x = p.x) :
    Render.render exp fl rad bounds.1 bounds.2 (ps.map (moved fl64 r recip bounds flow dt resX resY)) = Render.render exp fl rad bounds.1 bounds.2 ps := by
  congr 1
  refine (List.map_congr_left (fun p hp => ?_)).trans (List.map_id _)
  obtain ⟨hy, hx⟩ := hps p hp
  have e0 : binary32 0 = 0 := by have := binary32_int (N := 0) (by decide); exact_mod_cast this
  have e1 : binary32 1 = 1 := by have := binary32_int (N := 1) (by decide); exact_mod_cast this
  have z (i : Nat) : r i 0 = 0 := hardware_fix hr i e0
  have o (i : Nat) : r i 1 = 1 := hardware_fix hr i e1
  have bl (n : Nat) (x y : ℚ) : bilinear (fun i => r (i + n)) (fun _ _ => (0 : ℚ)) flow.H flow.W x y = 0 := by
    unfold bilinear; simp only [mul_zero, z, add_zero]
  have hH : flow.H = bounds.1 := by rw [← hs]
  have hW : flow.W = bounds.2 := by rw [← hs]
  have a1 : (flow.H : ℚ) / bounds.1 = 1 := by rw [hH]; exact div_self (by exact_mod_cast hb.1.ne')
  have a2 : (flow.W : ℚ) / bounds.2 = 1 := by rw [hW]; exact div_self (by exact_mod_cast hb.2.ne')
  have bk (n m : Nat) {y : ℚ} (hy : binary32 y = y) : back recip (r n) (r m) y 1 = y := by
    unfold back
    simp only [div_one, o, mul_one, hardware_fix hr m hy, ite_self]
  have : move fl64 r recip bounds flow dt resX resY p.y p.x = (p.y, p.x) := by
    unfold move step2
    simp only [a1, a2, h64, o, mul_one, h0, bl, zero_mul, z, add_zero, hardware_fix hr 11 hy, hardware_fix hr 12 hx, hardware_fix hr 6 hy, hardware_fix hr 8 hx,
      bk 13 14 hy, bk 15 16 hx]
  unfold moved
  rw [this]
  rfl

/-- **C124**: for every resolution a still flow moves a particle by at most five rounding errors of the size of the region. -/
theorem C124_still_close {r : Nat → ℚ → ℚ} (hr : Rounds r) {fl64 : ℚ → ℚ} (h64 : ∀ x, |fl64 x - x| ≤ |x| / 2 ^ 24) (recip : Bool) (bounds : Nat × Nat)
    (flow : Field2 ℚ) (h0 : ∀ j i, flow.at_ j i = (0, 0)) (dt resX resY y x : ℚ) (hb : 0 < bounds.1 ∧ 0 < bounds.2) (hs : 0 < flow.H ∧ 0 < flow.W)
    (hy : 0 ≤ y ∧ y ≤ bounds.1) (hx : 0 ≤ x ∧ x ≤ bounds.2) :
    |(move fl64 r recip bounds flow dt resX resY y x).1 - y| ≤ 5 * bounds.1 / 2 ^ 24 ∧
    |(move fl64 r recip bounds flow dt resX resY y x).2 - x| ≤ 5 * bounds.2 / 2 ^ 24 := by
  have h := C123_motion hr h64 recip bounds flow dt resX resY y x hb hs (M := 0) (Lx := 0) (Ly := 0) le_rfl le_rfl
    (fun j i _ _ => by rw [h0]; simp) ⟨fun j i _ _ => by simp [h0], fun j i _ _ => by simp [h0]⟩ hy hx
  have e : Adapter.move bounds flow dt resX resY y x = (y, x) := by
    rw [Adapter.move_eq _ _ _ _ _ _ _ hb.1 hb.2 hs.1 hs.2]
    have hz : ∀ (x y : ℚ), Interp.bilinear (fun _ _ => (0 : ℚ)) flow.H flow.W x y = 0 := by
      intro x y; unfold Interp.bilinear; ring
    simp only [h0, hz]
    simp
  rw [e] at h
  simpa using h

/-- The still flow of an accepted configuration, on the particle region. -/
def stillRegion (a : Geometry.Args) (g : Geometry.Geo) : Field2 ℚ :=
  (processSingle binary64 (ofGeo a g a.imageShape 1 true) { H := a.flowShape.1, W := a.flowShape.2, at_ := fun _ _ => (0, 0) }).2

/-- **C124 is false for other resolutions**, whether the compiler divides or multiplies: an accepted configuration (25 pixels per unit, 22 grid steps per
unit), a draw the generator can return, the particle at it, and a pixel that shows the particle in the first image and does not in the
second, although the flow is still: the particle at row 12 is put just above it. -/
theorem C124_refuted (recip : Bool) : ∃ (a : Geometry.Args) (g : Geometry.Geo) (k : Nat) (p : Render.Particle ℚ),
    Geometry.build binary64 binary32 a = .ok g ∧ k < 2 ^ 23 ∧ p.y = binary32 ((k : ℚ) / 2 ^ 23 * g.bounds.1) ∧ p.x = binary32 ((k : ℚ) / 2 ^ 23 * g.bounds.2) ∧
    let bounds := (g.bounds.1.toNat, g.bounds.2.toNat)
    let q := moved binary64 (fun _ => binary32) recip bounds (stillRegion a g) a.dt g.res.2 g.res.1 p
    0 < Render.render toyExp binary32 (Render.patchRadius a.maxDiameter) bounds.1 bounds.2 [p] 13 13 ∧
    Render.render toyExp binary32 (Render.patchRadius a.maxDiameter) bounds.1 bounds.2 [q] 13 13 = 0 :=
  ⟨{ imageShape := (25, 25), imgOffset := (0, 0), dt := 1, flowFieldSize := (2, 2), flowShape := (44, 44),
     resolution := 25, maxSpeedX := 0, maxSpeedY := 0, minSpeedX := 0, minSpeedY := 0, maxDiameter := 1, hidden := false },
   { boundsOffset := (0, 0), imgOffset := (0, 0), bounds := (25, 25), padding := (0, 0), res := (22, 22) }, 4026532,
   { y := 12, x := 12, dx := 1, dy := 1, rho := 0, amp := 100 }, by decide +kernel, by decide, by decide +kernel, by decide +kernel,
   by cases recip <;> decide +kernel⟩

/-- **C125**: properties drawn in single precision lie in the range they are drawn from, end points included, for every pair of single-precision bounds and every
draw the generator can return (multiples of `2 ^ -23` below 1). -/
theorem C125_in_range {r : Nat → ℚ → ℚ} (hr : Hardware r) {lo hi : ℚ} (hlo : binary32 lo = lo) (hhi : binary32 hi = hi) (hle : lo ≤ hi) {k : Nat}
    (hk : k < 2 ^ 23) : lo ≤ between r lo hi ((k : ℚ) / 2 ^ 23) ∧ between r lo hi ((k : ℚ) / 2 ^ 23) ≤ hi := by
  unfold between
  refine ⟨le_max_left _ _, max_le hle ?_⟩
  have hR := hardware_rounds hr
  have hm : ∀ {x y : ℚ}, x ≤ y → r 2 x ≤ r 2 y := by
    intro x y h
    rcases hr 2 with e | e <;> rw [e]
    · exact binary32_mono h
    · exact h
  refine (hm ?_).trans (hardware_fix hr 2 hhi).le
  -- the draw
  have hk' : (k : ℚ) + 1 ≤ 2 ^ 23 := by exact_mod_cast hk
  have hu0 : (0 : ℚ) ≤ (k : ℚ) / 2 ^ 23 := by positivity
  have hu1 : (k : ℚ) / 2 ^ 23 ≤ 1 - 2 * ε := by
    rw [div_le_iff₀ (by positivity)]
    norm_num at hk' ⊢
    linarith
  generalize (k : ℚ) / 2 ^ 23 = u at *
  have hd : 0 ≤ hi - lo := by linarith
  have h1 := abs_le.1 (rounds_eps hR 0 (hi - lo))
  rw [abs_of_nonneg hd] at h1
  have d0 : 0 ≤ r 0 (hi - lo) := by
    have : ε * (hi - lo) ≤ hi - lo := by simp only [eps_num]; linarith
    linarith [h1.1]
  generalize r 0 (hi - lo) = d at *
  have ud0 : 0 ≤ u * d := mul_nonneg hu0 d0
  have h2 := abs_le.1 (rounds_eps hR 1 (u * d))
  rw [abs_of_nonneg ud0] at h2
  have h3 : u * d ≤ (1 - 2 * ε) * d := mul_le_mul_of_nonneg_right hu1 d0
  generalize r 1 (u * d) = w at *
  have h4 := h1.2
  have h5 := h2.2
  simp only [eps_num] at h3 h4 h5
  linarith

/-- **C125**: positions drawn in single precision lie in the region, its upper end excluded. -/
theorem C125_positions {r : Nat → ℚ → ℚ} (hr : Rounds r) (n : Nat) {H k : Nat} (hH : 0 < H) (hk : k < 2 ^ 23) :
    0 ≤ r n ((k : ℚ) / 2 ^ 23 * H) ∧ r n ((k : ℚ) / 2 ^ 23 * H) < H := by
  have hk' : (k : ℚ) + 1 ≤ 2 ^ 23 := by exact_mod_cast hk
  have hH' : (0 : ℚ) < H := by exact_mod_cast hH
  have hu0 : (0 : ℚ) ≤ (k : ℚ) / 2 ^ 23 := by positivity
  have hu1 : (k : ℚ) / 2 ^ 23 ≤ 1 - 2 * ε := by
    rw [div_le_iff₀ (by positivity)]
    norm_num at hk' ⊢
    linarith
  generalize (k : ℚ) / 2 ^ 23 = u at *
  have p0 : 0 ≤ u * H := mul_nonneg hu0 hH'.le
  have h1 := abs_le.1 (rounds_eps hr n (u * H))
  rw [abs_of_nonneg p0] at h1
  have h2 : u * H ≤ (1 - 2 * ε) * H := mul_le_mul_of_nonneg_right hu1 hH'.le
  have h3 := h1.1
  have h4 := h1.2
  simp only [eps_num] at h2 h3 h4
  constructor <;> linarith

/-! ## Concrete cases -/

/-- A flow field, a point between its grid points, and what the machine computes with single operations and with fused ones. -/
def demoFlow : Field2 ℚ := { H := 3, W := 3, at_ := fun j i => ((j : ℚ) - 1, (i : ℚ) / 3) }

/-- Some products are fused with the following sums. -/
def fused (i : Nat) : ℚ → ℚ := if i = 5 ∨ i = 7 then id else binary32

example : Hardware (fun _ => binary32) := fun _ => .inl rfl
example : Hardware fused := fun i => by unfold fused; split <;> simp
example : (∀ j i, j < 3 → i < 3 → |(demoFlow.at_ j i).1| ≤ 1 ∧ |(demoFlow.at_ j i).2| ≤ 1) ∧ VariesAtMost demoFlow 1 1 := by
  refine ⟨fun j i hj hi => ?_, fun j i hj hi => ?_, fun j i hj hi => ?_⟩
  · have : j = 0 ∨ j = 1 ∨ j = 2 := by omega
    have : i = 0 ∨ i = 1 ∨ i = 2 := by omega
    unfold demoFlow; rcases ‹j = 0 ∨ _› with rfl | rfl | rfl <;> rcases ‹i = 0 ∨ _› with rfl | rfl | rfl <;> norm_num
  · unfold demoFlow; norm_num; ring_nf; norm_num [abs_of_pos]
  · unfold demoFlow; norm_num
example : move binary64 (fun _ => binary32) false (7, 7) demoFlow (1 / 10) 3 3 2 (5 / 2) = (9 / 4, 10066329 / 4194304) ∧
    move binary64 fused true (7, 7) demoFlow (1 / 10) 3 3 2 (5 / 2) = (9 / 4, 10066329 / 4194304) ∧
    Adapter.move (7, 7) demoFlow (1 / 10) 3 3 2 (5 / 2) = (9 / 4, 12 / 5) := by decide +kernel
example : bilinear (fun _ => binary32) (fun j i => (100 * j + 7 * i : Nat)) 3 3 (binary32 (1 / 3)) (binary32 (5 / 7)) = 1208515 / 16384 ∧
    Interp.bilinear (fun j i => ((100 * j + 7 * i : Nat) : ℚ)) 3 3 (binary32 (1 / 3)) (binary32 (5 / 7)) = 2475038877 / 33554432 := by decide +kernel
example : trilinear (fun _ => binary32) (fun k j i => (100 * j + 7 * i + k : Nat)) 3 3 3 (binary32 (1 / 3)) (binary32 (5 / 7)) (1 / 2) = 1216707 / 16384 ∧
    Interp.trilinear (fun k j i => ((100 * j + 7 * i + k : Nat) : ℚ)) 3 3 3 (binary32 (1 / 3)) (binary32 (5 / 7)) (1 / 2) = 2491816093 / 33554432 := by
  decide +kernel
-- The upper end of the range can be drawn.
example : binary32 100 = 100 ∧ binary32 101 = 101 ∧ between (fun _ => binary32) 100 101 ((8388607 : Nat) / 2 ^ 23) = 101 := by decide +kernel
-- The hypotheses of `C124_still_partial`.
example : binary64 1 = 1 ∧ binary32 (1 / 3) ≠ 1 / 3 ∧ binary32 (11184811 / 2 ^ 25) = 11184811 / 2 ^ 25 := by decide +kernel

/-- **C122** is as strong as it can be in kind: where all entries are equal, the machine's interpolation can be above and below them. -/
theorem C122_range_refuted : ∃ x x' y : ℚ, binary32 x = x ∧ binary32 x' = x' ∧ binary32 y = y ∧
    200 < bilinear (fun _ => binary32) (fun _ _ => 200) 2 2 x y ∧ bilinear (fun _ => binary32) (fun _ _ => 200) 2 2 x' y < 200 :=
  ⟨binary32 (12 / 61), binary32 (11 / 61), binary32 (1 / 7), by decide +kernel, by decide +kernel, by decide +kernel, by decide +kernel, by decide +kernel⟩

end Verif.Single
