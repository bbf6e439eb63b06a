import Verif.Props.Adapter
import Verif.Proofs.Geometry
/-!
# Property C118: where in the flow field the image lies
-/

namespace Verif.Adapter
open Verif Interp Apply

/-! ## Lemmas -/

section
variable {K : Type*} [Field K] [LinearOrder K] [FloorRing K] [IsStrictOrderedRing K]

/-- Interpolation in a list to which `p` copies of the first entry were prepended. -/
theorem lin_shift {n p : Nat} (hn : 0 < n) (f : Nat → K) (c : K) : lin (fun j => f (j - p)) (n + p) c = lin f n (c - p) := by
  have h1 : (1 : K) ≤ n := by exact_mod_cast hn
  rcases Nat.eq_zero_or_pos p with rfl | hp0
  · simp
  rcases lt_or_ge c (p : K) with h | h
  · have hf : ⌊c⌋ < (p : Int) := by rw [Int.floor_lt]; exact_mod_cast h
    have hr : lin f n (c - p) = f 0 := by
      rw [lin_clip hn]
      have : clipCo n (c - p) = ((0 : Nat) : K) := by
        unfold clipCo; rw [max_eq_right (by linarith), min_eq_left (by linarith)]; simp
      rw [this, lin_grid hn]
    rw [hr]
    unfold lin
    have e0 : (clipIx (n + p) ⌊c⌋).toNat - p = 0 := by unfold clipIx; push_cast; omega
    have e1 : (clipIx (n + p) (clipIx (n + p) ⌊c⌋ + 1)).toNat - p = 0 := by unfold clipIx; push_cast; omega
    dsimp only
    rw [e0, e1]
    ring
  · have hf : (p : Int) ≤ ⌊c⌋ := by rw [Int.le_floor]; exact_mod_cast h
    have hfl : ⌊c - (p : K)⌋ = ⌊c⌋ - p := Int.floor_sub_natCast c p
    have e0 : clipIx (n + p) ⌊c⌋ = clipIx n (⌊c⌋ - p) + p := by unfold clipIx; push_cast; omega
    have e1 : clipIx (n + p) (clipIx n (⌊c⌋ - p) + p + 1) = clipIx n (clipIx n (⌊c⌋ - p) + 1) + p := by unfold clipIx; push_cast; omega
    have ec : clipCo (n + p) c = clipCo n (c - p) + p := by
      unfold clipCo
      have hp : (0 : K) ≤ p := Nat.cast_nonneg p
      rw [max_eq_left (by linarith), max_eq_left (by linarith)]
      push_cast
      rcases le_total (c - p) ((n : K) - 1) with h2 | h2
      · rw [min_eq_left h2, min_eq_left (by linarith)]; ring
      · rw [min_eq_right h2, min_eq_right (by linarith)]; ring
    have m0 := clipIx_mem hn (⌊c⌋ - p)
    have m1 := clipIx_mem hn (clipIx n (⌊c⌋ - p) + 1)
    unfold lin
    dsimp only
    rw [hfl, e0, e1, ec, show (clipIx n (⌊c⌋ - p) + p).toNat - p = (clipIx n (⌊c⌋ - p)).toNat by omega,
      show (clipIx n (clipIx n (⌊c⌋ - p) + 1) + p).toNat - p = (clipIx n (clipIx n (⌊c⌋ - p) + 1)).toNat by omega]
    push_cast
    ring

theorem bilinear_pad {H W : Nat} (hH : 0 < H) (hW : 0 < W) (p : Nat × Nat) (f : Nat → Nat → K) (x y : K) :
    bilinear (fun j i => f (j - p.1) (i - p.2)) (H + p.1) (W + p.2) x y = bilinear f H W (x - p.2) (y - p.1) := by
  rw [bilinear_eq, bilinear_eq, ← lin_shift hH]
  congr 1
  funext j
  exact lin_shift hW _ _

/-- The points of `linspace` differ from those of a grid of the same length by at most what a step differs from 1. -/
theorem linspace_near (s L : K) {n j : Nat} (hj : j < n) : |linspace s (s + L - 1) n j - (s + j * (L / n))| ≤ |L / n - 1| := by
  unfold linspace
  by_cases h : n ≤ 1
  · rw [if_pos h]
    have : j = 0 := by omega
    subst this
    simp
  · rw [if_neg h]
    have hn : (1 : K) < n := by exact_mod_cast (by omega : 1 < n)
    have hn1 : (0 : K) < (n : K) - 1 := by linarith
    have hj' : (j : K) ≤ (n : K) - 1 := by
      have : ((j + 1 : Nat) : K) ≤ n := by exact_mod_cast hj
      push_cast at this; linarith
    have hj0 : (0 : K) ≤ j := Nat.cast_nonneg j
    have e : s + j * ((s + L - 1 - s) / ((n : K) - 1)) - (s + j * (L / n)) = (j / ((n : K) - 1)) * (L / n - 1) := by
      field_simp
      ring
    rw [e, abs_mul]
    refine mul_le_of_le_one_left (abs_nonneg _) ?_
    rw [abs_of_nonneg (div_nonneg hj0 hn1.le), div_le_one hn1]
    exact hj'

end

/-- On one axis: the image starts at or before the given offset, by less than a pixel, and by up to one grid step more if the region starts before
the flow field; with a whole number of pixels between them, and without padding, exactly there. -/
theorem start_near {R res o M : ℚ} (hR : 0 < R) (hres : 0 < res) (hM : 0 ≤ M) :
    let pad := ⌈max 0 (-(o - M)) * res⌉
    let start := imageStart (max 0 (o - M)) res ⌊M * R⌋.toNat R - (pad.toNat : ℚ)
    start ≤ o * res ∧ o * res - (res / R + if pad = 0 then 0 else 1) < start ∧
    ((∃ k : Int, M * R = k) → pad = 0 → start = o * res) := by
  intro pad start
  have hfl : 0 ≤ ⌊M * R⌋ := Int.floor_nonneg.2 (mul_nonneg hM hR.le)
  have hk : ((⌊M * R⌋.toNat : Nat) : ℚ) = (⌊M * R⌋ : ℚ) := by
    rw [← Int.cast_natCast, Int.toNat_of_nonneg hfl]
  have hpad0 : 0 ≤ pad := Int.ceil_nonneg (mul_nonneg (le_max_left _ _) hres.le)
  have hp : ((pad.toNat : Nat) : ℚ) = (pad : ℚ) := by
    rw [← Int.cast_natCast, Int.toNat_of_nonneg hpad0]
  have f1 := Int.floor_le (M * R)
  have f2 := Int.lt_floor_add_one (M * R)
  have hq : 0 < res / R := div_pos hres hR
  have e : start = max 0 (o - M) * res + (⌊M * R⌋ : ℚ) * (res / R) - pad := by
    show imageStart _ _ _ _ - _ = _
    unfold imageStart
    rw [hk, hp]
    ring
  have hMR : M * R * (res / R) = M * res := by field_simp
  have b1 : (⌊M * R⌋ : ℚ) * (res / R) ≤ M * res := by rw [← hMR]; exact mul_le_mul_of_nonneg_right f1 hq.le
  have b2 : M * res < (⌊M * R⌋ : ℚ) * (res / R) + res / R := by
    rw [← hMR, ← add_one_mul]; exact mul_lt_mul_of_pos_right f2 hq
  have c1 : max 0 (-(o - M)) * res ≤ pad := Int.le_ceil _
  have c2 : (pad : ℚ) < max 0 (-(o - M)) * res + 1 := Int.ceil_lt_add_one _
  have hsplit : max 0 (o - M) - max 0 (-(o - M)) = o - M := by
    rcases le_total (o - M) 0 with h | h
    · rw [max_eq_left h, max_eq_right (by linarith)]; ring
    · rw [max_eq_right h, max_eq_left (by linarith)]; ring
  have hsplit' : max 0 (o - M) * res - max 0 (-(o - M)) * res = o * res - M * res := by rw [← sub_mul, hsplit, sub_mul]
  refine ⟨by rw [e]; linarith, ?_, ?_⟩
  · rw [e]
    split
    · rename_i h0
      have : (pad : ℚ) = 0 := by exact_mod_cast h0
      have hz : max 0 (-(o - M)) * res = 0 := le_antisymm (by linarith) (mul_nonneg (le_max_left _ _) hres.le)
      linarith
    · linarith
  · rintro ⟨k, hk'⟩ h0
    have : (pad : ℚ) = 0 := by exact_mod_cast h0
    have hz : max 0 (-(o - M)) * res = 0 := le_antisymm (by linarith) (mul_nonneg (le_max_left _ _) hres.le)
    have hfk : (⌊M * R⌋ : ℚ) = M * R := by rw [hk', Int.floor_intCast]
    rw [e, hfk, hMR]
    linarith

/-! ## C118 -/

/-- `q` is near `p`: at most `e` behind it, and less than `b + e` before it. -/
def Near (p b e q : ℚ) : Prop := q ≤ p + e ∧ p - b - e < q

/-- The point of the flow field, in grid steps, whose flow is reported at `(j, i)`. -/
def point (a : Geometry.Args) (g : Geometry.Geo) (new : Nat × Nat) (j i : Nat) : ℚ × ℚ :=
  let b := ofGeo a g new 0 true
  let sy := imageStart b.boundsOffset.1 b.resY b.imgOffset.1 b.resolution
  let sx := imageStart b.boundsOffset.2 b.resX b.imgOffset.2 b.resolution
  (linspace sy (sy + (a.imageShape.1 : ℚ) / a.resolution * b.resY - 1) new.1 j - b.padding.1,
   linspace sx (sx + (a.imageShape.2 : ℚ) / a.resolution * b.resX - 1) new.2 i - b.padding.2)

theorem reported_point (a : Geometry.Args) (g : Geometry.Geo) (new : Nat × Nat) (n : Nat) (px : Bool) (f : Field2 ℚ) (hH : 0 < f.H) (hW : 0 < f.W) (j i : Nat) :
    (processSingle id (ofGeo a g new n px) f).1.at_ j i =
      (bilinear (fun j i => (f.at_ j i).1) f.H f.W (point a g new j i).2 (point a g new j i).1 * (if px then a.resolution * a.dt else 1),
       bilinear (fun j i => (f.at_ j i).2) f.H f.W (point a g new j i).2 (point a g new j i).1 * (if px then a.resolution * a.dt else 1)) := by
  show (units _ (resized _ (padEdge _ f))).at_ j i = _
  rw [units_at]
  refine Prod.ext ?_ ?_
  · exact congrArg (· * _) (bilinear_pad hH hW (g.padding.1.toNat, g.padding.2.toNat) (fun j i => (f.at_ j i).1) _ _)
  · exact congrArg (· * _) (bilinear_pad hH hW (g.padding.1.toNat, g.padding.2.toNat) (fun j i => (f.at_ j i).2) _ _)

/-- The stored numbers, for one axis. -/
theorem point_eq {a : Geometry.Args} {g : Geometry.Geo} (hdt : 0 < a.dt) (h : Geometry.build id id a = .ok g) :
    ∃ My Mx : ℚ, 0 ≤ My ∧ 0 ≤ Mx ∧ 0 < g.res.1 ∧ 0 < g.res.2 ∧ 0 < a.resolution ∧
      g.imgOffset = (⌊My * a.resolution⌋, ⌊Mx * a.resolution⌋) ∧ g.boundsOffset = (max 0 (a.imgOffset.1 - My), max 0 (a.imgOffset.2 - Mx)) ∧
      g.padding = (⌈max 0 (-(a.imgOffset.1 - My)) * g.res.1⌉, ⌈max 0 (-(a.imgOffset.2 - Mx)) * g.res.2⌉) ∧
      (a.hidden = false → My = max 0 a.maxSpeedY * a.dt ∧ Mx = max 0 a.maxSpeedX * a.dt) := by
  obtain ⟨b1, b2, b3, b4, b5, _, _, _, _, _, _, rfl⟩ := Geometry.build_ok h
  obtain ⟨s1, s2, s3⟩ := Geometry.store_eq (fl32 := id) (a := a) hdt.le b5 (le_max_left 0 a.maxSpeedX) (le_max_left 0 a.maxSpeedY)
    (min_le_left 0 a.minSpeedX) (min_le_left 0 a.minSpeedY)
  have hm : ∀ s, 0 ≤ s → 0 ≤ Geometry.margin a (max 0 a.maxSpeedX) (max 0 a.maxSpeedY) s := fun s hs =>
    add_nonneg (mul_nonneg hs hdt.le) (Geometry.extra_nonneg _ _ _ _)
  refine ⟨_, _, hm _ (le_max_left 0 a.maxSpeedY), hm _ (le_max_left 0 a.maxSpeedX), ?_, ?_, b5, s1, s3, ?_, ?_⟩
  · show 0 < (a.flowShape.1 : ℚ) / a.flowFieldSize.1
    exact div_pos (by exact_mod_cast b3) b1
  · show 0 < (a.flowShape.2 : ℚ) / a.flowFieldSize.2
    exact div_pos (by exact_mod_cast b4) b2
  · simp only [Geometry.store, Geometry.offset1_eq, id]
  · intro hh
    have : ∀ s, Geometry.extra id a (max 0 a.maxSpeedX) (max 0 a.maxSpeedY) s = 0 := by
      intro s
      unfold Geometry.extra Geometry.extended
      rw [hh]
      simp
    unfold Geometry.margin
    rw [this, this, add_zero, add_zero]
    exact ⟨rfl, rfl⟩

/-- **C118** (partial). In exact arithmetic, for every accepted configuration: the flow reported at `(j, i)` is that of the flow field at a
point `(Y, X)`, in grid steps, and that point is where `img_offset` says, `j` and `i` steps of the reported grid further, up to: less
than one pixel towards the corner, on top of that one grid step if the region of the particles begins before the flow field,
and on both sides as many grid steps as a step of the reported grid differs from a grid step. Missing: the exact place, which
is missed (`C118_refuted`). -/
theorem C118_place_partial (a : Geometry.Args) (g : Geometry.Geo) (hdt : 0 < a.dt) (h : Geometry.build id id a = .ok g) (new : Nat × Nat)
    (n : Nat) (px : Bool) (f : Field2 ℚ) (hf : (f.H, f.W) = a.flowShape) {j i : Nat} (hj : j < new.1) (hi : i < new.2) :
    let len := ((a.imageShape.1 : ℚ) / a.resolution, (a.imageShape.2 : ℚ) / a.resolution)
    ∃ Y X : ℚ,
      (processSingle id (ofGeo a g new n px) f).1.at_ j i =
        (bilinear (fun j i => (f.at_ j i).1) f.H f.W X Y * (if px then a.resolution * a.dt else 1),
         bilinear (fun j i => (f.at_ j i).2) f.H f.W X Y * (if px then a.resolution * a.dt else 1)) ∧
      Near ((a.imgOffset.1 + j * (len.1 / new.1)) * g.res.1) (g.res.1 / a.resolution + if g.padding.1 = 0 then 0 else 1)
        |len.1 * g.res.1 / new.1 - 1| Y ∧
      Near ((a.imgOffset.2 + i * (len.2 / new.2)) * g.res.2) (g.res.2 / a.resolution + if g.padding.2 = 0 then 0 else 1)
        |len.2 * g.res.2 / new.2 - 1| X := by
  intro len
  obtain ⟨My, Mx, m1, m2, r1, r2, hR, e1, e2, e3, _⟩ := point_eq hdt h
  obtain ⟨b1, b2, b3, b4, _⟩ := Geometry.build_ok h
  have hH : 0 < f.H := by have := congrArg Prod.fst hf; dsimp only at this; omega
  have hW : 0 < f.W := by have := congrArg Prod.snd hf; dsimp only at this; omega
  refine ⟨_, _, reported_point a g new n px f hH hW j i, ?_, ?_⟩
  · obtain ⟨s1, s2, _⟩ := start_near (o := a.imgOffset.1) hR r1 m1
    have hl := linspace_near (imageStart (max 0 (a.imgOffset.1 - My)) g.res.1 ⌊My * a.resolution⌋.toNat a.resolution)
      ((a.imageShape.1 : ℚ) / a.resolution * g.res.1) hj
    rw [abs_le] at hl
    have : (a.imgOffset.1 + j * (len.1 / new.1)) * g.res.1 = a.imgOffset.1 * g.res.1 + j * ((a.imageShape.1 : ℚ) / a.resolution * g.res.1 / new.1) := by
      show (a.imgOffset.1 + j * ((a.imageShape.1 : ℚ) / a.resolution / new.1)) * g.res.1 = _
      ring
    unfold Near
    rw [this]
    simp only [point, ofGeo, e1, e2]
    rw [show g.padding.1 = ⌈max 0 (-(a.imgOffset.1 - My)) * g.res.1⌉ by rw [e3]]
    constructor <;> linarith [hl.1, hl.2]
  · obtain ⟨s1, s2, _⟩ := start_near (o := a.imgOffset.2) hR r2 m2
    have hl := linspace_near (imageStart (max 0 (a.imgOffset.2 - Mx)) g.res.2 ⌊Mx * a.resolution⌋.toNat a.resolution)
      ((a.imageShape.2 : ℚ) / a.resolution * g.res.2) hi
    rw [abs_le] at hl
    have : (a.imgOffset.2 + i * (len.2 / new.2)) * g.res.2 = a.imgOffset.2 * g.res.2 + i * ((a.imageShape.2 : ℚ) / a.resolution * g.res.2 / new.2) := by
      show (a.imgOffset.2 + i * ((a.imageShape.2 : ℚ) / a.resolution / new.2)) * g.res.2 = _
      ring
    unfold Near
    rw [this]
    simp only [point, ofGeo, e1, e2]
    rw [show g.padding.2 = ⌈max 0 (-(a.imgOffset.2 - Mx)) * g.res.2⌉ by rw [e3]]
    constructor <;> linarith [hl.1, hl.2]

/-- **C118** (partial), the exact place: if nothing varies but the speeds, the displacements belonging to the largest speeds are whole numbers of
pixels, and the reported grid has the steps of the flow grid, the flow reported at `(j, i)` is that of the flow field at `img_offset` and
`j` and `i` grid steps further. -/
theorem C118_exact_partial (a : Geometry.Args) (g : Geometry.Geo) (hdt : 0 < a.dt) (h : Geometry.build id id a = .ok g) (new : Nat × Nat)
    (n : Nat) (px : Bool) (f : Field2 ℚ) (hf : (f.H, f.W) = a.flowShape) {j i : Nat} (hj : j < new.1) (hi : i < new.2) (hh : a.hidden = false)
    (hy : ∃ k : Int, max 0 a.maxSpeedY * a.dt * a.resolution = k) (hx : ∃ k : Int, max 0 a.maxSpeedX * a.dt * a.resolution = k)
    (hny : (a.imageShape.1 : ℚ) / a.resolution * g.res.1 = new.1) (hnx : (a.imageShape.2 : ℚ) / a.resolution * g.res.2 = new.2) :
    (processSingle id (ofGeo a g new n px) f).1.at_ j i =
      (bilinear (fun j i => (f.at_ j i).1) f.H f.W (a.imgOffset.2 * g.res.2 + i) (a.imgOffset.1 * g.res.1 + j) * (if px then a.resolution * a.dt else 1),
       bilinear (fun j i => (f.at_ j i).2) f.H f.W (a.imgOffset.2 * g.res.2 + i) (a.imgOffset.1 * g.res.1 + j) * (if px then a.resolution * a.dt else 1)) := by
  obtain ⟨My, Mx, m1, m2, r1, r2, hR, e1, e2, e3, e4⟩ := point_eq hdt h
  obtain ⟨b1, b2, b3, b4, _, _, _, b8, b9, _⟩ := Geometry.build_ok h
  have hH : 0 < f.H := by have := congrArg Prod.fst hf; dsimp only at this; omega
  have hW : 0 < f.W := by have := congrArg Prod.snd hf; dsimp only at this; omega
  obtain ⟨rfl, rfl⟩ := e4 hh
  have p1 : ⌈max 0 (-(a.imgOffset.1 - max 0 a.maxSpeedY * a.dt)) * g.res.1⌉ = 0 := by
    rw [max_eq_left (by linarith), zero_mul, Int.ceil_zero]
  have p2 : ⌈max 0 (-(a.imgOffset.2 - max 0 a.maxSpeedX * a.dt)) * g.res.2⌉ = 0 := by
    rw [max_eq_left (by linarith), zero_mul, Int.ceil_zero]
  obtain ⟨_, _, s1⟩ := start_near (o := a.imgOffset.1) hR r1 m1
  obtain ⟨_, _, s2⟩ := start_near (o := a.imgOffset.2) hR r2 m2
  have s1 := s1 hy p1
  have s2 := s2 hx p2
  rw [reported_point a g new n px f hH hW j i]
  have hp : point a g new j i = (a.imgOffset.1 * g.res.1 + j, a.imgOffset.2 * g.res.2 + i) := by
    simp only [point, ofGeo, e1, e2]
    rw [linspace_unit _ hj hny, linspace_unit _ hi hnx, ← s1, ← s2, e3]
    exact Prod.ext (by ring) (by ring)
  rw [hp]

/-- A window of 3 x 4 pixels in a flow field with as many grid steps as pixels, a step of 1 at most, at `(2, 3)`. -/
def demoPlace : Geometry.Args :=
  { imageShape := (3, 4), imgOffset := (2, 3), dt := 1, flowFieldSize := (10, 10), flowShape := (10, 10), resolution := 1
    maxSpeedX := 1, maxSpeedY := 1, minSpeedX := 0, minSpeedY := 0, maxDiameter := 1, hidden := false }

/-- The hypotheses of `C118_exact_partial` are met. -/
example : ∃ g, Geometry.build id id demoPlace = .ok g ∧ (demoPlace.imageShape.1 : ℚ) / demoPlace.resolution * g.res.1 = (3 : Nat) ∧
    (demoPlace.imageShape.2 : ℚ) / demoPlace.resolution * g.res.2 = (4 : Nat) ∧
    (processSingle id (ofGeo demoPlace g (3, 4) 1 true) ⟨10, 10, fun j i => (i, j)⟩).1.at_ 1 2 = (5, 3) :=
  ⟨⟨(1, 2), (1, 1), (4, 5), (0, 0), (1, 1)⟩, by decide +kernel, by decide +kernel, by decide +kernel, by decide +kernel⟩

/-- **C118 is false** as to the exact place: with `img_offset` `(3/2, 3/2)` and speeds up to half a pixel, in the flow `(x, y)` the first vector
reported is `(1, 1)`. -/
theorem C118_refuted : ∃ (a : Geometry.Args) (g : Geometry.Geo), Geometry.build id id a = .ok g ∧ 0 < a.dt ∧ a.resolution = 1 ∧ a.hidden = false ∧
    g.res = (1, 1) ∧ a.imgOffset = (3 / 2, 3 / 2) ∧
    (processSingle id (ofGeo a g (3, 4) 1 false) ⟨10, 10, fun j i => ((i : ℚ), (j : ℚ))⟩).1.at_ 0 0 = (1, 1) :=
  ⟨{ demoPlace with imgOffset := (3 / 2, 3 / 2), maxSpeedX := 1 / 2, maxSpeedY := 1 / 2 }, ⟨(1, 1), (0, 0), (3, 4), (0, 0), (1, 1)⟩,
    by decide +kernel, by decide +kernel, rfl, rfl, rfl, rfl, by decide +kernel⟩

/-- **C118 is false** with `img_offset` read as `(x0, y0)`, as the tutorial has it (`docs/tutorials.md` line 111): with `img_offset` `(2, 3)`, in the
flow `(x, y)`, the first vector reported is `(3, 2)`. -/
theorem C118_order_refuted : ∃ (a : Geometry.Args) (g : Geometry.Geo), Geometry.build id id a = .ok g ∧ 0 < a.dt ∧ a.resolution = 1 ∧ a.hidden = false ∧
    g.res = (1, 1) ∧ a.imgOffset = (2, 3) ∧
    (processSingle id (ofGeo a g (3, 4) 1 false) ⟨10, 10, fun j i => ((i : ℚ), (j : ℚ))⟩).1.at_ 0 0 = (3, 2) :=
  ⟨demoPlace, ⟨(1, 2), (1, 1), (4, 5), (0, 0), (1, 1)⟩, by decide +kernel, by decide +kernel, rfl, rfl, rfl, rfl, by decide +kernel⟩

/-- **C118 is false** by more than a pixel where the region begins before the flow field, which is then padded by whole grid steps. With four pixels
to a grid step, `img_offset` `(1/4, 1/4)`, hidden particles and no speed, the first vector reported is the one at `(-1/4, -1/4)`: two pixels off, and
outside the flow field. -/
theorem C118_refuted_padding : ∃ (a : Geometry.Args) (g : Geometry.Geo), Geometry.build id id a = .ok g ∧ 0 < a.dt ∧ a.resolution = 4 ∧
    g.res = (1, 1) ∧ a.imgOffset = (1 / 4, 1 / 4) ∧ a.maxSpeedX = 0 ∧ a.maxSpeedY = 0 ∧ point a g (3, 4) 0 0 = (-1 / 4, -1 / 4) :=
  ⟨{ demoPlace with imgOffset := (1 / 4, 1 / 4), maxSpeedX := 0, maxSpeedY := 0, resolution := 4, hidden := true },
    ⟨(0, 0), (3, 3), (6, 7), (1, 1), (1, 1)⟩, by decide +kernel, by decide +kernel, rfl, rfl, rfl, rfl, rfl, by decide +kernel⟩

end Verif.Adapter
