import Verif.Proofs.Adapter
/-!
# Properties of the flow field adapter (C57, C58)
-/

set_option linter.unusedSectionVars false

namespace Verif.Adapter
open Verif Interp Apply

variable {K : Type*} [Field K] [LinearOrder K] [FloorRing K] [IsStrictOrderedRing K]

/-- The factor of the output units: pixels per frame from measure units per second, or none. -/
def unitFactor (a : Args K) : K := if a.pixels then a.resolution * a.dt else 1

theorem units_at (a : Args K) (f : Field2 K) (j i : Nat) :
    (units a f).at_ j i = ((f.at_ j i).1 * unitFactor a, (f.at_ j i).2 * unitFactor a) := by
  unfold units unitFactor
  split <;> simp

theorem units_size (a : Args K) (f : Field2 K) : (units a f).H = f.H ∧ (units a f).W = f.W := by
  unfold units; split <;> exact ⟨rfl, rfl⟩

/-- **C57**, the batch: every output `b` belongs to flow field `b mod n`, the outputs have the wanted number, and there is
one region per flow field. -/
theorem C57_tiled (fl : K → K) (a : Args K) (flows : List (Field2 K)) (hne : flows ≠ []) :
    ∃ outs regions, adapter fl a flows = .ok (outs, regions) ∧ outs.length = a.batchSize ∧ regions.length = flows.length ∧
      (∀ b : Nat, b < a.batchSize → ∃ f, flows[b % flows.length]? = some f ∧ outs[b]? = some (processSingle fl a f).1) ∧
      (∀ (n : Nat) f, flows[n]? = some f → regions[n]? = some (processSingle fl a f).2) := by
  have hpos : 0 < flows.length := List.length_pos_iff.2 hne
  have ht := tile_take ((flows.map (processSingle fl a)).map Prod.fst) (by simpa using hne) a.batchSize
  simp only [List.length_map] at ht
  refine ⟨_, _, by unfold adapter; rw [if_neg (by omega)], ht.1, by simp, ?_, ?_⟩
  · intro b hb
    have hlt := Nat.mod_lt b hpos
    refine ⟨flows[b % flows.length], List.getElem?_eq_getElem hlt, ?_⟩
    rw [ht.2 b hb, List.getElem?_map, List.getElem?_map, List.getElem?_eq_getElem hlt]; rfl
  · intro n f h
    rw [List.getElem?_map, List.getElem?_map, h]; rfl

/-- **C57**: if the output grid has the steps of the flow grid and starts on a grid point `(sy, sx)` of it, and the window
is inside, the result is the crop of the (padded) flow, times the unit factor. -/
theorem C57_identity (fl : K → K) (a : Args K) (f : Field2 K) (sy sx : Nat)
    (hsy : imageStart a.boundsOffset.1 a.resY a.imgOffset.1 a.resolution = sy)
    (hsx : imageStart a.boundsOffset.2 a.resX a.imgOffset.2 a.resolution = sx)
    (hLy : (a.imageShape.1 : K) / a.resolution * a.resY = a.newShape.1)
    (hLx : (a.imageShape.2 : K) / a.resolution * a.resX = a.newShape.2)
    (hH : sy + a.newShape.1 ≤ f.H + a.padding.1) (hW : sx + a.newShape.2 ≤ f.W + a.padding.2) :
    (processSingle fl a f).1.H = a.newShape.1 ∧ (processSingle fl a f).1.W = a.newShape.2 ∧
    ∀ j i, j < a.newShape.1 → i < a.newShape.2 →
      (processSingle fl a f).1.at_ j i =
        ((f.at_ (sy + j - a.padding.1) (sx + i - a.padding.2)).1 * (if a.pixels then a.resolution * a.dt else 1),
         (f.at_ (sy + j - a.padding.1) (sx + i - a.padding.2)).2 * (if a.pixels then a.resolution * a.dt else 1)) := by
  refine ⟨(units_size _ _).1, (units_size _ _).2, fun j i hj hi => ?_⟩
  show (units a (resized a (padEdge a.padding f))).at_ j i = _
  rw [units_at]
  unfold resized sample
  dsimp only
  rw [hsy, hsx, linspace_unit _ hj hLy, linspace_unit _ hi hLx]
  have e1 : (sy : K) + j = ((sy + j : Nat) : K) := by push_cast; rfl
  have e2 : (sx : K) + i = ((sx + i : Nat) : K) := by push_cast; rfl
  rw [e1, e2, C51_grid_points _ (by show sy + j < f.H + a.padding.1; omega) (by show sx + i < f.W + a.padding.2; omega),
    C51_grid_points _ (by show sy + j < f.H + a.padding.1; omega) (by show sx + i < f.W + a.padding.2; omega)]
  rfl

/-- **C57**, the region for the particles: likewise a crop, if the region's steps are those of the grid. -/
theorem C57_region (a : Args K) (f : Field2 K) (sy sx ky kx : Nat) (hky : 0 < ky) (hkx : 0 < kx)
    (hsy : a.boundsOffset.1 * a.resY = sy) (hsx : a.boundsOffset.2 * a.resX = sx)
    (hLy : (a.bounds.1 : K) / a.resolution * a.resY = ky) (hLx : (a.bounds.2 : K) / a.resolution * a.resX = kx)
    (hH : sy + ky ≤ f.H + a.padding.1) (hW : sx + kx ≤ f.W + a.padding.2) :
    (processSingle id a f).2.H = ky ∧ (processSingle id a f).2.W = kx ∧
    ∀ j i, j < ky → i < kx →
      (processSingle id a f).2.at_ j i = f.at_ (sy + j - a.padding.1) (sx + i - a.padding.2) := by
  have cy := count_exact _ _ _ _ hky hLy
  have cx := count_exact _ _ _ _ hkx hLx
  refine ⟨cy, cx, fun j i hj hi => ?_⟩
  show (region id a (padEdge a.padding f)).at_ j i = _
  unfold region sample
  dsimp only
  rw [cy, cx, hsy, hsx, linspace_unit _ hj hLy, linspace_unit _ hi hLx]
  have e1 : (sy : K) + j = ((sy + j : Nat) : K) := by push_cast; rfl
  have e2 : (sx : K) + i = ((sx + i : Nat) : K) := by push_cast; rfl
  rw [e1, e2, C51_grid_points _ (by show sy + j < f.H + a.padding.1; omega) (by show sx + i < f.W + a.padding.2; omega),
    C51_grid_points _ (by show sy + j < f.H + a.padding.1; omega) (by show sx + i < f.W + a.padding.2; omega)]
  rfl

/-- A 6×7 flow, a 2×3 window at (1, 2) in a 4×5 region at (1, 1), two pixels per unit on both grids. -/
def demoArgs : Args ℚ :=
  { newShape := (2, 3), imageShape := (2, 3), imgOffset := (1, 2), resolution := 2, resX := 2, resY := 2, bounds := (4, 5)
    boundsOffset := (1 / 2, 1 / 2), batchSize := 3, pixels := true, dt := 1 / 4, padding := (0, 0) }

def demoField : Field2 ℚ := { H := 6, W := 7, at_ := fun j i => (10 * j + i, i * i) }

/-- `C57_tiled`: three outputs of two flow fields. -/
example := C57_tiled id demoArgs [demoField, { demoField with at_ := fun _ _ => (1, 0) }] (by simp)

/-- `C57_identity` and `C57_region`. -/
example := C57_identity id demoArgs demoField 2 3 (by decide +kernel) (by decide +kernel) (by decide +kernel) (by decide +kernel)
  (by decide +kernel) (by decide +kernel)
example := C57_region demoArgs demoField 1 1 4 5 (by decide) (by decide) (by decide +kernel) (by decide +kernel) (by decide +kernel)
  (by decide +kernel) (by decide +kernel) (by decide +kernel)

example : imageStart demoArgs.boundsOffset.1 demoArgs.resY demoArgs.imgOffset.1 demoArgs.resolution = (2 : Nat) := by decide +kernel
example : (List.range 2).map (fun j => (List.range 3).map ((processSingle id demoArgs demoField).1.at_ j)) =
    [[(23 / 2, 9 / 2), (12, 8), (25 / 2, 25 / 2)], [(33 / 2, 9 / 2), (17, 8), (35 / 2, 25 / 2)]] := by decide +kernel

/-! ## The reported flow and the motion of the particles -/

theorem region_size (fl : K → K) (a : Args K) (f : Field2 K) :
    (processSingle fl a f).2.H = count fl a.bounds.1 a.resolution a.resY ∧
    (processSingle fl a f).2.W = count fl a.bounds.2 a.resolution a.resX := ⟨rfl, rfl⟩

/-- **C58** (partial), first case: if the flow grid is as fine as the pixel grid, the flow reported at a pixel of the image is
exactly the displacement in pixels of a particle at that pixel, for every flow field, position of the window and padding.
Missing from C58: other resolutions (`C58_refuted`), uniform flows excepted. -/
theorem C58_same_grid_partial (a : Args K) (f : Field2 K) (hr : 0 < a.resolution) (hx : a.resX = a.resolution)
    (hy : a.resY = a.resolution) (hn : a.newShape = a.imageShape) (hp : a.pixels = true)
    (h1 : a.imgOffset.1 + a.imageShape.1 ≤ a.bounds.1) (h2 : a.imgOffset.2 + a.imageShape.2 ≤ a.bounds.2) {j i : Nat}
    (hj : j < a.imageShape.1) (hi : i < a.imageShape.2) :
    let out := (processSingle id a f).1.at_ j i
    move a.bounds (processSingle id a f).2 a.dt a.resX a.resY ((a.imgOffset.1 + j : Nat) : K) ((a.imgOffset.2 + i : Nat) : K) =
      (((a.imgOffset.1 + j : Nat) : K) + out.2, ((a.imgOffset.2 + i : Nat) : K) + out.1) := by
  have hr' : a.resolution ≠ 0 := hr.ne'
  have hb1 : (a.bounds.1 : K) ≠ 0 := by exact_mod_cast (by omega : a.bounds.1 ≠ 0)
  have hb2 : (a.bounds.2 : K) ≠ 0 := by exact_mod_cast (by omega : a.bounds.2 ≠ 0)
  have Ly : (a.bounds.1 : K) / a.resolution * a.resY = a.bounds.1 := by rw [hy]; field_simp
  have Lx : (a.bounds.2 : K) / a.resolution * a.resX = a.bounds.2 := by rw [hx]; field_simp
  have cy : (processSingle id a f).2.H = a.bounds.1 := count_exact _ _ _ _ (by omega) Ly
  have cx : (processSingle id a f).2.W = a.bounds.2 := count_exact _ _ _ _ (by omega) Lx
  have hreg : (processSingle id a f).2.at_ (a.imgOffset.1 + j) (a.imgOffset.2 + i) =
      (resized a (padEdge a.padding f)).at_ j i := by
    show (region id a (padEdge a.padding f)).at_ (a.imgOffset.1 + j) (a.imgOffset.2 + i) = _
    unfold region resized sample
    dsimp only
    rw [count_exact _ _ _ _ (by omega) Ly, count_exact _ _ _ _ (by omega) Lx, hn,
      linspace_unit _ (by omega : a.imgOffset.1 + j < a.bounds.1) Ly, linspace_unit _ (by omega : a.imgOffset.2 + i < a.bounds.2) Lx,
      linspace_unit _ hj (by rw [hy]; field_simp), linspace_unit _ hi (by rw [hx]; field_simp)]
    have e1 : imageStart a.boundsOffset.1 a.resY a.imgOffset.1 a.resolution + j = a.boundsOffset.1 * a.resY + ((a.imgOffset.1 + j : Nat) : K) := by
      unfold imageStart; rw [hy]; push_cast; field_simp; ring
    have e2 : imageStart a.boundsOffset.2 a.resX a.imgOffset.2 a.resolution + i = a.boundsOffset.2 * a.resX + ((a.imgOffset.2 + i : Nat) : K) := by
      unfold imageStart; rw [hx]; push_cast; field_simp; ring
    rw [e1, e2]
  have hout : (processSingle id a f).1.at_ j i = (units a (resized a (padEdge a.padding f))).at_ j i := rfl
  dsimp only
  rw [hout, units_at, ← hreg, move_eq _ _ _ _ _ _ _ (by omega) (by omega) (by rw [cy]; omega) (by rw [cx]; omega), cy, cx,
    div_self hb1, div_self hb2, mul_one, mul_one, C51_grid_points _ (by omega) (by omega), C51_grid_points _ (by omega) (by omega), hx, hy]
  unfold unitFactor
  rw [if_pos hp]
  congr 1 <;> ring

example := C58_same_grid_partial demoArgs demoField (by decide +kernel) rfl rfl rfl rfl (by decide) (by decide) (j := 1) (i := 2) (by decide)
  (by decide)

/-- **C58** (partial), second case: in a uniform flow `(u, v)`, at every resolution, the flow reported at every pixel is
`(u, v)` times pixels per unit and time step, and every particle moves by that multiplied on each axis by the length of the
region in grid steps over that length rounded down. So it moves exactly as reported if the lengths are whole. -/
theorem C58_uniform_partial (a : Args K) (f : Field2 K) (u v : K) (hf : ∀ j i, j < f.H → i < f.W → f.at_ j i = (u, v)) (hH : 0 < f.H) (hW : 0 < f.W)
    (hr : 0 < a.resolution) (hx : 0 < a.resX) (hy : 0 < a.resY) (hp : a.pixels = true) (h1 : 0 < a.bounds.1) (h2 : 0 < a.bounds.2) :
    (∀ j i, (processSingle id a f).1.at_ j i = (u * a.resolution * a.dt, v * a.resolution * a.dt)) ∧
    (∀ y x : K, move a.bounds (processSingle id a f).2 a.dt a.resX a.resY y x =
      (y + v * a.resolution * a.dt * ((a.bounds.1 : K) / a.resolution * a.resY / count id a.bounds.1 a.resolution a.resY),
       x + u * a.resolution * a.dt * ((a.bounds.2 : K) / a.resolution * a.resX / count id a.bounds.2 a.resolution a.resX))) ∧
    ((∃ k : Nat, (a.bounds.1 : K) / a.resolution * a.resY = k) → (∃ k : Nat, (a.bounds.2 : K) / a.resolution * a.resX = k) →
      ∀ y x : K, move a.bounds (processSingle id a f).2 a.dt a.resX a.resY y x =
        (y + v * a.resolution * a.dt, x + u * a.resolution * a.dt)) := by
  have hb1 : (0 : K) < a.bounds.1 := by exact_mod_cast h1
  have hb2 : (0 : K) < a.bounds.2 := by exact_mod_cast h2
  have hconst : ∀ (c : K) (h w : Nat) (x y : K), bilinear (fun _ _ => c) h w x y = c := by
    intro c h w x y; unfold bilinear; ring
  have hs : ∀ (h w : Nat) (ys xs : Nat → K) j i, (sample (padEdge a.padding f) h w ys xs).at_ j i = (u, v) := by
    intro h w ys xs j i
    have hpad : ∀ j i, j < (padEdge a.padding f).H → i < (padEdge a.padding f).W → (padEdge a.padding f).at_ j i = (u, v) := by
      intro j i hj hi
      have hj' : j < f.H + a.padding.1 := hj
      have hi' : i < f.W + a.padding.2 := hi
      exact hf _ _ (by omega) (by omega)
    have hH' : 0 < (padEdge a.padding f).H := by show 0 < f.H + a.padding.1; omega
    have hW' : 0 < (padEdge a.padding f).W := by show 0 < f.W + a.padding.2; omega
    have hb : ∀ (g : Nat → Nat → K) (c x y : K), (∀ j i, j < (padEdge a.padding f).H → i < (padEdge a.padding f).W → g j i = c) →
        bilinear g (padEdge a.padding f).H (padEdge a.padding f).W x y = c := fun g c x y hg =>
      le_antisymm (C51_in_range g hH' hW' (fun j i hj hi => ⟨(hg j i hj hi).ge, (hg j i hj hi).le⟩) x y).2
        (C51_in_range g hH' hW' (fun j i hj hi => ⟨(hg j i hj hi).ge, (hg j i hj hi).le⟩) x y).1
    unfold sample
    dsimp only
    rw [hb _ u _ _ (fun j i hj hi => by rw [hpad j i hj hi]), hb _ v _ _ (fun j i hj hi => by rw [hpad j i hj hi])]
  have hmove : ∀ y x : K, move a.bounds (processSingle id a f).2 a.dt a.resX a.resY y x =
      (y + v * a.resolution * a.dt * ((a.bounds.1 : K) / a.resolution * a.resY / count id a.bounds.1 a.resolution a.resY),
       x + u * a.resolution * a.dt * ((a.bounds.2 : K) / a.resolution * a.resX / count id a.bounds.2 a.resolution a.resX)) := by
    intro y x
    have c1 : 0 < count id a.bounds.1 a.resolution a.resY := by unfold count; omega
    have c2 : 0 < count id a.bounds.2 a.resolution a.resX := by unfold count; omega
    rw [move_eq _ _ _ _ _ _ _ h1 h2 (by rw [(region_size id a f).1]; exact c1) (by rw [(region_size id a f).2]; exact c2),
      (region_size id a f).1, (region_size id a f).2]
    have hat : ∀ j i, (processSingle id a f).2.at_ j i = (u, v) := fun j i => hs _ _ _ _ j i
    have c1' : (count id a.bounds.1 a.resolution a.resY : K) ≠ 0 := by exact_mod_cast c1.ne'
    have c2' : (count id a.bounds.2 a.resolution a.resX : K) ≠ 0 := by exact_mod_cast c2.ne'
    simp only [hat, hconst]
    congr 1
    · field_simp
    · field_simp
  refine ⟨?_, hmove, ?_⟩
  · intro j i
    have : (processSingle id a f).1.at_ j i = (units a (resized a (padEdge a.padding f))).at_ j i := rfl
    rw [this, units_at]
    have hz : (resized a (padEdge a.padding f)).at_ j i = (u, v) := hs _ _ _ _ j i
    rw [hz]
    unfold unitFactor
    rw [if_pos hp]
    congr 1 <;> ring
  · rintro ⟨k, hk⟩ ⟨l, hl⟩ y x
    have hk0 : (0 : K) < k := by rw [← hk]; positivity
    have hl0 : (0 : K) < l := by rw [← hl]; positivity
    have hkp : 0 < k := by exact_mod_cast hk0
    have hlp : 0 < l := by exact_mod_cast hl0
    rw [hmove, count_exact _ _ _ _ hkp hk, count_exact _ _ _ _ hlp hl, hk, hl, div_self hk0.ne', div_self hl0.ne', mul_one, mul_one]

example : (∀ j i, (processSingle id demoArgs { H := 6, W := 7, at_ := fun _ _ => (3, -1) }).1.at_ j i = (3 * 2 * (1 / 4), -1 * 2 * (1 / 4))) :=
  (C58_uniform_partial demoArgs { H := 6, W := 7, at_ := fun _ _ => (3, -1) } 3 (-1) (fun _ _ _ _ => rfl) (by decide) (by decide)
    (by decide +kernel) (by decide +kernel) (by decide +kernel) rfl (by decide) (by decide)).1

/-- Neighbouring velocities of a flow field differ by at most `Lx` along `x` and `Ly` along `y`, in each component. -/
def VariesAtMost (f : Field2 K) (Lx Ly : K) : Prop :=
  (∀ j i, j < f.H → i + 1 < f.W → |(f.at_ j (i + 1)).1 - (f.at_ j i).1| ≤ Lx ∧ |(f.at_ j (i + 1)).2 - (f.at_ j i).2| ≤ Lx) ∧
  (∀ j i, j + 1 < f.H → i < f.W → |(f.at_ (j + 1) i).1 - (f.at_ j i).1| ≤ Ly ∧ |(f.at_ (j + 1) i).2 - (f.at_ j i).2| ≤ Ly)

theorem pad_varies {f : Field2 K} {Lx Ly : K} (p : Nat × Nat) (hH : 0 < f.H) (hW : 0 < f.W) (hx : 0 ≤ Lx) (hy : 0 ≤ Ly) (h : VariesAtMost f Lx Ly) :
    VariesAtMost (padEdge p f) Lx Ly := by
  constructor
  · intro j i hj hi
    have hj' : j < f.H + p.1 := hj
    have hi' : i + 1 < f.W + p.2 := hi
    show |(f.at_ (j - p.1) (i + 1 - p.2)).1 - (f.at_ (j - p.1) (i - p.2)).1| ≤ Lx ∧
      |(f.at_ (j - p.1) (i + 1 - p.2)).2 - (f.at_ (j - p.1) (i - p.2)).2| ≤ Lx
    by_cases hp : p.2 ≤ i
    · rw [show i + 1 - p.2 = i - p.2 + 1 by omega]
      exact h.1 _ _ (by omega) (by omega)
    · rw [show i + 1 - p.2 = i - p.2 by omega, sub_self, sub_self, abs_zero]; exact ⟨hx, hx⟩
  · intro j i hj hi
    have hj' : j + 1 < f.H + p.1 := hj
    have hi' : i < f.W + p.2 := hi
    show |(f.at_ (j + 1 - p.1) (i - p.2)).1 - (f.at_ (j - p.1) (i - p.2)).1| ≤ Ly ∧
      |(f.at_ (j + 1 - p.1) (i - p.2)).2 - (f.at_ (j - p.1) (i - p.2)).2| ≤ Ly
    by_cases hp : p.1 ≤ j
    · rw [show j + 1 - p.1 = j - p.1 + 1 by omega]
      exact h.2 _ _ (by omega) (by omega)
    · rw [show j + 1 - p.1 = j - p.1 by omega, sub_self, sub_self, abs_zero]; exact ⟨hy, hy⟩

/-- Distance between the point where the reported flow is sampled and a grid point of the region next to the particle. -/
theorem sample_distance {s q : K} {o n b k i m : Nat} (hq : 0 < q) (hi : i < n) (ho : o + n ≤ b) (hk : (b : K) * q = k)
    (hm : |(m : K) - clipCo k (((o + i : Nat) : K) * q)| ≤ 1) :
    |(s + m) - linspace (s + (o : K) * q) (s + (o : K) * q + (n : K) * q - 1) n i| ≤ 1 + 2 * |q - 1| := by
  have h1 : |clipCo k (((o + i : Nat) : K) * q) - ((o + i : Nat) : K) * q| ≤ |q - 1| := by
    have hc0 : 0 ≤ ((o + i : Nat) : K) * q := by positivity
    have hob : ((o + i + 1 : Nat) : K) ≤ b := by exact_mod_cast (by omega : o + i + 1 ≤ b)
    have hle : ((o + i : Nat) : K) * q + q ≤ k := by
      rw [← hk]; push_cast at hob ⊢; nlinarith
    unfold clipCo
    rw [max_eq_left hc0]
    rcases le_total (((o + i : Nat) : K) * q) ((k : K) - 1) with h | h
    · rw [min_eq_left h, sub_self, abs_zero]; exact abs_nonneg _
    · rw [min_eq_right h, abs_of_nonpos (by linarith)]
      have := neg_abs_le (q - 1)
      linarith
  have h2 : |s + ((o + i : Nat) : K) * q - linspace (s + (o : K) * q) (s + (o : K) * q + (n : K) * q - 1) n i| ≤ |q - 1| := by
    unfold linspace
    by_cases hn : n ≤ 1
    · rw [if_pos hn]
      have : i = 0 := by omega
      subst this
      simp
    · rw [if_neg hn]
      have hn1 : (0 : K) < (n : K) - 1 := by
        have : (1 : K) < n := by exact_mod_cast (by omega : 1 < n)
        linarith
      have e : s + ((o + i : Nat) : K) * q - (s + (o : K) * q + (i : K) * ((s + (o : K) * q + (n : K) * q - 1 - (s + (o : K) * q)) / ((n : K) - 1))) =
          -((q - 1) * ((i : K) / ((n : K) - 1))) := by
        push_cast; field_simp; ring
      rw [e, abs_neg, abs_mul]
      have hi0 : 0 ≤ (i : K) / ((n : K) - 1) := by positivity
      have hi1 : (i : K) / ((n : K) - 1) ≤ 1 := by
        rw [div_le_one hn1]
        have : ((i + 1 : Nat) : K) ≤ n := by exact_mod_cast hi
        push_cast at this; linarith
      rw [abs_of_nonneg hi0]
      exact mul_le_of_le_one_right (abs_nonneg _) hi1
  rw [abs_le] at *
  constructor <;> linarith [h1.1, h1.2, h2.1, h2.2, hm.1, hm.2]

/-- **C58** (partial), third case: at every resolution and for every flow whose neighbouring velocities differ by at most `Lx`
and `Ly`, if the region is a whole number of grid steps long, the flow reported at a pixel differs from the displacement of a
particle at that pixel at most by what the flow changes within `1 + 2 |q - 1|` grid steps, `q` being the number of grid steps
per pixel on the axis. -/
theorem C58_close_partial (a : Args K) (f : Field2 K) {Lx Ly : K} (hLx : 0 ≤ Lx) (hLy : 0 ≤ Ly) (hv : VariesAtMost f Lx Ly)
    (hH : 0 < f.H) (hW : 0 < f.W) (hr : 0 < a.resolution) (hx : 0 < a.resX) (hy : 0 < a.resY) (hdt : 0 ≤ a.dt)
    (hn : a.newShape = a.imageShape) (hp : a.pixels = true)
    (h1 : a.imgOffset.1 + a.imageShape.1 ≤ a.bounds.1) (h2 : a.imgOffset.2 + a.imageShape.2 ≤ a.bounds.2)
    (hky : ∃ k : Nat, (a.bounds.1 : K) / a.resolution * a.resY = k) (hkx : ∃ k : Nat, (a.bounds.2 : K) / a.resolution * a.resX = k)
    {j i : Nat} (hj : j < a.imageShape.1) (hi : i < a.imageShape.2) :
    let out := (processSingle id a f).1.at_ j i
    let p' := move a.bounds (processSingle id a f).2 a.dt a.resX a.resY ((a.imgOffset.1 + j : Nat) : K) ((a.imgOffset.2 + i : Nat) : K)
    let tol := (Lx * (1 + 2 * |a.resX / a.resolution - 1|) + Ly * (1 + 2 * |a.resY / a.resolution - 1|)) * (a.resolution * a.dt)
    |p'.1 - ((a.imgOffset.1 + j : Nat) : K) - out.2| ≤ tol ∧ |p'.2 - ((a.imgOffset.2 + i : Nat) : K) - out.1| ≤ tol := by
  obtain ⟨ky, hky⟩ := hky
  obtain ⟨kx, hkx⟩ := hkx
  have hb1 : (0 : K) < a.bounds.1 := by exact_mod_cast (by omega : 0 < a.bounds.1)
  have hb2 : (0 : K) < a.bounds.2 := by exact_mod_cast (by omega : 0 < a.bounds.2)
  have hky0 : (0 : K) < ky := by rw [← hky]; positivity
  have hkx0 : (0 : K) < kx := by rw [← hkx]; positivity
  have hkyp : 0 < ky := by exact_mod_cast hky0
  have hkxp : 0 < kx := by exact_mod_cast hkx0
  have cy : (processSingle id a f).2.H = ky := count_exact _ _ _ _ hkyp hky
  have cx : (processSingle id a f).2.W = kx := count_exact _ _ _ _ hkxp hkx
  have hqy : (a.bounds.1 : K) * (a.resY / a.resolution) = ky := by rw [← hky]; field_simp
  have hqx : (a.bounds.2 : K) * (a.resX / a.resolution) = kx := by rw [← hkx]; field_simp
  have hq1 : (ky : K) / a.bounds.1 = a.resY / a.resolution := by rw [← hqy]; field_simp
  have hq2 : (kx : K) / a.bounds.2 = a.resX / a.resolution := by rw [← hqx]; field_simp
  set g := padEdge a.padding f with hg
  have hgv : VariesAtMost g Lx Ly := pad_varies _ hH hW hLx hLy hv
  have hgH : 0 < g.H := by show 0 < f.H + a.padding.1; omega
  have hgW : 0 < g.W := by show 0 < f.W + a.padding.2; omega
  -- one component `c` of the flow, at the particle and as reported
  have key : ∀ c : K × K → K,
      (∀ j i, j < g.H → i + 1 < g.W → |c (g.at_ j (i + 1)) - c (g.at_ j i)| ≤ Lx) →
      (∀ j i, j + 1 < g.H → i < g.W → |c (g.at_ (j + 1) i) - c (g.at_ j i)| ≤ Ly) →
      |bilinear (fun m n => bilinear (fun j i => c (g.at_ j i)) g.H g.W
            (linspace (a.boundsOffset.2 * a.resX) (a.boundsOffset.2 * a.resX + (a.bounds.2 : K) / a.resolution * a.resX - 1) kx n)
            (linspace (a.boundsOffset.1 * a.resY) (a.boundsOffset.1 * a.resY + (a.bounds.1 : K) / a.resolution * a.resY - 1) ky m))
          ky kx (((a.imgOffset.2 + i : Nat) : K) * (a.resX / a.resolution)) (((a.imgOffset.1 + j : Nat) : K) * (a.resY / a.resolution)) -
        bilinear (fun j i => c (g.at_ j i)) g.H g.W
          (linspace (imageStart a.boundsOffset.2 a.resX a.imgOffset.2 a.resolution)
            (imageStart a.boundsOffset.2 a.resX a.imgOffset.2 a.resolution + (a.imageShape.2 : K) / a.resolution * a.resX - 1) a.imageShape.2 i)
          (linspace (imageStart a.boundsOffset.1 a.resY a.imgOffset.1 a.resolution)
            (imageStart a.boundsOffset.1 a.resY a.imgOffset.1 a.resolution + (a.imageShape.1 : K) / a.resolution * a.resY - 1) a.imageShape.1 j)| ≤
        Lx * (1 + 2 * |a.resX / a.resolution - 1|) + Ly * (1 + 2 * |a.resY / a.resolution - 1|) := by
    intro c hcx hcy
    refine bilinear_near hkyp hkxp (fun m n hm hn hmy hnx => ?_)
    refine (C51_continuous _ hgH hgW hLx hLy hcx hcy _ _ _ _).trans (add_le_add ?_ ?_)
    · refine mul_le_mul_of_nonneg_left ?_ hLx
      rw [linspace_unit _ hn hkx]
      have := sample_distance (s := a.boundsOffset.2 * a.resX) (by positivity) hi h2 hqx hnx
      unfold imageStart
      rw [show (a.imgOffset.2 : K) / a.resolution * a.resX = (a.imgOffset.2 : K) * (a.resX / a.resolution) by ring,
        show (a.imageShape.2 : K) / a.resolution * a.resX = (a.imageShape.2 : K) * (a.resX / a.resolution) by ring]
      exact this
    · refine mul_le_mul_of_nonneg_left ?_ hLy
      rw [linspace_unit _ hm hky]
      have := sample_distance (s := a.boundsOffset.1 * a.resY) (by positivity) hj h1 hqy hmy
      unfold imageStart
      rw [show (a.imgOffset.1 : K) / a.resolution * a.resY = (a.imgOffset.1 : K) * (a.resY / a.resolution) by ring,
        show (a.imageShape.1 : K) / a.resolution * a.resY = (a.imageShape.1 : K) * (a.resY / a.resolution) by ring]
      exact this
  have k1 := key Prod.fst (fun j i hj hi => (hgv.1 j i hj hi).1) (fun j i hj hi => (hgv.2 j i hj hi).1)
  have k2 := key Prod.snd (fun j i hj hi => (hgv.1 j i hj hi).2) (fun j i hj hi => (hgv.2 j i hj hi).2)
  have hscale : 0 ≤ a.resolution * a.dt := mul_nonneg hr.le hdt
  have hregat : ∀ m n, (processSingle id a f).2.at_ m n = (region id a g).at_ m n := fun _ _ => rfl
  have hcy := count_exact _ _ _ _ hkyp hky
  have hcx := count_exact _ _ _ _ hkxp hkx
  have hout : (processSingle id a f).1.at_ j i = (units a (resized a g)).at_ j i := rfl
  dsimp only
  rw [hout, units_at, move_eq _ _ _ _ _ _ _ (by omega) (by omega) (by rw [cy]; omega) (by rw [cx]; omega), cy, cx, hq1, hq2]
  simp only [hregat]
  unfold region resized sample
  dsimp only
  rw [hcy, hcx, hn]
  unfold unitFactor
  rw [if_pos hp]
  have f1 : a.resY * a.dt * ((a.bounds.1 : K) / ky) = a.resolution * a.dt := by
    rw [← hqy]; field_simp
  have f2 : a.resX * a.dt * ((a.bounds.2 : K) / kx) = a.resolution * a.dt := by
    rw [← hqx]; field_simp
  rw [f1, f2]
  constructor
  · rw [add_sub_cancel_left, ← sub_mul, abs_mul, abs_of_nonneg hscale]
    exact mul_le_mul_of_nonneg_right k2 hscale
  · rw [add_sub_cancel_left, ← sub_mul, abs_mul, abs_of_nonneg hscale]
    exact mul_le_mul_of_nonneg_right k1 hscale

theorem demoField_varies : VariesAtMost demoField 11 10 := by
  refine ⟨fun j i _ hi => ?_, fun j i _ _ => ?_⟩
  · have : (i : ℚ) ≤ 5 := by
      have : i ≤ 5 := by simp [demoField] at hi; omega
      exact_mod_cast this
    simp only [demoField]
    push_cast
    constructor <;> rw [abs_le] <;> constructor <;> nlinarith [(Nat.cast_nonneg i : (0 : ℚ) ≤ i)]
  · simp only [demoField]
    push_cast
    constructor <;> rw [abs_le] <;> constructor <;> nlinarith

/-- `C58_close_partial`: a flow that is not uniform, on a grid twice as fine as the pixels. -/
example := C58_close_partial { demoArgs with resX := 4, resY := 4 } demoField (by norm_num) (by norm_num) demoField_varies (by decide)
  (by decide) (by decide +kernel) (by decide +kernel) (by decide +kernel) (by decide +kernel) rfl rfl (by decide) (by decide)
  ⟨8, by decide +kernel⟩ ⟨10, by decide +kernel⟩ (j := 1) (i := 2) (by decide) (by decide)

/-- All velocities of a flow field are within the declared speeds. -/
def WithinSpeeds (a : Geometry.Args) (f : Field2 ℚ) : Prop :=
  ∀ j, j < f.H → ∀ i, i < f.W → a.minSpeedX ≤ (f.at_ j i).1 ∧ (f.at_ j i).1 ≤ a.maxSpeedX ∧ a.minSpeedY ≤ (f.at_ j i).2 ∧ (f.at_ j i).2 ≤ a.maxSpeedY

instance (a : Geometry.Args) (f : Field2 ℚ) : Decidable (WithinSpeeds a f) := by unfold WithinSpeeds; infer_instance

/-- **C58 is false for uniform flows** whose region is not a whole number of grid steps long, here 7 pixels at 2 pixels and one
grid step per unit. The flow is reported as 2 pixels, the particles move by seven thirds. -/
theorem C58_refuted_uniform : ∃ (a : Geometry.Args) (g : Geometry.Geo) (f : Field2 ℚ),
    Geometry.build id id a = .ok g ∧ (f.H, f.W) = a.flowShape ∧ WithinSpeeds a f ∧
    (processSingle id (ofGeo a g a.imageShape 1 true) f).1.at_ 2 2 = (2, 0) ∧
    move (ofGeo a g a.imageShape 1 true).bounds (processSingle id (ofGeo a g a.imageShape 1 true) f).2 a.dt g.res.2 g.res.1
      (g.imgOffset.1 + 2) (g.imgOffset.2 + 2) = ((g.imgOffset.1 : ℚ) + 2, (g.imgOffset.2 : ℚ) + 2 + 7 / 3) := by
  refine ⟨{ imageShape := (5, 5), imgOffset := (1, 1), dt := 1, flowFieldSize := (4, 4), flowShape := (4, 4), resolution := 2,
            maxSpeedX := 1, maxSpeedY := 0, minSpeedX := 0, minSpeedY := 0, maxDiameter := 1, hidden := false },
    { boundsOffset := (1, 0), imgOffset := (0, 2), bounds := (5, 7), padding := (0, 0), res := (1, 1) },
    { H := 4, W := 4, at_ := fun _ _ => (1, 0) }, ?_, rfl, ?_, ?_, ?_⟩
  all_goals decide +kernel

/-- **C58 is false for flows that are not uniform** when the flow grid is finer than the pixel grid: the particle at the last
pixel moves by `-4 / 8`, the velocity found at its position; reported is `-5 / 8`, the one found a grid step further. -/
theorem C58_refuted : ∃ (a : Geometry.Args) (g : Geometry.Geo) (f : Field2 ℚ),
    Geometry.build id id a = .ok g ∧ (f.H, f.W) = a.flowShape ∧ WithinSpeeds a f ∧
    (processSingle id (ofGeo a g a.imageShape 1 true) f).1.at_ 0 2 = (-5 / 8, 0) ∧
    move (ofGeo a g a.imageShape 1 true).bounds (processSingle id (ofGeo a g a.imageShape 1 true) f).2 a.dt g.res.2 g.res.1
      (g.imgOffset.1 + 0) (g.imgOffset.2 + 2) = ((g.imgOffset.1 : ℚ) + 0, (g.imgOffset.2 : ℚ) + 2 - 4 / 8) := by
  refine ⟨{ imageShape := (3, 3), imgOffset := (0, 0), dt := 1, flowFieldSize := (8, 8), flowShape := (16, 16), resolution := 1,
            maxSpeedX := 0, maxSpeedY := 0, minSpeedX := -2, minSpeedY := 0, maxDiameter := 1, hidden := false },
    { boundsOffset := (0, 0), imgOffset := (0, 0), bounds := (3, 5), padding := (0, 0), res := (2, 2) },
    { H := 16, W := 16, at_ := fun _ i => (-(i : ℚ) / 8, 0) }, ?_, rfl, ?_, ?_, ?_⟩
  all_goals decide +kernel

/-- **C58 is false with floats even if the grids agree**: 25 pixels and 25 grid steps per unit, a region of 114 pixels. The
number of grid points is computed as 113, and in a uniform flow of 25 pixels per frame the particles move by
`25 * 114 / 113` pixels. -/
theorem C58_refuted_float : ∃ (a : Geometry.Args) (g : Geometry.Geo),
    Geometry.build binary64 binary32 a = .ok g ∧ g.res = (25, 25) ∧ a.resolution = 25 ∧ g.bounds = (114, 114) ∧
    ∀ f : Field2 ℚ, f = { H := 175, W := 175, at_ := fun _ _ => (1, 0) } →
      (processSingle binary64 (ofGeo a g (64, 64) 1 true) f).1.at_ 0 0 = (25, 0) ∧
      move (114, 114) (processSingle binary64 (ofGeo a g (64, 64) 1 true) f).2 1 25 25 0 0 = (0, 25 * 114 / 113) := by
  refine ⟨{ imageShape := (64, 64), imgOffset := (1, 1), dt := 1, flowFieldSize := (7, 7), flowShape := (175, 175), resolution := 25,
            maxSpeedX := 1, maxSpeedY := 1, minSpeedX := -1, minSpeedY := -1, maxDiameter := 1, hidden := false },
    { boundsOffset := (0, 0), imgOffset := (25, 25), bounds := (114, 114), padding := (0, 0), res := (25, 25) }, ?_, rfl, rfl, rfl, ?_⟩
  · decide +kernel
  · rintro f rfl
    constructor <;> decide +kernel

end Verif.Adapter
