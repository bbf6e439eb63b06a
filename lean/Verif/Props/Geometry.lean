import Verif.Proofs.GeometryFloat
/-!
# Properties of the sampler's geometry (C48-C50)

`build id id` is the constructor in exact arithmetic, `build binary64 binary32` the one with Python's floats.
-/

namespace Verif.Geometry
open Verif

/-- **C48** (partial). In exact arithmetic, for every accepted configuration: on both axes the image window starts inside
the particle region and ends inside it. Missing from C48: with floats the region can be one pixel too small
(`C48_refuted`). -/
theorem C48_window_inside_partial (fl32 : ℚ → ℚ) (a : Args) (g : Geo) (hdt : 0 < a.dt) (h : build id fl32 a = .ok g) :
    (0 ≤ g.imgOffset.1 ∧ g.imgOffset.1 + a.imageShape.1 ≤ g.bounds.1) ∧
    (0 ≤ g.imgOffset.2 ∧ g.imgOffset.2 + a.imageShape.2 ≤ g.bounds.2) := by
  obtain ⟨_, _, _, _, hr, _, _, _, _, _, _, rfl⟩ := build_ok h
  have hx : (0 : ℚ) ≤ max 0 a.maxSpeedX := le_max_left _ _
  have hy : (0 : ℚ) ≤ max 0 a.maxSpeedY := le_max_left _ _
  have hnx : min 0 a.minSpeedX ≤ 0 := min_le_left _ _
  have hny : min 0 a.minSpeedY ≤ 0 := min_le_left _ _
  obtain ⟨h1, h2, _⟩ := store_eq (fl32 := fl32) hdt.le hr hx hy hnx hny
  rw [h1, h2]
  have hm : ∀ s, 0 ≤ s → 0 ≤ margin a (max 0 a.maxSpeedX) (max 0 a.maxSpeedY) s := fun s hs =>
    add_nonneg (mul_nonneg hs hdt.le) (extra_nonneg _ _ _ _)
  constructor
  · exact axis_inside (m := min 0 a.minSpeedY * a.dt) a.imageShape.1 (hm _ hy) (by nlinarith) hr
  · exact axis_inside (m := min 0 a.minSpeedX * a.dt) a.imageShape.2 (hm _ hx) (by nlinarith) hr

/-- A usual configuration: 256 pixels at 50 pixels per unit, speeds up to 2.5 units. -/
def demo : Args :=
  { imageShape := (256, 256), imgOffset := (3, 3), dt := 1, flowFieldSize := (20, 20), flowShape := (128, 128),
    resolution := 50, maxSpeedX := 5 / 2, maxSpeedY := 1 / 100, minSpeedX := -5 / 2, minSpeedY := -1, maxDiameter := 3 / 2,
    hidden := true }

example : build id id demo =
    .ok { boundsOffset := (3 - 1 / 10, 1 / 2), imgOffset := (5, 125), bounds := (311, 506), padding := (0, 0),
          res := (32 / 5, 32 / 5) } := by decide +kernel

/-- **C48 is false with floats**: `64 / 49 * 49` is less than 64, so the region is smaller than the image. -/
theorem C48_refuted : ∃ (a : Args) (g : Geo), 0 < a.dt ∧ build binary64 binary32 a = .ok g ∧
    g.bounds.1 < g.imgOffset.1 + a.imageShape.1 :=
  ⟨{ imageShape := (64, 64), imgOffset := (1, 1), dt := 1, flowFieldSize := (10, 10), flowShape := (100, 100),
     resolution := 49, maxSpeedX := 0, maxSpeedY := 0, minSpeedX := 0, minSpeedY := 0, maxDiameter := 1,
     hidden := false },
   { boundsOffset := (1, 1), imgOffset := (0, 0), bounds := (63, 63), padding := (0, 0), res := (10, 10) },
   by decide +kernel, by decide +kernel, by decide +kernel⟩

/-- What is assumed of the size of the numbers: nothing is larger than 2 ^ 38 pixels. Offsets are floats. -/
structure Moderate (a : Args) : Prop where
  offset : binary64 a.imgOffset.1 = a.imgOffset.1 ∧ binary64 a.imgOffset.2 = a.imgOffset.2
  offset_le : |a.imgOffset.1| * a.resolution ≤ 2 ^ 38 ∧ |a.imgOffset.2| * a.resolution ≤ 2 ^ 38
  speed : ∀ s ∈ [a.maxSpeedX, a.maxSpeedY, a.minSpeedX, a.minSpeedY], |s| * a.dt * a.resolution ≤ 2 ^ 38
  image : a.imageShape.1 ≤ 2 ^ 38 ∧ a.imageShape.2 ≤ 2 ^ 38
  patch : 0 ≤ a.maxDiameter ∧ 2 * patchRadius binary64 a.maxDiameter + 1 ≤ 2 ^ 38

/-- **C48** with Python's floats (partial): on both axes the window starts inside the region and ends at most one pixel behind its end. -/
theorem C48_window_float_partial (fl32 : ℚ → ℚ) (a : Args) (g : Geo) (hdt : 0 < a.dt) (hm : Moderate a) (h : build binary64 fl32 a = .ok g) :
    (0 ≤ g.imgOffset.1 ∧ g.imgOffset.1 + a.imageShape.1 ≤ g.bounds.1 + 1) ∧
    (0 ≤ g.imgOffset.2 ∧ g.imgOffset.2 + a.imageShape.2 ≤ g.bounds.2 + 1) := by
  obtain ⟨hr, rfl⟩ := build_ok_fl h
  set maxX := max 0 a.maxSpeedX with hmx
  set maxY := max 0 a.maxSpeedY with hmy
  have hU : 2 ^ 40 / a.resolution * a.resolution = 2 ^ 40 := div_mul_cancel₀ _ hr.ne'
  have toU : ∀ q : ℚ, q * a.resolution ≤ 2 ^ 40 → q ≤ 2 ^ 40 / a.resolution := fun q hq => (le_div_iff₀ hr).2 hq
  have twice : ∀ q : ℚ, |q| * a.resolution ≤ 2 ^ 38 → |binary64 q| * a.resolution ≤ 2 ^ 39 := by
    intro q hq
    have h1 : |q| ≤ 2 ^ 38 / a.resolution := (le_div_iff₀ hr).2 hq
    have h2 := mul_le_mul_of_nonneg_right (fl_le_two h1) hr.le
    have h3 : 2 * (2 ^ 38 / a.resolution) * a.resolution = 2 ^ 39 := by
      rw [mul_assoc, div_mul_cancel₀ _ hr.ne']; norm_num
    linarith
  have sp : ∀ s ∈ [a.maxSpeedX, a.maxSpeedY, a.minSpeedX, a.minSpeedY], ∀ q, |q| ≤ |s| → |q * a.dt| * a.resolution ≤ 2 ^ 38 := by
    intro s hs q hq
    refine le_trans ?_ (hm.speed s hs)
    rw [abs_mul, abs_of_pos hdt]
    gcongr
  have clipMax : ∀ s : ℚ, |max 0 s| ≤ |s| := by
    intro s
    rcases le_total 0 s with hs | hs
    · rw [max_eq_right hs]
    · rw [max_eq_left hs, abs_zero]; exact abs_nonneg _
  have clipMin : ∀ s : ℚ, |min 0 s| ≤ |s| := by
    intro s
    rcases le_total 0 s with hs | hs
    · rw [min_eq_left hs, abs_zero]; exact abs_nonneg _
    · rw [min_eq_right hs]
  have hps0 : 0 ≤ patchRadius binary64 a.maxDiameter := by
    unfold patchRadius
    have : 0 ≤ binary64 (binary64 (3 * a.maxDiameter) / 2) :=
      binary64_nonneg (div_nonneg (binary64_nonneg (mul_nonneg (by norm_num) hm.patch.1)) (by norm_num))
    rw [trunc_nonneg this]
    exact Int.floor_nonneg.2 this
  have hpsq : |((2 * patchRadius binary64 a.maxDiameter + 1 : Int) : ℚ) / a.resolution| * a.resolution ≤ 2 ^ 38 := by
    rw [abs_of_nonneg (div_nonneg (by exact_mod_cast (by omega : (0 : Int) ≤ 2 * patchRadius binary64 a.maxDiameter + 1)) hr.le),
      div_mul_cancel₀ _ hr.ne']
    exact_mod_cast hm.patch.2
  have hps : particleSize binary64 a.maxDiameter a.resolution * a.resolution ≤ 2 ^ 39 :=
    le_trans (mul_le_mul_of_nonneg_right (le_abs_self _) hr.le) (twice _ hpsq)
  have hE : ∀ s : ℚ, 0 ≤ s → extra binary64 a maxX maxY s ≤ 2 ^ 40 / a.resolution := by
    intro s hs
    unfold extra
    split
    · apply max_le (by positivity)
      have hs0 : 0 ≤ binary64 (s * a.dt) := binary64_nonneg (mul_nonneg hs hdt.le)
      have hp0 : 0 ≤ particleSize binary64 a.maxDiameter a.resolution := by
        unfold particleSize
        exact binary64_nonneg (div_nonneg (by exact_mod_cast (by omega : (0 : Int) ≤ 2 * patchRadius binary64 a.maxDiameter + 1)) hr.le)
      have hB : particleSize binary64 a.maxDiameter a.resolution ≤ 2 ^ 39 / a.resolution := (le_div_iff₀ hr).2 hps
      calc binary64 (particleSize binary64 a.maxDiameter a.resolution - binary64 (s * a.dt))
          ≤ binary64 (particleSize binary64 a.maxDiameter a.resolution) := binary64_mono (by linarith)
        _ ≤ |binary64 (particleSize binary64 a.maxDiameter a.resolution)| := le_abs_self _
        _ ≤ 2 * (2 ^ 39 / a.resolution) := fl_le_two (by rw [abs_of_nonneg hp0]; exact hB)
        _ = 2 ^ 40 / a.resolution := by ring
    · positivity
  have hE0 : ∀ s : ℚ, 0 ≤ extra binary64 a maxX maxY s := by
    intro s
    unfold extra
    split
    · exact le_max_left _ _
    · exact le_refl _
  have key : ∀ (n : Nat) (o mx mn : ℚ), n ≤ 2 ^ 38 → binary64 o = o → |o| * a.resolution ≤ 2 ^ 38 →
      mx ∈ [a.maxSpeedX, a.maxSpeedY, a.minSpeedX, a.minSpeedY] → mn ∈ [a.maxSpeedX, a.maxSpeedY, a.minSpeedX, a.minSpeedY] →
      0 ≤ trunc (binary64 (binary64 (o - offset1 binary64 a maxX maxY (max 0 mx) o) * a.resolution)) ∧
      trunc (binary64 (binary64 (o - offset1 binary64 a maxX maxY (max 0 mx) o) * a.resolution)) + n ≤
        trunc (binary64 (bounds1 binary64 a maxX maxY (max 0 mx) (min 0 mn) n * a.resolution)) + 1 := by
    intro n o mx mn hn ho hoR hmxm hmnm
    have hx0 : 0 ≤ binary64 (max 0 mx * a.dt) := binary64_nonneg (mul_nonneg (le_max_left _ _) hdt.le)
    have ht0 : binary64 (min 0 mn * a.dt) ≤ 0 := by
      have : 0 ≤ binary64 (-(min 0 mn * a.dt)) := binary64_nonneg (by nlinarith [min_le_left 0 mn])
      rw [binary64_neg] at this; linarith
    have hxR := twice _ (sp mx hmxm _ (clipMax mx))
    have htR := twice _ (sp mn hmnm _ (clipMin mn))
    rw [abs_of_nonneg hx0] at hxR
    rw [abs_of_nonpos ht0] at htR
    have := axis_float (extended binary64 a maxX maxY) (o := o) (x := binary64 (max 0 mx * a.dt)) (E := extra binary64 a maxX maxY (max 0 mx))
      (t := binary64 (min 0 mn * a.dt)) n hr hU ho (toU _ (by linarith)) hx0 (toU _ (by linarith)) (hE0 _) (hE _ (le_max_left _ _))
      (fun hb => by unfold extra; rw [if_neg (by rw [hb]; simp)]) ht0 (by linarith [toU (-binary64 (min 0 mn * a.dt)) (by linarith)])
      (toU _ (by
        rw [div_mul_cancel₀ _ hr.ne']
        have : (n : ℚ) ≤ 2 ^ 38 := by exact_mod_cast hn
        linarith))
    simpa only [offset1, bounds1, offset0, bounds0] using this
  exact ⟨key _ _ _ _ hm.image.1 hm.offset.1 hm.offset_le.1 (by simp) (by simp), key _ _ _ _ hm.image.2 hm.offset.2 hm.offset_le.2 (by simp) (by simp)⟩

/-- The usual configuration has moderate numbers and is accepted. -/
example : Moderate demo := by
  refine ⟨?_, ?_, ?_, ?_, ?_⟩ <;> decide +kernel
example : (build binary64 binary32 demo).isOk = true := by decide +kernel

/-- A point `x` lies in the image window, on one axis. -/
def InWindow (offset : Int) (size : Nat) (x : ℚ) : Prop := (offset : ℚ) ≤ x ∧ x ≤ offset + size

/-- **C49** (partial). In exact arithmetic, for every accepted configuration, axis, initial position `x` (pixels in the
region) and displacement `δ` within the declared speeds: if the particle is in the window in the first or in the
second image, its initial position is less than one pixel outside the region; and it is inside if the displacements
belonging to the declared speeds are whole numbers of pixels. Missing from C49: otherwise it may be outside
(`C49_refuted`). -/
theorem C49_origin_inside_partial (fl32 : ℚ → ℚ) (a : Args) (g : Geo) (hdt : 0 < a.dt) (h : build id fl32 a = .ok g) (x δ : ℚ) :
    (a.minSpeedY * a.dt * a.resolution ≤ δ → δ ≤ a.maxSpeedY * a.dt * a.resolution →
      InWindow g.imgOffset.1 a.imageShape.1 x ∨ InWindow g.imgOffset.1 a.imageShape.1 (x + δ) →
      (-1 < x ∧ x < g.bounds.1 + 1) ∧
      ((∃ k : Int, max 0 a.maxSpeedY * a.dt * a.resolution = k) → (∃ k : Int, min 0 a.minSpeedY * a.dt * a.resolution = k) →
        0 ≤ x ∧ x ≤ g.bounds.1)) ∧
    (a.minSpeedX * a.dt * a.resolution ≤ δ → δ ≤ a.maxSpeedX * a.dt * a.resolution →
      InWindow g.imgOffset.2 a.imageShape.2 x ∨ InWindow g.imgOffset.2 a.imageShape.2 (x + δ) →
      (-1 < x ∧ x < g.bounds.2 + 1) ∧
      ((∃ k : Int, max 0 a.maxSpeedX * a.dt * a.resolution = k) → (∃ k : Int, min 0 a.minSpeedX * a.dt * a.resolution = k) →
        0 ≤ x ∧ x ≤ g.bounds.2)) := by
  obtain ⟨_, _, _, _, hr, _, _, _, _, _, _, rfl⟩ := build_ok h
  have hx : (0 : ℚ) ≤ max 0 a.maxSpeedX := le_max_left _ _
  have hy : (0 : ℚ) ≤ max 0 a.maxSpeedY := le_max_left _ _
  have hnx : min 0 a.minSpeedX ≤ 0 := min_le_left _ _
  have hny : min 0 a.minSpeedY ≤ 0 := min_le_left _ _
  obtain ⟨h1, h2, _⟩ := store_eq (fl32 := fl32) hdt.le hr hx hy hnx hny
  rw [h1, h2]
  have key : ∀ (n : Nat) (mx mn : ℚ), mn * a.dt * a.resolution ≤ δ → δ ≤ mx * a.dt * a.resolution →
      (InWindow (axisOffset a (max 0 a.maxSpeedX) (max 0 a.maxSpeedY) (max 0 mx)) n x ∨
        InWindow (axisOffset a (max 0 a.maxSpeedX) (max 0 a.maxSpeedY) (max 0 mx)) n (x + δ)) →
      (-1 < x ∧ x < axisBounds a (max 0 a.maxSpeedX) (max 0 a.maxSpeedY) (max 0 mx) (min 0 mn) n + 1) ∧
      ((∃ k : Int, max 0 mx * a.dt * a.resolution = k) → (∃ k : Int, min 0 mn * a.dt * a.resolution = k) →
        0 ≤ x ∧ x ≤ axisBounds a (max 0 a.maxSpeedX) (max 0 a.maxSpeedY) (max 0 mx) (min 0 mn) n) := by
    intro n mx mn hlo hhi hvis
    have hp : 0 < a.dt * a.resolution := mul_pos hdt hr
    refine axis_reach (M := margin a (max 0 a.maxSpeedX) (max 0 a.maxSpeedY) (max 0 mx)) (s := max 0 mx * a.dt)
      (t := min 0 mn * a.dt) n ?_ ?_ ?_ hr x δ ?_ ?_ hvis
    · have := extra_nonneg a (max 0 a.maxSpeedX) (max 0 a.maxSpeedY) (max 0 mx)
      unfold margin; linarith
    · exact mul_nonneg (le_max_left _ _) hdt.le
    · have : min 0 mn ≤ 0 := min_le_left _ _
      nlinarith
    · have : min 0 mn ≤ mn := min_le_right _ _
      nlinarith
    · have : mx ≤ max 0 mx := le_max_right _ _
      nlinarith
  exact ⟨key _ _ _, key _ _ _⟩

/-- **C49 is false**: with a reach of one and a half pixels, a particle that starts outside the region is in the window
in the second image. -/
theorem C49_refuted : ∃ (a : Args) (g : Geo) (x δ : ℚ), 0 < a.dt ∧ build id id a = .ok g ∧
    a.minSpeedX * a.dt * a.resolution ≤ δ ∧ δ ≤ a.maxSpeedX * a.dt * a.resolution ∧
    InWindow g.imgOffset.2 a.imageShape.2 (x + δ) ∧ x < 0 := by
  refine ⟨{ imageShape := (64, 64), imgOffset := (3, 3), dt := 1, flowFieldSize := (70, 70), flowShape := (100, 100),
            resolution := 1, maxSpeedX := 3 / 2, maxSpeedY := 0, minSpeedX := 0, minSpeedY := 0, maxDiameter := 1,
            hidden := false },
   { boundsOffset := (3, 3 / 2), imgOffset := (0, 1), bounds := (64, 65), padding := (0, 0), res := (10 / 7, 10 / 7) },
   -2 / 5, 3 / 2, by decide +kernel, by decide +kernel, by decide +kernel, by decide +kernel, ?_, by decide +kernel⟩
  constructor <;> decide +kernel

/-- The geometries that are possible: speed ranges not inverted, the offset at least the way of the fastest particle, and the
window plus the way of the fastest particle in the other direction inside the flow field. -/
structure Possible (a : Args) : Prop where
  speedX : a.minSpeedX ≤ a.maxSpeedX
  speedY : a.minSpeedY ≤ a.maxSpeedY
  top : max 0 a.maxSpeedY * a.dt ≤ a.imgOffset.1
  left : max 0 a.maxSpeedX * a.dt ≤ a.imgOffset.2
  bottom : a.imgOffset.1 + a.imageShape.1 / a.resolution + max 0 (-a.minSpeedY) * a.dt ≤ a.flowFieldSize.1
  right : a.imgOffset.2 + a.imageShape.2 / a.resolution + max 0 (-a.minSpeedX) * a.dt ≤ a.flowFieldSize.2

/-- **C50** (partial). In exact arithmetic, for all arguments with positive sizes and resolution: the constructor
fails iff the geometry is not possible, and the failure is a `ValueError`. Missing from C50: with floats, possible
geometries at the limit are rejected too (`C50_refuted`). -/
theorem C50_rejects_impossible_partial (fl32 : ℚ → ℚ) (a : Args) (h1 : 0 < a.flowFieldSize.1 ∧ 0 < a.flowFieldSize.2)
    (h2 : 0 < a.flowShape.1 ∧ 0 < a.flowShape.2) (h3 : 0 < a.resolution) :
    (build id fl32 a = .error .valueError ↔ ¬ Possible a) ∧ ((∃ g, build id fl32 a = .ok g) ↔ Possible a) := by
  have hmin : ∀ s : ℚ, -(min 0 s) = max 0 (-s) := by
    intro s
    rcases le_total 0 s with h | h
    · rw [min_eq_left h, max_eq_left (by linarith)]; ring
    · rw [min_eq_right h, max_eq_right (by linarith)]
  have hok : (∃ g, build id fl32 a = .ok g) ↔ Possible a := by
    constructor
    · rintro ⟨g, hg⟩
      obtain ⟨_, _, _, _, _, h4, h5, h6, h7, h8, h9, _⟩ := build_ok hg
      refine ⟨h4, h5, h6, h7, ?_, ?_⟩
      · rw [← hmin]; linarith
      · rw [← hmin]; linarith
    · intro hp
      unfold build
      dsimp only
      rw [if_neg (not_not.2 h1), if_neg (not_not.2 h2), if_neg (not_le.2 h3),
        if_neg (not_lt.2 hp.speedX), if_neg (not_lt.2 hp.speedY), if_neg, if_neg]
      · exact ⟨_, rfl⟩
      · simp only [not_or, not_lt, bounds0, offset0, id]
        have hb := hp.bottom
        have hr := hp.right
        rw [← hmin] at hb hr
        constructor <;> linarith
      · simp only [not_or, not_lt, offset0, id]
        exact ⟨by linarith [hp.top], by linarith [hp.left]⟩
  have herr : ∀ e, build id fl32 a = .error e → e = .valueError := by
    intro e he
    unfold build at he
    dsimp only at he
    repeat' split at he
    all_goals first | (cases he; rfl) | cases he
  refine ⟨?_, hok⟩
  rw [← hok]
  constructor
  · rintro he ⟨g, hg⟩
    rw [he] at hg; cases hg
  · intro hn
    cases hb : build id fl32 a with
    | ok g => exact absurd ⟨g, hb⟩ hn
    | error e => rw [herr e hb]

/-- The example is possible, and stops being so if the offset is smaller than the way of the fastest particle. -/
example : Possible demo := by
  constructor <;> decide +kernel
example : ¬ Possible { demo with imgOffset := (3, 2) } := by
  intro h; exact absurd h.left (by decide +kernel)

/-- A geometry that is possible with `ε` to spare on every side (if `ε` is negative: that misses being possible by at most `-ε`). -/
structure PossibleBy (ε : ℚ) (a : Args) : Prop where
  speedX : a.minSpeedX ≤ a.maxSpeedX
  speedY : a.minSpeedY ≤ a.maxSpeedY
  top : max 0 a.maxSpeedY * a.dt + ε ≤ a.imgOffset.1
  left : max 0 a.maxSpeedX * a.dt + ε ≤ a.imgOffset.2
  bottom : a.imgOffset.1 + a.imageShape.1 / a.resolution + max 0 (-a.minSpeedY) * a.dt + ε ≤ a.flowFieldSize.1
  right : a.imgOffset.2 + a.imageShape.2 / a.resolution + max 0 (-a.minSpeedX) * a.dt + ε ≤ a.flowFieldSize.2

/-- **C50** with Python's floats (partial): a geometry that is possible with a hundredth of a pixel to spare is accepted, an accepted one misses
being possible by at most a hundredth of a pixel, and the failure is always a `ValueError`. -/
theorem C50_float_partial (fl32 : ℚ → ℚ) (a : Args) (h1 : 0 < a.flowFieldSize.1 ∧ 0 < a.flowFieldSize.2)
    (h2 : 0 < a.flowShape.1 ∧ 0 < a.flowShape.2) (h3 : 0 < a.resolution) (hdt : 0 < a.dt) (hm : Moderate a) :
    (PossibleBy (1 / (100 * a.resolution)) a → ∃ g, build binary64 fl32 a = .ok g) ∧
    (∀ g, build binary64 fl32 a = .ok g → PossibleBy (-(1 / (100 * a.resolution))) a) ∧
    (∀ e, build binary64 fl32 a = .error e → e = .valueError) := by
  have hmin : ∀ s : ℚ, min 0 s = -max 0 (-s) := by
    intro s
    rcases le_total 0 s with h | h
    · rw [min_eq_left h, max_eq_left (by linarith)]; ring
    · rw [min_eq_right h, max_eq_right (by linarith)]; ring
  have hU : 2 ^ 40 / a.resolution * a.resolution = 2 ^ 40 := div_mul_cancel₀ _ h3.ne'
  have toU : ∀ q : ℚ, q * a.resolution ≤ 2 ^ 38 → q ≤ 2 ^ 40 / a.resolution := fun q hq => (le_div_iff₀ h3).2 (by linarith)
  have sp : ∀ s ∈ [a.maxSpeedX, a.maxSpeedY, a.minSpeedX, a.minSpeedY], ∀ q, |q| ≤ |s| → |q * a.dt| ≤ 2 ^ 40 / a.resolution := by
    intro s hs q hq
    refine toU _ (le_trans ?_ (hm.speed s hs))
    rw [abs_mul, abs_of_pos hdt]
    gcongr
  have clipMax : ∀ s : ℚ, |max 0 s| ≤ |s| := by
    intro s
    rcases le_total 0 s with hs | hs
    · rw [max_eq_right hs]
    · rw [max_eq_left hs, abs_zero]; exact abs_nonneg _
  have clipMin : ∀ s : ℚ, |min 0 s| ≤ |s| := by
    intro s
    rcases le_total 0 s with hs | hs
    · rw [min_eq_left hs, abs_zero]; exact abs_nonneg _
    · rw [min_eq_right hs]
  have img : ∀ n : Nat, n ≤ 2 ^ 38 → (n : ℚ) / a.resolution ≤ 2 ^ 40 / a.resolution := by
    intro n hn
    refine toU _ ?_
    rw [div_mul_cancel₀ _ h3.ne']
    exact_mod_cast hn
  obtain ⟨y1, y2⟩ := axis_checks (o := a.imgOffset.1) (mx := max 0 a.maxSpeedY) (mn := min 0 a.minSpeedY) (dt := a.dt) a.imageShape.1 h3 hU
    (toU _ hm.offset_le.1) (sp _ (by simp) _ (clipMax a.maxSpeedY)) (sp _ (by simp) _ (clipMin a.minSpeedY)) (img _ hm.image.1)
  obtain ⟨x1, x2⟩ := axis_checks (o := a.imgOffset.2) (mx := max 0 a.maxSpeedX) (mn := min 0 a.minSpeedX) (dt := a.dt) a.imageShape.2 h3 hU
    (toU _ hm.offset_le.2) (sp _ (by simp) _ (clipMax a.maxSpeedX)) (sp _ (by simp) _ (clipMin a.minSpeedX)) (img _ hm.image.2)
  rw [abs_le] at y1 y2 x1 x2
  have ey := hmin a.minSpeedY
  have ex := hmin a.minSpeedX
  have ey' : min 0 a.minSpeedY * a.dt = -(max 0 (-a.minSpeedY) * a.dt) := by rw [ey]; ring
  have ex' : min 0 a.minSpeedX * a.dt = -(max 0 (-a.minSpeedX) * a.dt) := by rw [ex]; ring
  refine ⟨?_, ?_, ?_⟩
  · intro hp
    unfold build
    dsimp only
    rw [if_neg (not_not.2 h1), if_neg (not_not.2 h2), if_neg (not_le.2 h3),
      if_neg (not_lt.2 hp.speedX), if_neg (not_lt.2 hp.speedY), if_neg, if_neg]
    · exact ⟨_, rfl⟩
    · simp only [not_or, not_lt]
      exact ⟨by linarith [hp.bottom, y2.2], by linarith [hp.right, x2.2]⟩
    · simp only [not_or, not_lt]
      exact ⟨by linarith [hp.top, y1.1], by linarith [hp.left, x1.1]⟩
  · intro g hg
    unfold build at hg
    dsimp only at hg
    rw [if_neg (not_not.2 h1), if_neg (not_not.2 h2), if_neg (not_le.2 h3)] at hg
    split at hg
    · cases hg
    rename_i g4
    split at hg
    · cases hg
    rename_i g5
    split at hg
    · cases hg
    rename_i g6
    split at hg
    · cases hg
    rename_i g7
    simp only [not_or, not_lt] at g4 g5 g6 g7
    exact ⟨g4, g5, by linarith [y1.2, g6.1], by linarith [x1.2, g6.2], by linarith [y2.1, g7.1], by linarith [x2.1, g7.2]⟩
  · intro e he
    unfold build at he
    dsimp only at he
    repeat' split at he
    all_goals first | (cases he; rfl) | cases he

example : PossibleBy (1 / (100 * demo.resolution)) demo := by
  constructor <;> decide +kernel

/-- **C50 is false with floats**: window 8, speeds up to 0.3 both ways, offset 0.7, flow field 9.0 (the arguments being the
floats nearest to these numbers) is possible, but rejected because `8 + 0.3 + 0.3 + (0.7 - 0.3)` is computed as more than
9. -/
theorem C50_refuted : ∃ a : Args, Possible a ∧ build binary64 binary32 a = .error .valueError := by
  refine ⟨{ imageShape := (64, 64), imgOffset := (binary64 (7 / 10), binary64 (7 / 10)), dt := 1, flowFieldSize := (9, 9),
            flowShape := (100, 100), resolution := 8, maxSpeedX := binary64 (3 / 10), maxSpeedY := binary64 (3 / 10),
            minSpeedX := binary64 (-3 / 10), minSpeedY := binary64 (-3 / 10), maxDiameter := 1, hidden := false }, ?_, ?_⟩
  · constructor <;> decide +kernel
  · decide +kernel

end Verif.Geometry
