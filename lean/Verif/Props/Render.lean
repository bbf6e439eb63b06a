import Verif.Proofs.Render
import Verif.Model.Rounding
import Verif.Model.Geometry
import Mathlib.Analysis.Complex.Exponential
import Verif.Proofs.Rounding
/-!
# Properties of the renderer (C64-C66, C70)
-/

namespace Verif.Render
open RenderSpec

set_option linter.unusedSectionVars false

variable {K : Type*} [Field K] [LinearOrder K] [IsStrictOrderedRing K] [FloorRing K]

/-- The real exponential function has what is assumed below. -/
theorem expLike_real : ExpLike Real.exp := ⟨Real.exp_pos, Real.exp_zero, fun _ _ h => Real.exp_strictMono h⟩

/-- A function on the rationals that has it too, to compute examples with. -/
def toyExp (t : ℚ) : ℚ := if t ≤ 0 then 1 / (1 - t) else 1 + t

theorem expLike_toy : ExpLike toyExp := by
  refine ⟨fun t => ?_, by decide +kernel, fun s t h => ?_⟩
  · unfold toyExp; split
    · exact div_pos one_pos (by linarith)
    · linarith
  · unfold toyExp
    split <;> split
    · exact one_div_lt_one_div_of_lt (by linarith) (by linarith)
    · exact ((div_le_one (by linarith)).2 (by linarith)).trans_lt (by linarith)
    · linarith
    · linarith

/-- The quadratic form of a correlated Gaussian is positive definite. -/
theorem quad_pos {rho a b : K} (hr : rho ^ 2 < 1) : 0 ≤ a ^ 2 - 2 * rho * a * b + b ^ 2 ∧
    (a ^ 2 - 2 * rho * a * b + b ^ 2 = 0 → a = 0 ∧ b = 0) := by
  have e : a ^ 2 - 2 * rho * a * b + b ^ 2 = (a - rho * b) ^ 2 + (1 - rho ^ 2) * b ^ 2 := by ring
  have h1 : 0 ≤ (a - rho * b) ^ 2 := sq_nonneg _
  have h2 : 0 ≤ (1 - rho ^ 2) * b ^ 2 := mul_nonneg (by linarith) (sq_nonneg _)
  rw [e]
  refine ⟨by linarith, fun h => ?_⟩
  have h3 : (1 - rho ^ 2) * b ^ 2 = 0 := by linarith
  have hb : b = 0 := by
    rcases mul_eq_zero.1 h3 with h | h
    · linarith
    · exact pow_eq_zero_iff (by norm_num) |>.1 h
  subst hb
  have h4 : (a - rho * 0) ^ 2 = 0 := by linarith
  have := pow_eq_zero_iff (by norm_num) |>.1 h4
  exact ⟨by linarith [this], rfl⟩

/-- **C64**: for `|rho| < 1`, positive diameters (`sigma = diameter / 2`) and a positive peak, the value at every point is in
`(0, I0]`, it is `I0` exactly at the centre, it is the same at points opposite to each other, and it does not increase when
moving away from the centre. -/
theorem C64_footprint (exp : K → K) (he : ExpLike exp) (x0 y0 dx dy rho peak : K) (hdx : 0 < dx) (hdy : 0 < dy)
    (hr : |rho| < 1) (hp : 0 < peak) :
    let g := fun x y => gaussian exp x y x0 y0 (dx / 2) (dy / 2) rho peak
    (∀ x y, 0 < g x y ∧ g x y ≤ peak) ∧
    (∀ x y, g x y = peak ↔ x = x0 ∧ y = y0) ∧
    (∀ u v, g (x0 + u) (y0 + v) = g (x0 - u) (y0 - v)) ∧
    (∀ u v t, 1 ≤ t → g (x0 + t * u) (y0 + t * v) ≤ g (x0 + u) (y0 + v)) := by
  have hr2 : rho ^ 2 < 1 := by
    rw [← sq_abs]; exact pow_lt_one₀ (abs_nonneg _) hr (by norm_num)
  have hden : 0 < 2 * (1 - rho ^ 2) := by linarith
  have hg : ∀ x y, gaussian exp x y x0 y0 (dx / 2) (dy / 2) rho peak = light exp y0 x0 dy dx rho peak y x :=
    fun x y => gaussian_eq_light exp y x y0 x0 dy dx rho peak
  have hle : ∀ t, t ≤ 0 → exp t ≤ 1 := by
    intro t ht
    rcases ht.lt_or_eq with h | h
    · exact ((he.strictMono _ _ h).trans_le he.zero.le).le
    · rw [h, he.zero]
  have hmono : ∀ s t, s ≤ t → exp s ≤ exp t := by
    intro s t ht
    rcases ht.lt_or_eq with h | h
    · exact (he.strictMono _ _ h).le
    · rw [h]
  intro g
  simp only [g, hg]
  refine ⟨fun x y => ⟨mul_pos hp (he.pos _), ?_⟩, fun x y => ⟨fun h => ?_, ?_⟩, fun u v => ?_, fun u v t ht => ?_⟩
  · exact mul_le_of_le_one_right hp.le (hle _ (div_nonpos_of_nonpos_of_nonneg (by linarith [(quad_pos (a := (x - x0) / (dx / 2)) (b := (y - y0) / (dy / 2)) hr2).1]) hden.le))
  · unfold light at h
    have h1 : exp (-(((x - x0) / (dx / 2)) ^ 2 - 2 * rho * ((x - x0) / (dx / 2)) * ((y - y0) / (dy / 2)) + ((y - y0) / (dy / 2)) ^ 2) /
        (2 * (1 - rho ^ 2))) = 1 := by
      have := mul_left_cancel₀ hp.ne' (h.trans (mul_one peak).symm)
      exact this
    obtain ⟨q1, q2⟩ := quad_pos (rho := rho) (a := (x - x0) / (dx / 2)) (b := (y - y0) / (dy / 2)) hr2
    rcases q1.lt_or_eq with hq | hq
    · have := he.strictMono _ _ (div_neg_of_neg_of_pos (neg_neg_of_pos hq) hden)
      rw [h1, he.zero] at this
      exact absurd this (lt_irrefl _)
    · obtain ⟨ha, hb⟩ := q2 hq.symm
      constructor
      · have := (div_eq_zero_iff.1 ha).resolve_right (by positivity)
        linarith
      · have := (div_eq_zero_iff.1 hb).resolve_right (by positivity)
        linarith
  · rintro ⟨rfl, rfl⟩
    unfold light
    simp [he.zero]
  · unfold light
    dsimp only
    congr 3
    ring
  · unfold light
    dsimp only
    refine mul_le_mul_of_nonneg_left (hmono _ _ ?_) hp.le
    rw [div_le_div_iff_of_pos_right hden, neg_le_neg_iff]
    have e : ((x0 + t * u - x0) / (dx / 2)) ^ 2 - 2 * rho * ((x0 + t * u - x0) / (dx / 2)) * ((y0 + t * v - y0) / (dy / 2)) +
        ((y0 + t * v - y0) / (dy / 2)) ^ 2 = t ^ 2 * (((x0 + u - x0) / (dx / 2)) ^ 2 -
        2 * rho * ((x0 + u - x0) / (dx / 2)) * ((y0 + v - y0) / (dy / 2)) + ((y0 + v - y0) / (dy / 2)) ^ 2) := by
      simp only [add_sub_cancel_left]; ring
    rw [e]
    exact le_mul_of_one_le_left (quad_pos hr2).1 (one_le_pow₀ ht)

example : gaussian toyExp 3 4 2 2 1 2 (1 / 2) 100 = 60 := by decide +kernel
example : (0 : ℝ) < 3 ∧ |(1 / 2 : ℝ)| < 1 := by constructor <;> norm_num [abs_lt]

/-- **C65**: in exact arithmetic, for every image large enough for a patch and every set of particles, a pixel of the rendered image
is the sum of the light of those particles whose patch contains it. (`cy`, `cx` is where the particle is drawn: its position,
or the nearest position at which its patch fits.) -/
theorem C65_sum_of_light (exp : K → K) {r H W : Nat} (hH : 2 * r + 1 ≤ H) (hW : 2 * r + 1 ≤ W) (ps : List (Particle K)) (j i : Nat) :
    render exp id r H W ps j i =
      (ps.map (fun p =>
        let cy := min (max p.y (r : K)) ((H : K) - r - 1 / 1000000)
        let cx := min (max p.x (r : K)) ((W : K) - r - 1 / 1000000)
        if near r cy j ∧ near r cx i then light exp cy cx p.dy p.dx p.rho p.amp j i else 0)).sum := by
  rw [render_eq, List.map_congr_left (fun p _ => share_eq exp hH hW p j i)]
  rfl

/-- **C65**: the order of the particles does not matter, whatever the rounding of positions and the size of the image. -/
theorem C65_order (exp fl : K → K) (r H W : Nat) (ps qs : List (Particle K)) (h : ps.Perm qs) :
    render exp fl r H W ps = render exp fl r H W qs := by
  funext j i
  rw [render_eq, render_eq]
  exact (h.map _).sum_eq

/-- **C65**: particles of intensity 0, as hidden ones have, contribute nothing, whatever the rounding and the size of the image. -/
theorem C65_hidden (exp fl : K → K) (r H W : Nat) (ps : List (Particle K)) :
    render exp fl r H W ps = render exp fl r H W (ps.filter (fun p => decide (p.amp ≠ 0))) := by
  funext j i
  rw [render_eq, render_eq]
  induction ps with
  | nil => rfl
  | cons p ps ih =>
    rw [List.map_cons, List.sum_cons, List.filter_cons]
    by_cases h : p.amp = 0
    · rw [if_neg (by simp [h]), ih]
      have : share exp fl r H W j i p = 0 := by
        unfold share patch
        refine List.sum_eq_zero (fun v hv => ?_)
        obtain ⟨u, hu, rfl⟩ := List.mem_map.1 hv
        obtain ⟨a, _, hu⟩ := List.mem_flatMap.1 hu
        obtain ⟨b, _, rfl⟩ := List.mem_map.1 hu
        unfold effect gaussian
        simp [h]
      rw [this, zero_add]
    · rw [if_pos (by simp [h]), List.map_cons, List.sum_cons, ih]

/-- The image without clipping is never negative, if intensities are not. -/
theorem C65_nonneg (exp fl : K → K) (he : ExpLike exp) (r H W : Nat) (ps : List (Particle K)) (hp : ∀ p, p ∈ ps → 0 ≤ p.amp) (j i : Nat) :
    0 ≤ render exp fl r H W ps j i := by
  rw [render_eq]
  refine List.sum_nonneg (fun v hv => ?_)
  obtain ⟨p, hp', rfl⟩ := List.mem_map.1 hv
  refine List.sum_nonneg (fun w hw => ?_)
  obtain ⟨u, hu, rfl⟩ := List.mem_map.1 hw
  obtain ⟨a, _, hu⟩ := List.mem_flatMap.1 hu
  obtain ⟨b, _, rfl⟩ := List.mem_map.1 hu
  unfold effect
  split
  · exact mul_nonneg (hp p hp') (he.pos _).le
  · exact le_refl _

/-- Two particles, one of them outside of the image, one hidden. -/
def demoParticles : List (Particle ℚ) := [⟨3, 4, 2, 2, 0, 100⟩, ⟨-5, 4, 2, 2, 0, 50⟩, ⟨3, 4, 2, 2, 0, 0⟩]

example : 2 * 1 + 1 ≤ 8 ∧ render toyExp id 1 8 8 demoParticles 3 4 = 100 ∧ render toyExp id 1 8 8 demoParticles 2 4 = 200 / 3 + 100 / 3 ∧
    render toyExp id 1 8 8 demoParticles 1 4 = 50 := by decide +kernel

/-- **C66** (partial): in exact arithmetic, for every image large enough for a patch and every position, each pixel of the patch lies
inside the image; and a particle whose position is at least a patch radius from the border (at the bottom and right: and a millionth
of a pixel more) has its patch centred on the pixel that contains it, with the light of its true position. Missing from C66: images
that are smaller than a patch (`C66_refuted_small`) and the arithmetic of floats (`C66_refuted_float`). -/
theorem C66_patch_inside_partial (exp : K → K) {r H W : Nat} (hH : 2 * r + 1 ≤ H) (hW : 2 * r + 1 ≤ W) (p : Particle K) :
    (∀ u, u ∈ patch exp id r H W p → (0 ≤ u.1 ∧ u.1 < H) ∧ (0 ≤ u.2.1 ∧ u.2.1 < W)) ∧
    ((r : K) ≤ p.y → p.y ≤ (H : K) - r - 1 / 1000000 → (r : K) ≤ p.x → p.x ≤ (W : K) - r - 1 / 1000000 →
      patch exp id r H W p = (List.range (2 * r + 1)).flatMap (fun a : Nat => (List.range (2 * r + 1)).map (fun b : Nat =>
        (⌊p.y⌋ - r + a, ⌊p.x⌋ - r + b,
         light exp p.y p.x p.dy p.dx p.rho p.amp ((⌊p.y⌋ - r + a : Int) : K) ((⌊p.x⌋ - r + b : Int) : K))))) := by
  constructor
  · intro u hu
    obtain ⟨a, ha, hu⟩ := List.mem_flatMap.1 hu
    obtain ⟨b, hb, rfl⟩ := List.mem_map.1 hu
    rw [List.mem_range] at ha hb
    obtain ⟨h1, h2⟩ := topLeft_bounds hH p.y
    obtain ⟨h3, h4⟩ := topLeft_bounds hW p.x
    dsimp only
    exact ⟨⟨by omega, by omega⟩, by omega, by omega⟩
  · intro h1 h2 h3 h4
    unfold patch
    dsimp only
    rw [topLeft_eq, topLeft_eq, clipPos_inside h1 h2, clipPos_inside h3 h4]
    refine List.flatMap_congr (fun a _ => List.map_congr_left (fun b _ => ?_))
    rw [← gaussian_eq_light, ← gaussian_shift exp _ _ p.x p.y]
    refine Prod.ext (by dsimp only; ring) (Prod.ext (by dsimp only; ring) ?_)
    dsimp only
    congr 1
    · push_cast; ring
    · push_cast; ring

/-- **C66** with JAX's floats (partial): for every image large enough for a patch, of at most 2 ^ 24 rows and columns, and every position: no
index of the patch is negative, so that none wraps around, and none exceeds the number of rows or columns, so that at most one row
and one column of the patch fall outside (and are dropped). -/
theorem C66_float_partial (exp : ℚ → ℚ) {r H W : Nat} (hH : 2 * r + 1 ≤ H) (hW : 2 * r + 1 ≤ W) (hH2 : H ≤ 2 ^ 24) (hW2 : W ≤ 2 ^ 24)
    (p : Particle ℚ) : ∀ u, u ∈ patch exp binary32 r H W p → (0 ≤ u.1 ∧ u.1 ≤ H) ∧ (0 ≤ u.2.1 ∧ u.2.1 ≤ W) := by
  have axis : ∀ {n : Nat} (_ : 2 * r + 1 ≤ n) (_ : n ≤ 2 ^ 24) (y : ℚ), 0 ≤ topLeft binary32 r n y ∧ topLeft binary32 r n y + 2 * r ≤ n := by
    intro n hn hn2 y
    have hnq : (2 * r + 1 : ℚ) ≤ n := by exact_mod_cast hn
    have er : binary32 (r : ℚ) = r := by
      have := binary32_int (N := (r : Int)) (by rw [abs_of_nonneg (by omega)]; omega)
      exact_mod_cast this
    have en : binary32 ((n : ℚ) - r) = (n : ℚ) - r := by
      have := binary32_int (N := (n : Int) - r) (by rw [abs_of_nonneg (by omega)]; omega)
      push_cast at this
      exact this
    have en2 : binary32 ((n : ℚ) - r - r) = (n : ℚ) - r - r := by
      have := binary32_int (N := (n : Int) - r - r) (by rw [abs_of_nonneg (by omega)]; omega)
      push_cast at this
      exact this
    have lo : (r : ℚ) ≤ binary32 ((n : ℚ) - r - 1 / 1000000) := by
      conv_lhs => rw [← er]
      exact binary32_mono (by linarith [show (1 : ℚ) / 1000000 ≤ 1 by norm_num])
    have hi : binary32 ((n : ℚ) - r - 1 / 1000000) ≤ (n : ℚ) - r := by
      conv_rhs => rw [← en]
      exact binary32_mono (by linarith [show (0 : ℚ) ≤ 1 / 1000000 by norm_num])
    have c1 : (r : ℚ) ≤ clipPos binary32 r n y := le_min (le_max_right _ _) lo
    have c2 : clipPos binary32 r n y ≤ (n : ℚ) - r := (min_le_right _ _).trans hi
    constructor
    · exact Int.floor_nonneg.2 (binary32_nonneg (by linarith))
    · have h1 : binary32 (clipPos binary32 r n y - r) ≤ (n : ℚ) - r - r := by
        conv_rhs => rw [← en2]
        exact binary32_mono (by linarith)
      have h2 : topLeft binary32 r n y ≤ (n : Int) - r - r := by
        have h3 := Int.floor_le (binary32 (clipPos binary32 r n y - r))
        have h4 : (topLeft binary32 r n y : ℚ) ≤ (n : ℚ) - r - r := h3.trans h1
        exact_mod_cast h4
      omega
  intro u hu
  obtain ⟨a, ha, hu⟩ := List.mem_flatMap.1 hu
  obtain ⟨b, hb, rfl⟩ := List.mem_map.1 hu
  rw [List.mem_range] at ha hb
  obtain ⟨h1, h2⟩ := axis hH hH2 p.y
  obtain ⟨h3, h4⟩ := axis hW hW2 p.x
  dsimp only
  exact ⟨⟨by omega, by omega⟩, by omega, by omega⟩

example : ∀ u, u ∈ patch toyExp binary32 1 64 64 ⟨63, 8, 2, 2, 0, 100⟩ → (62 ≤ u.1 ∧ u.1 ≤ 64) ∧ (7 ≤ u.2.1 ∧ u.2.1 ≤ 9) := by
  decide +kernel

/-- **C66 is false for images smaller than a patch**: a particle near the bottom of an image with 4 rows, patch radius 3, is also drawn
at the top, because the negative row indices wrap around. -/
theorem C66_refuted_small : ∃ (p : Particle ℚ) (u : Int × Int × ℚ), u ∈ patch toyExp id 3 4 16 p ∧ u.1 < 0 ∧
    normIndex 4 u.1 = some 1 ∧ 0 < u.2.2 :=
  ⟨⟨2, 8, 2, 2, 0, 100⟩, (-3, 5, 200000000000000 / 26999992000001), by decide +kernel, by decide +kernel, by decide +kernel, by decide +kernel⟩

/-- **C66 is false with floats**: in an image of 64 rows the upper limit `64 - r - 1e-6` rounds to `64 - r`, and the last row of the patch
of a particle beyond it is row 64, which does not exist (JAX drops it). -/
theorem C66_refuted_float : ∃ (p : Particle ℚ) (u : Int × Int × ℚ), u ∈ patch toyExp binary32 1 64 64 p ∧ u.1 = 64 ∧
    normIndex 64 u.1 = none :=
  ⟨⟨63, 8, 2, 2, 0, 100⟩, (64, 8, 200 / 3), by decide +kernel, by decide +kernel, by decide +kernel⟩

/-- **C70** (partial): in exact arithmetic every pixel more than `2 r` away from the borders shows the light of all particles near it at
their true positions, and of no others, wherever the particles are. Missing from C70: pixels closer to the border
(`C70_refuted`). -/
theorem C70_true_positions_partial (exp : K → K) {r H W : Nat} (ps : List (Particle K)) {j i : Nat}
    (hj : 2 * r < j ∧ j + 2 * r + 1 < H) (hi : 2 * r < i ∧ i + 2 * r + 1 < W) :
    render exp id r H W ps j i =
      (ps.map (fun p => if near r p.y j ∧ near r p.x i then light exp p.y p.x p.dy p.dx p.rho p.amp j i else 0)).sum := by
  have hH : 2 * r + 1 ≤ H := by omega
  have hW : 2 * r + 1 ≤ W := by omega
  rw [render_eq]
  -- one axis
  have axis : ∀ {n : Nat} (_ : 2 * r + 1 ≤ n) {k : Nat} (_ : 2 * r < k ∧ k + 2 * r + 1 < n) (y : K),
      (near r (clipPos id r n y) k ↔ near r y k) ∧ (near r y k → clipPos id r n y = y) := by
    intro n hn k hk y
    have hnK : (2 * r + 1 : K) ≤ n := by exact_mod_cast hn
    rcases lt_or_ge y (r : K) with h | h
    · have hc : clipPos id r n y = r := by
        unfold clipPos
        rw [max_eq_right h.le, id, min_eq_left (by linarith [show (1 : K) / 1000000 ≤ 1 by norm_num])]
      have hf : ⌊y⌋ < (r : Int) := by rw [Int.floor_lt]; exact_mod_cast h
      rw [hc]
      unfold near
      rw [Int.floor_natCast]
      exact ⟨by omega, by omega⟩
    · rcases le_or_gt y ((n : K) - r - 1 / 1000000) with h' | h'
      · rw [clipPos_inside h h']
        exact ⟨Iff.rfl, fun _ => rfl⟩
      · have hc : clipPos id r n y = (n : K) - r - 1 / 1000000 := by
          unfold clipPos
          rw [max_eq_left h, id, min_eq_right h'.le]
        have hf : (n : Int) - r - 1 ≤ ⌊y⌋ := by
          rw [Int.le_floor]; push_cast
          linarith [show (1 : K) / 1000000 ≤ 1 by norm_num]
        have hf' : ⌊clipPos id r n y⌋ = (n : Int) - r - 1 := by
          rw [hc, Int.floor_eq_iff]; push_cast
          exact ⟨by linarith [show (1 : K) / 1000000 ≤ 1 by norm_num], by linarith [show (0 : K) < 1 / 1000000 by norm_num]⟩
        unfold near
        rw [hf']
        exact ⟨by omega, by omega⟩
  congr 1
  refine List.map_congr_left (fun p _ => ?_)
  rw [share_eq exp hH hW]
  obtain ⟨y1, y2⟩ := axis hH hj p.y
  obtain ⟨x1, x2⟩ := axis hW hi p.x
  by_cases h : near r p.y j ∧ near r p.x i
  · rw [if_pos h, if_pos ⟨y1.2 h.1, x1.2 h.2⟩, y2 h.1, x2 h.2]
  · rw [if_neg h, if_neg (fun h' => h ⟨y1.1 h'.1, x1.1 h'.2⟩)]

/-- Which it does in the middle of an image for a particle anywhere. -/
example : (2 * 1 < 4 ∧ 4 + 2 * 1 + 1 < 8) ∧ render toyExp id 1 8 8 demoParticles 4 4 = 200 / 3 := by decide +kernel

/-- **C70 is false near the border of the region**: an accepted configuration (exact arithmetic, the window is the whole region, radius 1), a
particle inside the region at row 63.5, and a visible pixel in row 61, which is not within reach of the particle, but shows it. -/
theorem C70_refuted : ∃ (a : Geometry.Args) (g : Geometry.Geo) (p : Particle ℚ) (j i : Nat),
    Geometry.build id id a = .ok g ∧ (0 ≤ p.y ∧ p.y < g.bounds.1) ∧ (0 ≤ p.x ∧ p.x < g.bounds.2) ∧
    (g.imgOffset.1 ≤ j ∧ j < g.imgOffset.1 + a.imageShape.1) ∧ (g.imgOffset.2 ≤ i ∧ i < g.imgOffset.2 + a.imageShape.2) ∧
    ¬ near (patchRadius a.maxDiameter) p.y j ∧
    0 < render toyExp id (patchRadius a.maxDiameter) g.bounds.1.toNat g.bounds.2.toNat [p] j i :=
  ⟨{ imageShape := (64, 64), imgOffset := (1, 1), dt := 1, flowFieldSize := (10, 10), flowShape := (100, 100),
     resolution := 32, maxSpeedX := 0, maxSpeedY := 0, minSpeedX := 0, minSpeedY := 0, maxDiameter := 1,
     hidden := false },
   { boundsOffset := (1, 1), imgOffset := (0, 0), bounds := (64, 64), padding := (0, 0), res := (10, 10) },
   ⟨127 / 2, 61 / 2, 1, 1, 0, 100⟩, 61, 30, by decide +kernel⟩

end Verif.Render
