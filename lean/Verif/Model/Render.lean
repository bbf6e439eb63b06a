import Mathlib.Algebra.Order.Floor.Ring
import Mathlib.Algebra.Order.Field.Basic
/-!
# Rendering particles (`src/synthpix/generate.py`)

Exact arithmetic over any ordered field with a floor. The exponential function is a parameter. Only the position of a particle's
patch takes a rounding `fl`, because truncation to pixels makes it matter; `id` is exact arithmetic.
-/

namespace Verif.Render

variable {K : Type*} [Field K] [LinearOrder K] [FloorRing K]

/-- `gaussian_2d_correlated(x, y, x0, y0, sigma_x, sigma_y, rho, amplitude)` at one point (generate.py lines 9-47). -/
def gaussian (exp : K → K) (x y x0 y0 sigmaX sigmaY rho amplitude : K) : K :=
  let xs := x - x0
  let ys := y - y0
  let oneMinus := 1 - rho ^ 2
  let z := xs ^ 2 / sigmaX ^ 2 + ys ^ 2 / sigmaY ^ 2 - (2 * rho * xs * ys) / (sigmaX * sigmaY)
  amplitude * exp (-z / (2 * oneMinus))

/-- A particle: the entries of `particle_positions`, `diameters_x`, `diameters_y`, `rho` and `intensities` at one index. -/
structure Particle (K : Type*) where
  y : K
  x : K
  dx : K
  dy : K
  rho : K
  amp : K
  deriving DecidableEq

/-- `patch_radius = int(3 * max_diameter / 2)` (line 119); diameters are positive. -/
def patchRadius (maxDiameter : K) : Nat := ⌊3 * maxDiameter / 2⌋.toNat

/-- `jnp.clip(y0, patch_radius, H - patch_radius - 1e-6)` (lines 134-135): the lower bound first, then the upper one. -/
def clipPos (fl : K → K) (r H : Nat) (y : K) : K := min (max y (r : K)) (fl ((H : K) - r - 1 / 1000000))

/-- One coordinate of `top_left` (lines 138-141). -/
def topLeft (fl : K → K) (r H : Nat) (y : K) : Int := ⌊fl (clipPos fl r H y - r)⌋

/-- The updates of one particle (lines 129-161): row, column and value for every entry of the patch in row-major order. The
kernel is evaluated at `X - frac_x`, `Y - frac_y` where `X`, `Y` run from `-r` to `r` (lines 123-125). -/
def patch (exp : K → K) (fl : K → K) (r H W : Nat) (p : Particle K) : List (Int × Int × K) :=
  let y0 := clipPos fl r H p.y
  let x0 := clipPos fl r W p.x
  let ty := topLeft fl r H p.y
  let tx := topLeft fl r W p.x
  let fy := y0 - ((ty + r : Int) : K)
  let fx := x0 - ((tx + r : Int) : K)
  (List.range (2 * r + 1)).flatMap (fun a : Nat => (List.range (2 * r + 1)).map (fun b : Nat =>
    ((a : Int) + ty, (b : Int) + tx,
     gaussian exp (((b : Int) - r : Int) - fx) (((a : Int) - r : Int) - fy) 0 0 (p.dx / 2) (p.dy / 2) p.rho p.amp)))

/-- JAX's treatment of an index in `.at[...]` on an axis of length `n` (line 172): a negative one counts from the end, and an
update whose index is still out of range is dropped. -/
def normIndex (n : Nat) (i : Int) : Option Nat :=
  let i := if i < 0 then i + n else i
  if 0 ≤ i ∧ i < n then some i.toNat else none

/-- One update of `image.at[rows, cols].add(updates)` (line 172). -/
def scatter (H W : Nat) (img : Nat → Nat → K) (u : Int × Int × K) : Nat → Nat → K :=
  match normIndex H u.1, normIndex W u.2.1 with
  | some j, some i => fun j' i' => if j' = j ∧ i' = i then img j' i' + u.2.2 else img j' i'
  | _, _ => img

/-- `img_gen_from_data` with `clip=False` (lines 83-178): all updates of all particles added to an image of zeros. -/
def render (exp : K → K) (fl : K → K) (r H W : Nat) (ps : List (Particle K)) : Nat → Nat → K :=
  (ps.flatMap (patch exp fl r H W)).foldl (scatter H W) (fun _ _ => 0)

/-- The result of `img_gen_from_data` (lines 176-178). -/
def imgGen (exp : K → K) (fl : K → K) (H W : Nat) (maxDiameter : K) (ps : List (Particle K)) (clip : Bool) : Nat → Nat → K :=
  let img := render exp fl (patchRadius maxDiameter) H W ps
  if clip then fun j i => min (max (img j i) 0) 255 else img

/-- `add_noise_to_image` at one pixel (lines 50-80), for the draws `u` of the uniform distribution on `[0, 1)` and `n` of the
standard normal distribution. `jax.random.uniform` with bounds `a`, `b` is `max a (u * (b - a) + a)`. -/
def addNoise (u n noiseUniform mean std v : K) : K :=
  min (max (v + max 0 (u * (noiseUniform - 0) + 0) + mean + n * std) 0) 255

end Verif.Render
