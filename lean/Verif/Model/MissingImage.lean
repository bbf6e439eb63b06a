import Verif.Model.Missing
import Verif.Model.Generate
/-!
# Images from flow fields with missing vectors (`src/synthpix/data_generate.py` lines 19-340, `src/synthpix/generate.py`, `src/synthpix/apply.py` lines 218-290)

The same functions as in `Model/Generate.lean` and `Model/Render.lean`, for flow fields some of whose values are NaN (`none`). A particle near such a
value has a new place with a NaN coordinate. Converting NaN to an integer (generate.py lines 138-141) is left to the device: `junk` is the integer it
gives. Simplifications: no histogram is matched; infinities are not modelled; exact arithmetic as in `Model/Generate.lean`.
-/

namespace Verif.Missing
open Verif Interp Adapter Render Generate

variable {K : Type*} [Field K] [LinearOrder K] [FloorRing K]

/-- `v / a` for a number `a` (data_generate.py lines 252-257). -/
def over (a : K) : Option K → Option K
  | some v => some (v / a)
  | none => none

/-- Motion of a particle at `(y, x)` (data_generate.py lines 75-79, 232-257; apply.py lines 252-266). -/
def moveN (bounds : Nat × Nat) (flow : FieldN K) (dt resX resY : K) (y x : K) : Option K × Option K :=
  let alpha1 := (flow.H : K) / bounds.1
  let alpha2 := (flow.W : K) / bounds.2
  let gy := y * alpha1
  let gx := x * alpha2
  let u := times resX (bilinear (fun j i => (flow.at_ j i).1) flow.H flow.W gx gy)
  let v := times resY (bilinear (fun j i => (flow.at_ j i).2) flow.H flow.W gx gy)
  (over alpha1 (plus (some gy) (times dt v)), over alpha2 (plus (some gx) (times dt u)))

/-- A particle whose place may be NaN; the other entries are numbers. -/
structure ParticleN (K : Type*) where
  y : Option K
  x : Option K
  dx : K
  dy : K
  rho : K
  amp : K

/-- One coordinate of `top_left` (generate.py lines 134-141): clipping and flooring leave NaN as it is. -/
def cornerN (fl : K → K) (junk : Int) (r H : Nat) : Option K → Int
  | some y => topLeft fl r H y
  | none => junk

/-- One coordinate of the offset of the centre within the patch (generate.py lines 144-145). -/
def fracN (fl : K → K) (junk : Int) (r H : Nat) : Option K → Option K
  | some y => some (clipPos fl r H y - ((cornerN fl junk r H (some y) + r : Int) : K))
  | none => none

/-- `gaussian_2d_correlated` (generate.py lines 9-47) around the origin: NaN if one of the coordinates is, whatever the amplitude. -/
def gaussianN (exp : K → K) (x y : Option K) (sigmaX sigmaY rho amplitude : K) : Option K :=
  match x, y with
  | some x, some y => some (gaussian exp x y 0 0 sigmaX sigmaY rho amplitude)
  | _, _ => none

/-- `c - f` for a number `c` (generate.py line 159). -/
def less (c : K) : Option K → Option K
  | some f => some (c - f)
  | none => none

/-- The updates of one particle (generate.py lines 129-161). -/
def patchN (exp : K → K) (fl : K → K) (junk : Int) (r H W : Nat) (p : ParticleN K) : List (Int × Int × Option K) :=
  let ty := cornerN fl junk r H p.y
  let tx := cornerN fl junk r W p.x
  let fy := fracN fl junk r H p.y
  let fx := fracN fl junk r W p.x
  (List.range (2 * r + 1)).flatMap (fun a : Nat => (List.range (2 * r + 1)).map (fun b : Nat =>
    ((a : Int) + ty, (b : Int) + tx,
     gaussianN exp (less (((b : Int) - r : Int) : K) fx) (less (((a : Int) - r : Int) : K) fy) (p.dx / 2) (p.dy / 2) p.rho p.amp)))

/-- One update of `image.at[rows, cols].add(updates)` (generate.py line 172). -/
def scatterN (H W : Nat) (img : Nat → Nat → Option K) (u : Int × Int × Option K) : Nat → Nat → Option K :=
  match normIndex H u.1, normIndex W u.2.1 with
  | some j, some i => fun j' i' => if j' = j ∧ i' = i then plus (img j' i') u.2.2 else img j' i'
  | _, _ => img

/-- `img_gen_from_data` with `clip=False` (generate.py lines 83-178). -/
def renderN (exp : K → K) (fl : K → K) (junk : Int) (r H W : Nat) (ps : List (ParticleN K)) : Nat → Nat → Option K :=
  (ps.flatMap (patchN exp fl junk r H W)).foldl (scatterN H W) (fun _ _ => some 0)

/-- `add_noise_to_image` at one pixel (generate.py lines 50-80): the sum with NaN is NaN and `jnp.clip` leaves it. -/
def addNoiseN (u n noiseUniform mean std : K) : Option K → Option K
  | some v => some (addNoise u n noiseUniform mean std v)
  | none => none

/-- Multiplication with an entry of the mask (data_generate.py lines 299-302): NaN times 0 is NaN. -/
def maskedN (mask : Option (Nat → Nat → K)) (j i : Nat) (v : Option K) : Option K :=
  match mask with
  | none => v
  | some m => times (m j i) v

/-- From the particles to the finished image (data_generate.py lines 259-302). -/
def finishN (fl32 : K → K) (junk : Int) (R : Rand K) (p : Params K) (bounds : Nat × Nat) (mask : Option (Nat → Nat → K))
    (noiseKey : KeyTerm) (ps : List (ParticleN K)) : Img (Option K) :=
  let img := renderN R.exp fl32 junk (patchRadius (maxDiameter p)) bounds.1 bounds.2 ps
  let h := sliceLen bounds.1 p.imgOffset.1 p.imageShape.1
  let w := sliceLen bounds.2 p.imgOffset.2 p.imageShape.2
  { H := h
    W := w
    at_ := fun j i => maskedN mask j i
      (addNoiseN (R.uniform (.sub noiseKey 2 0) (j * w + i)) (R.normal (.sub noiseKey 2 1) (j * w + i)) p.noiseUniform p.noiseMean p.noiseStd
        (img (j + p.imgOffset.1) (i + p.imgOffset.2))) }

/-- Particle `k` in the second image (data_generate.py lines 145-147, 202-223, 237-267). Its place depends on the flow field; for the rest, which does
not, the flow field without motion serves. -/
def particle2N (fl32 : K → K) (R : Rand K) (p : Params K) (bounds : Nat × Nat) (flow : FieldN K) (resX resY : K)
    (key : KeyTerm) (i k : Nat) : ParticleN K :=
  let q := particle1 fl32 R p bounds key i k
  let looks := particle2 fl32 R p bounds ⟨1, 1, fun _ _ => (0, 0)⟩ resX resY key i k
  let pos := moveN bounds flow p.dt resX resY q.y q.x
  { y := pos.1, x := pos.2, dx := looks.dx, dy := looks.dy, rho := looks.rho, amp := looks.amp }

/-- `scan_body` (data_generate.py lines 102-311) without the selected ranges and without a histogram. -/
def pairN (fl64 fl32 : K → K) (junk : Int) (R : Rand K) (p : Params K) (bounds : Nat × Nat) (flows : List (FieldN K)) (resX resY : K)
    (mask : Option (Nat → Nat → K)) (key : KeyTerm) (i : Nat) : Img K × Img (Option K) :=
  let n := numParticles fl64 bounds p
  let flow := flows.getD (i % flows.length) ⟨1, 1, fun _ _ => (some 0, some 0)⟩
  (finish fl32 R p bounds mask none (subkey key i 4) ((List.range n).map (particle1 fl32 R p bounds key i)),
   finishN fl32 junk R p bounds mask (subkey key i 5) ((List.range n).map (particle2N fl32 R p bounds flow resX resY key i)))

end Verif.Missing
