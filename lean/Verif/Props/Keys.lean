import Verif.Model.Generate
import Verif.Props.Sampler
/-!
# C40: the inventory of keys is that of the generator
-/

namespace Verif.Generate
open Verif Sampler

variable {K : Type*} [Field K] [LinearOrder K] [FloorRing K]

/-- The distribution a use draws from. -/
inductive Kind where
  | uniform | normal | randint | nothing
  deriving DecidableEq

/-- Which it is (`data_generate.py` lines 90-124, 142-264, `generate.py` lines 72-77). -/
def kindOf : Use → Kind
  | .density | .mask1 | .mask2 | .position | .dx | .dy | .rho | .intensity | .noise1Uniform | .noise2Uniform => .uniform
  | .noiseDx | .noiseDy | .noiseRho | .noiseInt | .noise1Gauss | .noise2Gauss => .normal
  | .rangeDiameter | .rangeIntensity | .rangeRho => .randint
  | .split => .nothing

/-- The two generators of random numbers agree on the draws listed. -/
structure Agree (us : List (Use × KeyTerm)) (R R' : Rand K) : Prop where
  exp : R.exp = R'.exp
  sqrt : R.sqrt = R'.sqrt
  uniform : ∀ q ∈ us, kindOf q.1 = .uniform → R.uniform q.2 = R'.uniform q.2
  normal : ∀ q ∈ us, kindOf q.1 = .normal → R.normal q.2 = R'.normal q.2
  randint : ∀ q ∈ us, kindOf q.1 = .randint → R.randint q.2 = R'.randint q.2

theorem Agree.image {R R' : Rand K} {key : KeyTerm} {b : Nat} (h : Agree (deviceUses key b) R R') {i : Nat} (hi : i < b) :
    Agree (imageUses (.sub key 2 0) i) R R' where
  exp := h.exp
  sqrt := h.sqrt
  uniform q hq := h.uniform q (List.mem_append_right _ (List.mem_flatMap.mpr ⟨i, List.mem_range.mpr hi, hq⟩))
  normal q hq := h.normal q (List.mem_append_right _ (List.mem_flatMap.mpr ⟨i, List.mem_range.mpr hi, hq⟩))
  randint q hq := h.randint q (List.mem_append_right _ (List.mem_flatMap.mpr ⟨i, List.mem_range.mpr hi, hq⟩))

/-- **C40**, completeness of the inventory: the images, and the parameters reported with them, depend on the generator of random numbers
only through the draws that `deviceUses` lists, each from its own distribution. -/
theorem C40_inventory_complete (fl64 fl32 : K → K) (R R' : Rand K) (p : Params K) (bounds : Nat × Nat) (flows : List (Adapter.Field2 K)) (resX resY : K)
    (mask : Option (Nat → Nat → K)) (histogram : Option (Nat → K)) (key : KeyTerm) (h : Agree (deviceUses key p.batchSize) R R') :
    generate fl64 fl32 R p bounds flows resX resY mask histogram key = generate fl64 fl32 R' p bounds flows resX resY mask histogram key := by
  have hd : ∀ i, density fl32 R p key i = density fl32 R' p key i := by
    intro i
    unfold density
    rw [h.uniform (.density, .sub key 2 1) (by simp [deviceUses, KeyTerm.split2]) rfl]
  have hp : ∀ i, i < p.batchSize → pair fl64 fl32 R p bounds flows resX resY mask histogram key i =
      pair fl64 fl32 R' p bounds flows resX resY mask histogram key i := by
    intro i hi
    have g := h.image hi
    have e0 := g.uniform (.mask1, subkey key i 0) (by simp [imageUses, subkey]) rfl
    have e1 := g.uniform (.mask2, subkey key i 1) (by simp [imageUses, subkey]) rfl
    have e2 := g.uniform (.position, subkey key i 2) (by simp [imageUses, subkey]) rfl
    have e3 := g.randint (.rangeDiameter, subkey key i 6) (by simp [imageUses, subkey]) rfl
    have e4 := g.randint (.rangeIntensity, subkey key i 7) (by simp [imageUses, subkey]) rfl
    have e5 := g.randint (.rangeRho, subkey key i 8) (by simp [imageUses, subkey]) rfl
    have p0 := g.uniform (.dx, propKey key i 0) (by simp [imageUses, propKey, subkey]) rfl
    have p1 := g.uniform (.dy, propKey key i 1) (by simp [imageUses, propKey, subkey]) rfl
    have p2 := g.uniform (.rho, propKey key i 2) (by simp [imageUses, propKey, subkey]) rfl
    have p3 := g.uniform (.intensity, propKey key i 3) (by simp [imageUses, propKey, subkey]) rfl
    have p4 := g.normal (.noiseDx, propKey key i 4) (by simp [imageUses, propKey, subkey]) rfl
    have p5 := g.normal (.noiseDy, propKey key i 5) (by simp [imageUses, propKey, subkey]) rfl
    have p6 := g.normal (.noiseRho, propKey key i 6) (by simp [imageUses, propKey, subkey]) rfl
    have p7 := g.normal (.noiseInt, propKey key i 7) (by simp [imageUses, propKey, subkey]) rfl
    have n0 := g.uniform (.noise1Uniform, .sub (subkey key i 4) 2 0) (by simp [imageUses, noiseUses, subkey]) rfl
    have n1 := g.normal (.noise1Gauss, .sub (subkey key i 4) 2 1) (by simp [imageUses, noiseUses, subkey]) rfl
    have n2 := g.uniform (.noise2Uniform, .sub (subkey key i 5) 2 0) (by simp [imageUses, noiseUses, subkey]) rfl
    have n3 := g.normal (.noise2Gauss, .sub (subkey key i 5) 2 1) (by simp [imageUses, noiseUses, subkey]) rfl
    dsimp only at e0 e1 e2 e3 e4 e5 p0 p1 p2 p3 p4 p5 p6 p7 n0 n1 n2 n3
    have hr : rangeIdx R p key i = rangeIdx R' p key i := by unfold rangeIdx; rw [e3, e4, e5]
    have h1 : particle1 fl32 R p bounds key i = particle1 fl32 R' p bounds key i := by
      funext k
      simp only [particle1, position1, hr, hd i, e0, e2, p0, p1, p2, p3]
    have h2 : ∀ flow, particle2 fl32 R p bounds flow resX resY key i = particle2 fl32 R' p bounds flow resX resY key i := by
      intro flow
      funext k
      simp only [particle2, h1, hr, hd i, e1, p3, p4, p5, p6, p7, h.sqrt]
    have f1 : ∀ ps, finish fl32 R p bounds mask histogram (subkey key i 4) ps = finish fl32 R' p bounds mask histogram (subkey key i 4) ps := by
      intro ps
      simp only [finish, noisy, n0, n1, h.exp]
    have f2 : ∀ ps, finish fl32 R p bounds mask histogram (subkey key i 5) ps = finish fl32 R' p bounds mask histogram (subkey key i 5) ps := by
      intro ps
      simp only [finish, noisy, n2, n3, h.exp]
    simp only [pair, h1, h2, f1, f2, hr]
  have hm : (List.range p.batchSize).map (pair fl64 fl32 R p bounds flows resX resY mask histogram key) =
      (List.range p.batchSize).map (pair fl64 fl32 R' p bounds flows resX resY mask histogram key) :=
    List.map_congr_left (fun i hi => hp i (List.mem_range.mp hi))
  unfold generate
  simp only [hm, show density fl32 R p key = density fl32 R' p key from funext hd]

/-- Two generators that agree on the draws for one image and differ elsewhere. -/
example : ∃ R R' : Rand ℚ, Agree (deviceUses (.seed 7) 1) R R' ∧ R.uniform (.seed 8) 0 ≠ R'.uniform (.seed 8) 0 := by
  refine ⟨⟨fun _ _ => 1/2, fun _ _ => 1, fun _ _ => 0, id, id⟩, ⟨fun k _ => if k = .seed 8 then 0 else 1/2, fun _ _ => 1, fun _ _ => 0, id, id⟩,
    ⟨rfl, rfl, ?_, fun _ _ _ => rfl, fun _ _ _ => rfl⟩, by norm_num⟩
  intro q hq _
  have : q.2 ≠ .seed 8 := by
    have hall : ∀ q ∈ deviceUses (.seed 7) 1, q.2 ≠ .seed 8 := by decide +kernel
    exact hall q hq
  funext n
  simp [this]

end Verif.Generate
