import Verif.Props.SingleAdapter
/-!
# The flow the machine reports: uniform flows and the range of the values (C137)
-/

namespace Verif.Single
open Verif Interp Adapter

/-- The flow reported in exact arithmetic is within the range of the stored values, in the units of the output. -/
theorem exact_range (a : Args ℚ) (f : Field2 ℚ) (hH : 0 < f.H) (hW : 0 < f.W) (hc : 0 ≤ a.resolution * a.dt) {lo hi : ℚ × ℚ}
    (h : ∀ j i, j < f.H → i < f.W → (lo.1 ≤ (f.at_ j i).1 ∧ (f.at_ j i).1 ≤ hi.1) ∧ lo.2 ≤ (f.at_ j i).2 ∧ (f.at_ j i).2 ≤ hi.2) (j i : Nat) :
    let exact := (Adapter.processSingle id a f).1.at_ j i
    let factor := if a.pixels then a.resolution * a.dt else 1
    (lo.1 * factor ≤ exact.1 ∧ exact.1 ≤ hi.1 * factor) ∧ lo.2 * factor ≤ exact.2 ∧ exact.2 ≤ hi.2 * factor := by
  have hgH : 0 < (padEdge a.padding f).H := Nat.add_pos_left hH _
  have hgW : 0 < (padEdge a.padding f).W := Nat.add_pos_left hW _
  have hg : ∀ j i, j < (padEdge a.padding f).H → i < (padEdge a.padding f).W →
      (lo.1 ≤ ((padEdge a.padding f).at_ j i).1 ∧ ((padEdge a.padding f).at_ j i).1 ≤ hi.1) ∧
      lo.2 ≤ ((padEdge a.padding f).at_ j i).2 ∧ ((padEdge a.padding f).at_ j i).2 ≤ hi.2 := by
    intro j i hj hi
    have hj' : j < f.H + a.padding.1 := hj
    have hi' : i < f.W + a.padding.2 := hi
    exact h _ _ (by omega) (by omega)
  have r1 (x y : ℚ) := C51_in_range (fun j i => ((padEdge a.padding f).at_ j i).1) hgH hgW (fun j i hj hi => (hg j i hj hi).1) x y
  have r2 (x y : ℚ) := C51_in_range (fun j i => ((padEdge a.padding f).at_ j i).2) hgH hgW (fun j i hj hi => (hg j i hj hi).2) x y
  dsimp only
  unfold Adapter.processSingle Adapter.units Adapter.resized Adapter.sample
  dsimp only
  by_cases hp : a.pixels = true
  · rw [if_pos hp, if_pos hp]
    dsimp only
    exact ⟨⟨mul_le_mul_of_nonneg_right (r1 _ _).1 hc, mul_le_mul_of_nonneg_right (r1 _ _).2 hc⟩,
      mul_le_mul_of_nonneg_right (r2 _ _).1 hc, mul_le_mul_of_nonneg_right (r2 _ _).2 hc⟩
  · rw [if_neg hp, if_neg hp]
    simp only [mul_one]
    exact ⟨r1 _ _, r2 _ _⟩

/-- **C137**: a uniform flow on the machine. What is reported at every point is the displacement of one time step in pixels (or the velocity itself, in world units), up to
13 rounding errors of the largest component: no error grows with the size of the image, of the region or of the file. -/
theorem C137_uniform {r : Nat → ℚ → ℚ} (hr : Rounds r) {fl64 : ℚ → ℚ} (h64 : Rounds64 fl64) (a : Args ℚ) (f : Field2 ℚ) (hH : 0 < f.H) (hW : 0 < f.W)
    (hres : 0 < a.resolution) (hx : 0 < a.resX) (hy : 0 < a.resY) (hdt : 0 ≤ a.dt)
    (h1 : a.imgOffset.1 + a.imageShape.1 ≤ a.bounds.1) (h2 : a.imgOffset.2 + a.imageShape.2 ≤ a.bounds.2) {u v : ℚ}
    (hf : ∀ j i, j < f.H → i < f.W → f.at_ j i = (u, v)) {j i : Nat} (hj : j < a.newShape.1) (hi : i < a.newShape.2) :
    let out := (processSingle fl64 r a f).1.at_ j i
    let factor := if a.pixels then a.resolution * a.dt else 1
    |out.1 - u * factor| ≤ 13 * (max |u| |v| * factor) / 2 ^ 24 ∧ |out.2 - v * factor| ≤ 13 * (max |u| |v| * factor) / 2 ^ 24 := by
  have hc : 0 ≤ a.resolution * a.dt := by positivity
  have hv : VariesAtMost f 0 0 := by
    constructor
    · intro j i hj hi
      rw [hf j (i + 1) hj hi, hf j i hj (by omega)]; simp
    · intro j i hj hi
      rw [hf (j + 1) i hj hi, hf j i (by omega) hi]; simp
  have e := C137_reported hr h64 a f hH hW hres hx hy h1 h2 le_rfl le_rfl (M := max |u| |v|)
    (fun j i hj hi => by rw [hf j i hj hi]; exact ⟨le_max_left _ _, le_max_right _ _⟩) hv hj hi
  have x := exact_range a f hH hW hc (lo := (u, v)) (hi := (u, v)) (fun j i hj hi => by rw [hf j i hj hi]; simp) j i
  dsimp only at e x ⊢
  rw [le_antisymm x.1.2 x.1.1, le_antisymm x.2.2 x.2.1] at e
  have hfac : (if a.pixels then |a.resolution * a.dt| else 1) = if a.pixels then a.resolution * a.dt else 1 := by rw [abs_of_nonneg hc]
  rw [hfac] at e
  simpa [mul_assoc] using e

/-- **C137**: the flow the machine reports stays within the range of the stored values, in the units of the output and up to rounding. -/
theorem C137_range {r : Nat → ℚ → ℚ} (hr : Rounds r) {fl64 : ℚ → ℚ} (h64 : Rounds64 fl64) (a : Args ℚ) (f : Field2 ℚ) (hH : 0 < f.H) (hW : 0 < f.W)
    (hres : 0 < a.resolution) (hx : 0 < a.resX) (hy : 0 < a.resY) (hdt : 0 ≤ a.dt)
    (h1 : a.imgOffset.1 + a.imageShape.1 ≤ a.bounds.1) (h2 : a.imgOffset.2 + a.imageShape.2 ≤ a.bounds.2) {M Lx Ly : ℚ} (hLx : 0 ≤ Lx) (hLy : 0 ≤ Ly)
    (hM : ∀ j i, j < f.H → i < f.W → |(f.at_ j i).1| ≤ M ∧ |(f.at_ j i).2| ≤ M) (hv : VariesAtMost f Lx Ly) {lo hi : ℚ × ℚ}
    (h : ∀ j i, j < f.H → i < f.W → (lo.1 ≤ (f.at_ j i).1 ∧ (f.at_ j i).1 ≤ hi.1) ∧ lo.2 ≤ (f.at_ j i).2 ∧ (f.at_ j i).2 ≤ hi.2) {j i : Nat}
    (hj : j < a.newShape.1) (hi' : i < a.newShape.2) :
    let out := (processSingle fl64 r a f).1.at_ j i
    let factor := if a.pixels then a.resolution * a.dt else 1
    let err := (13 * M + 7 * (Lx * reachX a + Ly * reachY a)) * factor / 2 ^ 24
    (lo.1 * factor - err ≤ out.1 ∧ out.1 ≤ hi.1 * factor + err) ∧ lo.2 * factor - err ≤ out.2 ∧ out.2 ≤ hi.2 * factor + err := by
  have hc : 0 ≤ a.resolution * a.dt := by positivity
  have e := C137_reported hr h64 a f hH hW hres hx hy h1 h2 hLx hLy hM hv hj hi'
  have x := exact_range a f hH hW hc h j i
  dsimp only at e x ⊢
  have hfac : (if a.pixels then |a.resolution * a.dt| else 1) = if a.pixels then a.resolution * a.dt else 1 := by rw [abs_of_nonneg hc]
  rw [hfac] at e
  have e1 := abs_le.1 e.1
  have e2 := abs_le.1 e.2
  refine ⟨⟨?_, ?_⟩, ?_, ?_⟩ <;> linarith [x.1.1, x.1.2, x.2.1, x.2.2]

/-- A uniform flow whose values single precision does not hold exactly. -/
def demoUniform : Field2 ℚ := { H := 9, W := 9, at_ := fun _ _ => (1 / 3, -1 / 10) }

-- The hypotheses hold, and the machine's report differs from the displacement, by less than 13 rounding errors.
example : (0 < demoArgs.resolution ∧ 0 < demoArgs.resX ∧ 0 < demoArgs.resY ∧ 0 ≤ demoArgs.dt ∧ demoArgs.imgOffset.1 + demoArgs.imageShape.1 ≤ demoArgs.bounds.1 ∧
      demoArgs.imgOffset.2 + demoArgs.imageShape.2 ≤ demoArgs.bounds.2 ∧ 2 < demoArgs.newShape.1 ∧ 4 < demoArgs.newShape.2) ∧
    (let out := (processSingle binary64 (fun _ => binary32) demoArgs demoUniform).1.at_ 2 4
     out.1 ≠ 1 / 3 * (demoArgs.resolution * demoArgs.dt) ∧
     |out.1 - 1 / 3 * (demoArgs.resolution * demoArgs.dt)| ≤ 13 * (1 / 3 * (demoArgs.resolution * demoArgs.dt)) / 2 ^ 24) := by
  decide +kernel

end Verif.Single
