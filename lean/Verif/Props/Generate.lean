import Verif.Proofs.Generate
import Verif.Props.Render
import Verif.Props.Geometry
import Verif.Proofs.Rounding
/-!
# Properties of the generation of image pairs (C61-C63, C71-C73)
-/

namespace Verif.Generate
open Verif Render

set_option linter.unusedSectionVars false

variable {K : Type*} [Field K] [LinearOrder K] [IsStrictOrderedRing K] [FloorRing K]

/-- What is assumed of the random generator: uniform draws are in `[0, 1)`. Nothing is assumed of normal draws. -/
def Lawful (R : Rand K) : Prop := ∀ k n, 0 ≤ R.uniform k n ∧ R.uniform k n < 1

/-- Every range has its ends in order and there is at least one. -/
def Ranges (l : List (K × K)) : Prop := l ≠ [] ∧ ∀ q, q ∈ l → q.1 ≤ q.2

/-- The flow field that `generate` takes for pair `i`. -/
def flowOf (flows : List (Adapter.Field2 K)) (i : Nat) : Adapter.Field2 K := flows.getD (i % flows.length) ⟨0, 0, fun _ _ => (0, 0)⟩

theorem generate_get {fl64 fl32 : K → K} {R : Rand K} {p : Params K} {bounds : Nat × Nat} {flows : List (Adapter.Field2 K)} {resX resY : K}
    {mask : Option (Nat → Nat → K)} {histogram : Option (Nat → K)} {key : KeyTerm} {i : Nat} {img : Img K} :
    let out := generate fl64 fl32 R p bounds flows resX resY mask histogram key
    (out.images1[i]? = some img → img = finish fl32 R p bounds mask histogram (subkey key i 4)
      ((List.range (numParticles fl64 bounds p)).map (particle1 fl32 R p bounds key i))) ∧
    (out.images2[i]? = some img → img = finish fl32 R p bounds mask histogram (subkey key i 5)
      ((List.range (numParticles fl64 bounds p)).map (particle2 fl32 R p bounds (flowOf flows i) resX resY key i))) := by
  unfold generate
  dsimp only
  constructor <;>
  · intro h
    rw [List.map_map, List.getElem?_map] at h
    cases hi : (List.range p.batchSize)[i]? with
    | none => rw [hi] at h; simp at h
    | some k =>
      have hk : k = i := by
        obtain ⟨hlt, he⟩ := List.getElem?_eq_some_iff.1 hi
        rw [List.getElem_range] at he
        exact he.symm
      subst hk
      rw [hi, Option.map_some, Option.some.injEq] at h
      exact h.symm

/-- **C61** (partial): in exact arithmetic, for every draw: the density of every image pair is in the declared range, the number of particles
to be shown is at most the number allocated, and exactly `⌊density * H * W⌋` of the allocated particles take part (in both images).
Missing from C61: with floats the number to be shown can exceed the number allocated (`C61_refuted`). -/
theorem C61_budget_partial (R : Rand K) (hR : Lawful R) (p : Params K) (bounds : Nat × Nat) (key : KeyTerm) (i : Nat)
    (h0 : 0 ≤ p.densityRange.1) (h1 : p.densityRange.1 ≤ p.densityRange.2) :
    let d := density id R p key i
    (p.densityRange.1 ≤ d ∧ d ≤ p.densityRange.2) ∧
    ⌊((bounds.1 * bounds.2 : Nat) : K) * d⌋ ≤ numParticles id bounds p ∧
    (((List.range (numParticles id bounds p)).filter (mixed id bounds d)).length : Int) = ⌊((bounds.1 * bounds.2 : Nat) : K) * d⌋ := by
  intro d
  obtain ⟨a, b⟩ := density_mem R p key i hR h0 h1
  have hN : (0 : K) ≤ ((bounds.1 * bounds.2 : Nat) : K) := Nat.cast_nonneg _
  have hd : 0 ≤ d := h0.trans a
  have h2 : ⌊((bounds.1 * bounds.2 : Nat) : K) * d⌋ ≤ numParticles id bounds p := by
    unfold numParticles
    have h3 : ⌊((bounds.1 * bounds.2 : Nat) : K) * d⌋ ≤ ⌊id (((bounds.1 * bounds.2 : Nat) : K) * p.densityRange.2)⌋ :=
      Int.floor_le_floor (mul_le_mul_of_nonneg_left b hN)
    have h4 : 0 ≤ ⌊((bounds.1 * bounds.2 : Nat) : K) * d⌋ := Int.floor_nonneg.2 (mul_nonneg hN hd)
    rw [Int.toNat_of_nonneg (h4.trans h3)]
    exact h3
  exact ⟨⟨a, b⟩, h2, count_lt _ _ (Int.floor_nonneg.2 (mul_nonneg hN hd)) h2⟩

/-- **C61**: if nothing is hidden (`p_hide = 0`), the particles of the images with a non-zero intensity are exactly those that take part. -/
theorem C61_shown (fl32 : K → K) (R : Rand K) (hR : Lawful R) (p : Params K) (bounds : Nat × Nat) (flow : Adapter.Field2 K) (resX resY : K)
    (key : KeyTerm) (i k : Nat) (hi : ∀ q, q ∈ p.intensityRanges → 0 < q.1 ∧ q.1 ≤ q.2) (hne : p.intensityRanges ≠ []) :
    (p.pHide1 = 0 → ((particle1 fl32 R p bounds key i k).amp ≠ 0 ↔ mixed fl32 bounds (density fl32 R p key i) k = true)) ∧
    (p.pHide2 = 0 → ((particle2 fl32 R p bounds flow resX resY key i k).amp ≠ 0 ↔ mixed fl32 bounds (density fl32 R p key i) k = true)) := by
  obtain ⟨q0, q1⟩ := hi _ (row_mem hne (rangeIdx R p key i).2.1)
  constructor
  · intro h
    have hb : bernoulli (1 - p.pHide1) (R.uniform (subkey key i 0) k) = true := by
      unfold bernoulli; rw [h, sub_zero]; exact decide_eq_true (hR _ _).2
    have ha : between (row p.intensityRanges (rangeIdx R p key i).2.1).1 (row p.intensityRanges (rangeIdx R p key i).2.1).2
        (R.uniform (propKey key i 3) k) ≠ 0 := (q0.trans_le (between_mem q1 (hR _ _).2.le).1).ne'
    unfold particle1
    dsimp only
    rw [hb, Bool.true_and]
    by_cases hm : mixed fl32 bounds (density fl32 R p key i) k = true
    · simp [hm, ha]
    · simp [hm]
  · intro h
    have hb : bernoulli (1 - p.pHide2) (R.uniform (subkey key i 1) k) = true := by
      unfold bernoulli; rw [h, sub_zero]; exact decide_eq_true (hR _ _).2
    unfold particle2
    dsimp only
    rw [hb, Bool.true_and]
    by_cases hm : mixed fl32 bounds (density fl32 R p key i) k = true
    · simp only [hm, if_true, mul_one, iff_true]
      exact (q0.trans_le (clip_mem q1).1).ne'
    · simp [hm]

/-- A generator of random numbers to compute examples with. -/
def demoRand : Rand ℚ :=
  { uniform := fun _ n => (n % 4 : Nat) / 4, normal := fun _ n => (n % 3 : Nat) - 1, randint := fun _ _ => 0, exp := toyExp, sqrt := id }

theorem demoRand_lawful : Lawful demoRand := by
  intro k n
  have h : n % 4 < 4 := Nat.mod_lt _ (by norm_num)
  have h' : ((n % 4 : Nat) : ℚ) < 4 := by exact_mod_cast h
  show 0 ≤ ((n % 4 : Nat) : ℚ) / 4 ∧ ((n % 4 : Nat) : ℚ) / 4 < 1
  exact ⟨by positivity, by rw [div_lt_one (by norm_num)]; exact h'⟩

/-- A small but complete specification. -/
def demo : Params ℚ :=
  { batchSize := 2, imageShape := (3, 4), imgOffset := (3, 3), densityRange := (1 / 50, 1 / 25), pHide1 := 1 / 4, pHide2 := 0,
    diameterRanges := [(1 / 2, 1)], diameterVar := 1, intensityRanges := [(50, 200)], intensityVar := 30, rhoRanges := [(-1 / 2, 1 / 2)], rhoVar := 1,
    dt := 1, noiseUniform := 3, noiseMean := 1, noiseStd := 2 }

example : numParticles id (10, 10) demo = 4 ∧ density id demoRand demo (.seed 0) 1 = 1 / 40 ∧
    ((List.range 4).filter (mixed id (10, 10) (1 / 40 : ℚ))).length = 2 := by decide +kernel

/-- **C61 is false with floats**: 100 x 100 pixels at a fixed density of 0.043 allocate 429 particles in Python's floats, but 430 are to be
shown according to JAX's (and according to the specification: 0.043 * 10000 = 430). -/
theorem C61_refuted : ∃ (R : Rand ℚ) (p : Params ℚ) (bounds : Nat × Nat) (key : KeyTerm) (i : Nat), Lawful R ∧
    p.densityRange = (binary64 (43 / 1000), binary64 (43 / 1000)) ∧
    (numParticles binary64 bounds p : Int) < currentNum binary32 bounds (density binary32 R p key i) :=
  ⟨demoRand, { demo with densityRange := (binary64 (43 / 1000), binary64 (43 / 1000)) }, (100, 100), .seed 0, 0, demoRand_lawful, rfl,
   by decide +kernel⟩

/-- **C61** with floats (partial): for up to two million particles and every draw, at most one of the particles to be shown is missing. -/
theorem C61_float_partial (R : Rand ℚ) (p : Params ℚ) (bounds : Nat × Nat) (key : KeyTerm) (i : Nat) (h1 : 0 ≤ p.densityRange.2)
    (hsize : ((bounds.1 * bounds.2 : Nat) : ℚ) * p.densityRange.2 ≤ 2 ^ 21) :
    let d := density binary32 R p key i
    let taking := ((List.range (numParticles binary64 bounds p)).filter (mixed binary32 bounds d)).length
    currentNum binary32 bounds d ≤ numParticles binary64 bounds p + 1 ∧
      (taking : Int) ≤ currentNum binary32 bounds d ∧ currentNum binary32 bounds d ≤ taking + 1 := by
  intro d taking
  have hN : (0 : ℚ) ≤ ((bounds.1 * bounds.2 : Nat) : ℚ) := Nat.cast_nonneg _
  have hmax0 : 0 ≤ binary32 p.densityRange.2 := binary32_nonneg h1
  obtain ⟨hd0, hdm⟩ : 0 ≤ d ∧ d ≤ binary32 p.densityRange.2 := clip_mem hmax0
  set N : ℚ := ((bounds.1 * bounds.2 : Nat) : ℚ) with hNdef
  set A : ℚ := N * p.densityRange.2 with hA
  have hA0 : 0 ≤ A := mul_nonneg hN h1
  have e1 := (abs_le.1 (binary32_err p.densityRange.2)).2
  rw [abs_of_nonneg h1] at e1
  have e2 : N * d ≤ A + A / 2 ^ 24 := by
    have : N * d ≤ N * (p.densityRange.2 + p.densityRange.2 / 2 ^ 24) := mul_le_mul_of_nonneg_left (by linarith) hN
    calc N * d ≤ _ := this
      _ = A + A / 2 ^ 24 := by rw [hA]; ring
  have hNd : 0 ≤ N * d := mul_nonneg hN hd0
  have e3 := (abs_le.1 (binary32_err (N * d))).2
  rw [abs_of_nonneg hNd] at e3
  have e4 : N * d / 2 ^ 24 ≤ (A + A / 2 ^ 24) / 2 ^ 24 := by gcongr
  have e5 := (abs_le.1 (binary64_err A)).1
  rw [abs_of_nonneg hA0] at e5
  have up : binary32 (N * d) < binary64 A + 1 := by linarith
  have hc : currentNum binary32 bounds d ≤ numParticles binary64 bounds p + 1 := by
    unfold currentNum numParticles
    rw [← hNdef, ← hA]
    have hfl : 0 ≤ ⌊binary64 A⌋ := Int.floor_nonneg.2 (binary64_nonneg hA0)
    rw [Int.toNat_of_nonneg hfl]
    have : ⌊binary32 (N * d)⌋ ≤ ⌊binary64 A + 1⌋ := Int.floor_le_floor up.le
    rwa [Int.floor_add_one] at this
  have hc0 : 0 ≤ currentNum binary32 bounds d := Int.floor_nonneg.2 (binary32_nonneg hNd)
  refine ⟨hc, ?_⟩
  by_cases hle : currentNum binary32 bounds d ≤ numParticles binary64 bounds p
  · have := count_lt (numParticles binary64 bounds p) (currentNum binary32 bounds d) hc0 hle
    have ht : (taking : Int) = currentNum binary32 bounds d := this
    omega
  · have ht : taking = numParticles binary64 bounds p := by
      have : (List.range (numParticles binary64 bounds p)).filter (mixed binary32 bounds d) = List.range (numParticles binary64 bounds p) := by
        rw [List.filter_eq_self]
        intro k hk
        have := List.mem_range.1 hk
        simp only [mixed, decide_eq_true_eq]
        omega
      simp only [taking, this, List.length_range]
    omega

example : numParticles binary64 (100, 100) { demo with densityRange := (binary64 (43 / 1000), binary64 (43 / 1000)) } = 429 ∧
    ((100 * 100 : Nat) : ℚ) * binary64 (43 / 1000) ≤ 2 ^ 21 := by decide +kernel

/-- **C62**: for every draw, also of normal noise with whatever variance: in image pair `i` every particle's diameters and correlation in both
images are in the ranges reported for that pair, and so is its intensity unless it is hidden (intensity 0); the reported ranges are
among those of the specification. -/
theorem C62_in_selected_range (fl64 fl32 : K → K) (R : Rand K) (hR : Lawful R) (p : Params K) (bounds : Nat × Nat) (flows : List (Adapter.Field2 K))
    (resX resY : K) (mask : Option (Nat → Nat → K)) (histogram : Option (Nat → K)) (key : KeyTerm) (i k : Nat)
    (hd : Ranges p.diameterRanges) (hi : Ranges p.intensityRanges) (hr : Ranges p.rhoRanges) (dr ir rr : K × K)
    (h1 : (generate fl64 fl32 R p bounds flows resX resY mask histogram key).diameterRanges[i]? = some dr)
    (h2 : (generate fl64 fl32 R p bounds flows resX resY mask histogram key).intensityRanges[i]? = some ir)
    (h3 : (generate fl64 fl32 R p bounds flows resX resY mask histogram key).rhoRanges[i]? = some rr) :
    (dr ∈ p.diameterRanges ∧ ir ∈ p.intensityRanges ∧ rr ∈ p.rhoRanges) ∧
    ∀ q, q = particle1 fl32 R p bounds key i k ∨ q = particle2 fl32 R p bounds (flowOf flows i) resX resY key i k →
      (dr.1 ≤ q.dx ∧ q.dx ≤ dr.2) ∧ (dr.1 ≤ q.dy ∧ q.dy ≤ dr.2) ∧ (rr.1 ≤ q.rho ∧ q.rho ≤ rr.2) ∧
      (q.amp = 0 ∨ (ir.1 ≤ q.amp ∧ q.amp ≤ ir.2)) := by
  have get : ∀ (f : Nat × Nat × Nat → K × K) (v : K × K),
      (((List.range p.batchSize).map (pair fl64 fl32 R p bounds flows resX resY mask histogram key)).map (fun o => f o.2.2))[i]? = some v →
      v = f (rangeIdx R p key i) := by
    intro f v h
    rw [List.map_map, List.getElem?_map] at h
    cases hi : (List.range p.batchSize)[i]? with
    | none => rw [hi] at h; simp at h
    | some k =>
      have hk : k = i := by
        obtain ⟨hlt, he⟩ := List.getElem?_eq_some_iff.1 hi
        rw [List.getElem_range] at he
        exact he.symm
      subst hk
      rw [hi, Option.map_some, Option.some.injEq] at h
      exact h.symm
  have e1 : dr = row p.diameterRanges (rangeIdx R p key i).1 := get (fun o => row p.diameterRanges o.1) dr h1
  have e2 : ir = row p.intensityRanges (rangeIdx R p key i).2.1 := get (fun o => row p.intensityRanges o.2.1) ir h2
  have e3 : rr = row p.rhoRanges (rangeIdx R p key i).2.2 := get (fun o => row p.rhoRanges o.2.2) rr h3
  have od : dr.1 ≤ dr.2 := by rw [e1]; exact row_ordered hd.2 _
  have oi : ir.1 ≤ ir.2 := by rw [e2]; exact row_ordered hi.2 _
  have orr : rr.1 ≤ rr.2 := by rw [e3]; exact row_ordered hr.2 _
  refine ⟨⟨by rw [e1]; exact row_mem hd.1 _, by rw [e2]; exact row_mem hi.1 _, by rw [e3]; exact row_mem hr.1 _⟩, ?_⟩
  rintro q (rfl | rfl)
  · unfold particle1
    dsimp only
    rw [← e1, ← e2, ← e3]
    refine ⟨between_mem od (hR _ _).2.le, clip_mem od, between_mem orr (hR _ _).2.le, ?_⟩
    split
    · rw [mul_one]; exact Or.inr (between_mem oi (hR _ _).2.le)
    · rw [mul_zero]; exact Or.inl rfl
  · unfold particle2
    dsimp only
    rw [← e1, ← e2, ← e3]
    refine ⟨clip_mem od, clip_mem od, clip_mem orr, ?_⟩
    split
    · rw [mul_one]; exact Or.inr (clip_mem oi)
    · rw [mul_zero]; exact Or.inl rfl

/-- Two flow fields on a region of 10 x 10 pixels: one to the right, one still. -/
def demoFlows : List (Adapter.Field2 ℚ) := [⟨5, 5, fun _ _ => (1, 0)⟩, ⟨5, 5, fun _ _ => (0, 0)⟩]

example : (generate id id demoRand demo (10, 10) demoFlows 1 1 none none (.seed 0)).diameterRanges = [(1 / 2, 1), (1 / 2, 1)] ∧
    (particle1 id demoRand demo (10, 10) (.seed 0) 1 1).amp = 175 / 2 ∧
    (particle2 id demoRand demo (10, 10) (flowOf demoFlows 1) 1 1 (.seed 0) 1 1).amp = 175 / 2 := by decide +kernel

/-- **C63** (partial): for every draw, noise, template histogram and mask with values in `[0, 1]`, every pixel of every image is in `[0, 255]`;
and without template histogram a pixel is 0 wherever the mask is 0. Missing from C63: masked pixels with a template histogram
(`C63_refuted`). -/
theorem C63_pixels_partial (fl64 fl32 : K → K) (R : Rand K) (p : Params K) (bounds : Nat × Nat) (flows : List (Adapter.Field2 K)) (resX resY : K)
    (mask : Option (Nat → Nat → K)) (histogram : Option (Nat → K)) (key : KeyTerm) (hm : ∀ m, mask = some m → ∀ j i, 0 ≤ m j i ∧ m j i ≤ 1)
    (i : Nat) (img : Img K) (hi : (generate fl64 fl32 R p bounds flows resX resY mask histogram key).images1[i]? = some img ∨
      (generate fl64 fl32 R p bounds flows resX resY mask histogram key).images2[i]? = some img) (y x : Nat) :
    (0 ≤ img.at_ y x ∧ img.at_ y x ≤ 255) ∧
    (histogram = none → ∀ m, mask = some m → m y x = 0 → img.at_ y x = 0) := by
  have hf : ∃ k ps, img = finish fl32 R p bounds mask histogram k ps := by
    rcases hi with hi | hi
    · exact ⟨_, _, generate_get.1 hi⟩
    · exact ⟨_, _, generate_get.2 hi⟩
  obtain ⟨k, ps, rfl⟩ := hf
  refine ⟨finish_mem fl32 R p bounds mask histogram k ps hm y x, ?_⟩
  rintro rfl m rfl h0
  obtain ⟨u, n, h⟩ := finish_plain fl32 R p bounds (some m) k ps y x
  rw [h]
  simp only [h0, mul_zero]

/-- A mask that covers the first column. -/
def demoMask : Nat → Nat → ℚ := fun _ i => if i = 0 then 0 else 1

/-- A template histogram for 12 pixels without black. -/
def demoTemplate : Nat → ℚ := fun i => if i = 100 then 8 else if i = 200 then 4 else 0

/-- What the example below looks like without template: black where masked. -/
example : ((generate id id demoRand demo (10, 10) demoFlows 1 1 (some demoMask) none (.seed 0)).images1.map (fun img => img.flat)) =
    [[0, 7 / 4, 9 / 2, 5 / 4, 0, 15 / 4, 1 / 2, 262589 / 40412, 0, 0, 5 / 2, 78631 / 6644],
     [0, 7 / 4, 9 / 2, 5 / 4, 0, 15 / 4, 1 / 2, 262589 / 40412, 0, 0, 5 / 2, 78631 / 6644]] := by
  decide +kernel

/-- **C63 is false with a template histogram**: the masked pixels are matched like the others, so they get the darkest level of the template, here
100. -/
theorem C63_refuted : ∃ (R : Rand ℚ) (p : Params ℚ) (bounds : Nat × Nat) (flows : List (Adapter.Field2 ℚ)) (mask : Nat → Nat → ℚ) (t : Nat → ℚ)
    (img : Img ℚ) (y x : Nat), Lawful R ∧
    (generate id id R p bounds flows 1 1 (some mask) (some t) (.seed 0)).images1[0]? = some img ∧ y < img.H ∧ x < img.W ∧
    mask y x = 0 ∧ img.at_ y x = 100 :=
  ⟨demoRand, demo, (10, 10), demoFlows, demoMask, demoTemplate, _, 1, 0, demoRand_lawful, rfl, by decide +kernel, by decide +kernel,
   by decide +kernel, by decide +kernel⟩

/-- **C71** (partial): the images of a batch have the shape of the specification, one pair per entry of the batch, if the window lies inside the
particle region; and it does in exact arithmetic for every geometry that the sampler accepts. Missing from C71: with floats it
may not (`C71_refuted`). -/
theorem C71_shape_partial (fl64 fl32 : K → K) (R : Rand K) (p : Params K) (bounds : Nat × Nat) (flows : List (Adapter.Field2 K)) (resX resY : K)
    (mask : Option (Nat → Nat → K)) (histogram : Option (Nat → K)) (key : KeyTerm)
    (hb : p.imgOffset.1 + p.imageShape.1 ≤ bounds.1 ∧ p.imgOffset.2 + p.imageShape.2 ≤ bounds.2) :
    let out := generate fl64 fl32 R p bounds flows resX resY mask histogram key
    (out.images1.length = p.batchSize ∧ out.images2.length = p.batchSize ∧ out.densities.length = p.batchSize ∧
      out.diameterRanges.length = p.batchSize ∧ out.intensityRanges.length = p.batchSize ∧ out.rhoRanges.length = p.batchSize) ∧
    (∀ img, img ∈ out.images1 ∨ img ∈ out.images2 → img.H = p.imageShape.1 ∧ img.W = p.imageShape.2) := by
  intro out
  refine ⟨by simp [out, generate], fun img himg => ?_⟩
  have hf : ∃ k ps, img = finish fl32 R p bounds mask histogram k ps := by
    rcases himg with h | h
    · obtain ⟨i, hi⟩ := List.mem_iff_getElem?.1 h
      exact ⟨_, _, generate_get.1 hi⟩
    · obtain ⟨i, hi⟩ := List.mem_iff_getElem?.1 h
      exact ⟨_, _, generate_get.2 hi⟩
  obtain ⟨k, ps, rfl⟩ := hf
  obtain ⟨h1, h2⟩ := finish_size fl32 R p bounds mask histogram k ps
  rw [h1, h2]
  unfold sliceLen
  exact ⟨by omega, by omega⟩

/-- With a mask, window at (3, 3). -/
example := C71_shape_partial id id demoRand demo (10, 10) demoFlows 1 1 (some demoMask) none (.seed 0) (by decide)

/-- The window of an accepted geometry lies inside the region, as `C71_shape_partial` asks for. -/
theorem C71_accepted_partial (f32 : ℚ → ℚ) (a : Geometry.Args) (g : Geometry.Geo) (hdt : 0 < a.dt) (h : Geometry.build id f32 a = .ok g) :
    g.imgOffset.1.toNat + a.imageShape.1 ≤ g.bounds.1.toNat ∧ g.imgOffset.2.toNat + a.imageShape.2 ≤ g.bounds.2.toNat := by
  obtain ⟨⟨h1, h2⟩, h3, h4⟩ := Geometry.C48_window_inside_partial f32 a g hdt h
  exact ⟨by omega, by omega⟩

/-- The usual configuration of `Props/Geometry.lean`. -/
example := C71_accepted_partial id Geometry.demo
  { boundsOffset := (3 - 1 / 10, 1 / 2), imgOffset := (5, 125), bounds := (311, 506), padding := (0, 0), res := (32 / 5, 32 / 5) }
  (by decide +kernel) (by decide +kernel)

/-- **C71** with floats (partial): for the geometry that the sampler computes, images are at most one row and one column short, and never too
large. -/
theorem C71_float_partial (fl64 fl32 : ℚ → ℚ) (R : Rand ℚ) (p : Params ℚ) (flows : List (Adapter.Field2 ℚ)) (resX resY : ℚ)
    (mask : Option (Nat → Nat → ℚ)) (histogram : Option (Nat → ℚ)) (key : KeyTerm) (f32 : ℚ → ℚ) (a : Geometry.Args) (g : Geometry.Geo)
    (hdt : 0 < a.dt) (hm : Geometry.Moderate a) (h : Geometry.build binary64 f32 a = .ok g) (hs : p.imageShape = a.imageShape)
    (ho : p.imgOffset = (g.imgOffset.1.toNat, g.imgOffset.2.toNat)) :
    let out := generate fl64 fl32 R p (g.bounds.1.toNat, g.bounds.2.toNat) flows resX resY mask histogram key
    ∀ img, img ∈ out.images1 ∨ img ∈ out.images2 →
      (img.H ≤ p.imageShape.1 ∧ p.imageShape.1 ≤ img.H + 1) ∧ (img.W ≤ p.imageShape.2 ∧ p.imageShape.2 ≤ img.W + 1) := by
  intro out img himg
  have hf : ∃ k ps, img = finish fl32 R p (g.bounds.1.toNat, g.bounds.2.toNat) mask histogram k ps := by
    rcases himg with h | h
    · obtain ⟨i, hi⟩ := List.mem_iff_getElem?.1 h
      exact ⟨_, _, generate_get.1 hi⟩
    · obtain ⟨i, hi⟩ := List.mem_iff_getElem?.1 h
      exact ⟨_, _, generate_get.2 hi⟩
  obtain ⟨k, ps, rfl⟩ := hf
  obtain ⟨h1, h2⟩ := finish_size fl32 R p (g.bounds.1.toNat, g.bounds.2.toNat) mask histogram k ps
  obtain ⟨⟨g1, g2⟩, g3, g4⟩ := Geometry.C48_window_float_partial f32 a g hdt hm h
  rw [h1, h2, hs, ho]
  unfold sliceLen
  dsimp only
  exact ⟨⟨by omega, by omega⟩, by omega, by omega⟩

/-- **C71 is false with floats**: with the geometry that the sampler computes for 64 pixels at 49 pixels per unit the images have 63 rows. -/
theorem C71_refuted : ∃ (a : Geometry.Args) (g : Geometry.Geo) (p : Params ℚ) (img : Img ℚ), 0 < a.dt ∧
    Geometry.build binary64 binary32 a = .ok g ∧ p.imageShape = a.imageShape ∧ p.imgOffset = (g.imgOffset.1.toNat, g.imgOffset.2.toNat) ∧
    (generate binary64 binary32 demoRand p (g.bounds.1.toNat, g.bounds.2.toNat) demoFlows 1 1 none none (.seed 0)).images1[0]? = some img ∧
    img.H = 63 ∧ p.imageShape.1 = 64 :=
  ⟨{ imageShape := (64, 64), imgOffset := (1, 1), dt := 1, flowFieldSize := (10, 10), flowShape := (100, 100),
     resolution := 49, maxSpeedX := 0, maxSpeedY := 0, minSpeedX := 0, minSpeedY := 0, maxDiameter := 1,
     hidden := false },
   { boundsOffset := (1, 1), imgOffset := (0, 0), bounds := (63, 63), padding := (0, 0), res := (10, 10) },
   { demo with imageShape := (64, 64), imgOffset := (0, 0) }, _,
   by decide +kernel, by decide +kernel, rfl, rfl, rfl, by decide +kernel, rfl⟩

/-- Nothing but the flow can make the two images differ: no hiding, no noise, no variation of particle properties. -/
structure Quiet (R : Rand K) (p : Params K) : Prop where
  hide : p.pHide1 = 0 ∧ p.pHide2 = 0
  noise : p.noiseUniform = 0 ∧ p.noiseMean = 0 ∧ p.noiseStd = 0
  var : p.diameterVar = 0 ∧ p.intensityVar = 0 ∧ p.rhoVar = 0
  sqrt : R.sqrt 0 = 0

/-- In the quiet case the particles of the second image are those of the first, moved along the flow. -/
theorem quiet_particle (fl32 : K → K) (R : Rand K) (hR : Lawful R) (p : Params K) (hq : Quiet R p) (bounds : Nat × Nat)
    (flow : Adapter.Field2 K) (resX resY : K) (key : KeyTerm) (i k : Nat) (hd : Ranges p.diameterRanges) (hi : Ranges p.intensityRanges)
    (hr : Ranges p.rhoRanges) :
    particle2 fl32 R p bounds flow resX resY key i k =
      { particle1 fl32 R p bounds key i k with
        y := (Adapter.move bounds flow p.dt resX resY (particle1 fl32 R p bounds key i k).y (particle1 fl32 R p bounds key i k).x).1
        x := (Adapter.move bounds flow p.dt resX resY (particle1 fl32 R p bounds key i k).y (particle1 fl32 R p bounds key i k).x).2 } := by
  have od := row_ordered hd.2 (rangeIdx R p key i).1
  have oi := row_ordered hi.2 (rangeIdx R p key i).2.1
  have orr := row_ordered hr.2 (rangeIdx R p key i).2.2
  have hb : ∀ k' n, bernoulli (1 : K) (R.uniform k' n) = true := fun k' n => by unfold bernoulli; exact decide_eq_true (hR _ _).2
  unfold particle2 particle1
  dsimp only
  rw [hq.var.1, hq.var.2.1, hq.var.2.2, hq.sqrt, hq.hide.1, hq.hide.2]
  simp only [mul_zero, add_zero, sub_zero, hb, Bool.true_and]
  obtain ⟨a1, a2⟩ := between_mem od (hR (propKey key i 0) k).2.le
  obtain ⟨b1, b2⟩ := clip_mem (v := between (row p.diameterRanges (rangeIdx R p key i).1).1 (row p.diameterRanges (rangeIdx R p key i).1).2
    (R.uniform (propKey key i 0) k) + between (-1) 1 (R.uniform (propKey key i 1) k)) od
  obtain ⟨c1, c2⟩ := between_mem orr (hR (propKey key i 2) k).2.le
  obtain ⟨d1, d2⟩ := between_mem oi (hR (propKey key i 3) k).2.le
  rw [clip_of_mem a1 a2, clip_of_mem b1 b2, clip_of_mem c1 c2, clip_of_mem d1 d2]

/-- A finished image without noise is the rendered one, limited to the range of intensities. -/
theorem quiet_finish (fl32 : K → K) (R : Rand K) (p : Params K) (hq : Quiet R p) (bounds : Nat × Nat) (key : KeyTerm) (ps : List (Particle K)) (j i : Nat) :
    (finish fl32 R p bounds none none key ps).at_ j i =
      min (max (render R.exp fl32 (patchRadius (maxDiameter p)) bounds.1 bounds.2 ps (j + p.imgOffset.1) (i + p.imgOffset.2)) 0) 255 := by
  obtain ⟨u, n, h⟩ := finish_plain fl32 R p bounds none key ps j i
  rw [h, hq.noise.1, hq.noise.2.1, hq.noise.2.2, addNoise_quiet, mul_one]

/-- **C72**: where the flow is still, the two images of a pair are the same (exact arithmetic; nothing else makes them differ). -/
theorem C72_still_flow (fl64 : K → K) (R : Rand K) (hR : Lawful R) (p : Params K) (hq : Quiet R p) (bounds : Nat × Nat) (hb : 0 < bounds.1 ∧ 0 < bounds.2)
    (flows : List (Adapter.Field2 K)) (resX resY : K) (key : KeyTerm) (i : Nat) (f : Adapter.Field2 K)
    (hf : flows[i % flows.length]? = some f) (hfs : 0 < f.H ∧ 0 < f.W) (h0 : ∀ j i, f.at_ j i = (0, 0))
    (hd : Ranges p.diameterRanges) (hi : Ranges p.intensityRanges) (hr : Ranges p.rhoRanges) (img1 img2 : Img K)
    (h1 : (generate fl64 id R p bounds flows resX resY none none key).images1[i]? = some img1)
    (h2 : (generate fl64 id R p bounds flows resX resY none none key).images2[i]? = some img2) (y x : Nat) :
    img1.at_ y x = img2.at_ y x := by
  rw [generate_get.1 h1, generate_get.2 h2, quiet_finish id R p hq, quiet_finish id R p hq]
  have hflow : flowOf flows i = f := by unfold flowOf; rw [List.getD_eq_getElem?_getD, hf, Option.getD_some]
  have : (List.range (numParticles fl64 bounds p)).map (particle2 id R p bounds (flowOf flows i) resX resY key i) =
      (List.range (numParticles fl64 bounds p)).map (particle1 id R p bounds key i) := by
    refine List.map_congr_left (fun k _ => ?_)
    rw [quiet_particle id R hR p hq bounds _ resX resY key i k hd hi hr, hflow, Adapter.move_eq _ _ _ _ _ _ _ hb.1 hb.2 hfs.1 hfs.2]
    have hz : ∀ (x y : K), Interp.bilinear (fun _ _ => (0 : K)) f.H f.W x y = 0 := by
      intro x y; unfold Interp.bilinear; ring
    simp only [h0, hz]
    simp
  rw [this]

/-- **C73**: a flow that moves every particle by whole pixels `(a, b)` moves the image by whole pixels: pixel `(y + a, x + b)` of the second image is
pixel `(y, x)` of the first one, if both are more than `2 r` pixels away from the border of the particle region (`r` the
patch radius; exact arithmetic; nothing else makes the images differ). -/
theorem C73_shift (fl64 : K → K) (R : Rand K) (hR : Lawful R) (p : Params K) (hq : Quiet R p) (bounds : Nat × Nat)
    (flows : List (Adapter.Field2 K)) (resX resY : K) (key : KeyTerm) (i : Nat) (f : Adapter.Field2 K)
    (hf : flows[i % flows.length]? = some f) (a b : Int)
    (hmove : ∀ y x : K, Adapter.move bounds f p.dt resX resY y x = (y + a, x + b))
    (hd : Ranges p.diameterRanges) (hi : Ranges p.intensityRanges) (hr : Ranges p.rhoRanges) (img1 img2 : Img K)
    (h1 : (generate fl64 id R p bounds flows resX resY none none key).images1[i]? = some img1)
    (h2 : (generate fl64 id R p bounds flows resX resY none none key).images2[i]? = some img2) (y x y' x' : Nat)
    (hy : (y' : Int) = y + a) (hx : (x' : Int) = x + b) (r : Nat) (hr' : r = patchRadius (maxDiameter p))
    (hin : (2 * r < y + p.imgOffset.1 ∧ y + p.imgOffset.1 + 2 * r + 1 < bounds.1) ∧ (2 * r < x + p.imgOffset.2 ∧ x + p.imgOffset.2 + 2 * r + 1 < bounds.2))
    (hin' : (2 * r < y' + p.imgOffset.1 ∧ y' + p.imgOffset.1 + 2 * r + 1 < bounds.1) ∧
      (2 * r < x' + p.imgOffset.2 ∧ x' + p.imgOffset.2 + 2 * r + 1 < bounds.2)) :
    img2.at_ y' x' = img1.at_ y x := by
  subst hr'
  rw [generate_get.1 h1, generate_get.2 h2, quiet_finish id R p hq, quiet_finish id R p hq]
  have hflow : flowOf flows i = f := by unfold flowOf; rw [List.getD_eq_getElem?_getD, hf, Option.getD_some]
  rw [hflow, C70_true_positions_partial R.exp _ hin.1 hin.2, C70_true_positions_partial R.exp _ hin'.1 hin'.2]
  congr 3
  rw [List.map_map, List.map_map]
  refine List.map_congr_left (fun k _ => ?_)
  simp only [Function.comp]
  rw [quiet_particle id R hR p hq bounds _ resX resY key i k hd hi hr, hmove]
  dsimp only
  have near_shift : ∀ (c : K) (s : Int) (m m' : Nat) (r : Nat), (m' : Int) = m + s → (RenderSpec.near r (c + s) m' ↔ RenderSpec.near r c m) := by
    intro c s m m' r h
    unfold RenderSpec.near
    rw [Int.floor_add_intCast]
    omega
  have n1 := near_shift (particle1 id R p bounds key i k).y a (y + p.imgOffset.1) (y' + p.imgOffset.1) (patchRadius (maxDiameter p)) (by push_cast; omega)
  have n2 := near_shift (particle1 id R p bounds key i k).x b (x + p.imgOffset.2) (x' + p.imgOffset.2) (patchRadius (maxDiameter p)) (by push_cast; omega)
  simp only [n1, n2]
  have ey : ((y' + p.imgOffset.1 : Nat) : K) = ((y + p.imgOffset.1 : Nat) : K) + a := by
    have : ((y' + p.imgOffset.1 : Nat) : Int) = ((y + p.imgOffset.1 : Nat) : Int) + a := by push_cast; omega
    exact_mod_cast congrArg (Int.cast (R := K)) this
  have ex : ((x' + p.imgOffset.2 : Nat) : K) = ((x + p.imgOffset.2 : Nat) : K) + b := by
    have : ((x' + p.imgOffset.2 : Nat) : Int) = ((x + p.imgOffset.2 : Nat) : Int) + b := by push_cast; omega
    exact_mod_cast congrArg (Int.cast (R := K)) this
  have hl : ∀ q : Particle K, RenderSpec.light R.exp (q.y + a) (q.x + b) q.dy q.dx q.rho q.amp ((y' + p.imgOffset.1 : Nat) : K) ((x' + p.imgOffset.2 : Nat) : K) =
      RenderSpec.light R.exp q.y q.x q.dy q.dx q.rho q.amp ((y + p.imgOffset.1 : Nat) : K) ((x + p.imgOffset.2 : Nat) : K) := by
    intro q
    unfold RenderSpec.light
    rw [ey, ex, add_sub_add_right_eq_sub, add_sub_add_right_eq_sub]
  rw [hl]

/-- The specification `demo` without anything random but the particles. -/
def quietDemo : Params ℚ :=
  { demo with pHide1 := 0, pHide2 := 0, noiseUniform := 0, noiseMean := 0, noiseStd := 0, diameterVar := 0, intensityVar := 0, rhoVar := 0 }

example : Quiet demoRand quietDemo := ⟨⟨rfl, rfl⟩, ⟨rfl, rfl, rfl⟩, ⟨rfl, rfl, rfl⟩, rfl⟩

/-- The second pair belongs to the still flow: both images are the same, and not black. -/
example : (generate id id demoRand quietDemo (10, 10) demoFlows 1 1 none none (.seed 0)).images1[1]?.map Img.flat =
      some [0, 0, 0, 0, 0, 0, 0, 65625 / 20206, 0, 0, 0, 21875 / 3322] ∧
    (generate id id demoRand quietDemo (10, 10) demoFlows 1 1 none none (.seed 0)).images2[1]?.map Img.flat =
      some [0, 0, 0, 0, 0, 0, 0, 65625 / 20206, 0, 0, 0, 21875 / 3322] := by decide +kernel

/-- The first flow of `demoFlows` moves particles by two pixels. -/
example : ∀ y x : ℚ, Adapter.move (10, 10) (flowOf demoFlows 0) quietDemo.dt 1 1 y x = (y + (0 : Int), x + (2 : Int)) := by
  intro y x
  rw [Adapter.move_eq _ _ _ _ _ _ _ (by norm_num) (by norm_num) (by decide) (by decide)]
  have hc : ∀ (c : ℚ) (x y : ℚ), Interp.bilinear (fun _ _ => c) 5 5 x y = c := by
    intro c x y; unfold Interp.bilinear; ring
  have e : flowOf demoFlows 0 = ⟨5, 5, fun _ _ => (1, 0)⟩ := rfl
  simp only [e, hc]
  simp [quietDemo, demo]
  norm_num

end Verif.Generate
