import Verif.Props.Synthetic
import Mathlib.MeasureTheory.Measure.Lebesgue.Basic
/-!
# Hidden particles (C144)
-/

namespace Verif.Render
variable {K : Type*} [Field K] [LinearOrder K] [IsStrictOrderedRing K] [FloorRing K]

theorem share_mono (exp fl : K → K) (he : ∀ t, 0 < exp t) (r H W j i : Nat) (p : Particle K) {b : K} (hb : b ≤ p.amp) :
    share exp fl r H W j i { p with amp := b } ≤ share exp fl r H W j i p := by
  unfold share patch
  dsimp only
  rw [List.map_flatMap, List.map_flatMap, List.flatMap_def, List.flatMap_def, List.sum_flatten, List.sum_flatten, List.map_map, List.map_map]
  refine List.sum_le_sum (fun a _ => ?_)
  simp only [Function.comp, List.map_map]
  refine List.sum_le_sum (fun c _ => ?_)
  simp only [Function.comp, effect]
  split
  · unfold gaussian
    exact mul_le_mul_of_nonneg_right hb (he _).le
  · exact le_rfl

end Verif.Render

namespace Verif.Generate
open Verif Render
variable {K : Type*} [Field K] [LinearOrder K] [IsStrictOrderedRing K] [FloorRing K]

theorem addNoise_mono (u n nu mean std : K) {v w : K} (h : v ≤ w) : addNoise u n nu mean std v ≤ addNoise u n nu mean std w := by
  unfold addNoise
  refine min_le_min_right _ (max_le_max_right _ ?_)
  linarith

/-- Less bright particles make no pixel brighter. -/
theorem finish_mono (fl32 : K → K) (R : Rand K) (he : ∀ t, 0 < R.exp t) (p p' : Params K) (hp : p' = { p with pHide1 := p'.pHide1, pHide2 := p'.pHide2 }) (bounds : Nat × Nat)
    (mask : Option (Nat → Nat → K)) (hm : ∀ m, mask = some m → ∀ j i, 0 ≤ m j i) (key : KeyTerm) (n : Nat) (f f' : Nat → Particle K)
    (hf : ∀ k, f' k = { f k with amp := (f' k).amp } ∧ (f' k).amp ≤ (f k).amp) (j i : Nat) :
    (finish fl32 R p' bounds mask none key ((List.range n).map f')).at_ j i ≤ (finish fl32 R p bounds mask none key ((List.range n).map f)).at_ j i := by
  have hr (r H W j i : Nat) : render R.exp fl32 r H W ((List.range n).map f') j i ≤ render R.exp fl32 r H W ((List.range n).map f) j i := by
    rw [render_eq, render_eq, List.map_map, List.map_map]
    refine List.sum_le_sum (fun k _ => ?_)
    simp only [Function.comp]
    rw [(hf k).1]
    exact share_mono R.exp fl32 he r H W j i (f k) (hf k).2
  rw [hp]
  unfold finish matched masked noisy crop imgGen
  cases mask with
  | none => exact addNoise_mono _ _ _ _ _ (hr _ _ _ _ _)
  | some m => exact mul_le_mul_of_nonneg_right (addNoise_mono _ _ _ _ _ (hr _ _ _ _ _)) (hm m rfl j i)

theorem bernoulli_mono {p q u : K} (h : q ≤ p) (hb : bernoulli q u = true) : bernoulli p u = true := by
  unfold bernoulli at *
  simp only [decide_eq_true_eq] at *
  exact hb.trans_le h

/-- Hiding more: the brightness of a particle of either image is the same or 0. -/
theorem particle_hide (fl32 : K → K) (R : Rand K) (p : Params K) (h1 h2 : K) (l1 : p.pHide1 ≤ h1) (l2 : p.pHide2 ≤ h2) (bounds : Nat × Nat)
    (flow : Adapter.Field2 K) (resX resY : K) (key : KeyTerm) (i k : Nat) (hi : Ranges p.intensityRanges) (hi0 : ∀ q ∈ p.intensityRanges, 0 ≤ q.1) :
    let p' := { p with pHide1 := h1, pHide2 := h2 }
    (particle1 fl32 R p' bounds key i k = { particle1 fl32 R p bounds key i k with amp := (particle1 fl32 R p' bounds key i k).amp } ∧
      (particle1 fl32 R p' bounds key i k).amp ≤ (particle1 fl32 R p bounds key i k).amp) ∧
    (particle2 fl32 R p' bounds flow resX resY key i k =
        { particle2 fl32 R p bounds flow resX resY key i k with amp := (particle2 fl32 R p' bounds flow resX resY key i k).amp } ∧
      (particle2 fl32 R p' bounds flow resX resY key i k).amp ≤ (particle2 fl32 R p bounds flow resX resY key i k).amp) := by
  intro p'
  have key0 (c : Bool) {q q' v : K} (u : K) (hq : q' ≤ q) (hv : 0 ≤ v) :
      v * (if (bernoulli q' u && c) = true then 1 else 0) ≤ v * (if (bernoulli q u && c) = true then 1 else 0) := by
    by_cases hb : (bernoulli q' u && c) = true
    · obtain ⟨b1, b2⟩ := Bool.and_eq_true_iff.mp hb
      rw [if_pos hb, if_pos (Bool.and_eq_true_iff.mpr ⟨bernoulli_mono hq b1, b2⟩)]
    · rw [if_neg hb, mul_zero]
      split
      · simpa using hv
      · simp
  obtain ⟨hne, hord⟩ := hi
  have hm := row_mem hne (rangeIdx R p key i).2.1
  have lo := hi0 _ hm
  refine ⟨⟨rfl, ?_⟩, rfl, ?_⟩
  · exact key0 _ _ (by show 1 - h1 ≤ 1 - p.pHide1; linarith) (lo.trans (le_max_left _ _))
  · exact key0 _ _ (by show 1 - h2 ≤ 1 - p.pHide2; linarith) (lo.trans (clip_mem (hord _ hm)).1)

/-- **C144.** Hiding more particles makes no pixel of either image brighter: for all draws, rounding, noise and masks, without histogram. -/
theorem C144_monotone (fl64 fl32 : K → K) (R : Rand K) (he : ∀ t, 0 < R.exp t) (p : Params K) (h1 h2 : K) (l1 : p.pHide1 ≤ h1) (l2 : p.pHide2 ≤ h2) (bounds : Nat × Nat)
    (flows : List (Adapter.Field2 K)) (resX resY : K) (mask : Option (Nat → Nat → K)) (hm : ∀ m, mask = some m → ∀ j i, 0 ≤ m j i) (key : KeyTerm) (n : Nat)
    (hi : Ranges p.intensityRanges) (hi0 : ∀ q ∈ p.intensityRanges, 0 ≤ q.1) (j i : Nat) :
    let less := pair fl64 fl32 R { p with pHide1 := h1, pHide2 := h2 } bounds flows resX resY mask none key n
    let more := pair fl64 fl32 R p bounds flows resX resY mask none key n
    less.1.at_ j i ≤ more.1.at_ j i ∧ less.2.1.at_ j i ≤ more.2.1.at_ j i :=
  ⟨finish_mono fl32 R he p _ rfl bounds mask hm _ _ _ _ (fun k => (particle_hide fl32 R p h1 h2 l1 l2 bounds (flowOf flows n) resX resY key n k hi hi0).1) j i,
    finish_mono fl32 R he p _ rfl bounds mask hm _ _ _ _ (fun k => (particle_hide fl32 R p h1 h2 l1 l2 bounds (flowOf flows n) resX resY key n k hi hi0).2) j i⟩

/-- **C144**: each probability concerns its own image only. -/
theorem C144_separate (fl64 fl32 : K → K) (R : Rand K) (p : Params K) (h : K) (bounds : Nat × Nat) (flows : List (Adapter.Field2 K)) (resX resY : K)
    (mask : Option (Nat → Nat → K)) (histogram : Option (Nat → K)) (key : KeyTerm) (n : Nat) :
    (pair fl64 fl32 R { p with pHide2 := h } bounds flows resX resY mask histogram key n).1 = (pair fl64 fl32 R p bounds flows resX resY mask histogram key n).1 ∧
    (pair fl64 fl32 R { p with pHide1 := h } bounds flows resX resY mask histogram key n).2.1 = (pair fl64 fl32 R p bounds flows resX resY mask histogram key n).2.1 := ⟨rfl, rfl⟩

/-- Particles without intensity give a black image, up to noise. -/
theorem finish_black (fl32 : K → K) (R : Rand K) (p : Params K) (bounds : Nat × Nat) (mask : Option (Nat → Nat → K)) (key : KeyTerm) (ps : List (Particle K))
    (hz : ∀ q ∈ ps, q.amp = 0) (h1 : p.noiseUniform = 0) (h2 : p.noiseMean = 0) (h3 : p.noiseStd = 0) (j i : Nat) : (finish fl32 R p bounds mask none key ps).at_ j i = 0 := by
  obtain ⟨u, n, e⟩ := finish_plain fl32 R p bounds mask key ps j i
  have : ps.filter (fun q => decide (q.amp ≠ 0)) = [] := by
    rw [List.filter_eq_nil_iff]
    intro q hq
    simp [hz q hq]
  rw [e, C65_hidden, this, h1, h2, h3, addNoise_quiet]
  simp [render]

theorem hidden_all (fl32 : K → K) (R : Rand K) (hR : Lawful R) (p : Params K) (bounds : Nat × Nat) (flow : Adapter.Field2 K) (resX resY : K) (key : KeyTerm) (i k : Nat) :
    (p.pHide1 = 1 → (particle1 fl32 R p bounds key i k).amp = 0) ∧ (p.pHide2 = 1 → (particle2 fl32 R p bounds flow resX resY key i k).amp = 0) := by
  have hb (u : K) (hu : 0 ≤ u) : bernoulli (1 - 1) u = false := by
    unfold bernoulli
    simpa using hu
  constructor
  · intro h
    unfold particle1
    dsimp only
    rw [h, hb _ (hR _ _).1]
    simp
  · intro h
    unfold particle2
    dsimp only
    rw [h, hb _ (hR _ _).1]
    simp

end Verif.Generate

namespace Verif.Synthetic
open Verif

/-- **C144.** With `p_hide_img1 = 1` the first image of every pair of every batch is black, if there is neither noise nor a histogram, and with `p_hide_img2 = 1` the second: over
every history of calls, on every scheduler, for all draws and any rounding. -/
theorem C144_black {S : Type} (sch : Sampler.ISched S (Sampler.FlowBatch (Adapter.Field2 ℚ))) (hfull : Sampler.FullBatches sch) (fl fl32 : ℚ → ℚ) (R : Generate.Rand ℚ)
    (hR : Generate.Lawful R) (a : Args) (m : Made) (hm : make fl fl32 a = .ok m) (hh : a.histogram = none) (h1 : a.spec.noiseUniform = 0) (h2 : a.spec.noiseMean = 0)
    (h3 : a.spec.noiseStd = 0) (s0 : S) (ops : List Sampler.Op) (outs : List (Sampler.Out (Sampler.OutBatch (Adapter.Field2 ℚ) Pair)))
    (s : Sampler.St S (Adapter.Field2 ℚ) (Adapter.Field2 ℚ)) (hr : Sampler.run sch (gen fl fl32 R a m) m.cfg ops (Sampler.init m.cfg s0) = some (outs, s))
    (x : Sampler.OutBatch (Adapter.Field2 ℚ) Pair) (hx : .batch x ∈ outs) (p : Pair) (hp : p ∈ x.images) (j i : Nat) :
    (a.spec.pHide1 = 1 → p.first.at_ j i = 0) ∧ (a.spec.pHide2 = 1 → p.second.at_ j i = 0) := by
  obtain ⟨_, _, _, h4, _⟩ := make_ok hm
  obtain ⟨⟨b, k, _, _, _, hb⟩, _⟩ := Sampler.run_made hfull (Sampler.Cfg.ok_of_make h4) ops _ _ outs (.inl rfl) hr x hx
  obtain ⟨k', n, i', f, rfl⟩ := (madeFrom_all hb).1 p hp
  have hn : histogramOf a = none := by unfold histogramOf; rw [hh]; rfl
  constructor
  · intro hp1
    unfold render Generate.pair
    rw [hn]
    refine Generate.finish_black _ _ { params a m with batchSize := n } _ _ _ _ (fun q hq => ?_) h1 h2 h3 _ _
    obtain ⟨k, _, rfl⟩ := List.mem_map.1 hq
    exact (Generate.hidden_all fl32 R hR _ _ f 0 0 _ _ _).1 hp1
  · intro hp2
    unfold render Generate.pair
    rw [hn]
    refine Generate.finish_black _ _ { params a m with batchSize := n } _ _ _ _ (fun q hq => ?_) h1 h2 h3 _ _
    obtain ⟨k, _, rfl⟩ := List.mem_map.1 hq
    exact (Generate.hidden_all fl32 R hR _ _ _ _ _ _ _ _).2 hp2

end Verif.Synthetic

namespace Verif.Generate
open Verif MeasureTheory

/-- The draws with one of them replaced. -/
def redraw {K : Type*} (R : Rand K) (key : KeyTerm) (k : Nat) (u : K) : Rand K :=
  { R with uniform := fun key' n => if key' = key ∧ n = k then u else R.uniform key' n }

/-- **C144.** `p_hide_img1` and `p_hide_img2` are probabilities: whatever the other draws are, a particle that takes part is dark in the first (second) image for draws of measure
`p_hide_img1` (`p_hide_img2`), the draw being uniform on `[0, 1)`. -/
theorem C144_probability (fl32 : ℝ → ℝ) (R : Rand ℝ) (p : Params ℝ) (bounds : Nat × Nat) (flow : Adapter.Field2 ℝ) (resX resY : ℝ) (key : KeyTerm) (i k : Nat)
    (hi : Ranges p.intensityRanges) (hi0 : ∀ q ∈ p.intensityRanges, 0 < q.1) (hk : mixed fl32 bounds (density fl32 R p key i) k = true) :
    (0 ≤ p.pHide1 → p.pHide1 ≤ 1 →
      volume {u : ℝ | (0 ≤ u ∧ u < 1) ∧ (particle1 fl32 (redraw R (subkey key i 0) k u) p bounds key i k).amp = 0} = ENNReal.ofReal p.pHide1) ∧
    (0 ≤ p.pHide2 → p.pHide2 ≤ 1 →
      volume {u : ℝ | (0 ≤ u ∧ u < 1) ∧ (particle2 fl32 (redraw R (subkey key i 1) k u) p bounds flow resX resY key i k).amp = 0} = ENNReal.ofReal p.pHide2) := by
  obtain ⟨hne, hord⟩ := hi
  have hden (n : Nat) (u : ℝ) : density fl32 (redraw R (subkey key i n) k u) p key i = density fl32 R p key i := by
    unfold density redraw subkey
    simp
  have hself (n : Nat) (u : ℝ) : (redraw R (subkey key i n) k u).uniform (subkey key i n) k = u := by simp [redraw]
  have hset (v h : ℝ → ℝ) (hv : ∀ u, 0 ≤ u → u < 1 → v u ≠ 0) (q : ℝ) (q0 : 0 ≤ q) (q1 : q ≤ 1)
      (he : ∀ u, h u = v u * (if (bernoulli (1 - q) u && true) = true then 1 else 0)) : volume {u : ℝ | (0 ≤ u ∧ u < 1) ∧ h u = 0} = ENNReal.ofReal q := by
    have : {u : ℝ | (0 ≤ u ∧ u < 1) ∧ h u = 0} = Set.Ico (1 - q) 1 := by
      ext u
      simp only [Set.mem_setOf_eq, Set.mem_Ico, he, bernoulli, Bool.and_true, decide_eq_true_eq]
      constructor
      · rintro ⟨⟨u0, u1⟩, hu⟩
        refine ⟨?_, u1⟩
        by_contra hlt
        rw [if_pos (not_le.mp hlt), mul_one] at hu
        exact hv u u0 u1 hu
      · rintro ⟨hu, u1⟩
        exact ⟨⟨by linarith, u1⟩, by rw [if_neg (not_lt.mpr hu), mul_zero]⟩
    rw [this, Real.volume_Ico]
    congr 1
    ring
  constructor
  · intro q0 q1
    refine hset (fun u => between (row p.intensityRanges (rangeIdx (redraw R (subkey key i 0) k u) p key i).2.1).1
      (row p.intensityRanges (rangeIdx (redraw R (subkey key i 0) k u) p key i).2.1).2 ((redraw R (subkey key i 0) k u).uniform (propKey key i 3) k)) _ (fun u _ _ => ?_) _ q0 q1 (fun u => ?_)
    · exact ((hi0 _ (row_mem hne _)).trans_le (le_max_left _ _)).ne'
    · unfold particle1
      dsimp only
      rw [hden, hk, hself]
  · intro q0 q1
    refine hset (fun u => clip (between (row p.intensityRanges (rangeIdx (redraw R (subkey key i 1) k u) p key i).2.1).1
      (row p.intensityRanges (rangeIdx (redraw R (subkey key i 1) k u) p key i).2.1).2 ((redraw R (subkey key i 1) k u).uniform (propKey key i 3) k) +
        (redraw R (subkey key i 1) k u).normal (propKey key i 7) k * (redraw R (subkey key i 1) k u).sqrt p.intensityVar)
      (row p.intensityRanges (rangeIdx (redraw R (subkey key i 1) k u) p key i).2.1).1
      (row p.intensityRanges (rangeIdx (redraw R (subkey key i 1) k u) p key i).2.1).2) _ (fun u _ _ => ?_) _ q0 q1 (fun u => ?_)
    · exact ((hi0 _ (row_mem hne _)).trans_le (clip_mem (hord _ (row_mem hne _))).1).ne'
    · unfold particle2
      dsimp only
      rw [hden, hk, hself]

/-- The hypotheses are met: with 10 x 10 pixels and density 1/40 two particles take part. -/
example : let R : Rand ℝ := ⟨fun _ _ => 1 / 2, fun _ _ => 0, fun _ _ => 0, fun _ => 1, fun _ => 0⟩
    let p : Params ℝ := ⟨2, (3, 4), (0, 0), (1 / 40, 1 / 40), 1 / 4, 1 / 3, [(1 / 2, 1)], 0, [(50, 100)], 0, [(0, 0)], 0, 1, 0, 0, 0⟩
    Ranges p.intensityRanges ∧ (∀ q ∈ p.intensityRanges, 0 < q.1) ∧ mixed id (10, 10) (density id R p (.seed 0) 1) 1 = true := by
  refine ⟨⟨by simp, fun q hq => ?_⟩, fun q hq => ?_, ?_⟩
  · simp only [List.mem_singleton] at hq; subst hq; norm_num
  · simp only [List.mem_singleton] at hq; subst hq; norm_num
  · simp only [mixed, currentNum, density, clip, between, id, decide_eq_true_eq]
    have : ((1 : Nat) : Int) < ⌊(((10 * 10 : Nat) : ℝ)) * min (max (max (1 / 40 : ℝ) ((1 / 40 - 1 / 40) * (1 / 2) + 1 / 40)) 0) (1 / 40)⌋ := by
      rw [Int.lt_iff_add_one_le, Int.le_floor]
      norm_num
    norm_num at this ⊢
    try exact this

/-- Hiding in the first image only: it becomes black, the second stays as it is. -/
example : (generate id id demoRand { quietDemo with pHide1 := 1 } (10, 10) demoFlows 1 1 none none (.seed 0)).images1[1]?.map Img.flat = some (List.replicate 12 0) ∧
    (generate id id demoRand { quietDemo with pHide1 := 1 } (10, 10) demoFlows 1 1 none none (.seed 0)).images2[1]?.map Img.flat =
      some [0, 0, 0, 0, 0, 0, 0, 65625 / 20206, 0, 0, 0, 21875 / 3322] := by decide +kernel

end Verif.Generate
