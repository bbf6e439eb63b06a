import Verif.Spec.Synthetic
import Verif.Proofs.Synthetic
import Verif.Props.Generate
import Verif.Props.Sampler
import Verif.Props.Adapter
/-!
# Properties C89 to C91: the synthetic sampler as a whole
-/

namespace Verif.Synthetic
open Verif
variable {S : Type}

/-- What the model of the state machine does on one device is `generate_images_from_flow`, as modelled in
`Model/Generate.lean`, on that device's flow fields. -/
theorem device_generate (fl fl32 : ℚ → ℚ) (R : Generate.Rand ℚ) (a : Args) (m : Made) (k : KeyTerm) (flows : List (Adapter.Field2 ℚ))
    (hne : flows ≠ []) :
    let out := Generate.generate fl fl32 R (params a m) (m.geo.bounds.1.toNat, m.geo.bounds.2.toNat) flows m.geo.res.2 m.geo.res.1
      (a.mask.map Prod.snd) (histogramOf a) k
    let imgs := Sampler.deviceImages (gen fl fl32 R a m) (m.cfg.batchSize / m.cfg.ndevices) k flows
    imgs.map Pair.first = out.images1 ∧ imgs.map Pair.second = out.images2 ∧ imgs.map Pair.density = out.densities ∧
    imgs.map Pair.diameterRange = out.diameterRanges ∧ imgs.map Pair.intensityRange = out.intensityRanges ∧
    imgs.map Pair.rhoRange = out.rhoRanges := by
  have hpos : 0 < flows.length := List.length_pos_iff.2 hne
  have himgs : Sampler.deviceImages (gen fl fl32 R a m) (m.cfg.batchSize / m.cfg.ndevices) k flows =
      (List.range (m.cfg.batchSize / m.cfg.ndevices)).map (fun i => render fl fl32 R a m k (m.cfg.batchSize / m.cfg.ndevices) i
        (flows.getD (i % flows.length) ⟨0, 0, fun _ _ => (0, 0)⟩)) := by
    unfold Sampler.deviceImages
    rw [← List.filterMap_eq_map]
    refine List.filterMap_congr (fun i _ => ?_)
    have hlt := Nat.mod_lt i hpos
    simp only [Function.comp, List.getD_eq_getElem?_getD, List.getElem?_eq_getElem hlt, Option.map_some, Option.getD_some]
    rfl
  intro out imgs
  have hp : ∀ i, Generate.pair fl fl32 R (params a m) (m.geo.bounds.1.toNat, m.geo.bounds.2.toNat)
      [flows.getD (i % flows.length) ⟨0, 0, fun _ _ => (0, 0)⟩] m.geo.res.2 m.geo.res.1 (a.mask.map Prod.snd) (histogramOf a) k i =
      Generate.pair fl fl32 R (params a m) (m.geo.bounds.1.toNat, m.geo.bounds.2.toNat) flows m.geo.res.2 m.geo.res.1
        (a.mask.map Prod.snd) (histogramOf a) k i := by
    intro i
    unfold Generate.pair
    simp only [List.length_singleton, Nat.mod_one, List.getD_cons_zero]
  have hbs : (params a m).batchSize = m.cfg.batchSize / m.cfg.ndevices := rfl
  simp only [imgs, out, himgs, List.map_map, Generate.generate, hbs]
  refine ⟨?_, ?_, ?_, ?_, ?_, ?_⟩ <;> refine List.map_congr_left (fun i _ => ?_) <;> simp only [Function.comp, render]
  · exact congrArg (·.1) (hp i)
  · exact congrArg (·.2.1) (hp i)
  · rfl
  · exact congrArg (fun o => Generate.row a.spec.diameterRanges o.2.2.1) (hp i)
  · exact congrArg (fun o => Generate.row a.spec.intensityRanges o.2.2.2.1) (hp i)
  · exact congrArg (fun o => Generate.row a.spec.rhoRanges o.2.2.2.2) (hp i)

theorem specOK_iff {p : Generate.Params ℚ} {o : ℚ × ℚ} (h : specOK p o = true) :
    0 < p.dt ∧ 0 ≤ p.densityRange.1 ∧ p.densityRange.1 ≤ p.densityRange.2 ∧ Generate.Ranges p.diameterRanges ∧
    Generate.Ranges p.intensityRanges ∧ Generate.Ranges p.rhoRanges := by
  simp only [specOK, Bool.and_eq_true, decide_eq_true_eq, List.all_eq_true] at h
  obtain ⟨⟨⟨⟨⟨⟨⟨⟨⟨⟨⟨⟨⟨⟨⟨_, _⟩, _⟩, _⟩, _⟩, h1⟩, h2⟩, h3⟩, h4⟩, h5⟩, h6⟩, h7⟩, h8⟩, _⟩, _⟩, h9⟩ := h
  exact ⟨h9, h1.1, h2, ⟨List.length_pos_iff.1 h3, fun q hq => (h4 q hq).2⟩, ⟨List.length_pos_iff.1 h5, fun q hq => (h6 q hq).2⟩,
    ⟨List.length_pos_iff.1 h7, fun q hq => (h8 q hq).2.1⟩⟩

/-! ## C89 -/

/-- The parts of a rendered pair. -/
theorem render_parts (fl fl32 : ℚ → ℚ) (R : Generate.Rand ℚ) (a : Args) (m : Made) (k : KeyTerm) (n i : Nat) (f : Adapter.Field2 ℚ) :
    (∃ k1 k2 ps qs, (render fl fl32 R a m k n i f).first = Generate.finish fl32 R { params a m with batchSize := n }
        (m.geo.bounds.1.toNat, m.geo.bounds.2.toNat) (a.mask.map Prod.snd) (histogramOf a) k1 ps ∧
      (render fl fl32 R a m k n i f).second = Generate.finish fl32 R { params a m with batchSize := n }
        (m.geo.bounds.1.toNat, m.geo.bounds.2.toNat) (a.mask.map Prod.snd) (histogramOf a) k2 qs) ∧
    (∃ j1 j2 j3, (render fl fl32 R a m k n i f).diameterRange = Generate.row a.spec.diameterRanges j1 ∧
      (render fl fl32 R a m k n i f).intensityRange = Generate.row a.spec.intensityRanges j2 ∧
      (render fl fl32 R a m k n i f).rhoRange = Generate.row a.spec.rhoRanges j3) ∧
    (render fl fl32 R a m k n i f).density = Generate.density fl32 R { params a m with batchSize := n } k i :=
  ⟨⟨_, _, _, _, rfl, rfl⟩, ⟨_, _, _, rfl, rfl, rfl⟩, rfl⟩

/-- What holds for the images and flow fields of a batch made from a flow batch. -/
theorem madeFrom_all {fl fl32 : ℚ → ℚ} {R : Generate.Rand ℚ} {a : Args} {m : Made} {k : KeyTerm} {b : Sampler.FlowBatch (Adapter.Field2 ℚ)}
    {x : Sampler.OutBatch (Adapter.Field2 ℚ) Pair} (hx : Sampler.MadeFrom (gen fl fl32 R a m) m.cfg k b x) :
    (∀ p ∈ x.images, ∃ k' n i f, p = render fl fl32 R a m k' n i f) ∧
    (∀ f ∈ x.flows, f.H = m.outShape.1 ∧ f.W = m.outShape.2) := by
  obtain ⟨h1, h2, _, _, h5⟩ := hx
  constructor
  · intro p hp
    obtain ⟨i, hi⟩ := List.mem_iff_getElem?.1 hp
    have hlt : i < m.cfg.batchSize := by rw [← h1]; exact (List.getElem?_eq_some_iff.1 hi).1
    obtain ⟨f, _, _, h⟩ := h5 i hlt
    rw [hi] at h
    simp only [Option.some.injEq] at h
    exact ⟨_, _, _, _, h⟩
  · intro f hf
    obtain ⟨i, hi⟩ := List.mem_iff_getElem?.1 hf
    have hlt : i < m.cfg.batchSize := by rw [← h2]; exact (List.getElem?_eq_some_iff.1 hi).1
    obtain ⟨f', _, h, _⟩ := h5 i hlt
    rw [hi] at h
    simp only [Option.some.injEq] at h
    rw [h]
    exact Adapter.units_size _ _

theorem maskOK_values {a : Args} (hm : MaskValues a) : ∀ g, a.mask.map Prod.snd = some g → ∀ j i, 0 ≤ g j i ∧ g j i ≤ 1 := by
  intro g hg j i
  cases hq : a.mask with
  | none => rw [hq] at hg; simp at hg
  | some q =>
    rw [hq] at hg
    simp only [Option.map_some, Option.some.injEq] at hg
    rw [← hg]
    exact hm q hq j i

/-- **C89** (partial): for every scheduler that delivers full batches, all arguments the constructor accepts, every random
generator with uniform draws in `[0, 1)` and every history of calls (failing ones included), every batch returned is
well-formed, its size being the least multiple of the number of devices that is at least the requested one. In exact
arithmetic. Missing: with floats the images may be too small (`C89_refuted`). -/
theorem C89_well_formed_partial (sch : Sampler.ISched S (Sampler.FlowBatch (Adapter.Field2 ℚ))) (hfull : Sampler.FullBatches sch)
    (f32 : ℚ → ℚ) (R : Generate.Rand ℚ) (hR : Generate.Lawful R) (a : Args) (m : Made) (hm : make id f32 a = .ok m) (hv : MaskValues a)
    (s0 : S) (ops : List Sampler.Op) (outs : List (Sampler.Out (Sampler.OutBatch (Adapter.Field2 ℚ) Pair)))
    (s : Sampler.St S (Adapter.Field2 ℚ) (Adapter.Field2 ℚ))
    (hr : Sampler.run sch (gen id id R a m) m.cfg ops (Sampler.init m.cfg s0) = some (outs, s))
    (x : Sampler.OutBatch (Adapter.Field2 ℚ) Pair) (hx : .batch x ∈ outs) :
    ∃ n, WellFormed a n x ∧ a.ndevices ∣ n ∧ a.spec.batchSize ≤ n ∧ n < a.spec.batchSize + a.ndevices := by
  obtain ⟨h1, _, _, h4, _, h6, h7, h8, h9⟩ := make_ok hm
  obtain ⟨s1, s2, s3, s4, s5, s6⟩ := specOK_iff h1
  obtain ⟨⟨b, k, _, _, _, hb⟩, σ, hd⟩ := Sampler.run_made hfull (Sampler.Cfg.ok_of_make h4) ops _ _ outs (.inl rfl) hr x hx
  obtain ⟨hi, hf⟩ := madeFrom_all hb
  obtain ⟨c1, c2, c3, c4⟩ := Sampler.C38_least_multiple _ _ _ _ _ _ _ h4
  refine ⟨m.cfg.batchSize, ⟨hb.1, hb.2.1, ?_, ?_, ?_, ?_⟩, c2, by omega, ?_⟩
  · intro p hp
    obtain ⟨k', n, i, f, rfl⟩ := hi p hp
    obtain ⟨⟨k1, k2, ps, qs, e1, e2⟩, _, _⟩ := render_parts id id R a m k' n i f
    obtain ⟨w1, w2⟩ := Generate.C71_accepted_partial f32 a.geometry m.geo s1 h8
    have size : ∀ k ps, ImageOK a.spec.imageShape.1 a.spec.imageShape.2 (Generate.finish id R { params a m with batchSize := n }
        (m.geo.bounds.1.toNat, m.geo.bounds.2.toNat) (a.mask.map Prod.snd) (histogramOf a) k ps) := by
      intro k ps
      obtain ⟨z1, z2⟩ := Generate.finish_size id R { params a m with batchSize := n }
        (m.geo.bounds.1.toNat, m.geo.bounds.2.toNat) (a.mask.map Prod.snd) (histogramOf a) k ps
      refine ⟨z1.trans ?_, z2.trans ?_, fun y x _ _ => Generate.finish_mem _ _ _ _ _ _ _ _ (maskOK_values hv) y x⟩
      · show Generate.sliceLen m.geo.bounds.1.toNat m.geo.imgOffset.1.toNat a.spec.imageShape.1 = _
        have : m.geo.imgOffset.1.toNat + a.spec.imageShape.1 ≤ m.geo.bounds.1.toNat := w1
        unfold Generate.sliceLen; omega
      · show Generate.sliceLen m.geo.bounds.2.toNat m.geo.imgOffset.2.toNat a.spec.imageShape.2 = _
        have : m.geo.imgOffset.2.toNat + a.spec.imageShape.2 ≤ m.geo.bounds.2.toNat := w2
        unfold Generate.sliceLen; omega
    rw [e1, e2]
    exact ⟨size _ _, size _ _⟩
  · intro f hfm
    obtain ⟨w1, w2⟩ := hf f hfm
    have out : ∀ n : Nat, ((outLen id n a.velocitiesPerPixel : Nat) : Int) = ⌊(n : ℚ) * a.velocitiesPerPixel⌋ := by
      intro n
      have h0 : 0 ≤ (n : ℚ) * a.velocitiesPerPixel := mul_nonneg (Nat.cast_nonneg _) h6.le
      unfold outLen trunc
      rw [id, if_neg (not_lt.2 h0), Int.toNat_of_nonneg (Int.floor_nonneg.2 h0)]
    rw [w1, w2, h9]
    exact ⟨out _, out _⟩
  · intro p hp
    obtain ⟨k', n, i, f, rfl⟩ := hi p hp
    obtain ⟨_, ⟨j1, j2, j3, e1, e2, e3⟩, e4⟩ := render_parts id id R a m k' n i f
    rw [e1, e2, e3, e4]
    exact ⟨Generate.density_mem R _ k' i hR s2 s3, Generate.row_mem s4.1 _, Generate.row_mem s5.1 _, Generate.row_mem s6.1 _⟩
  · intro d hd'
    rw [hd'] at hd
    unfold Sampler.makeDone at hd
    cases he : sch.episodic with
    | none => rw [he] at hd; simp at hd
    | some e =>
      rw [he] at hd
      simp only [Option.map_some, Option.some.injEq] at hd
      rw [hd, List.length_replicate]
  · have hp : 0 < a.ndevices := by rw [← c1]; exact (Sampler.Cfg.ok_of_make h4).dev
    have := c4 ((a.spec.batchSize + a.ndevices - 1) / a.ndevices * a.ndevices) (Dvd.intro_left _ rfl) (by
      have := Sampler.ceil_mul_ge a.spec.batchSize a.ndevices hp
      exact_mod_cast this)
    have h2 := Nat.div_mul_le_self (a.spec.batchSize + a.ndevices - 1) a.ndevices
    omega

/-- **C89** for base schedulers of any format (partial, as `C89_well_formed_partial`). -/
theorem C89_base_partial {D Key : Type} (w : Base.World ℚ D Key) (c : Base.Cfg) (fuel : Nat)
    (f32 : ℚ → ℚ) (R : Generate.Rand ℚ) (hR : Generate.Lawful R) (a : Args) (m : Made) (hm : make id f32 a = .ok m) (hv : MaskValues a)
    (s0 : Base.St D Key) (ops : List Sampler.Op) (outs : List (Sampler.Out (Sampler.OutBatch (Adapter.Field2 ℚ) Pair)))
    (s : Sampler.St (Base.St D Key) (Adapter.Field2 ℚ) (Adapter.Field2 ℚ))
    (hr : Sampler.run (Sampler.ofPlain (fieldSched w c fuel)) (gen id id R a m) m.cfg ops (Sampler.init m.cfg s0) = some (outs, s))
    (x : Sampler.OutBatch (Adapter.Field2 ℚ) Pair) (hx : .batch x ∈ outs) :
    ∃ n, WellFormed a n x ∧ a.ndevices ∣ n ∧ a.spec.batchSize ≤ n ∧ n < a.spec.batchSize + a.ndevices :=
  C89_well_formed_partial _ (full_plain w c fuel) f32 R hR a m hm hv s0 ops outs s hr x hx

/-- **C89** for episodic schedulers over base schedulers of any format (partial, as `C89_well_formed_partial`). -/
theorem C89_episodic_partial {D Key Q : Type} (w : Base.World ℚ D Key) (c : Base.Cfg) (fuel : Nat) (rng : Episodic.Rng Q) (ecfg : Episodic.Cfg)
    (f32 : ℚ → ℚ) (R : Generate.Rand ℚ) (hR : Generate.Lawful R) (a : Args) (m : Made) (hm : make id f32 a = .ok m) (hv : MaskValues a)
    (s0 : Episodic.St (Base.St D Key) Q) (ops : List Sampler.Op) (outs : List (Sampler.Out (Sampler.OutBatch (Adapter.Field2 ℚ) Pair)))
    (s : Sampler.St (Episodic.St (Base.St D Key) Q) (Adapter.Field2 ℚ) (Adapter.Field2 ℚ))
    (hr : Sampler.run (Sampler.ofEpisodic (fieldSched w c fuel) rng ecfg) (gen id id R a m) m.cfg ops (Sampler.init m.cfg s0) = some (outs, s))
    (x : Sampler.OutBatch (Adapter.Field2 ℚ) Pair) (hx : .batch x ∈ outs) :
    ∃ n, WellFormed a n x ∧ a.ndevices ∣ n ∧ a.spec.batchSize ≤ n ∧ n < a.spec.batchSize + a.ndevices :=
  C89_well_formed_partial _ (full_episodic w c fuel rng ecfg) f32 R hR a m hm hv s0 ops outs s hr x hx

/-- **C89** with floats (partial), the numbers being at most `2 ^ 38` pixels: sizes of batches and done flags are as
documented, particle properties are drawn from the requested ranges, intensities are in range, all reported flow fields have
one shape, and images are at most one row and one column short. -/
theorem C89_float_partial (sch : Sampler.ISched S (Sampler.FlowBatch (Adapter.Field2 ℚ))) (hfull : Sampler.FullBatches sch)
    (f32 : ℚ → ℚ) (R : Generate.Rand ℚ) (a : Args) (m : Made) (hm : make binary64 f32 a = .ok m) (hv : MaskValues a)
    (hmod : Geometry.Moderate a.geometry)
    (s0 : S) (ops : List Sampler.Op) (outs : List (Sampler.Out (Sampler.OutBatch (Adapter.Field2 ℚ) Pair)))
    (s : Sampler.St S (Adapter.Field2 ℚ) (Adapter.Field2 ℚ))
    (hr : Sampler.run sch (gen binary64 binary32 R a m) m.cfg ops (Sampler.init m.cfg s0) = some (outs, s))
    (x : Sampler.OutBatch (Adapter.Field2 ℚ) Pair) (hx : .batch x ∈ outs) :
    ∃ n, (x.images.length = n ∧ x.flows.length = n ∧ (∀ d, x.done = some d → d.length = n)) ∧ (a.ndevices ∣ n ∧ a.spec.batchSize ≤ n) ∧
      (∀ p ∈ x.images, ImageNearlyOK a.spec.imageShape.1 a.spec.imageShape.2 p.first ∧
        ImageNearlyOK a.spec.imageShape.1 a.spec.imageShape.2 p.second ∧
        p.diameterRange ∈ a.spec.diameterRanges ∧ p.intensityRange ∈ a.spec.intensityRanges ∧ p.rhoRange ∈ a.spec.rhoRanges) ∧
      ∃ h w, ∀ f ∈ x.flows, f.H = h ∧ f.W = w := by
  obtain ⟨h1, _, _, h4, _, h6, h7, h8, h9⟩ := make_ok hm
  obtain ⟨s1, s2, s3, s4, s5, s6⟩ := specOK_iff h1
  obtain ⟨⟨b, k, _, _, _, hb⟩, σ, hd⟩ := Sampler.run_made hfull (Sampler.Cfg.ok_of_make h4) ops _ _ outs (.inl rfl) hr x hx
  obtain ⟨hi, hf⟩ := madeFrom_all hb
  obtain ⟨c1, c2, c3, c4⟩ := Sampler.C38_least_multiple _ _ _ _ _ _ _ h4
  refine ⟨m.cfg.batchSize, ⟨hb.1, hb.2.1, ?_⟩, ⟨c2, by omega⟩, ?_, _, _, hf⟩
  · intro d hd'
    rw [hd'] at hd
    unfold Sampler.makeDone at hd
    cases he : sch.episodic with
    | none => rw [he] at hd; simp at hd
    | some e =>
      rw [he] at hd
      simp only [Option.map_some, Option.some.injEq] at hd
      rw [hd, List.length_replicate]
  · intro p hp
    obtain ⟨k', n, i, f, rfl⟩ := hi p hp
    obtain ⟨⟨k1, k2, ps, qs, e1, e2⟩, ⟨j1, j2, j3, e3, e4, e5⟩, _⟩ := render_parts binary64 binary32 R a m k' n i f
    obtain ⟨⟨w1, w2⟩, w3, w4⟩ := Geometry.C48_window_float_partial f32 a.geometry m.geo s1 hmod h8
    have size : ∀ k ps, ImageNearlyOK a.spec.imageShape.1 a.spec.imageShape.2 (Generate.finish binary32 R { params a m with batchSize := n }
        (m.geo.bounds.1.toNat, m.geo.bounds.2.toNat) (a.mask.map Prod.snd) (histogramOf a) k ps) := by
      intro k ps
      obtain ⟨z1, z2⟩ := Generate.finish_size binary32 R { params a m with batchSize := n }
        (m.geo.bounds.1.toNat, m.geo.bounds.2.toNat) (a.mask.map Prod.snd) (histogramOf a) k ps
      have z1' : _ = Generate.sliceLen m.geo.bounds.1.toNat m.geo.imgOffset.1.toNat a.spec.imageShape.1 := z1
      have z2' : _ = Generate.sliceLen m.geo.bounds.2.toNat m.geo.imgOffset.2.toNat a.spec.imageShape.2 := z2
      have w2' : m.geo.imgOffset.1 + a.spec.imageShape.1 ≤ m.geo.bounds.1 + 1 := w2
      have w4' : m.geo.imgOffset.2 + a.spec.imageShape.2 ≤ m.geo.bounds.2 + 1 := w4
      unfold ImageNearlyOK
      rw [z1', z2']
      unfold Generate.sliceLen
      refine ⟨by omega, by omega, fun y x => Generate.finish_mem _ _ _ _ _ _ _ _ (maskOK_values hv) y x⟩
    rw [e1, e2, e3, e4, e5]
    exact ⟨size _ _, size _ _, Generate.row_mem s4.1 _, Generate.row_mem s5.1 _, Generate.row_mem s6.1 _⟩

/-- A scheduler that delivers the same flow field again and again. -/
def always (f : Adapter.Field2 ℚ) : Sampler.ISched Unit (Sampler.FlowBatch (Adapter.Field2 ℚ)) where
  getBatch n s := some (.ok ⟨List.replicate n f, some (List.replicate n true), none⟩, s)
  reset s := .ok s
  episodic := none

theorem always_full (f : Adapter.Field2 ℚ) : Sampler.FullBatches (always f) := by
  intro n s b s' h
  simp only [always, Option.some.injEq, Prod.mk.injEq, Except.ok.injEq] at h
  rw [← h.1, List.length_replicate]

/-- Arguments for examples: three pairs are requested on two devices. -/
def demo : Args :=
  { spec := { Generate.quietDemo with batchSize := 3, noiseUniform := 4 }, imgOffset := (4, 4), ndevices := 2, isEpisodic := false, bpfb := 2, ffpb := 2, seed := 7
    flowFieldSize := (12, 12), flowShape := (12, 12), channels := 2, resolution := 1, velocitiesPerPixel := 2 / 3
    maxSpeedX := 2, maxSpeedY := 0, minSpeedX := 0, minSpeedY := 0, pixels := some true, mask := some ((3, 4), fun _ i => if i = 0 then 0 else 1), histogram := none }

/-- What the constructor makes of them: four pairs. -/
def demoMade : Made :=
  { cfg := ⟨4, 2, 2, 2, 7⟩, geo := ⟨(1, 1), (3, 3), (6, 7), (0, 0), (1, 1)⟩, outShape := (2, 2), pixels := true }

/-- A flow of two units per second to the right. -/
def demoFlow : Adapter.Field2 ℚ := ⟨12, 12, fun _ _ => (2, 0)⟩

/-- The numbers in a batch: pairs with the sizes of both images, sizes of flow fields, whether there are done flags. -/
def sizes : Sampler.Out (Sampler.OutBatch (Adapter.Field2 ℚ) Pair) → List ((Nat × Nat) × (Nat × Nat)) × List (Nat × Nat) × Bool
  | .batch x => (x.images.map (fun p => ((p.first.H, p.first.W), (p.second.H, p.second.W))), x.flows.map (fun f => (f.H, f.W)), x.done.isSome)
  | _ => ([], [], false)

example : make id id demo = .ok demoMade ∧ MaskValues demo := by
  refine ⟨by decide +kernel, fun m hm j i => ?_⟩
  simp only [demo, Option.some.injEq] at hm
  subst hm
  dsimp only
  split <;> norm_num

/-- Three of four calls return a batch. -/
example : (Sampler.run (always demoFlow) (gen id id Generate.demoRand demo demoMade) demoMade.cfg [.next, .reset true, .nextEpisode, .next]
      (Sampler.init demoMade.cfg ())).map (fun q => q.1.map sizes) =
    some [(List.replicate 4 ((3, 4), (3, 4)), List.replicate 4 (2, 2), false), ([], [], false), ([], [], false),
      (List.replicate 4 ((3, 4), (3, 4)), List.replicate 4 (2, 2), false)] := rfl

/-- The arguments of `C48_refuted`. -/
def narrow : Args :=
  { demo with spec := { Generate.quietDemo with imageShape := (64, 64), diameterRanges := [(1 / 2, 1)], densityRange := (1 / 8, 1 / 8) }, imgOffset := (1, 1), ndevices := 1, ffpb := 1
              flowFieldSize := (10, 10), flowShape := (100, 100), resolution := 49, maxSpeedX := 0, mask := none }

/-- **C89 is false with floats**: 64 x 64 pixels are requested at 49 pixels per unit, and the constructor accepts, but the images
are 63 x 63. -/
theorem C89_refuted : ∃ (a : Args) (m : Made), make binary64 binary32 a = .ok m ∧ a.spec.imageShape = (64, 64) ∧
    (Sampler.run (always demoFlow) (gen binary64 binary32 Generate.demoRand a m) m.cfg [.next] (Sampler.init m.cfg ())).map
      (fun q => q.1.map sizes) = some [(List.replicate 2 ((63, 63), (63, 63)), List.replicate 2 (42, 42), false)] :=
  ⟨narrow, { cfg := ⟨2, 1, 2, 1, 7⟩, geo := ⟨(1, 1), (0, 0), (63, 63), (0, 0), (10, 10)⟩, outShape := (42, 42), pixels := true },
   by decide +kernel, rfl, rfl⟩

/-! ## C90 -/

/-- With one flow field per pair, pair `i` is made from flow field `i`, on any number of devices. -/
theorem flowOf_same {B d i : Nat} : Sampler.flowOf B d B i = i := by
  unfold Sampler.flowOf
  rw [Nat.mod_mod, Nat.mul_comm]
  exact Nat.div_add_mod i (B / d)

/-- The reported flow field of a blank one is zero. -/
theorem adapt_zeros (a : Adapter.Args ℚ) (sh : List Nat) (j i : Nat) :
    (Adapter.processSingle id a (fieldOf (Arr.zeros 0 sh))).1.at_ j i = (0, 0) := by
  have hz : ∀ j i, (fieldOf (Arr.zeros (0 : ℚ) sh)).at_ j i = (0, 0) := by
    intro j i
    unfold fieldOf Arr.zeros
    dsimp only
    split
    · have : ∀ k n : Nat, (List.replicate n (0 : ℚ)).getD k 0 = 0 := by
        intro k n
        rw [List.getD_eq_getElem?_getD, List.getElem?_replicate]
        split <;> rfl
      simp only [this]
    · rfl
  have hb : ∀ (h w : Nat) (x y : ℚ), Interp.bilinear (fun _ _ => (0 : ℚ)) h w x y = 0 := by
    intro h w x y; unfold Interp.bilinear; ring
  have hr : (Adapter.resized a (Adapter.padEdge a.padding (fieldOf (Arr.zeros (0 : ℚ) sh)))).at_ j i = (0, 0) := by
    simp only [Adapter.resized, Adapter.sample, Adapter.padEdge, hz, hb]
  unfold Adapter.processSingle Adapter.units
  dsimp only
  split
  · simp only [hr, zero_mul]
  · exact hr

/-- In general the entry of the mask (and of the file names) that describes pair `i` is number `flowOf ... i`, the number of
its flow field: the batch is made of samples that the scheduler drew in a row, and
- an entry of the mask is set iff its flow field is that of a sample; otherwise that flow field is blank,
- the file name with that number is the sample's. -/
theorem mask_of_flow {D Key : Type} (w : Base.World ℚ D Key) (c : Base.Cfg) (fuel : Nat) (hw : Base.WorldWF w)
    (hns : ∀ p d i, w.slice p d i ≠ .fail .stopIteration) (f32 : ℚ → ℚ) (R : Generate.Rand ℚ) (a : Args) (m : Made) (hm : make id f32 a = .ok m)
    (s0 : Base.St D Key) (ops : List Sampler.Op) (outs : List (Sampler.Out (Sampler.OutBatch (Adapter.Field2 ℚ) Pair)))
    (s : Sampler.St (Base.St D Key) (Adapter.Field2 ℚ) (Adapter.Field2 ℚ))
    (hr : Sampler.run (Sampler.ofPlain (fieldSched w c fuel)) (gen id id R a m) m.cfg ops (Sampler.init m.cfg s0) = some (outs, s))
    (x : Sampler.OutBatch (Adapter.Field2 ℚ) Pair) (hx : .batch x ∈ outs) :
    ∃ σ σ' xs mask, Base.Draws w c fuel σ xs σ' ∧ x.mask = some mask ∧ mask.length = m.cfg.ffpb ∧
      ∀ i, i < m.cfg.batchSize → ∃ j, j = Sampler.flowOf m.cfg.batchSize m.cfg.ndevices m.cfg.ffpb i ∧
        ((mask[j]? = some true ∧ ∃ q, xs[j]? = some q ∧ x.flows[i]? = some ((gen id id R a m).adapt (fieldOf q.flow)).1 ∧
            (∃ k n l, x.images[i]? = some (render id id R a m k n l ((gen id id R a m).adapt (fieldOf q.flow)).2)) ∧
            ∀ fs, x.files = some fs → fs.length = m.cfg.ffpb ∧ q.files.map (·.headD "") = fs[j]?) ∨
         (mask[j]? = some false ∧ ∃ f, x.flows[i]? = some f ∧ ∀ y x, f.at_ y x = (0, 0))) := by
  obtain ⟨_, _, _, h4, _⟩ := make_ok hm
  have hok := Sampler.Cfg.ok_of_make h4
  obtain ⟨⟨b, k, ⟨σ, σ2, hdel⟩, hl, hdv, hb⟩, _⟩ := Sampler.run_made (full_plain w c fuel) hok ops _ _ outs (.inl rfl) hr x hx
  obtain ⟨_, _, hmask, hfiles, hall⟩ := hb
  have hdel' : (Base.getBatch 0 w c fuel m.cfg.ffpb σ).map
      (fun q => (q.1.map (fun b : Base.Batch ℚ => (⟨b.flow.rows.map fieldOf, some b.mask, b.files⟩ : Sampler.FlowBatch (Adapter.Field2 ℚ))), q.2)) = some (.ok b, σ2) := hdel
  rw [Option.map_eq_some_iff] at hdel'
  obtain ⟨⟨r, t⟩, hg, he⟩ := hdel'
  simp only [Prod.mk.injEq] at he
  obtain ⟨he, rfl⟩ := he
  cases r with
  | error e => simp [Except.map] at he
  | ok bb =>
    simp only [Except.map, Except.ok.injEq] at he
    obtain ⟨xs, s1, hdr, hne, hle, hsh, _⟩ := Base.C02_mask_marks_real_rows 0 w c hw hns fuel m.cfg.ffpb σ t bb hg
    obtain ⟨r1, r2⟩ := base_rows hg
    refine ⟨σ, s1, xs, bb.mask, hdr, by rw [hmask, ← he], r2, fun i hi => ⟨_, rfl, ?_⟩⟩
    obtain ⟨f, hf, hfl, him⟩ := hall i hi
    rw [hl] at hf
    set j := Sampler.flowOf m.cfg.batchSize m.cfg.ndevices m.cfg.ffpb i
    have hj : j < bb.flow.rows.length := by
      rw [← he] at hf
      have := (List.getElem?_eq_some_iff.1 hf).1
      simpa using this
    have hrow : bb.flow.rows[j]? = some (bb.flow.row j) := by
      unfold Arr.rows at hj ⊢
      rw [List.getElem?_map, List.getElem?_eq_getElem (by simpa using hj)]
      simp
    have hff : f = fieldOf (bb.flow.row j) := by
      rw [← he] at hf
      simp only [List.getElem?_map, hrow, Option.map_some, Option.some.injEq] at hf
      exact hf.symm
    by_cases hjx : j < xs.length
    · left
      refine ⟨by rw [hsh.mask, List.getElem?_append_left (by simpa using hjx)]; simp [hjx], xs[j], List.getElem?_eq_getElem hjx, ?_, ?_, ?_⟩
      · rw [hfl, hff, hsh.flow_rows j hjx]
      · exact ⟨_, _, _, by rw [him, hff, hsh.flow_rows j hjx]; rfl⟩
      · intro fs hfs
        rcases hsh.files with ⟨h, _⟩ | ⟨fs', h, hlen, hx, _⟩
        · rw [hfiles, ← he] at hfs
          dsimp only at hfs
          rw [h] at hfs
          simp at hfs
        · rw [hfiles, ← he] at hfs
          dsimp only at hfs
          rw [h] at hfs
          simp only [Option.some.injEq] at hfs
          subst hfs
          refine ⟨hlen, ?_⟩
          rw [hx j hjx, List.getD_eq_getElem?_getD, List.getElem?_eq_getElem (by omega), Option.getD_some]
    · right
      have hq : xs[0]? = some (xs[0]'(List.length_pos_iff.2 hne)) := List.getElem?_eq_getElem _
      refine ⟨?_, _, hfl, ?_⟩
      · rw [hsh.mask, List.getElem?_append_right (by simpa using Nat.le_of_not_lt hjx), List.getElem?_replicate]
        simp
        omega
      · rw [hff, hsh.flow_pad j (by omega) (by omega) _ (List.mem_of_getElem? hq)]
        exact adapt_zeros _ _

/-- **C90** (partial): if there are as many flow fields per batch as pairs, entry `i` of the mask and of the file names
describes pair `i`, in every batch of every history, on any number of devices: it is set iff the pair belongs to a sample,
whose file is named; otherwise its flow is blank. Missing: fewer flow fields than pairs, where there are too few entries
(`C90_refuted`). -/
theorem C90_aligned_partial {D Key : Type} (w : Base.World ℚ D Key) (c : Base.Cfg) (fuel : Nat) (hw : Base.WorldWF w)
    (hns : ∀ p d i, w.slice p d i ≠ .fail .stopIteration) (f32 : ℚ → ℚ) (R : Generate.Rand ℚ) (a : Args) (m : Made) (hm : make id f32 a = .ok m)
    (hsame : a.ffpb = a.spec.batchSize) (hdev : a.ndevices ∣ a.spec.batchSize)
    (s0 : Base.St D Key) (ops : List Sampler.Op) (outs : List (Sampler.Out (Sampler.OutBatch (Adapter.Field2 ℚ) Pair)))
    (s : Sampler.St (Base.St D Key) (Adapter.Field2 ℚ) (Adapter.Field2 ℚ))
    (hr : Sampler.run (Sampler.ofPlain (fieldSched w c fuel)) (gen id id R a m) m.cfg ops (Sampler.init m.cfg s0) = some (outs, s))
    (x : Sampler.OutBatch (Adapter.Field2 ℚ) Pair) (hx : .batch x ∈ outs) :
    ∃ σ σ' xs mask, Base.Draws w c fuel σ xs σ' ∧ x.mask = some mask ∧ mask.length = a.spec.batchSize ∧ x.images.length = a.spec.batchSize ∧
      ∀ i, i < a.spec.batchSize →
        (mask[i]? = some true ∧ ∃ q, xs[i]? = some q ∧ x.flows[i]? = some ((gen id id R a m).adapt (fieldOf q.flow)).1 ∧
            (∃ k n l, x.images[i]? = some (render id id R a m k n l ((gen id id R a m).adapt (fieldOf q.flow)).2)) ∧
            ∀ fs, x.files = some fs → fs.length = a.spec.batchSize ∧ q.files.map (·.headD "") = fs[i]?) ∨
         (mask[i]? = some false ∧ ∃ f, x.flows[i]? = some f ∧ ∀ y x, f.at_ y x = (0, 0)) := by
  obtain ⟨_, _, _, h4, _⟩ := make_ok hm
  obtain ⟨c1, c2, c3, c4⟩ := Sampler.C38_least_multiple _ _ _ _ _ _ _ h4
  have hB : m.cfg.batchSize = a.spec.batchSize := by
    have := c4 a.spec.batchSize hdev (le_refl _)
    omega
  have hF : m.cfg.ffpb = a.spec.batchSize := by
    obtain ⟨_, _, _, _, _, _, e⟩ := Sampler.Cfg.make_ok h4
    rw [e]
    show a.ffpb.toNat = _
    rw [hsame]; simp
  obtain ⟨⟨b, k, _, _, _, hb⟩, _⟩ := Sampler.run_made (full_plain w c fuel) (Sampler.Cfg.ok_of_make h4) ops _ _ outs (.inl rfl) hr x hx
  obtain ⟨σ, σ', xs, mask, h1, h2, h3, h5⟩ := mask_of_flow w c fuel hw hns f32 R a m hm s0 ops outs s hr x hx
  refine ⟨σ, σ', xs, mask, h1, h2, h3.trans hF, hb.1.trans hB, fun i hi => ?_⟩
  obtain ⟨j, hj, h⟩ := h5 i (by omega)
  have : j = i := by
    rw [hj, hB, hF, c1]
    exact flowOf_same
  rw [this, hF] at h
  exact h

/-- The flow fields of `demoFlow`, in a file. -/
def demoSample (p : String) : Base.Sample ℚ := ⟨⟨[12, 12, 2], (List.range 288).map (fun i => if i % 2 = 0 then 2 else 0)⟩, none, none, some [p]⟩

/-- Every file contains one of them. -/
def demoWorld : Base.World ℚ Unit KeyTerm where
  load _ := .ok ()
  slice p _ i := if i = 0 then .ok (demoSample p) else .ended
  split k := k.split2
  perm _ n := List.range n

example : Base.WorldWF demoWorld ∧ ∀ p d i, demoWorld.slice p d i ≠ .fail .stopIteration := by
  constructor
  · intro p d i x h
    simp only [demoWorld] at h
    split at h
    · cases h
      exact ⟨by simp [demoSample, Arr.WF, Arr.size], fun a h => by simp [demoSample] at h, fun a h => by simp [demoSample] at h⟩
    · simp at h
  · intro p d i h
    simp only [demoWorld] at h
    split at h <;> simp at h

/-- The mask, the file names and the number of pairs of a batch. -/
def labels : Sampler.Out (Sampler.OutBatch (Adapter.Field2 ℚ) Pair) → Option (List Bool) × Option (List String) × Nat
  | .batch x => (x.mask, x.files, x.images.length)
  | _ => (none, none, 0)

/-- Two pairs from two flow fields on two devices, and three files: in the second batch only the first pair is real. -/
example : (make id id { demo with spec := { demo.spec with batchSize := 2 }, bpfb := 1 }) = .ok { demoMade with cfg := ⟨2, 2, 1, 2, 7⟩ } ∧
    (Sampler.run (Sampler.ofPlain (fieldSched demoWorld ⟨false, false⟩ 9))
      (gen id id Generate.demoRand { demo with spec := { demo.spec with batchSize := 2 }, bpfb := 1 } { demoMade with cfg := ⟨2, 2, 1, 2, 7⟩ })
      ⟨2, 2, 1, 2, 7⟩ [.next, .next, .next] (Sampler.init ⟨2, 2, 1, 2, 7⟩ (Base.init demoWorld ⟨false, false⟩ ["p", "q", "r"] (.seed 0)))).map
        (fun q => q.1.map labels) =
    some [(some [true, true], some ["p", "q"], 2), (some [true, false], some ["r", ""], 2), (none, none, 0)] :=
  ⟨by decide +kernel, rfl⟩

/-- **C90 is false if there are fewer flow fields than pairs**: three pairs are requested, four returned, with two entries in the
mask and two file names; the last two pairs have none, and the second pair, on the first device, belongs to the first flow field. -/
theorem C90_refuted : make id id demo = .ok demoMade ∧
    (Sampler.run (Sampler.ofPlain (fieldSched demoWorld ⟨false, false⟩ 9)) (gen id id Generate.demoRand demo demoMade)
      demoMade.cfg [.next] (Sampler.init demoMade.cfg (Base.init demoWorld ⟨false, false⟩ ["p"] (.seed 0)))).map
        (fun q => q.1.map labels) = some [(some [true, false], some ["p", ""], 4)] ∧
    Sampler.flowOf 4 2 2 1 = 0 :=
  ⟨by decide +kernel, rfl, rfl⟩

/-! ## C91 -/

/-- A rendered pair, as part of the output of `generate`. -/
theorem render_generate (fl fl32 : ℚ → ℚ) (R : Generate.Rand ℚ) (a : Args) (m : Made) (k : KeyTerm) (n i : Nat) (hi : i < n) (f : Adapter.Field2 ℚ) :
    let out := Generate.generate fl fl32 R { params a m with batchSize := n } (m.geo.bounds.1.toNat, m.geo.bounds.2.toNat) [f] m.geo.res.2 m.geo.res.1
      (a.mask.map Prod.snd) (histogramOf a) k
    out.images1[i]? = some (render fl fl32 R a m k n i f).first ∧ out.images2[i]? = some (render fl fl32 R a m k n i f).second := by
  unfold Generate.generate render
  simp [hi]

/-- The flow field is `(u, v)` everywhere, in units of length per unit of time. -/
def UniformField (u v : ℚ) (f : Adapter.Field2 ℚ) : Prop := 0 < f.H ∧ 0 < f.W ∧ ∀ j i, j < f.H → i < f.W → f.at_ j i = (u, v)

/-- **C91** (partial): end to end, the reported flow is the motion seen in the images. If the flow is uniform with a
displacement of whole pixels, `a` down and `b` to the right, and nothing else is random but the particles, then in every batch of every history
the reported flow is `(b, a)` everywhere and the second image is the first one moved by that, away from the border of the
region of particles (exact arithmetic). Missing: regions that are not a whole number of grid steps (`C91_refuted`), flows that are not uniform
(`C58_refuted`). -/
theorem C91_ground_truth_partial (sch : Sampler.ISched S (Sampler.FlowBatch (Adapter.Field2 ℚ))) (hfull : Sampler.FullBatches sch) (u v : ℚ)
    (hu : ∀ n s b s', sch.getBatch n s = some (.ok b, s') → ∀ f ∈ b.flows, UniformField u v f)
    (f32 : ℚ → ℚ) (R : Generate.Rand ℚ) (hR : Generate.Lawful R) (args : Args) (m : Made) (hm : make id f32 args = .ok m)
    (hq : Generate.Quiet R args.spec) (hmask : args.mask = none) (hh : args.histogram = none) (hpx : args.pixels = some true)
    (hky : ∃ k : Nat, (m.geo.bounds.1.toNat : ℚ) / args.resolution * m.geo.res.1 = k)
    (hkx : ∃ k : Nat, (m.geo.bounds.2.toNat : ℚ) / args.resolution * m.geo.res.2 = k)
    (a b : Int) (ha : v * args.resolution * args.spec.dt = a) (hb : u * args.resolution * args.spec.dt = b)
    (s0 : S) (ops : List Sampler.Op) (outs : List (Sampler.Out (Sampler.OutBatch (Adapter.Field2 ℚ) Pair)))
    (s : Sampler.St S (Adapter.Field2 ℚ) (Adapter.Field2 ℚ))
    (hr : Sampler.run sch (gen id id R args m) m.cfg ops (Sampler.init m.cfg s0) = some (outs, s))
    (x : Sampler.OutBatch (Adapter.Field2 ℚ) Pair) (hx : .batch x ∈ outs) :
    (∀ f ∈ x.flows, ∀ j i, f.at_ j i = ((b : ℚ), (a : ℚ))) ∧
    (∀ p ∈ x.images, ∀ y x y' x' : Nat, (y' : Int) = y + a → (x' : Int) = x + b → ∀ r, r = Render.patchRadius (Generate.maxDiameter args.spec) →
      (2 * r < y + m.geo.imgOffset.1.toNat ∧ y + m.geo.imgOffset.1.toNat + 2 * r + 1 < m.geo.bounds.1.toNat) →
      (2 * r < x + m.geo.imgOffset.2.toNat ∧ x + m.geo.imgOffset.2.toNat + 2 * r + 1 < m.geo.bounds.2.toNat) →
      (2 * r < y' + m.geo.imgOffset.1.toNat ∧ y' + m.geo.imgOffset.1.toNat + 2 * r + 1 < m.geo.bounds.1.toNat) →
      (2 * r < x' + m.geo.imgOffset.2.toNat ∧ x' + m.geo.imgOffset.2.toNat + 2 * r + 1 < m.geo.bounds.2.toNat) →
      p.second.at_ y' x' = p.first.at_ y x) := by
  obtain ⟨h1, _, _, h4, _, h6, h7, h8, h9⟩ := make_ok hm
  obtain ⟨s1, s2, s3, s4, s5, s6⟩ := specOK_iff h1
  have him : 0 < args.spec.imageShape.1 ∧ 0 < args.spec.imageShape.2 := by
    simp only [specOK, Bool.and_eq_true, decide_eq_true_eq] at h1
    exact h1.1.1.1.1.1.1.1.1.1.1.1.1.1.1.2
  have hok := Sampler.Cfg.ok_of_make h4
  obtain ⟨⟨bt, k, ⟨σ, σ', hdel⟩, hl, hdv, hbt⟩, _⟩ := Sampler.run_made hfull hok ops _ _ outs (.inl rfl) hr x hx
  obtain ⟨g1, g2, _, _, g5⟩ := hbt
  obtain ⟨w1, w2⟩ := Generate.C71_accepted_partial f32 args.geometry m.geo s1 h8
  obtain ⟨b1, b2, b3, b4, b5, _, _, _, _, _, _, b12⟩ := Geometry.build_ok h8
  have hrx : 0 < m.geo.res.2 := by rw [b12]; exact div_pos (by exact_mod_cast b4) b2
  have hry : 0 < m.geo.res.1 := by rw [b12]; exact div_pos (by exact_mod_cast b3) b1
  have hp : m.pixels = true := by rw [h7] at hpx; simpa using hpx
  have w1' : m.geo.imgOffset.1.toNat + args.spec.imageShape.1 ≤ m.geo.bounds.1.toNat := w1
  have w2' : m.geo.imgOffset.2.toNat + args.spec.imageShape.2 ≤ m.geo.bounds.2.toNat := w2
  have key : ∀ f ∈ bt.flows, (∀ j i, ((gen id id R args m).adapt f).1.at_ j i = ((b : ℚ), (a : ℚ))) ∧
      ∀ y x : ℚ, Adapter.move (m.geo.bounds.1.toNat, m.geo.bounds.2.toNat) ((gen id id R args m).adapt f).2 args.spec.dt m.geo.res.2 m.geo.res.1 y x = (y + a, x + b) := by
    intro f hf
    obtain ⟨f1, f2, f3⟩ := hu _ _ _ _ hdel f hf
    obtain ⟨c1, _, c3⟩ := Adapter.C58_uniform_partial
      (Adapter.ofGeo args.geometry m.geo m.outShape (m.cfg.batchSize / m.cfg.ndevices) m.pixels) f u v f3 f1 f2 b5 hrx hry hp
      (show 0 < m.geo.bounds.1.toNat by omega) (show 0 < m.geo.bounds.2.toNat by omega)
    constructor
    · intro j i
      refine (c1 j i).trans ?_
      rw [← ha, ← hb]; rfl
    · intro y x
      refine (c3 hky hkx y x).trans ?_
      rw [← ha, ← hb]; rfl
  constructor
  · intro f hf
    obtain ⟨i, hi⟩ := List.mem_iff_getElem?.1 hf
    have hlt : i < m.cfg.batchSize := by rw [← g2]; exact (List.getElem?_eq_some_iff.1 hi).1
    obtain ⟨f', hf', h, _⟩ := g5 i hlt
    rw [hi] at h
    simp only [Option.some.injEq] at h
    rw [h]
    exact (key f' (List.mem_of_getElem? hf')).1
  · intro p hpm y x y' x' hy hx' r hr' z1 z2 z3 z4
    obtain ⟨i, hi⟩ := List.mem_iff_getElem?.1 hpm
    have hlt : i < m.cfg.batchSize := by rw [← g1]; exact (List.getElem?_eq_some_iff.1 hi).1
    obtain ⟨f', hf', _, h⟩ := g5 i hlt
    rw [hi] at h
    simp only [Option.some.injEq] at h
    have hpos : 0 < m.cfg.batchSize / m.cfg.ndevices := by
      obtain ⟨q, hq'⟩ := Nat.dvd_of_mod_eq_zero hok.dvd
      have := hok.dev
      rw [hq', Nat.mul_div_cancel_left _ this]
      rcases Nat.eq_zero_or_pos q with h0 | h0
      · rw [hq', h0] at hlt; simp at hlt
      · exact h0
    obtain ⟨i1, i2⟩ := render_generate id id R args m (.sub k m.cfg.ndevices (i / (m.cfg.batchSize / m.cfg.ndevices)))
      (m.cfg.batchSize / m.cfg.ndevices) (i % (m.cfg.batchSize / m.cfg.ndevices)) (Nat.mod_lt _ hpos) ((gen id id R args m).adapt f').2
    have hh' : histogramOf args = none := by unfold histogramOf; rw [hh]; rfl
    rw [hmask, hh'] at i1 i2
    rw [h]
    exact Generate.C73_shift id R hR { params args m with batchSize := m.cfg.batchSize / m.cfg.ndevices } ⟨hq.hide, hq.noise, hq.var, hq.sqrt⟩ _ _ _ _ _ _ _
      (by simp [Nat.mod_one]) a b (key f' (List.mem_of_getElem? hf')).2 s4 s5 s6 _ _ i1 i2 y x y' x' hy hx' r hr' ⟨z1, z2⟩ ⟨z3, z4⟩

/-- Arguments for an example: a flow of two pixels to the right, and a large region. -/
def demoShift : Args :=
  { demo with spec := { Generate.quietDemo with imageShape := (5, 5) }, imgOffset := (6, 6), ndevices := 1
              flowFieldSize := (20, 20), flowShape := (20, 20), maxSpeedY := 2, minSpeedX := -6, minSpeedY := -6, mask := none }

/-- Draws that put all particles into the image. -/
def demoDraws : Generate.Rand ℚ := { Generate.demoRand with uniform := fun _ n => if n % 2 = 0 then 3 / 8 else 1 / 4 }

/-- What the constructor makes of them. -/
def demoShiftMade : Made :=
  { cfg := ⟨2, 1, 2, 2, 7⟩, geo := ⟨(3, 3), (3, 3), (14, 14), (0, 0), (1, 1)⟩, outShape := (3, 3), pixels := true }

example : make id id demoShift = .ok demoShiftMade ∧ Generate.Quiet demoDraws demoShift.spec ∧
    demoShift.mask = none ∧ demoShift.histogram = none ∧ demoShift.pixels = some true ∧
    ((demoShiftMade.geo.bounds.1.toNat : ℚ) / demoShift.resolution * demoShiftMade.geo.res.1 = (14 : Nat)) ∧
    ((demoShiftMade.geo.bounds.2.toNat : ℚ) / demoShift.resolution * demoShiftMade.geo.res.2 = (14 : Nat)) ∧
    (0 : ℚ) * demoShift.resolution * demoShift.spec.dt = (0 : Int) ∧ (2 : ℚ) * demoShift.resolution * demoShift.spec.dt = (2 : Int) ∧
    Render.patchRadius (Generate.maxDiameter demoShift.spec) = 1 := by
  refine ⟨by decide +kernel, ⟨⟨rfl, rfl⟩, ⟨rfl, rfl, rfl⟩, ⟨rfl, rfl, rfl⟩, rfl⟩, rfl, rfl, rfl, by decide +kernel, by decide +kernel, by decide +kernel, by decide +kernel,
    by decide +kernel⟩

/-- Rows 1 and 2 of the first image pair: the second image is the first one moved by two pixels. -/
example : (Sampler.run (always ⟨20, 20, fun _ _ => (2, 0)⟩) (gen id id demoDraws demoShift demoShiftMade) demoShiftMade.cfg [.next]
      (Sampler.init demoShiftMade.cfg ())).map (fun q => q.1.map (fun o => match o with
        | .batch x => (x.images.take 1).map (fun p : Pair => ([p.first.at_ 1 0, p.first.at_ 1 1, p.first.at_ 2 0, p.first.at_ 2 1],
            [p.second.at_ 1 2, p.second.at_ 1 3, p.second.at_ 2 2, p.second.at_ 2 3]))
        | _ => [])) =
    some [[([714093065 / 23707644, 3086225751 / 85929604, 3531487155 / 21044372, 170469775 / 836772],
      [714093065 / 23707644, 3086225751 / 85929604, 3531487155 / 21044372, 170469775 / 836772])]] := by decide +kernel

/-- Arguments for the counterexample: a region of 17 pixels with one grid point for every two of them. -/
def oddArgs : Args := { demoShift with resolution := 2, maxSpeedX := 3, maxSpeedY := 3, minSpeedX := -3, minSpeedY := -3 }

def oddMade : Made :=
  { cfg := ⟨2, 1, 2, 2, 7⟩, geo := ⟨(3, 3), (6, 6), (17, 17), (0, 0), (1, 1)⟩, outShape := (3, 3), pixels := true }

def oddDraws : Generate.Rand ℚ := { Generate.demoRand with uniform := fun _ n => if n % 2 = 0 then 8 / 17 else 7 / 17 }

/-- The reported flow at a pixel, a pixel of the first image, and the pixel of the second image to which it should have moved. -/
def ends : Sampler.Out (Sampler.OutBatch (Adapter.Field2 ℚ) Pair) → List (ℚ × ℚ) × List (ℚ × ℚ)
  | .batch x => (x.flows.map (fun f => f.at_ 2 2), x.images.map (fun p => (p.first.at_ 2 0, p.second.at_ 2 2)))
  | _ => ([], [])

/-- **C91 is false if the region is not a whole number of grid steps**: the arguments are accepted, nothing but the particles is random, and the flow is
uniform with a displacement of two whole pixels to the right, which is what is reported; but the images are not moved by two pixels. The pixels compared
are at a distance of more than two patches from the border of the region. -/
theorem C91_refuted : ∃ (args : Args) (m : Made) (R : Generate.Rand ℚ) (x : Sampler.OutBatch (Adapter.Field2 ℚ) Pair) (p : Pair)
    (s : Sampler.St Unit (Adapter.Field2 ℚ) (Adapter.Field2 ℚ)),
    make id id args = .ok m ∧ Generate.Lawful R ∧ Generate.Quiet R args.spec ∧ args.mask = none ∧ args.histogram = none ∧ args.pixels = some true ∧
    (0 : ℚ) * args.resolution * args.spec.dt = (0 : Int) ∧ (1 : ℚ) * args.resolution * args.spec.dt = (2 : Int) ∧
    Sampler.run (always ⟨20, 20, fun _ _ => (1, 0)⟩) (gen id id R args m) m.cfg [.next] (Sampler.init m.cfg ()) = some ([.batch x], s) ∧
    p ∈ x.images ∧ (∃ f ∈ x.flows, f.at_ 2 2 = (2, 0)) ∧ Render.patchRadius (Generate.maxDiameter args.spec) = 1 ∧ m.geo.imgOffset = (6, 6) ∧
    m.geo.bounds = (17, 17) ∧ p.second.at_ 2 (0 + 2) ≠ p.first.at_ 2 0 := by
  have h : (Sampler.run (always ⟨20, 20, fun _ _ => (1, 0)⟩) (gen id id oddDraws oddArgs oddMade) oddMade.cfg [.next]
      (Sampler.init oddMade.cfg ())).map (fun q => q.1.map ends) = some [([(2, 0), (2, 0)],
      [(49966980329400 / 261356357171, 1319782448591440 / 8359221320689), (49966980329400 / 261356357171, 1319782448591440 / 8359221320689)])] := by
    decide +kernel
  obtain ⟨⟨outs, s⟩, h1, h2⟩ := Option.map_eq_some_iff.1 h
  match outs, h2, h1 with
  | [.batch x], h2, h1 =>
    simp only [List.map_cons, List.map_nil, List.cons.injEq, and_true, ends, Prod.mk.injEq] at h2
    obtain ⟨h3, h4⟩ := h2
    match hi : x.images, h4 with
    | p :: _, h4 =>
      match hf : x.flows, h3 with
      | f :: _, h3 =>
        rw [List.map_cons, List.cons.injEq] at h3 h4
        refine ⟨oddArgs, oddMade, oddDraws, x, p, s, by decide +kernel, fun _ n => by dsimp only [oddDraws]; split <;> norm_num,
          ⟨⟨rfl, rfl⟩, ⟨rfl, rfl, rfl⟩, ⟨rfl, rfl, rfl⟩, rfl⟩, rfl, rfl, rfl, by decide +kernel, by decide +kernel, h1, by simp [hi], ⟨f, by simp [hf], h3.1⟩,
          by decide +kernel, rfl, rfl, ?_⟩
        obtain ⟨h5, h6⟩ := Prod.mk.inj h4.1
        show p.second.at_ 2 2 ≠ p.first.at_ 2 0
        rw [h5, h6]
        norm_num

end Verif.Synthetic
