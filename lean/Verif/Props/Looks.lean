import Verif.Proofs.Looks
import Verif.Props.Synthetic
/-!
# Arguments that concern the looks of images only (C139, C140)
-/

namespace Verif.Looks
open Verif

/-- Multiplication with a mask of zeros and ones. -/
theorem masked_eq {m : Nat → Nat → ℚ} (hm : ∀ j i, m j i = 0 ∨ m j i = 1) (img : Generate.Img ℚ) : Generate.masked (some m) img = blacked m img := by
  unfold Generate.masked blacked
  dsimp only
  congr 1
  funext j i
  rcases hm j i with h | h <;> simp [h]

/-- A mask takes part in no check but the one of its shape. -/
theorem make_mask (fl fl32 : ℚ → ℚ) (a : Synthetic.Args) (ha : a.mask = none) (sh : Nat × Nat) (m : Nat → Nat → ℚ) :
    Synthetic.make fl fl32 { a with mask := some (sh, m) } =
      if Synthetic.specOK a.spec a.imgOffset = true ∧ sh ≠ a.spec.imageShape then .error .valueError else Synthetic.make fl fl32 a := by
  have h0 : Synthetic.maskOK a = true := by unfold Synthetic.maskOK; rw [ha]
  have h1 : Synthetic.maskOK { a with mask := some (sh, m) } = decide (sh = a.spec.imageShape) := rfl
  unfold Synthetic.make
  rw [h0, h1]
  by_cases hs : Synthetic.specOK a.spec a.imgOffset = true
  · by_cases hsh : sh = a.spec.imageShape
    · simp only [hs, hsh, decide_true, ne_eq, not_true_eq_false, and_false, if_false]; rfl
    · simp [hs, hsh]
  · simp [hs]

/-- **C139.** For every synthetic sampler without a mask and without a histogram, every mask of zeros and ones, any rounding and any random draws: with the mask the
sampler is accepted iff it was before and the mask has the shape of the images, and then every history of calls on the same scheduler shows the same, but that the pixels where the
mask is 0 are black in both images of every pair. -/
theorem C139_mask (fl fl32 : ℚ → ℚ) (R : Generate.Rand ℚ) (a : Synthetic.Args) (ha : a.mask = none) (hh : a.histogram = none) (sh : Nat × Nat) (m : Nat → Nat → ℚ)
    (hm : ∀ j i, m j i = 0 ∨ m j i = 1) :
    (∀ md, Synthetic.make fl fl32 { a with mask := some (sh, m) } = .ok md ↔ sh = a.spec.imageShape ∧ Synthetic.make fl fl32 a = .ok md) ∧
    ∀ md, Synthetic.make fl fl32 { a with mask := some (sh, m) } = .ok md →
      ∀ (S : Type) (sch : Sampler.ISched S (Sampler.FlowBatch (Adapter.Field2 ℚ))) (s : S) (ops : List Sampler.Op),
        (Sampler.run sch (Synthetic.gen fl fl32 R { a with mask := some (sh, m) } md) md.cfg ops (Sampler.init md.cfg s)).map Prod.fst =
          (Sampler.run sch (Synthetic.gen fl fl32 R a md) md.cfg ops (Sampler.init md.cfg s)).map (fun q => q.1.map (images (blackedPair m))) := by
  constructor
  · intro md
    rw [make_mask fl fl32 a ha]
    by_cases hsh : sh = a.spec.imageShape
    · simp [hsh]
    · by_cases hs : Synthetic.specOK a.spec a.imgOffset = true
      · simp [hsh, hs]
      · have : Synthetic.make fl fl32 a = .error .valueError := by unfold Synthetic.make; simp [hs]
        simp [hsh, this]
  · intro md _ S sch s ops
    have hsim : Sim md.cfg md.cfg (blackedPair m) (Synthetic.gen fl fl32 R a md) (Synthetic.gen fl fl32 R { a with mask := some (sh, m) } md) Eq (fun _ => True) := by
      refine ⟨rfl, fun _ _ => Iff.rfl, rfl, rfl, rfl, fun _ _ => rfl, fun k k' h => by rw [h], fun k k' l h _ => ?_⟩
      rw [← h]
      refine images_images (fun k b i f => ?_) md.cfg _ l
      show Synthetic.render fl fl32 R { a with mask := some (sh, m) } md k b i f = blackedPair m (Synthetic.render fl fl32 R a md k b i f)
      have e (p : Generate.Params ℚ) (bounds : Nat × Nat) (nk : KeyTerm) (ps : List (Render.Particle ℚ)) :
          Generate.finish fl32 R p bounds (some m) none nk ps = blacked m (Generate.finish fl32 R p bounds none none nk ps) := by
        unfold Generate.finish
        dsimp only
        rw [masked_eq hm]
        rfl
      have hn : Synthetic.histogramOf a = none := by unfold Synthetic.histogramOf; rw [hh]; rfl
      have hn' : Synthetic.histogramOf { a with mask := some (sh, m) } = none := hn
      unfold Synthetic.render Generate.pair
      simp only [hn, hn', ha, Option.map_some, Option.map_none, e]
      rfl
    exact run_sim hsim (fun _ _ _ _ => trivial) ops (init_rel hsim s)

/-- How many images there are depends on neither the key nor what they show. -/
theorem images_unit {F O I I' : Type} (g : Sampler.Gen F O I) (g' : Sampler.Gen F O I') (cfg cfg' : Sampler.Cfg) (hb : cfg'.batchSize = cfg.batchSize)
    (hd : cfg'.ndevices = cfg.ndevices) (k k' : KeyTerm) (l : List F) :
    (Sampler.images g' cfg' k' l).map (fun _ => ()) = (Sampler.images g cfg k l).map (fun _ => ()) := by
  have key {J : Type} (h : Sampler.Gen F O J) (c : Sampler.Cfg) (k : KeyTerm) : (Sampler.images h c k l).map (fun _ => ()) =
      (Sampler.shards c.ndevices l).flatMap (fun fs => (List.range (c.batchSize / c.ndevices)).filterMap (fun i => (fs[i % fs.length]?).map (fun _ => ()))) := by
    unfold Sampler.images Sampler.deviceImages
    rw [List.map_flatMap]
    have e : ∀ q : KeyTerm × List F, List.map (fun _ => ()) ((List.range (c.batchSize / c.ndevices)).filterMap
        (fun i => (q.2[i % q.2.length]?).map (h.render q.1 (c.batchSize / c.ndevices) i))) =
        (fun fs : List F => (List.range (c.batchSize / c.ndevices)).filterMap (fun i => (fs[i % fs.length]?).map (fun _ => ()))) q.2 := by
      intro q
      rw [List.map_filterMap]
      refine List.filterMap_congr (fun i _ => ?_)
      rw [Option.map_map]
    rw [List.flatMap_congr (fun q _ => e q)]
    generalize (fun fs : List F => (List.range (c.batchSize / c.ndevices)).filterMap (fun i => (fs[i % fs.length]?).map (fun _ => ()))) = f
    have hl : (Sampler.shards c.ndevices l).length ≤ ((List.range c.ndevices).map (fun j => k.sub c.ndevices j)).length := by
      unfold Sampler.shards
      simp
    conv_rhs => rw [← List.map_snd_zip hl, List.flatMap_map]
  rw [key, key, hb, hd]

/-- Without its images, a sampler shows the same with other images and another seed. -/
theorem run_apart {S F O I I' : Type} {cfg cfg' : Sampler.Cfg} {g : Sampler.Gen F O I} {g' : Sampler.Gen F O I'} (hb : cfg'.batchSize = cfg.batchSize)
    (hd : cfg'.ndevices = cfg.ndevices) (hp : cfg'.bpfb = cfg.bpfb) (hf : cfg'.ffpb = cfg.ffpb) (ha : g'.adapt = g.adapt)
    (sch : Sampler.ISched S (Sampler.FlowBatch F)) (s : S) (ops : List Sampler.Op) :
    (Sampler.run sch g' cfg' ops (Sampler.init cfg' s)).map (fun q => q.1.map apartFromImages) =
      (Sampler.run sch g cfg ops (Sampler.init cfg s)).map (fun q => q.1.map apartFromImages) := by
  let e : Sampler.Gen F O Unit := ⟨g.adapt, fun _ _ _ _ => ()⟩
  have h1 : Sim cfg cfg (fun _ => ()) g e (fun _ _ => True) (fun _ => True) :=
    ⟨rfl, fun _ _ => Iff.rfl, rfl, rfl, trivial, fun _ _ => rfl, fun _ _ _ => trivial, fun k k' l _ _ => by
      have := images_unit g e cfg cfg rfl rfl k.split2.2 k'.split2.2 l
      rwa [show (Sampler.images e cfg k'.split2.2 l).map (fun _ => ()) = Sampler.images e cfg k'.split2.2 l from List.map_id _] at this⟩
  have h2 : Sim cfg' cfg (fun _ => ()) g' e (fun _ _ => True) (fun _ => True) :=
    ⟨hb.symm, fun _ _ => by rw [hd], hp.symm, hf.symm, trivial, fun _ _ => by unfold Sampler.adaptAll; rw [hd, hb, ha], fun _ _ _ => trivial, fun k k' l _ _ => by
      have := images_unit g' e cfg' cfg hb.symm hd.symm k.split2.2 k'.split2.2 l
      rwa [show (Sampler.images e cfg k'.split2.2 l).map (fun _ => ()) = Sampler.images e cfg k'.split2.2 l from List.map_id _] at this⟩
  exact (run_sim h2 (fun _ _ _ _ => trivial) ops (init_rel h2 s)).symm.trans (run_sim h1 (fun _ _ _ _ => trivial) ops (init_rel h1 s))

/-- **C140.** For all arguments, with any rounding: if the sampler is accepted with them, and with other values for brightness and shape of particles, noise, mask, histogram and
seed, then both samplers show the same on the same scheduler over every history of calls, whatever the random draws are: the same number of images, flow fields, masks, file names, flags
and failures. -/
theorem C140_looks (fl fl32 : ℚ → ℚ) (R R' : Generate.Rand ℚ) (a : Synthetic.Args) (st : Style) {m m' : Synthetic.Made} (hm : Synthetic.make fl fl32 a = .ok m)
    (hm' : Synthetic.make fl fl32 (restyle st a) = .ok m') (S : Type) (sch : Sampler.ISched S (Sampler.FlowBatch (Adapter.Field2 ℚ))) (s : S) (ops : List Sampler.Op) :
    (Sampler.run sch (Synthetic.gen fl fl32 R' (restyle st a) m') m'.cfg ops (Sampler.init m'.cfg s)).map (fun q => q.1.map apartFromImages) =
      (Sampler.run sch (Synthetic.gen fl fl32 R a m) m.cfg ops (Sampler.init m.cfg s)).map (fun q => q.1.map apartFromImages) := by
  obtain ⟨_, _, _, hc, _, _, hp, hg, ho⟩ := Synthetic.make_ok hm
  obtain ⟨_, _, _, hc', _, _, hp', hg', ho'⟩ := Synthetic.make_ok hm'
  have eg : m'.geo = m.geo := by
    have : Geometry.build fl fl32 a.geometry = .ok m'.geo := hg'
    rw [hg] at this
    exact (Except.ok.inj this).symm
  have ep : m'.pixels = m.pixels := by
    have : a.pixels = some m'.pixels := hp'
    rw [hp] at this
    exact (Option.some.inj this).symm
  have eo : m'.outShape = m.outShape := by rw [ho, ho']; rfl
  have hc'' : Sampler.Cfg.make a.spec.batchSize a.ndevices a.isEpisodic a.bpfb a.ffpb st.seed = .ok m'.cfg := hc'
  have ec : m'.cfg.batchSize = m.cfg.batchSize ∧ m'.cfg.ndevices = m.cfg.ndevices ∧ m'.cfg.bpfb = m.cfg.bpfb ∧ m'.cfg.ffpb = m.cfg.ffpb := by
    unfold Sampler.Cfg.make at hc hc''
    repeat (split at hc; · simp at hc)
    repeat (split at hc''; · simp at hc'')
    rw [← Except.ok.inj hc, ← Except.ok.inj hc'']
    exact ⟨rfl, rfl, rfl, rfl⟩
  refine run_apart ec.1 ec.2.1 ec.2.2.1 ec.2.2.2 ?_ sch s ops
  show Adapter.processSingle fl (Adapter.ofGeo a.geometry m'.geo m'.outShape (m'.cfg.batchSize / m'.cfg.ndevices) m'.pixels) =
    Adapter.processSingle fl (Adapter.ofGeo a.geometry m.geo m.outShape (m.cfg.batchSize / m.cfg.ndevices) m.pixels)
  rw [eg, ep, eo, ec.1, ec.2.1]

/-! ## Concrete cases -/

/-- The demonstration sampler without its mask, and a mask for it. -/
def bare : Synthetic.Args := { Synthetic.demo with mask := none }

example : bare.mask = none ∧ bare.histogram = none ∧ Synthetic.make id id bare = .ok Synthetic.demoMade ∧
    Synthetic.make id id { bare with mask := some ((3, 4), fun j i => if j = i then 0 else 1) } = .ok Synthetic.demoMade ∧
    Synthetic.make id id { bare with mask := some ((4, 3), fun j i => if j = i then 0 else 1) } = .error .valueError := by decide +kernel

/-- Other looks for it: an image with a histogram, brighter and noisier. -/
def bright : Style :=
  { seed := 3, intensityRanges := [(200, 250), (50, 60)], intensityVar := 5, rhoRanges := [(-1 / 2, 1 / 2)], rhoVar := 1 / 10, diameterVar := 1, noiseUniform := 0, noiseMean := 3
    noiseStd := 2, mask := none, histogram := some (List.replicate 255 0 ++ [12]) }

example : Synthetic.make id id (restyle bright Synthetic.demo) = .ok { Synthetic.demoMade with cfg := { Synthetic.demoMade.cfg with seed := 3 } } := by decide +kernel

end Verif.Looks
