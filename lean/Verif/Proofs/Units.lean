import Verif.Spec.Units
import Verif.Proofs.Synthetic
/-!
# Lemmas for the change of units
-/

namespace Verif.Units
open Verif

/-! ## The sampler does not look into flow fields -/

section run
variable {S F F' O O' I : Type}

/-- The state of a sampler with its flow fields changed. -/
def st (φ : F → F') (ψ : O → O') (s : Sampler.St S F O) : Sampler.St S F' O' :=
  { sched := s.sched, rng := s.rng, cur := s.cur.map (List.map φ), outFlows := s.outFlows.map ψ, mask := s.mask, files := s.files
    generated := s.generated }

theorem shards_map {α β : Type} (d : Nat) (f : α → β) (l : List α) : Sampler.shards d (l.map f) = (Sampler.shards d l).map (List.map f) := by
  unfold Sampler.shards
  rw [List.map_map]
  refine List.map_congr_left (fun j _ => ?_)
  simp only [Function.comp, List.length_map, List.map_take, List.map_drop]

theorem tiled_map {α β : Type} (b : Nat) (f : α → β) (l : List α) : Sampler.tiled b (l.map f) = (Sampler.tiled b l).map f := by
  unfold Sampler.tiled
  rw [List.length_map, List.map_take, List.map_flatten, List.map_replicate]

/-- The functions `g'` on changed flow fields do what `g` does on the original ones. -/
structure Follows (φ : F → F') (ψ : O → O') (g : Sampler.Gen F O I) (g' : Sampler.Gen F' O' I) : Prop where
  adapt : ∀ f, g'.adapt (φ f) = (ψ (g.adapt f).1, φ (g.adapt f).2)
  render : ∀ k b i f, g'.render k b i (φ f) = g.render k b i f

variable {φ : F → F'} {ψ : O → O'} {g : Sampler.Gen F O I} {g' : Sampler.Gen F' O' I}

theorem images_follow (h : Follows φ ψ g g') (cfg : Sampler.Cfg) (k : KeyTerm) (l : List F) :
    Sampler.images g' cfg k (l.map φ) = Sampler.images g cfg k l := by
  have hd : ∀ b k (l : List F), Sampler.deviceImages g' b k (l.map φ) = Sampler.deviceImages g b k l := by
    intro b k l
    unfold Sampler.deviceImages
    refine List.filterMap_congr (fun i _ => ?_)
    rw [List.length_map, List.getElem?_map, Option.map_map]
    congr 1
    funext f
    exact h.render k b i f
  unfold Sampler.images
  rw [shards_map, List.zip_map_right, List.flatMap_map]
  simp only [hd, Prod.map, id]

theorem adaptAll_follow (h : Follows φ ψ g g') (cfg : Sampler.Cfg) (l : List F) :
    Sampler.adaptAll g' cfg (l.map φ) = ((Sampler.adaptAll g cfg l).1.map ψ, (Sampler.adaptAll g cfg l).2.map φ) := by
  unfold Sampler.adaptAll
  refine Prod.ext ?_ ?_
  · dsimp only
    rw [shards_map, List.flatMap_map, List.map_flatMap]
    congr 1
    funext fs
    rw [← tiled_map, List.map_map, List.map_map]
    congr 1
    refine List.map_congr_left (fun f _ => ?_)
    simp only [Function.comp, h.adapt]
  · dsimp only
    rw [List.map_map, List.map_map]
    refine List.map_congr_left (fun f _ => ?_)
    simp only [Function.comp, h.adapt]

theorem produce_follow (h : Follows φ ψ g g') (cfg : Sampler.Cfg) (l : List F) (s : Sampler.St S F O) :
    Sampler.produce g' cfg (l.map φ) (st φ ψ s) =
      ((Sampler.produce g cfg l s).1.map (fun b => ⟨b.images, b.flows.map ψ, b.mask, b.files, b.done⟩), st φ ψ (Sampler.produce g cfg l s).2) := by
  unfold Sampler.produce
  dsimp only
  rw [List.length_map]
  split
  · rfl
  · rw [images_follow h]; rfl

theorem getNext_follow (h : Follows φ ψ g g') (sch : Sampler.ISched S (Sampler.FlowBatch F)) (cfg : Sampler.Cfg) (s : Sampler.St S F O) :
    Sampler.getNext (sched (flowBatch φ) sch) g' cfg (st φ ψ s) =
      (Sampler.getNext sch g cfg s).map (fun q => (q.1.map (fun b => ⟨b.images, b.flows.map ψ, b.mask, b.files, b.done⟩), st φ ψ q.2)) := by
  have hf : Sampler.getNext.fetch (sched (flowBatch φ) sch) g' cfg (st φ ψ s) =
      (Sampler.getNext.fetch sch g cfg s).map (fun q => (q.1.map (fun b => ⟨b.images, b.flows.map ψ, b.mask, b.files, b.done⟩), st φ ψ q.2)) := by
    unfold Sampler.getNext.fetch
    have e0 : (sched (flowBatch φ) sch).getBatch cfg.ffpb (st φ ψ s).sched =
        (sch.getBatch cfg.ffpb s.sched).map (fun q => (q.1.map (flowBatch φ), q.2)) := rfl
    rw [e0]
    rcases sch.getBatch cfg.ffpb s.sched with _ | ⟨_ | b, sc⟩
    · rfl
    · rfl
    · show (if (b.flows.map φ).length % cfg.ndevices ≠ 0 then _ else _) = _
      rw [List.length_map]
      dsimp only
      split
      · rfl
      · show some (Sampler.produce g' cfg (Sampler.adaptAll g' cfg (b.flows.map φ)).2
          { sched := sc, rng := s.rng, cur := some (Sampler.adaptAll g' cfg (b.flows.map φ)).2,
            outFlows := (Sampler.adaptAll g' cfg (b.flows.map φ)).1, mask := b.mask, files := b.files, generated := 0 }) = _
        rw [adaptAll_follow h]
        exact congrArg some (produce_follow h cfg (Sampler.adaptAll g cfg b.flows).2
          { sched := sc, rng := s.rng, cur := some (Sampler.adaptAll g cfg b.flows).2, outFlows := (Sampler.adaptAll g cfg b.flows).1,
            mask := b.mask, files := b.files, generated := 0 })
  unfold Sampler.getNext
  show (match s.cur.map (List.map φ) with
    | some flows => if s.generated < cfg.bpfb then some (Sampler.produce g' cfg flows (st φ ψ s)) else _
    | none => _) = _
  cases hc : s.cur with
  | none => exact hf
  | some l =>
    dsimp only [Option.map_some]
    split
    · rw [produce_follow h]; rfl
    · exact hf

theorem next_follow (h : Follows φ ψ g g') (sch : Sampler.ISched S (Sampler.FlowBatch F)) (cfg : Sampler.Cfg) (s : Sampler.St S F O) :
    Sampler.next (sched (flowBatch φ) sch) g' cfg (st φ ψ s) =
      (Sampler.next sch g cfg s).map (fun q => (q.1.map (fun b => ⟨b.images, b.flows.map ψ, b.mask, b.files, b.done⟩), st φ ψ q.2)) := by
  unfold Sampler.next
  rw [getNext_follow h]
  show (if Sampler.episodeOver sch s.sched = true then _ else _) = _
  split
  · rfl
  · rcases Sampler.getNext sch g cfg s with _ | ⟨_ | b, s'⟩ <;> rfl

theorem step_follow (h : Follows φ ψ g g') (sch : Sampler.ISched S (Sampler.FlowBatch F)) (cfg : Sampler.Cfg) (s : Sampler.St S F O) (op : Sampler.Op) :
    Sampler.step (sched (flowBatch φ) sch) g' cfg (st φ ψ s) op = (Sampler.step sch g cfg s op).map (fun q => (out ψ q.1, st φ ψ q.2)) := by
  cases op with
  | next =>
    show (Sampler.next _ _ _ _).map _ = ((Sampler.next sch g cfg s).map _).map _
    rw [next_follow h]
    rcases Sampler.next sch g cfg s with _ | ⟨_ | b, s'⟩ <;> rfl
  | reset b =>
    unfold Sampler.step Sampler.reset
    dsimp only
    cases b with
    | false => rfl
    | true =>
      show some (_, _) = _
      simp only [if_true]
      show some (Sampler.unitOut (match sch.reset s.sched with | .ok sc => _ | .error e => _ : Except Exc Unit × _).1, (match sch.reset s.sched with | .ok sc => _ | .error e => _ : Except Exc Unit × _).2) = _
      have e1 : (Sampler.resetSelf cfg s).sched = s.sched := rfl
      rw [e1]
      cases sch.reset s.sched <;> rfl
  | nextEpisode =>
    unfold Sampler.step Sampler.nextEpisode
    show some (Sampler.unitOut (match sch.episodic with | none => _ | some e => _ : Except Exc Unit × _).1, (match sch.episodic with | none => _ | some e => _ : Except Exc Unit × _).2) = _
    cases sch.episodic with
    | none => rfl
    | some e =>
      show some (Sampler.unitOut (match e.2 s.sched with | .ok sc => _ | .error x => _ : Except Exc Unit × _).1, (match e.2 s.sched with | .ok sc => _ | .error x => _ : Except Exc Unit × _).2) = _
      dsimp only
      cases e.2 s.sched <;> rfl

theorem run_follow (h : Follows φ ψ g g') (sch : Sampler.ISched S (Sampler.FlowBatch F)) (cfg : Sampler.Cfg) (ops : List Sampler.Op)
    (s : Sampler.St S F O) :
    Sampler.run (sched (flowBatch φ) sch) g' cfg ops (st φ ψ s) =
      (Sampler.run sch g cfg ops s).map (fun q => (q.1.map (out ψ), st φ ψ q.2)) := by
  induction ops generalizing s with
  | nil => rfl
  | cons op ops ih =>
    rw [Sampler.run, Sampler.run, step_follow h]
    rcases Sampler.step sch g cfg s op with _ | ⟨o, s'⟩
    · rfl
    · dsimp only [Option.map_some]
      rw [ih]
      rcases Sampler.run sch g cfg ops s' with _ | ⟨os, s''⟩ <;> rfl

end run

/-! ## The geometry -/

/-- Geometry arguments in other units. -/
def gargs (c τ : ℚ) (a : Geometry.Args) : Geometry.Args :=
  { a with
    imgOffset := (c * a.imgOffset.1, c * a.imgOffset.2), dt := τ * a.dt, flowFieldSize := (c * a.flowFieldSize.1, c * a.flowFieldSize.2)
    resolution := a.resolution / c, maxSpeedX := c / τ * a.maxSpeedX, maxSpeedY := c / τ * a.maxSpeedY, minSpeedX := c / τ * a.minSpeedX
    minSpeedY := c / τ * a.minSpeedY }

/-- The stored geometry in other units. -/
def geo (c : ℚ) (g : Geometry.Geo) : Geometry.Geo :=
  { g with boundsOffset := (c * g.boundsOffset.1, c * g.boundsOffset.2), res := (g.res.1 / c, g.res.2 / c) }

section geometry
variable {fl fl32 : ℚ → ℚ} {c τ : ℚ}

theorem fl_div (hc : 0 < c) (h : ∀ q, fl (c * q) = c * fl q) (q : ℚ) : fl (q / c) = fl q / c := by
  have := h (q / c)
  rw [mul_div_cancel₀ _ hc.ne'] at this
  rw [this]
  field_simp

theorem way (hτ : 0 < τ) (s dt : ℚ) : c / τ * s * (τ * dt) = c * (s * dt) := by
  field_simp

theorem offset0_units (hτ : 0 < τ) (h : ∀ q, fl (c * q) = c * fl q) (o s dt : ℚ) :
    Geometry.offset0 fl (c * o) (c / τ * s) (τ * dt) = c * Geometry.offset0 fl o s dt := by
  unfold Geometry.offset0
  rw [way hτ, h, ← mul_sub, h]

theorem bounds0_units (hc : 0 < c) (hτ : 0 < τ) (h : ∀ q, fl (c * q) = c * fl q) (n : Nat) (r s t dt : ℚ) :
    Geometry.bounds0 fl n (r / c) (c / τ * s) (c / τ * t) (τ * dt) = c * Geometry.bounds0 fl n r s t dt := by
  unfold Geometry.bounds0
  rw [way hτ, way hτ, h, h, show (n : ℚ) / (r / c) = c * (n / r) by rw [div_div_eq_mul_div]; ring, h, ← mul_add, h, ← mul_sub, h]

theorem particleSize_units (h : ∀ q, fl (c * q) = c * fl q) (d r : ℚ) :
    Geometry.particleSize fl d (r / c) = c * Geometry.particleSize fl d r := by
  unfold Geometry.particleSize
  rw [show ((2 * Geometry.patchRadius fl d + 1 : Int) : ℚ) / (r / c) = c * (((2 * Geometry.patchRadius fl d + 1 : Int) : ℚ) / r) by
    rw [div_div_eq_mul_div]; ring, h]

theorem extended_units (hc : 0 < c) (hτ : 0 < τ) (h : ∀ q, fl (c * q) = c * fl q) (a : Geometry.Args) (x y : ℚ) :
    Geometry.extended fl (gargs c τ a) (c / τ * x) (c / τ * y) = Geometry.extended fl a x y := by
  unfold Geometry.extended
  simp only [gargs, way hτ, h, particleSize_units h, mul_lt_mul_iff_right₀ hc]

theorem max_mul (hc : 0 < c) (x : ℚ) : max 0 (c * x) = c * max 0 x := by
  rw [mul_max_of_nonneg _ _ hc.le, mul_zero]

theorem min_mul (hc : 0 < c) (x : ℚ) : min 0 (c * x) = c * min 0 x := by
  rw [mul_min_of_nonneg _ _ hc.le, mul_zero]

theorem extra_units (hc : 0 < c) (hτ : 0 < τ) (h : ∀ q, fl (c * q) = c * fl q) (a : Geometry.Args) (x y s : ℚ) :
    Geometry.extra fl (gargs c τ a) (c / τ * x) (c / τ * y) (c / τ * s) = c * Geometry.extra fl a x y s := by
  unfold Geometry.extra
  rw [extended_units hc hτ h]
  split
  · simp only [gargs, way hτ, h, particleSize_units h, ← mul_sub, max_mul hc]
  · rw [mul_zero]

theorem offset1_units (hc : 0 < c) (hτ : 0 < τ) (h : ∀ q, fl (c * q) = c * fl q) (a : Geometry.Args) (x y s o : ℚ) :
    Geometry.offset1 fl (gargs c τ a) (c / τ * x) (c / τ * y) (c / τ * s) (c * o) = c * Geometry.offset1 fl a x y s o := by
  unfold Geometry.offset1
  rw [extended_units hc hτ h, extra_units hc hτ h]
  simp only [gargs, offset0_units hτ h]
  split
  · rw [← mul_sub, h]
  · rfl

theorem bounds1_units (hc : 0 < c) (hτ : 0 < τ) (h : ∀ q, fl (c * q) = c * fl q) (a : Geometry.Args) (x y s t : ℚ) (n : Nat) :
    Geometry.bounds1 fl (gargs c τ a) (c / τ * x) (c / τ * y) (c / τ * s) (c / τ * t) n = c * Geometry.bounds1 fl a x y s t n := by
  unfold Geometry.bounds1
  rw [extended_units hc hτ h, extra_units hc hτ h]
  simp only [gargs, bounds0_units hc hτ h]
  split
  · rw [← mul_add, h]
  · rfl

theorem same_length (hc : 0 < c) (x r : ℚ) : c * x * (r / c) = x * r := by field_simp

theorem store_units (hc : 0 < c) (hτ : 0 < τ) (h : ∀ q, fl (c * q) = c * fl q) (a : Geometry.Args) (x y s t : ℚ) :
    Geometry.store fl fl32 (gargs c τ a) (c / τ * x) (c / τ * y) (c / τ * s) (c / τ * t) = geo c (Geometry.store fl fl32 a x y s t) := by
  have hr : ∀ (n : Nat) (q : ℚ), fl ((n : ℚ) / (c * q)) = fl (n / q) / c := by
    intro n q
    rw [← fl_div hc h]
    congr 1
    rw [div_div, mul_comm]
  unfold Geometry.store
  simp only [show (gargs c τ a).imgOffset = (c * a.imgOffset.1, c * a.imgOffset.2) from rfl,
    show (gargs c τ a).resolution = a.resolution / c from rfl,
    show (gargs c τ a).flowFieldSize = (c * a.flowFieldSize.1, c * a.flowFieldSize.2) from rfl,
    show (gargs c τ a).flowShape = a.flowShape from rfl, show (gargs c τ a).imageShape = a.imageShape from rfl,
    offset1_units hc hτ h, bounds1_units hc hτ h, ← mul_sub, h, same_length hc, hr, ← mul_neg, max_mul hc, geo]

theorem neg_units (hc : 0 < c) (x : ℚ) : c * x < 0 ↔ x < 0 := by
  constructor
  · intro h; by_contra h'; exact absurd (mul_nonneg hc.le (not_lt.1 h')) (not_le.2 h)
  · intro h; exact mul_neg_of_pos_of_neg hc h

theorem build_units (hc : 0 < c) (hτ : 0 < τ) (h : ∀ q, fl (c * q) = c * fl q) (a : Geometry.Args) :
    Geometry.build fl fl32 (gargs c τ a) = (Geometry.build fl fl32 a).map (geo c) := by
  have hs : 0 < c / τ := div_pos hc hτ
  unfold Geometry.build
  simp only [show (gargs c τ a).imgOffset = (c * a.imgOffset.1, c * a.imgOffset.2) from rfl,
    show (gargs c τ a).resolution = a.resolution / c from rfl, show (gargs c τ a).dt = τ * a.dt from rfl,
    show (gargs c τ a).flowFieldSize = (c * a.flowFieldSize.1, c * a.flowFieldSize.2) from rfl,
    show (gargs c τ a).maxSpeedX = c / τ * a.maxSpeedX from rfl, show (gargs c τ a).maxSpeedY = c / τ * a.maxSpeedY from rfl,
    show (gargs c τ a).minSpeedX = c / τ * a.minSpeedX from rfl, show (gargs c τ a).minSpeedY = c / τ * a.minSpeedY from rfl,
    show (gargs c τ a).flowShape = a.flowShape from rfl, show (gargs c τ a).imageShape = a.imageShape from rfl,
    max_mul hs, min_mul hs, offset0_units hτ h, bounds0_units hc hτ h, store_units hc hτ h, ← mul_add, h, mul_lt_mul_iff_right₀ hs,
    mul_lt_mul_iff_right₀ hc, mul_pos_iff_of_pos_left hc, div_le_iff₀ hc, zero_mul, neg_units hc]
  split_ifs <;> rfl

end geometry

/-! ## The constructor -/

/-- What the constructor stores, in other units. -/
def made (c : ℚ) (m : Synthetic.Made) : Synthetic.Made := { m with geo := geo c m.geo }

section gen
variable {fl fl32 : ℚ → ℚ} {c τ : ℚ}

theorem geometry_units (a : Synthetic.Args) : (args c τ a).geometry = gargs c τ a.geometry := rfl

theorem specOK_units (hc : 0 < c) (hτ : 0 < τ) (a : Synthetic.Args) :
    Synthetic.specOK (args c τ a).spec (args c τ a).imgOffset = Synthetic.specOK a.spec a.imgOffset := by
  unfold Synthetic.specOK args
  simp only [mul_nonneg_iff_of_pos_left hc, mul_pos_iff_of_pos_left hτ]

theorem make_units (hc : 0 < c) (hτ : 0 < τ) (h : ∀ q, fl (c * q) = c * fl q) (a : Synthetic.Args) :
    Synthetic.make fl fl32 (args c τ a) = (Synthetic.make fl fl32 a).map (made c) := by
  unfold Synthetic.make
  rw [specOK_units hc hτ, geometry_units, build_units hc hτ h, show Synthetic.maskOK (args c τ a) = Synthetic.maskOK a from rfl,
    show Synthetic.histogramOK (args c τ a) = Synthetic.histogramOK a from rfl]
  split
  · rfl
  split
  · rfl
  split
  · rfl
  show (match Sampler.Cfg.make a.spec.batchSize a.ndevices a.isEpisodic a.bpfb a.ffpb a.seed with | .error e => _ | .ok cfg => _ : Except Exc Synthetic.Made) = _
  cases Sampler.Cfg.make a.spec.batchSize a.ndevices a.isEpisodic a.bpfb a.ffpb a.seed with
  | error e => rfl
  | ok cfg =>
    dsimp only
    show (if a.channels ≠ 2 ∧ a.channels ≠ 3 then _ else _) = _
    split
    · rfl
    show (if a.velocitiesPerPixel ≤ 0 then _ else _) = _
    split
    · rfl
    show (match a.pixels with | none => _ | some px => _ : Except Exc Synthetic.Made) = _
    cases a.pixels with
    | none => rfl
    | some px =>
      dsimp only
      cases Geometry.build fl fl32 a.geometry <;> rfl

/-! ## Adapting and moving -/

theorem bilinear_scale (s : ℚ) (f : Nat → Nat → ℚ) (H W : Nat) (x y : ℚ) :
    Interp.bilinear (fun j i => s * f j i) H W x y = s * Interp.bilinear f H W x y := by
  unfold Interp.bilinear
  ring

theorem sample_units (s : ℚ) (f : Adapter.Field2 ℚ) (h w : Nat) (ys xs : Nat → ℚ) :
    Adapter.sample (field s f) h w ys xs = field s (Adapter.sample f h w ys xs) := by
  unfold Adapter.sample field
  simp only [bilinear_scale]

theorem pad_units (s : ℚ) (p : Nat × Nat) (f : Adapter.Field2 ℚ) : Adapter.padEdge p (field s f) = field s (Adapter.padEdge p f) := rfl

theorem processSingle_units (hc : 0 < c) (hτ : 0 < τ) (h : ∀ q, fl (c * q) = c * fl q) (a : Geometry.Args) (g : Geometry.Geo) (new : Nat × Nat) (n : Nat)
    (px : Bool) (f : Adapter.Field2 ℚ) :
    Adapter.processSingle fl (Adapter.ofGeo (gargs c τ a) (geo c g) new n px) (field (c / τ) f) =
      ((if px then (Adapter.processSingle fl (Adapter.ofGeo a g new n px) f).1
        else field (c / τ) (Adapter.processSingle fl (Adapter.ofGeo a g new n px) f).1),
       field (c / τ) (Adapter.processSingle fl (Adapter.ofGeo a g new n px) f).2) := by
  have e1 : ∀ (x : ℚ), x / (a.resolution / c) = c * (x / a.resolution) := by
    intro x; rw [div_div_eq_mul_div]; ring
  have e2 : ∀ (k : Nat), Adapter.count fl k (a.resolution / c) (g.res.1 / c) = Adapter.count fl k a.resolution g.res.1 := by
    intro k; unfold Adapter.count; rw [e1, h, same_length hc]
  have e3 : ∀ (k : Nat), Adapter.count fl k (a.resolution / c) (g.res.2 / c) = Adapter.count fl k a.resolution g.res.2 := by
    intro k; unfold Adapter.count; rw [e1, h, same_length hc]
  have r1 : ∀ f, Adapter.resized (Adapter.ofGeo (gargs c τ a) (geo c g) new n px) (field (c / τ) f) =
      field (c / τ) (Adapter.resized (Adapter.ofGeo a g new n px) f) := by
    intro f
    unfold Adapter.resized Adapter.imageStart
    simp only [Adapter.ofGeo, gargs, geo, sample_units, e1, same_length hc]
  have r2 : ∀ f, Adapter.region fl (Adapter.ofGeo (gargs c τ a) (geo c g) new n px) (field (c / τ) f) =
      field (c / τ) (Adapter.region fl (Adapter.ofGeo a g new n px) f) := by
    intro f
    unfold Adapter.region
    simp only [Adapter.ofGeo, gargs, geo, sample_units, e1, e2, e3, same_length hc]
  unfold Adapter.processSingle
  dsimp only
  rw [pad_units, show (Adapter.ofGeo (gargs c τ a) (geo c g) new n px).padding = (Adapter.ofGeo a g new n px).padding from rfl, r1, r2]
  refine Prod.ext ?_ rfl
  dsimp only
  unfold Adapter.units
  rw [show (Adapter.ofGeo (gargs c τ a) (geo c g) new n px).pixels = px from rfl, show (Adapter.ofGeo a g new n px).pixels = px from rfl,
    show (Adapter.ofGeo (gargs c τ a) (geo c g) new n px).resolution = a.resolution / c from rfl,
    show (Adapter.ofGeo (gargs c τ a) (geo c g) new n px).dt = τ * a.dt from rfl,
    show (Adapter.ofGeo a g new n px).resolution = a.resolution from rfl, show (Adapter.ofGeo a g new n px).dt = a.dt from rfl]
  cases px
  · rfl
  · simp only [if_true]
    unfold field
    dsimp only
    congr 1
    funext j i
    have e : ∀ x : ℚ, c / τ * x * (a.resolution / c * (τ * a.dt)) = x * (a.resolution * a.dt) := by
      intro x; field_simp
    simp only [e]

theorem move_units (hc : 0 < c) (hτ : 0 < τ) (b : Nat × Nat) (f : Adapter.Field2 ℚ) (dt rx ry y x : ℚ) :
    Adapter.move b (field (c / τ) f) (τ * dt) (rx / c) (ry / c) y x = Adapter.move b f dt rx ry y x := by
  have e : ∀ v r : ℚ, c / τ * v * (r / c) * (τ * dt) = v * r * dt := by
    intro v r; field_simp
  unfold Adapter.move Apply.step2
  simp only [field, if_true, one_ne_zero, if_false, bilinear_scale, e]

theorem render_units (hc : 0 < c) (hτ : 0 < τ) (R : Generate.Rand ℚ) (a : Synthetic.Args) (m : Synthetic.Made) (k : KeyTerm) (n i : Nat)
    (f : Adapter.Field2 ℚ) :
    Synthetic.render fl fl32 R (args c τ a) (made c m) k n i (field (c / τ) f) = Synthetic.render fl fl32 R a m k n i f := by
  have e2 : ∀ (b : Nat × Nat) (j : Nat),
      Generate.particle2 fl32 R { Synthetic.params (args c τ a) (made c m) with batchSize := n } b (field (c / τ) f) (m.geo.res.2 / c) (m.geo.res.1 / c) k i j =
        Generate.particle2 fl32 R { Synthetic.params a m with batchSize := n } b f m.geo.res.2 m.geo.res.1 k i j := by
    intro b j
    unfold Generate.particle2
    dsimp only
    rw [show (Synthetic.params (args c τ a) (made c m)).dt = τ * (Synthetic.params a m).dt from rfl, move_units hc hτ]
    rfl
  unfold Synthetic.render Generate.pair
  simp only [List.length_cons, List.length_nil, Nat.zero_add, Nat.mod_one, List.getD_cons_zero]
  have e3 : (fun j => Generate.particle2 fl32 R { Synthetic.params (args c τ a) (made c m) with batchSize := n }
      ((made c m).geo.bounds.1.toNat, (made c m).geo.bounds.2.toNat) (field (c / τ) f) ((made c m).geo.res.2) ((made c m).geo.res.1) k i j) = _ :=
    funext (e2 (m.geo.bounds.1.toNat, m.geo.bounds.2.toNat))
  rw [show Generate.particle2 fl32 R { Synthetic.params (args c τ a) (made c m) with batchSize := n }
      ((made c m).geo.bounds.1.toNat, (made c m).geo.bounds.2.toNat) (field (c / τ) f) ((made c m).geo.res.2) ((made c m).geo.res.1) k i = _ from e3]
  rfl

/-- The reported flow is in pixels, or in the new units. -/
def reported (px : Bool) (s : ℚ) (f : Adapter.Field2 ℚ) : Adapter.Field2 ℚ := if px then f else field s f

theorem gen_units (hc : 0 < c) (hτ : 0 < τ) (h : ∀ q, fl (c * q) = c * fl q) (R : Generate.Rand ℚ) (a : Synthetic.Args) (m : Synthetic.Made) :
    Follows (field (c / τ)) (reported m.pixels (c / τ)) (Synthetic.gen fl fl32 R a m) (Synthetic.gen fl fl32 R (args c τ a) (made c m)) where
  adapt f := processSingle_units hc hτ h a.geometry m.geo m.outShape _ m.pixels f
  render k b i f := render_units hc hτ R a m k b i f

end gen

end Verif.Units
