import Verif.Spec.Axes
import Verif.Props.Render
import Verif.Proofs.Apply
import Verif.Model.Generate
/-!
# C168: rows and columns are treated alike
-/

set_option linter.unusedSectionVars false

namespace Verif.Axes
open Verif Interp Apply Adapter

variable {K : Type*} [Field K] [LinearOrder K] [IsStrictOrderedRing K] [FloorRing K]

/-- **C168** for interpolation. -/
theorem C168_interpolation (image : Nat → Nat → K) (H W : Nat) (x y : K) : bilinear (flip image) W H y x = bilinear image H W x y := by
  unfold bilinear flip
  dsimp only
  ring

theorem oneCheck {c d : Prop} [Decidable c] [Decidable d] {e : Exc} {y z : Except Exc Geometry.Geo} (h : c ↔ d) (k : ¬ d → y = z.map flipGeo) :
    (if c then .error e else y) = (if d then .error e else z).map flipGeo := by
  by_cases hd : d
  · rw [if_pos (h.2 hd), if_pos hd]; rfl
  · rw [if_neg (fun t => hd (h.1 t)), if_neg hd]; exact k hd

theorem twoChecks {c d : Prop} [Decidable c] [Decidable d] {e : Exc} {y z : Except Exc Geometry.Geo} (k : y = z.map flipGeo) :
    (if c then .error e else if d then .error e else y) = (if d then .error e else if c then .error e else z).map flipGeo := by
  by_cases hc : c <;> by_cases hd : d
  · rw [if_pos hc, if_pos hd]; rfl
  · rw [if_pos hc, if_neg hd, if_pos hc]; rfl
  · rw [if_neg hc, if_pos hd, if_pos hd]; rfl
  · rw [if_neg hc, if_neg hd, if_neg hd, if_neg hc]; exact k

/-- **C168** for the constructor: the same configurations are accepted, and the geometry is the same with the axes exchanged, for any rounding. -/
theorem C168_geometry (fl fl32 : ℚ → ℚ) (a : Geometry.Args) :
    Geometry.build fl fl32 (flipArgs a) = (Geometry.build fl fl32 a).map flipGeo := by
  have he : ∀ mx my : ℚ, Geometry.extended fl (flipArgs a) my mx = Geometry.extended fl a mx my := by
    intro mx my
    unfold Geometry.extended flipArgs
    dsimp only
    rw [Bool.or_comm]
  have hx : ∀ mx my s : ℚ, Geometry.extra fl (flipArgs a) my mx s = Geometry.extra fl a mx my s := by
    intro mx my s; unfold Geometry.extra; rw [he]; rfl
  have ho : ∀ mx my s o : ℚ, Geometry.offset1 fl (flipArgs a) my mx s o = Geometry.offset1 fl a mx my s o := by
    intro mx my s o; unfold Geometry.offset1; rw [he, hx]; rfl
  have hb : ∀ (mx my s m : ℚ) (n : Nat), Geometry.bounds1 fl (flipArgs a) my mx s m n = Geometry.bounds1 fl a mx my s m n := by
    intro mx my s m n; unfold Geometry.bounds1; rw [he, hx]; rfl
  have hs : ∀ mx my nx ny : ℚ, Geometry.store fl fl32 (flipArgs a) my mx ny nx = flipGeo (Geometry.store fl fl32 a mx my nx ny) := by
    intro mx my nx ny
    unfold Geometry.store flipGeo
    simp only [ho, hb]
    rfl
  unfold Geometry.build
  refine oneCheck (not_congr and_comm) (fun _ => oneCheck (not_congr and_comm) (fun _ => oneCheck Iff.rfl (fun _ => twoChecks ?_)))
  exact oneCheck or_comm (fun _ => oneCheck or_comm (fun _ => congrArg Except.ok (hs _ _ _ _)))

/-- **C168** for the flow fields: what is reported and what moves the particles. -/
theorem C168_adapter (fl : K → K) (a : Adapter.Args K) (flows : List (Field2 K)) :
    adapter fl (flipAdapter a) (flows.map flipField) = (adapter fl a flows).map (fun r => (r.1.map flipField, r.2.map flipField)) := by
  have hsample : ∀ (f : Field2 K) (h w : Nat) (ys xs : Nat → K), sample (flipField f) w h xs ys = flipField (sample f h w ys xs) := by
    intro f h w ys xs
    unfold sample flipField
    simp only [Field2.mk.injEq, true_and]
    funext j i
    unfold flipFlow
    simp only [Prod.swap, Prod.mk.injEq]
    exact ⟨C168_interpolation (fun j i => (f.at_ j i).2) f.H f.W _ _, C168_interpolation (fun j i => (f.at_ j i).1) f.H f.W _ _⟩
  have hp : ∀ f : Field2 K, processSingle fl (flipAdapter a) (flipField f) = (flipField (processSingle fl a f).1, flipField (processSingle fl a f).2) := by
    intro f
    have hpad : padEdge (flipAdapter a).padding (flipField f) = flipField (padEdge a.padding f) := rfl
    have hu : ∀ f : Field2 K, units (flipAdapter a) (flipField f) = flipField (units a f) := by
      intro f
      unfold units
      have : (flipAdapter a).pixels = a.pixels := rfl
      rw [this]
      split <;> rfl
    unfold processSingle
    simp only [hpad]
    have hr : ∀ f : Field2 K, resized (flipAdapter a) (flipField f) = flipField (resized a f) := fun f => hsample f _ _ _ _
    have hg : ∀ f : Field2 K, region fl (flipAdapter a) (flipField f) = flipField (region fl a f) := fun f => hsample f _ _ _ _
    rw [hr, hu, hg]
  unfold adapter
  simp only [List.length_map]
  split
  · rfl
  simp only [Except.map, Except.ok.injEq, Prod.mk.injEq, List.map_map]
  constructor
  · rw [List.map_take, List.map_flatten, List.map_replicate, List.map_map]
    have : (Prod.fst ∘ processSingle fl (flipAdapter a) ∘ flipField) = (flipField ∘ Prod.fst ∘ processSingle fl a) := by
      funext f; simp only [Function.comp, hp]
    rw [this]
    rfl
  · refine List.map_congr_left (fun f _ => ?_)
    simp only [Function.comp, hp]

/-- **C168** for the motion of a particle. -/
theorem C168_motion (bounds : Nat × Nat) (flow : Field2 K) (dt resX resY y x : K) :
    move bounds.swap (flipField flow) dt resY resX x y = (move bounds flow dt resX resY y x).swap := by
  unfold move Apply.step2
  dsimp only [flipField, Prod.swap]
  rw [Prod.mk.injEq]
  have h1 := C168_interpolation (fun j i => (flow.at_ j i).1) flow.H flow.W (x * (flow.W / bounds.2)) (y * (flow.H / bounds.1))
  have h2 := C168_interpolation (fun j i => (flow.at_ j i).2) flow.H flow.W (x * (flow.W / bounds.2)) (y * (flow.H / bounds.1))
  unfold flip at h1 h2
  unfold flipFlow
  simp only [Prod.fst_swap, Prod.snd_swap, if_true, one_ne_zero, if_false]
  rw [h1, h2]
  exact ⟨rfl, rfl⟩

theorem sum_sum_comm {A B : Type*} (f : A → B → K) (l : List A) (m : List B) :
    (l.map (fun a => (m.map (f a)).sum)).sum = (m.map (fun b => (l.map (fun a => f a b)).sum)).sum := by
  induction l with
  | nil => simp
  | cons a l ih =>
    simp only [List.map_cons, List.sum_cons, ih]
    rw [← List.sum_map_add]

theorem sum_flatMap {A : Type*} (f : A → List K) (l : List A) : (l.flatMap f).sum = (l.map (fun a => (f a).sum)).sum := by
  induction l with
  | nil => rfl
  | cons a l ih => rw [List.flatMap_cons, List.sum_append, ih, List.map_cons, List.sum_cons]

theorem ite_flip {c d : Prop} [Decidable c] [Decidable d] {x y z : K} (h : c ↔ d) (k : x = y) : (if c then x else z) = if d then y else z := by
  rw [k]; exact if_congr h rfl rfl

theorem share_flip (exp fl : K → K) (r H W : Nat) (p : Render.Particle K) (j i : Nat) :
    Render.share exp fl r W H i j (flipParticle p) = Render.share exp fl r H W j i p := by
  unfold Render.share Render.patch
  simp only [List.map_flatMap, sum_flatMap, List.map_map]
  rw [sum_sum_comm]
  congr 1
  refine List.map_congr_left (fun a _ => ?_)
  congr 1
  refine List.map_congr_left (fun b _ => ?_)
  have hg : ∀ X Y : K, Render.gaussian exp Y X 0 0 (p.dy / 2) (p.dx / 2) p.rho p.amp = Render.gaussian exp X Y 0 0 (p.dx / 2) (p.dy / 2) p.rho p.amp := by
    intro X Y
    unfold Render.gaussian
    dsimp only
    congr 3
    ring
  exact ite_flip and_comm (hg _ _)

/-- **C168** for the images of given particles. -/
theorem C168_image (exp fl : K → K) (H W : Nat) (maxDiameter : K) (ps : List (Render.Particle K)) (clip : Bool) :
    Render.imgGen exp fl W H maxDiameter (ps.map flipParticle) clip = flip (Render.imgGen exp fl H W maxDiameter ps clip) := by
  have h : ∀ r, Render.render exp fl r W H (ps.map flipParticle) = flip (Render.render exp fl r H W ps) := by
    intro r
    funext i j
    unfold flip
    rw [Render.render_eq, Render.render_eq, List.map_map]
    congr 1
    exact List.map_congr_left (fun p _ => share_flip exp fl r H W p j i)
  unfold Render.imgGen
  dsimp only
  rw [h]
  split <;> rfl

/-- **C168** for warping images backwards. -/
theorem C168_backward (H W : Nat) (image : Nat → Nat → K) (flow : Nat → Nat → K × K) (dt : K) :
    backward W H (flip image) (flipFlow flow) dt = flip (backward H W image flow dt) := by
  funext i j
  exact C168_interpolation image H W _ _

/-- **C168** for warping images forwards, at every pixel of the image. -/
theorem C168_forward (H W : Nat) (image : Nat → Nat → K) (flow : Nat → Nat → K × K) (dt : K) (j i : Nat) (hj : j < H) (hi : i < W) :
    forward W H (flip image) (flipFlow flow) dt i j = forward H W image flow dt j i := by
  rw [forward_eq W H _ _ _ hi hj, forward_eq H W _ _ _ hj hi]
  unfold Apply.Spec.splat
  rw [Finset.sum_comm]
  refine Finset.sum_congr rfl (fun y _ => Finset.sum_congr rfl (fun x _ => ?_))
  unfold flip flipFlow
  simp only [Prod.fst_swap, Prod.snd_swap]
  ring

/-- A particle of the first image as it is in the second: at its new place, with the given looks. -/
def after (bounds : Nat × Nat) (flow : Field2 K) (dt resX resY : K) (p : Render.Particle K × Render.Particle K) : Render.Particle K :=
  let pos := move bounds flow dt resX resY p.1.y p.1.x
  { p.2 with y := pos.1, x := pos.2 }

/-- **C168** from the configuration to the pictures: exchange the axes in the configuration, in the flow fields and in the particles. The sampler accepts the configuration if
it accepted the old one, and then the reported flow fields, the flow fields that move the particles, and both images of every pair are those of the old one with
the axes exchanged. Exact arithmetic but for the geometry and the position of patches; before noise, mask and histogram. -/
theorem C168_pipeline (fl fl32 : ℚ → ℚ) (exp : ℚ → ℚ) (a : Geometry.Args) (g : Geometry.Geo) (h : Geometry.build fl fl32 a = .ok g) (shape : Nat × Nat) (n : Nat)
    (px : Bool) (flows reported moving : List (Field2 ℚ)) (hf : adapter fl (ofGeo a g shape n px) flows = .ok (reported, moving))
    (ps : List (Render.Particle ℚ × Render.Particle ℚ)) (flow : Field2 ℚ) :
    let b := (ofGeo a g shape n px).bounds
    let o := (ofGeo a g shape n px).imgOffset
    Geometry.build fl fl32 (flipArgs a) = .ok (flipGeo g) ∧
    adapter fl (ofGeo (flipArgs a) (flipGeo g) shape.swap n px) (flows.map flipField) = .ok (reported.map flipField, moving.map flipField) ∧
    (Generate.crop b.2 b.1 (Render.imgGen exp fl32 b.2 b.1 a.maxDiameter (ps.map (fun p => flipParticle p.1)) false) o.swap a.imageShape.swap).at_ =
      flip (Generate.crop b.1 b.2 (Render.imgGen exp fl32 b.1 b.2 a.maxDiameter (ps.map Prod.fst) false) o a.imageShape).at_ ∧
    (Generate.crop b.2 b.1 (Render.imgGen exp fl32 b.2 b.1 a.maxDiameter
        (ps.map (fun p => after b.swap (flipField flow) a.dt g.res.1 g.res.2 (flipParticle p.1, flipParticle p.2))) false) o.swap a.imageShape.swap).at_ =
      flip (Generate.crop b.1 b.2 (Render.imgGen exp fl32 b.1 b.2 a.maxDiameter (ps.map (after b flow a.dt g.res.2 g.res.1)) false) o a.imageShape).at_ := by
  intro b o
  refine ⟨by rw [C168_geometry, h]; rfl, ?_, ?_, ?_⟩
  · have := C168_adapter fl (ofGeo a g shape n px) flows
    rw [hf] at this
    exact this
  · have := C168_image exp fl32 b.1 b.2 a.maxDiameter (ps.map Prod.fst) false
    rw [List.map_map] at this
    have e : (flipParticle ∘ Prod.fst : Render.Particle ℚ × Render.Particle ℚ → _) = fun p => flipParticle p.1 := rfl
    rw [e] at this
    rw [this]
    rfl
  · have := C168_image exp fl32 b.1 b.2 a.maxDiameter (ps.map (after b flow a.dt g.res.2 g.res.1)) false
    rw [List.map_map] at this
    have e : (flipParticle ∘ after b flow a.dt g.res.2 g.res.1) =
        fun p => after b.swap (flipField flow) a.dt g.res.1 g.res.2 (flipParticle p.1, flipParticle p.2) := by
      funext p
      have hm := C168_motion b flow a.dt g.res.2 g.res.1 p.1.y p.1.x
      simp only [Function.comp, after, flipParticle]
      rw [hm]
      rfl
    rw [e] at this
    rw [this]
    rfl

/-- A configuration with different axes in every respect. -/
def oblong : Geometry.Args :=
  { imageShape := (64, 128), imgOffset := (3, 4), dt := 1, flowFieldSize := (20, 30), flowShape := (100, 90), resolution := 16, maxSpeedX := 1, maxSpeedY := 1 / 2,
    minSpeedX := -1, minSpeedY := -2, maxDiameter := 3 / 2, hidden := true }

example : (Geometry.build binary64 binary32 oblong).toOption.map (fun g => (g.bounds, g.imgOffset, g.padding)) = some ((104, 160), (8, 16), (0, 0)) ∧
    (Geometry.build binary64 binary32 (flipArgs oblong)).toOption.map (fun g => (g.bounds, g.imgOffset, g.padding)) = some ((160, 104), (16, 8), (0, 0)) := by
  decide +kernel

end Verif.Axes
