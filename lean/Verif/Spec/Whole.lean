import Verif.Model.Whole
import Verif.Spec.Make
import Verif.Props.Base
/-!
# What a configuration says (make.py lines 58-72, synthetic.py lines 516-535, types.py lines 160-207)
-/

namespace Verif.Whole.Spec
open Verif Verif.Whole

/-- The configuration has a value for the key, with the property `P`. -/
def Has (d : Make.Dict) (k : String) (P : Val → Prop) : Prop := ∃ v, d.lookup k = some v ∧ P v

/-- The value is the integer `z` (`True` and `False` count as 1 and 0). -/
def IsInt (z : Int) (v : Val) : Prop := v.asInt = some z

/-- The value is the finite number `q`. -/
def IsNum (q : ℚ) (v : Val) : Prop := v.asNum = some (.fin q)

/-- The value is a list or tuple with these items. -/
def Items (l : List Val) (v : Val) : Prop := v = .list l ∨ v = .tuple l

/-- The value is a pair of numbers. -/
def IsPair (q : ℚ × ℚ) (v : Val) : Prop := ∃ a b, Items [a, b] v ∧ IsNum q.1 a ∧ IsNum q.2 b

/-- The value is a list of pairs of numbers. -/
def IsPairs (l : List (ℚ × ℚ)) (v : Val) : Prop := ∃ vs, Items vs v ∧ List.Forall₂ IsPair l vs

/-- No mask, or the path of an array of zeros and ones of this shape with these entries. -/
def IsMask (E : Env) (m : Option ((Nat × Nat) × (Nat → Nat → ℚ))) (v : Val) : Prop :=
  (v = .none ∧ m = none) ∨ ∃ p h w data, v = .str p ∧ E.isFile p = true ∧ E.np.npy p = .ok ⟨[h, w], data⟩ ∧
    (∀ x ∈ data, x = 0 ∨ x = 1) ∧ m = some ((h, w), fun j i => data.getD (j * w + i) 0)

/-- No histogram, or the path of an array with these entries. -/
def IsHistogram (E : Env) (m : Option (List ℚ)) (v : Val) : Prop :=
  (v = .none ∧ m = none) ∨ ∃ p n data, v = .str p ∧ E.isFile p = true ∧ E.np.npy p = .ok ⟨[n], data⟩ ∧ m = some data

/-- `device_ids`: not given, then all devices are used; or a list of indices, then the existing ones among them. -/
def IsDevices (D n : Nat) (v : Val) : Prop :=
  (v = .none ∧ n = D) ∨ ∃ vs zs, Items vs v ∧ List.Forall₂ IsInt zs vs ∧ n = (zs.filter (· < (D : Int))).length

/-- The arguments of the sampler are those the configuration gives. -/
structure Configured (E : Env) (d : Make.Dict) (a : Synthetic.Args) : Prop where
  batchSize : Has d "batch_size" (IsInt a.spec.batchSize)
  imageShape : Has d "image_shape" (fun v => ∃ x y, Items [x, y] v ∧ IsInt a.spec.imageShape.1 x ∧ IsInt a.spec.imageShape.2 y)
  imgOffset : Has d "img_offset" (IsPair a.imgOffset)
  density : Has d "seeding_density_range" (IsPair a.spec.densityRange)
  pHide1 : Has d "p_hide_img1" (IsNum a.spec.pHide1)
  pHide2 : Has d "p_hide_img2" (IsNum a.spec.pHide2)
  diameterRanges : Has d "diameter_ranges" (IsPairs a.spec.diameterRanges)
  diameterVar : Has d "diameter_var" (IsNum a.spec.diameterVar)
  intensityRanges : Has d "intensity_ranges" (IsPairs a.spec.intensityRanges)
  intensityVar : Has d "intensity_var" (IsNum a.spec.intensityVar)
  rhoRanges : Has d "rho_ranges" (IsPairs a.spec.rhoRanges)
  rhoVar : Has d "rho_var" (IsNum a.spec.rhoVar)
  dt : Has d "dt" (IsNum a.spec.dt)
  noiseUniform : Has d "noise_uniform" (IsNum a.spec.noiseUniform)
  noiseMean : Has d "noise_gaussian_mean" (IsNum a.spec.noiseMean)
  noiseStd : Has d "noise_gaussian_std" (IsNum a.spec.noiseStd)
  bpfb : Has d "batches_per_flow_batch" (IsInt a.bpfb)
  ffpb : Has d "flow_fields_per_batch" (IsInt a.ffpb)
  seed : Has d "seed" (IsInt a.seed)
  /-- further items are ignored -/
  flowFieldSize : Has d "flow_field_size" (fun v => ∃ x y rest, Items (x :: y :: rest) v ∧ IsNum a.flowFieldSize.1 x ∧ IsNum a.flowFieldSize.2 y)
  resolution : Has d "resolution" (IsNum a.resolution)
  velocitiesPerPixel : Has d "velocities_per_pixel" (IsNum a.velocitiesPerPixel)
  maxSpeedX : Has d "max_speed_x" (IsNum a.maxSpeedX)
  maxSpeedY : Has d "max_speed_y" (IsNum a.maxSpeedY)
  minSpeedX : Has d "min_speed_x" (IsNum a.minSpeedX)
  minSpeedY : Has d "min_speed_y" (IsNum a.minSpeedY)
  units : a.pixels = some true ∧ d.lookup "output_units" = some (.str "pixels") ∨
    a.pixels = some false ∧ d.lookup "output_units" = some (.str "measure units per second")
  devices : ∃ v, Make.Spec.ValueOr d "device_ids" .none v ∧ IsDevices E.devices a.ndevices v
  mask : ∃ v, Make.Spec.ValueOr d "mask" .none v ∧ IsMask E a.mask v
  histogram : ∃ v, Make.Spec.ValueOr d "histogram" .none v ∧ IsHistogram E a.histogram v

/-- The files a scheduler works on: `file_list` lists paths, and directories stand for the files in them, sorted. -/
def FilesOf (E : Env) (kind : Make.Kind) (d : Make.Dict) (files : List String) : Prop :=
  ∃ paths : List String, d.lookup "file_list" = some (.list (paths.map .str)) ∧ BaseInit.Expands (E.fs kind) paths files ∧
    files ≠ [] ∧ ∀ p ∈ files, E.isFile p = true

/-- The configuration asks for files of one class, for real or synthetic images, without episodes and without a buffer. -/
structure Plain (d : Make.Dict) (kind : Make.Kind) (images : Bool) : Prop where
  schedulerClass : d.lookup "scheduler_class" = some (.str (Make.Spec.ext kind))
  includeImages : Make.Spec.ValueOr d "include_images" (.bool false) (.bool images)
  noEpisodes : Make.Spec.NatOption d "episode_length" 0
  noBuffer : Make.Spec.NatOption d "buffer_size" 0

/-- The numbers the sampler works with: the batch size is the least multiple of the number of devices that is not below the one asked for,
the others are as asked for. -/
structure Sizes (a : Synthetic.Args) (c : Sampler.Cfg) : Prop where
  devices : c.ndevices = a.ndevices
  multiple : a.ndevices ∣ c.batchSize
  enough : a.spec.batchSize ≤ c.batchSize
  least : ∀ n : Nat, a.ndevices ∣ n → a.spec.batchSize ≤ n → c.batchSize ≤ n
  bpfb : (c.bpfb : Int) = a.bpfb
  ffpb : (c.ffpb : Int) = a.ffpb
  seed : (c.seed : Int) = a.seed

end Verif.Whole.Spec
