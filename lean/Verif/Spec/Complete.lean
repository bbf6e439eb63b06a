import Verif.Spec.Whole
import Verif.Spec.Types
import Verif.Props.Geometry
/-!
# The configurations for synthetic images that should be accepted (types.py lines 160-207, synthetic.py lines 69-101, make.py lines 58-83)
-/

namespace Verif.Whole.Spec
open Verif Verif.Whole

/-- The conditions on `flow_field_size` and `device_ids` beyond the values that are used: all items of the first are positive numbers, no
index of the second lies before the first device. -/
structure Proper (E : Env) (d : Make.Dict) : Prop where
  size : Has d "flow_field_size" (fun v => ∃ l, Items l v ∧ ∀ x ∈ l, Types.Spec.Positive x)
  devices : ∀ v vs zs, Make.Spec.ValueOr d "device_ids" .none v → Items vs v → List.Forall₂ IsInt zs vs → ∀ z ∈ zs, -(E.devices : Int) ≤ z

/-- The documented ranges of the numbers of a specification. -/
structure Ranges (p : Generate.Params ℚ) (off : ℚ × ℚ) : Prop where
  batchSize : 0 < p.batchSize
  imageShape : 0 < p.imageShape.1 ∧ 0 < p.imageShape.2
  pHide1 : 0 ≤ p.pHide1 ∧ p.pHide1 ≤ 1
  pHide2 : 0 ≤ p.pHide2 ∧ p.pHide2 ≤ 1
  offset : 0 ≤ off.1 ∧ 0 ≤ off.2
  density : 0 ≤ p.densityRange.1 ∧ p.densityRange.1 ≤ p.densityRange.2
  diameters : p.diameterRanges ≠ [] ∧ ∀ r ∈ p.diameterRanges, 0 < r.1 ∧ r.1 ≤ r.2
  intensities : p.intensityRanges ≠ [] ∧ ∀ r ∈ p.intensityRanges, 0 < r.1 ∧ r.1 ≤ r.2
  rhos : p.rhoRanges ≠ [] ∧ ∀ r ∈ p.rhoRanges, -1 < r.1 ∧ r.1 ≤ r.2 ∧ r.2 < 1
  variances : 0 ≤ p.diameterVar ∧ 0 ≤ p.intensityVar ∧ 0 ≤ p.rhoVar
  noise : 0 ≤ p.noiseUniform ∧ 0 ≤ p.noiseMean ∧ 0 ≤ p.noiseStd
  dt : 0 < p.dt

/-- The conditions on everything else except that the window fits into the flow field. -/
structure Fine (a : Synthetic.Args) : Prop where
  ranges : Ranges a.spec a.imgOffset
  /-- a mask has the shape of the images -/
  mask : ∀ m, a.mask = some m → m.1 = a.spec.imageShape
  /-- a histogram has 256 bins and counts all pixels, within the tolerances of `isclose` -/
  histogram : ∀ h, a.histogram = some h → h.length = 256 ∧
    |h.sum - a.spec.imageShape.1 * a.spec.imageShape.2| ≤ 1 / 10 ^ 8 + 1 / 10 ^ 5 * (a.spec.imageShape.1 * a.spec.imageShape.2)
  devices : 0 < a.ndevices
  bpfb : 0 < a.bpfb
  ffpb : 0 < a.ffpb ∧ a.ffpb ≤ a.spec.batchSize
  seed : 0 ≤ a.seed
  velocitiesPerPixel : 0 < a.velocitiesPerPixel
  flowFieldSize : 0 < a.flowFieldSize.1 ∧ 0 < a.flowFieldSize.2
  flowShape : 0 < a.flowShape.1 ∧ 0 < a.flowShape.2
  resolution : 0 < a.resolution
  channels : a.channels = 2 ∨ a.channels = 3

/-- The file a scheduler begins with: the first, or, if the files are shuffled, the one the random permutation puts first. -/
def firstOf (E : Env) (randomize : Bool) (files : List String) : String :=
  if randomize then files.getD ((E.perm (KeyTerm.split2 (.seed 0)).2 files.length).headD 0) "" else files.headD ""

/-- The grid and the number of components of the flow fields: for HDF5 that of the first volume of the first file, for NumPy that of the first
file, for MAT always 256 x 256. -/
def GridOf (E : Env) (kind : Make.Kind) (first : String) (grid : Nat × Nat) (channels : Nat) : Prop :=
  match kind with
  | .h5 => ∃ name v rest, E.h5 first = .ok ((name, some v) :: rest) ∧ v.shape[0]? = some grid.1 ∧ v.shape[2]? = some grid.2 ∧ channels = 2
  | .mat => grid = (256, 256) ∧ channels = 2
  | .npy => ∃ x, E.np.npy first = .ok x ∧ x.shape = [grid.1, grid.2, channels]

/-- The files have the extension of the class; for HDF5, the paths of the list have it. -/
def Extensions (kind : Make.Kind) (d : Make.Dict) (files : List String) : Prop :=
  match kind with
  | .h5 => ∀ paths : List String, d.lookup "file_list" = some (.list (paths.map .str)) → ∀ p ∈ paths, p.endsWith ".h5" = true
  | .mat => ∀ p ∈ files, p.endsWith ".mat" = true
  | .npy => ∀ p ∈ files, p.endsWith ".npy" = true

/-- A complete configuration for synthetic images without episodes and buffer, with what it determines. -/
structure Complete (E : Env) (d : Make.Dict) (kind : Make.Kind) (files : List String) (randomize loop : Bool) (a : Synthetic.Args) : Prop where
  found : FilesOf E kind d files
  extensions : Extensions kind d files
  randomizeFlag : Make.Spec.ValueOr d "randomize" (.bool false) (.bool randomize)
  loopFlag : Make.Spec.ValueOr d "loop" (.bool true) (.bool loop)
  seed : ∃ v k, Has d "seed" (· = v) ∧ E.prngKey v = .ok k
  configured : Configured E d a
  proper : Proper E d
  grid : GridOf E kind (firstOf E randomize files) a.flowShape a.channels
  fine : Fine a
  single : a.isEpisodic = false
  /-- not used: the offset in pixels is computed from `a.imgOffset` -/
  unused : a.spec.imgOffset = (0, 0)

/-- A complete configuration for real images without episodes and buffer. -/
structure CompleteReal (E : Env) (d : Make.Dict) (files : List String) (randomize loop : Bool) (b : Int) : Prop where
  found : FilesOf E .mat d files
  extensions : Extensions .mat d files
  randomizeFlag : Make.Spec.ValueOr d "randomize" (.bool false) (.bool randomize)
  loopFlag : Make.Spec.ValueOr d "loop" (.bool true) (.bool loop)
  seed : ∃ v k, Make.Spec.ValueOr d "seed" (.int 0) v ∧ E.prngKey v = .ok k
  batchSize : Has d "batch_size" (IsInt b) ∧ 0 < b
  /-- two positive integers, 256 and 256 by default -/
  imageShape : ∃ v x y h w, Make.Spec.ValueOr d "image_shape" (.tuple [.int 256, .int 256]) v ∧ Items [x, y] v ∧ IsInt h x ∧ IsInt w y ∧ 0 < h ∧ 0 < w
  /-- not used for real images, but asked for -/
  flowFieldsPerBatch : Has d "flow_fields_per_batch" (fun _ => True)

end Verif.Whole.Spec
