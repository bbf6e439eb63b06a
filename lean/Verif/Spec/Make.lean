import Verif.Model.Make
/-!
# What the documentation of `make` says (make.py lines 53-83)
-/

namespace Verif.Make.Spec
open Verif Verif.Make

/-- A value Python cannot hash: a list, a dictionary, an object that says so, or a tuple with such an item. -/
inductive Unhashable : Val → Prop
  | list (l : List Val) : Unhashable (.list l)
  | dict (ks : List String) : Unhashable (.dict ks)
  | other : Unhashable (.other false)
  | tuple (l : List Val) (v : Val) : v ∈ l → Unhashable v → Unhashable (.tuple l)

/-- The file extension that names a scheduler class. -/
def ext : Kind → String
  | .h5 => ".h5"
  | .mat => ".mat"
  | .npy => ".npy"

/-- The configuration the argument stands for. -/
def ConfigOf (w : World) : Arg → Dict → Prop
  | .dict d, d' => d = d'
  | .path s, d => s.endsWith ".yaml" = true ∧ w.pathExists s = true ∧ w.isFile s = true ∧ w.load s = .ok (some d)
  | .other, _ => False

/-- "non-negative int, default 0" -/
def NatOption (d : Dict) (k : String) (z : Int) : Prop :=
  0 ≤ z ∧ ((d.lookup k = none ∧ z = 0) ∨ ∃ v, d.lookup k = some v ∧ v.asInt = some z)

/-- The documented requirements, with the values they determine: scheduler class, batch size, buffer size, episode length and
whether real images are wanted. -/
structure Accepted (d : Dict) (kind : Kind) (b buf len : Int) (inc : Bool) : Prop where
  schedulerClass : d.lookup "scheduler_class" = some (.str (ext kind))
  batchSize : 0 < b ∧ ∃ v, d.lookup "batch_size" = some v ∧ v.asInt = some b
  includeImages : (d.lookup "include_images" = none ∧ inc = false) ∨ d.lookup "include_images" = some (.bool inc)
  bufferSize : NatOption d "buffer_size" buf
  episodeLength : NatOption d "episode_length" len
  flowFieldsPerBatch : ∃ v, d.lookup "flow_fields_per_batch" = some v
  /-- "Extracting images from files is supported only for .mat files." -/
  onlyMat : inc = true → kind = .mat
  /-- "Required when generating synthetic images" -/
  batchesPerFlowBatch : inc = false → ∃ v, d.lookup "batches_per_flow_batch" = some v ∧ v ≠ .none

/-- A layer of schedulers. -/
inductive Layer where
  | base (k : Kind)
  | episodic (batchSize episodeLength : Int)
  | prefetch (batchSize bufferSize : Int)
  deriving DecidableEq, Repr

/-- The layers of a scheduler, outermost first. -/
def layers : Pipe → List Layer
  | .base a => [.base a.kind]
  | .episodic p b l _ => .episodic b l :: layers p
  | .prefetch p b n => .prefetch b n :: layers p

/-- The arguments of the innermost scheduler. -/
def innermost : Pipe → BaseArgs
  | .base a => a
  | .episodic p _ _ _ => innermost p
  | .prefetch p _ _ => innermost p

/-- The keys of the episodic layers. -/
def episodeKeys : Pipe → List KeyTerm
  | .base _ => []
  | .episodic p _ _ k => k :: episodeKeys p
  | .prefetch p _ _ => episodeKeys p

/-- The scheduler of a sampler. -/
def pipe : Smp → Pipe
  | .real p _ => p
  | .synthetic p _ => p

/-- Whether it is the sampler of real images. -/
def isReal : Smp → Bool
  | .real _ _ => true
  | .synthetic _ _ => false

/-- The layers that are documented for given values: episodic iff `episode_length > 0`, and around it prefetching iff
`buffer_size > 0`. -/
def expectedLayers (kind : Kind) (b buf len : Int) : List Layer :=
  (if 0 < buf then [Layer.prefetch b buf] else []) ++ (if 0 < len then [Layer.episodic b len] else []) ++ [Layer.base kind]

/-- Value of a key with the documented default. -/
def ValueOr (d : Dict) (k : String) (dflt v : Val) : Prop :=
  (d.lookup k = none ∧ v = dflt) ∨ d.lookup k = some v

/-- The documented exceptions. -/
def Documented (e : Exc) : Prop := e = .typeError ∨ e = .valueError ∨ e = .fileNotFound

/-- No component raises anything else than the documented exceptions. -/
structure WellBehaved (w : World) : Prop where
  load : ∀ s e, w.load s = .error e → Documented e
  prngKey : ∀ v e, w.prngKey v = .error e → Documented e
  baseInit : ∀ a e, w.baseInit a = .error e → Documented e
  episodicInit : ∀ p b l k e, w.episodicInit p b l k = .error e → Documented e
  realInit : ∀ p b e, w.realInit p b = .error e → Documented e
  loadMask : ∀ s e, w.loadMask s = .error e → Documented e
  loadHistogram : ∀ s e, w.loadHistogram s = .error e → Documented e
  synthInit : ∀ p a e, w.synthInit p a = .error e → Documented e

/-- Every component can be built. -/
structure Healthy (w : World) : Prop where
  prngKey : ∀ v, ∃ k, w.prngKey v = .ok k
  baseInit : ∀ a, w.baseInit a = .ok ()
  episodicInit : ∀ p b l k, w.episodicInit p b l k = .ok ()
  realInit : ∀ p b, w.realInit p b = .ok ()
  synthInit : ∀ p a, w.synthInit p a = .ok ()

/-- The keys the synthetic sampler reads without a default, beyond those `make` documents. -/
def samplerKeys : List String :=
  ["image_shape", "img_offset", "seeding_density_range", "p_hide_img1", "p_hide_img2", "diameter_ranges", "diameter_var",
   "intensity_ranges", "intensity_var", "rho_ranges", "rho_var", "dt", "noise_uniform", "noise_gaussian_mean",
   "noise_gaussian_std", "flow_field_size", "resolution", "velocities_per_pixel", "seed", "max_speed_x", "max_speed_y",
   "min_speed_x", "min_speed_y", "output_units"]

end Verif.Make.Spec
