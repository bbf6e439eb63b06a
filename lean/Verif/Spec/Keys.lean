import Verif.Model.Make
/-!
# The keys of a configuration
-/

namespace Verif.Options
open Verif.Make

/-- The keys for every sampler (config/*.yaml and the documentation of `make`). -/
def schedulerKeys : List String :=
  ["scheduler_class", "batch_size", "include_images", "buffer_size", "episode_length", "flow_fields_per_batch", "seed", "file_list", "randomize", "loop"]

/-- The keys for samplers that read images, too. -/
def realKeys : List String := schedulerKeys ++ ["image_shape"]

/-- The keys for samplers that make images. -/
def synthKeys : List String :=
  schedulerKeys ++ ["mask", "histogram", "image_shape", "img_offset", "seeding_density_range", "p_hide_img1", "p_hide_img2", "diameter_ranges", "diameter_var", "intensity_ranges",
    "intensity_var", "rho_ranges", "rho_var", "dt", "noise_uniform", "noise_gaussian_mean", "noise_gaussian_std", "batches_per_flow_batch", "flow_field_size", "resolution",
    "velocities_per_pixel", "max_speed_x", "max_speed_y", "min_speed_x", "min_speed_y", "output_units", "device_ids"]

/-- Two configurations give the same values to the keys of a list: the same value, or none. -/
def Agree (ks : List String) (d d' : Dict) : Prop := ∀ k ∈ ks, d'.lookup k = d.lookup k

end Verif.Options
