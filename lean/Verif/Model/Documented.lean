import Verif.Model.Whole
/-!
# The configurations that come with the package (`config/`, `docs/`)

As YAML reads them: decimals are floats.
-/

namespace Verif.Documented
open Verif

/-- The decimal number `n / 10 ^ e` as Python reads it. -/
def num (n : Int) (e : Nat) : ℚ := binary64 (n / 10 ^ e)

/-- The decimal number `n / 10 ^ e` in a configuration. -/
def dec (n : Int) (e : Nat) : Val := .float (.fin (num n e))

/-- `config/main.yaml` lines 1-48, the default of `main.py`. -/
def mainYaml : Make.Dict :=
  [("seed", .int 0), ("batch_size", .int 1), ("flow_fields_per_batch", .int 1), ("batches_per_flow_batch", .int 1),
   ("randomize", .bool false), ("loop", .bool true), ("device_ids", .list [.int 0]),
   ("image_shape", .list [.int 1024, .int 1024]), ("dt", .int 1), ("seeding_density_range", .list [dec (3) 2, dec (4) 2]),
   ("p_hide_img1", dec (1) 4), ("p_hide_img2", dec (1) 4), ("diameter_ranges", .list [.list [dec (15) 1, dec (25) 1]]),
   ("diameter_var", dec (3) 2), ("intensity_ranges", .list [.list [.int 150, .int 230]]), ("intensity_var", dec (1) 2),
   ("rho_ranges", .list [.list [dec (-1) 1, dec (1) 1]]), ("rho_var", dec (1) 1), ("noise_uniform", dec (1) 3),
   ("noise_gaussian_mean", dec (1) 2), ("noise_gaussian_std", dec (1) 3), ("velocities_per_pixel", dec (10) 1),
   ("resolution", .int 1), ("flow_field_size", .list [.int 1024, .int 1024]), ("img_offset", .list [.int 0, .int 0]),
   ("min_speed_x", .int 0), ("max_speed_x", .int 0), ("min_speed_y", .int 0), ("max_speed_y", .int 0),
   ("output_units", .str "pixels"), ("file_list", .list [.str "/shared/fluids/fluids-estimation/eye_candies_main"]),
   ("scheduler_class", .str ".mat")]

/-- `config/cylinder.yaml` lines 1-45. -/
def cylinderYaml : Make.Dict :=
  [("seed", .int 0), ("batch_size", .int 1), ("flow_fields_per_batch", .int 1), ("batches_per_flow_batch", .int 1),
   ("image_shape", .list [.int 256, .int 256]), ("dt", .int 1), ("seeding_density_range", .list [dec (3) 2, dec (4) 2]),
   ("p_hide_img1", dec (1) 4), ("p_hide_img2", dec (1) 4), ("diameter_ranges", .list [.list [dec (15) 1, dec (25) 1]]),
   ("diameter_var", dec (3) 2), ("intensity_ranges", .list [.list [.int 150, .int 230]]), ("intensity_var", dec (1) 2),
   ("rho_ranges", .list [.list [dec (-1) 1, dec (1) 1]]), ("rho_var", dec (1) 1), ("noise_uniform", dec (1) 3),
   ("noise_gaussian_mean", dec (1) 3), ("noise_gaussian_std", dec (1) 6), ("velocities_per_pixel", dec (10) 1),
   ("resolution", .int 1), ("flow_field_size", .list [.int 256, .int 256]), ("img_offset", .list [.int 0, .int 0]),
   ("min_speed_x", .int 0), ("max_speed_x", .int 0), ("min_speed_y", .int 0), ("max_speed_y", .int 0),
   ("output_units", .str "pixels"),
   ("file_list", .list [.str "/shared/fluids/fluids-estimation/piv_dataset_final/train/cylinder_full"]),
   ("scheduler_class", .str ".mat")]

/-- `config/Jassal.yaml` lines 1-45. -/
def jassalYaml : Make.Dict :=
  [("seed", .int 0), ("batch_size", .int 1), ("flow_fields_per_batch", .int 1), ("batches_per_flow_batch", .int 100),
   ("image_shape", .list [.int 256, .int 256]), ("dt", .int 1), ("seeding_density_range", .list [dec (3) 2, dec (4) 2]),
   ("p_hide_img1", dec (1) 4), ("p_hide_img2", dec (1) 4), ("diameter_ranges", .list [.list [dec (15) 1, dec (25) 1]]),
   ("diameter_var", dec (3) 2), ("intensity_ranges", .list [.list [.int 150, .int 230]]), ("intensity_var", dec (1) 2),
   ("rho_ranges", .list [.list [dec (-1) 1, dec (1) 1]]), ("rho_var", dec (1) 1), ("noise_uniform", dec (1) 3),
   ("noise_gaussian_mean", dec (0) 1), ("noise_gaussian_std", dec (0) 1), ("velocities_per_pixel", dec (10) 1),
   ("resolution", .int 1), ("flow_field_size", .list [.int 256, .int 256]), ("img_offset", .list [.int 0, .int 0]),
   ("min_speed_x", .int 0), ("max_speed_x", .int 0), ("min_speed_y", .int 0), ("max_speed_y", .int 0),
   ("output_units", .str "pixels"),
   ("file_list", .list [.str "/shared/fluids/fluids-estimation/Jassal/temp_res/buoyancy_mixing"]),
   ("scheduler_class", .str ".mat")]

/-- `config/JHTDB.yaml` lines 1-49. -/
def jhtdbYaml : Make.Dict :=
  [("seed", .int 0), ("batch_size", .int 128), ("flow_fields_per_batch", .int 64), ("batches_per_flow_batch", .int 500),
   ("image_shape", .list [.int 1216, .int 1936]), ("dt", dec (26) 3),
   ("seeding_density_range", .list [dec (1) 3, dec (1) 2]), ("p_hide_img1", dec (1) 2), ("p_hide_img2", dec (1) 2),
   ("diameter_ranges", .list [.list [dec (1) 1, .int 1]]), ("diameter_var", dec (1) 1),
   ("intensity_ranges", .list [.list [.int 10, .int 255]]), ("intensity_var", dec (1) 1),
   ("rho_ranges", .list [.list [dec (-2) 1, dec (2) 1]]), ("rho_var", dec (1) 1), ("noise_uniform", dec (0) 1),
   ("noise_gaussian_mean", dec (0) 1), ("noise_gaussian_std", dec (0) 1), ("velocities_per_pixel", dec (10) 1),
   ("resolution", .int 200), ("flow_field_size", .list [dec (942477796) 8, dec (1256637061) 8]),
   ("img_offset", .list [dec (25) 3, dec (5) 2]), ("min_speed_x", dec (-10241036862134933) 17),
   ("max_speed_x", dec (13489508628845215) 16), ("min_speed_y", dec (-45968499779701233) 17),
   ("max_speed_y", dec (501191258430481) 15), ("output_units", .str "measure units per second"),
   ("file_list", .list [.str "/shared/fluids/fluids-estimation/files_to_modify/split_files/channel_full_ts_0984_part1.h5",
     .str "/shared/fluids/fluids-estimation/files_to_modify/split_files/channel_full_ts_0984_part2.h5",
     .str "/shared/fluids/fluids-estimation/files_to_modify/split_files/channel_full_ts_0988_part1.h5",
     .str "/shared/fluids/fluids-estimation/files_to_modify/split_files/channel_full_ts_0988_part2.h5",
     .str "/shared/fluids/fluids-estimation/files_to_modify/split_files/channel_full_ts_0992_part1.h5",
     .str "/shared/fluids/fluids-estimation/files_to_modify/split_files/channel_full_ts_0992_part2.h5",
     .str "/shared/fluids/fluids-estimation/files_to_modify/split_files/channel_full_ts_0996_part1.h5",
     .str "/shared/fluids/fluids-estimation/files_to_modify/split_files/channel_full_ts_0996_part2.h5"]),
   ("scheduler_class", .str ".h5")]

/-- `config/test_data.yaml` lines 1-42. -/
def testDataYaml : Make.Dict :=
  [("seed", .int 0), ("batch_size", .int 12), ("flow_fields_per_batch", .int 12), ("batches_per_flow_batch", .int 40),
   ("image_shape", .list [.int 128, .int 256]), ("dt", dec (26) 3),
   ("seeding_density_range", .list [dec (1) 3, dec (1) 2]), ("p_hide_img1", dec (1) 2), ("p_hide_img2", dec (1) 2),
   ("diameter_ranges", .list [.list [dec (1) 1, .int 1]]), ("diameter_var", dec (1) 1),
   ("intensity_ranges", .list [.list [.int 10, .int 255]]), ("intensity_var", dec (1) 1),
   ("rho_ranges", .list [.list [dec (-2) 1, dec (2) 1]]), ("rho_var", dec (1) 1), ("noise_uniform", dec (0) 1),
   ("noise_gaussian_mean", dec (0) 1), ("noise_gaussian_std", dec (0) 1), ("velocities_per_pixel", dec (10) 1),
   ("resolution", .int 1), ("flow_field_size", .list [.int 1536, .int 2048]),
   ("img_offset", .list [dec (25) 3, dec (5) 2]), ("min_speed_x", dec (-10241036862134933) 17),
   ("max_speed_x", dec (13489508628845215) 16), ("min_speed_y", dec (-45968499779701233) 17),
   ("max_speed_y", dec (501191258430481) 15), ("output_units", .str "measure units per second"),
   ("file_list", .list [.str "/shared/fluids/fluids-estimation/test.h5"])]

/-- `docs/examples/mat/config.yaml` lines 1-13. -/
def exampleMatYaml : Make.Dict :=
  [("seed", .int 0), ("batch_size", .int 10), ("include_images", .bool true), ("loop", .bool true),
   ("randomize", .bool false), ("image_shape", .list [.int 256, .int 256]), ("file_list", .str "docs/examples/mat"),
   ("scheduler_class", .str ".mat")]

/-- `docs/examples/npy/config.yaml` lines 1-13. -/
def exampleNpyYaml : Make.Dict :=
  [("seed", .int 0), ("batch_size", .int 10), ("include_images", .bool true), ("loop", .bool true),
   ("randomize", .bool false), ("image_shape", .list [.int 256, .int 256]), ("file_list", .str "docs/examples/npy"),
   ("scheduler_class", .str ".npy")]

/-- The full configuration of `docs/tutorials.md` lines 20-68. -/
def tutorialYaml : Make.Dict :=
  [("seed", .int 0), ("batch_size", .int 1), ("flow_fields_per_batch", .int 1), ("batches_per_flow_batch", .int 1),
   ("randomize", .bool false), ("loop", .bool true), ("device_ids", .list [.int 0]),
   ("image_shape", .list [.int 1024, .int 1024]), ("dt", .int 1), ("seeding_density_range", .list [dec (3) 2, dec (4) 2]),
   ("p_hide_img1", dec (1) 4), ("p_hide_img2", dec (1) 4), ("diameter_ranges", .list [.list [dec (15) 1, dec (25) 1]]),
   ("diameter_var", dec (3) 2), ("intensity_ranges", .list [.list [.int 150, .int 230]]), ("intensity_var", dec (1) 2),
   ("rho_ranges", .list [.list [dec (-1) 1, dec (1) 1]]), ("rho_var", dec (1) 1), ("noise_level", dec (1) 3),
   ("velocities_per_pixel", dec (10) 1), ("resolution", .int 1), ("flow_field_size", .list [.int 1024, .int 1024]),
   ("img_offset", .list [.int 0, .int 0]), ("min_speed_x", .int 0), ("max_speed_x", .int 0), ("min_speed_y", .int 0),
   ("max_speed_y", .int 0), ("output_units", .str "pixels"),
   ("file_list", .str "/shared/fluids/fluids-estimation/eye_candies_main"), ("scheduler_class", .str ".mat")]

/-- The configuration for real images of `docs/tutorials.md` lines 130-142. -/
def tutorialMatYaml : Make.Dict :=
  [("seed", .int 0), ("batch_size", .int 10), ("include_images", .bool true), ("loop", .bool true),
   ("randomize", .bool false), ("image_shape", .list [.int 256, .int 256]), ("file_list", .str "docs/examples/mat/"),
   ("scheduler_class", .str ".mat")]

end Verif.Documented
