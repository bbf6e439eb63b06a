{
 "claims": [
  {
   "property": "C01",
   "status": "partial",
   "theorems": [
    "Verif.Base.C01_every_slice_once_partial",
    "Verif.Base.C01_exactly",
    "Verif.Base.C01_delivered_exactly",
    "Verif.Base.C01_refuted"
   ],
   "note": "Proved if and only if no file with slices is listed directly after itself (C01_exactly); C01_delivered_exactly says what is delivered for every list, and C01_refuted shows that a file listed twice in a row is served once."
  },
  {
   "property": "C02",
   "status": "proved",
   "theorems": [
    "Verif.Base.C02_mask_marks_real_rows"
   ],
   "note": "For any state, loader and size; assumes only that extracting a slice does not itself raise StopIteration."
  },
  {
   "property": "C03",
   "status": "proved",
   "theorems": [
    "Verif.Base.C03_exhaustion_permanent"
   ],
   "note": "For requests of at least one sample."
  },
  {
   "property": "C04",
   "status": "partial",
   "theorems": [
    "Verif.Base.C04_complete_epochs_partial",
    "Verif.Base.C04_epochs_exactly",
    "Verif.Base.C04_refuted"
   ],
   "note": "Proved for duplicate-free file lists; C04_epochs_exactly covers every list, with immediate repetitions served once."
  },
  {
   "property": "C05",
   "status": "partial",
   "theorems": [
    "Verif.Base.C05_looping_answers_partial",
    "Verif.Base.C05_refuted"
   ],
   "note": "Answers whenever some file yields a slice; proved never to return when no file does."
  },
  {
   "property": "C06",
   "status": "partial",
   "theorems": [
    "Verif.Base.C06_exactly_partial",
    "Verif.Base.C06_unseparated_partial",
    "Verif.Base.C06_unreadable_skipped_partial",
    "Verif.Base.C06_refuted"
   ],
   "note": "Without shuffling and looping the exact condition is proved: unreadable files leave no trace if and only if no readable file with samples is listed twice with nothing but unreadable files in between. With looping the condition is proved to suffice."
  },
  {
   "property": "C07",
   "status": "proved",
   "theorems": [
    "Verif.Base.C07_reset_restarts"
   ],
   "note": ""
  },
  {
   "property": "C08",
   "status": "proved",
   "theorems": [
    "Verif.Base.C08_shuffling_permutes"
   ],
   "note": "Assumes that jax.random.permutation returns a permutation."
  },
  {
   "property": "C09",
   "status": "proved",
   "theorems": [
    "Verif.Base.C09_order_depends_on_key_alone",
    "Verif.Base.C09_shuffle_keys_distinct"
   ],
   "note": "Keys are distinct as derivations."
  },
  {
   "property": "C10",
   "status": "proved",
   "theorems": [
    "Verif.BaseInit.C10_constructor_accepts"
   ],
   "note": ""
  },
  {
   "property": "C11",
   "status": "proved",
   "theorems": [
    "Verif.Base.C11_batch_boundaries"
   ],
   "note": "If both requests return (or the second reports exhaustion) the combined request draws the same samples and ends in the same state; it returns a batch whenever the samples can be stacked."
  },
  {
   "property": "C12",
   "status": "partial",
   "theorems": [
    "Verif.Base.C12_failure_repeats_partial",
    "Verif.Base.C12_refuted",
    "Verif.Base.C12_exactly"
   ],
   "note": "False: the samples already taken are lost. Proved: only these are lost, nothing behind the failing slice is skipped. C12_exactly: nothing is lost iff the failing slice is the first of the batch."
  },
  {
   "property": "C13",
   "status": "proved",
   "theorems": [
    "Verif.Formats.C13_one_sample_per_y",
    "Verif.Formats.C13_other_files"
   ],
   "note": "Values are exact copies; the numeric conversion to float32 is not modelled."
  },
  {
   "property": "C14",
   "status": "partial",
   "theorems": [
    "Verif.Formats.C14_shape_two_channels_partial",
    "Verif.Formats.C14_refuted"
   ],
   "note": "True for two channels; false for every other number of channels."
  },
  {
   "property": "C15",
   "status": "partial",
   "theorems": [
    "Verif.Formats.C15_layout_partial",
    "Verif.Formats.C15_refuted",
    "Verif.Formats.C15_exactly",
    "Verif.Formats.C15_wrong_shape_iff"
   ],
   "note": "Proved for stored arrays with at most three axes; an array of shape (H, W, 2, k) is accepted. C15_exactly, C15_wrong_shape_iff: exactly which arrays are accepted, and that those of the wrong shape are the ones with more axes that begin with output_shape + (2,)."
  },
  {
   "property": "C16",
   "status": "proved",
   "theorems": [
    "Verif.Formats.C16_resize_scales"
   ],
   "note": "Pillow's resampling is a parameter, assumed to return an array of the requested size."
  },
  {
   "property": "C17",
   "status": "partial",
   "theorems": [
    "Verif.Formats.C17_image_shape_partial",
    "Verif.Formats.C17_refuted"
   ],
   "note": "True for square output shapes or images of the right size; for every other resize height and width are exchanged."
  },
  {
   "property": "C18",
   "status": "proved",
   "theorems": [
    "Verif.Formats.C18_frames_of_flow",
    "Verif.Formats.C18_frames_no_folder",
    "Verif.Formats.C18_consecutive_share_frame",
    "Verif.Formats.C18_other_names_rejected",
    "Verif.Formats.C18_spelling_faithful",
    "Verif.Formats.C18_sample_pairs_frames",
    "Verif.Formats.C18_constructor_checks_frames"
   ],
   "note": "For ASCII digits and directories not ending in '/'."
  },
  {
   "property": "C19",
   "status": "partial",
   "theorems": [
    "Verif.Formats.C19_final_batch_partial",
    "Verif.Base.C19_exactly",
    "Verif.Base.C19_colour_never",
    "Verif.Formats.C19_refuted"
   ],
   "note": "True for images with two axes; false for the three-axis images the NumPy scheduler delivers, always (C19_colour_never). C19_exactly says for any samples when they are delivered."
  },
  {
   "property": "C20",
   "status": "proved",
   "theorems": [
    "Verif.Episodic.C20_construction_iff",
    "Verif.Episodic.C20_starts_exactly"
   ],
   "note": "Construction also fails when there is no leaf directory at all."
  },
  {
   "property": "C21",
   "status": "proved",
   "theorems": [
    "Verif.Episodic.C21_contiguous_windows"
   ],
   "note": "For wrapped schedulers that leave the file list they are given alone (every base scheduler without shuffling); only *.mat files are considered by the code."
  },
  {
   "property": "C22",
   "status": "partial",
   "theorems": [
    "Verif.Episodic.C22_rows_aligned_partial",
    "Verif.Episodic.C22_disjoint_episodes_suffice",
    "Verif.Episodic.C22_delivered_exactly",
    "Verif.Episodic.C22_aligned_iff",
    "Verif.Episodic.C22_refuted_repeated",
    "Verif.Episodic.C22_refuted_overlap",
    "Verif.Episodic.C22_refuted_shuffled",
    "Verif.Episodic.C22_refuted_unreadable"
   ],
   "note": "Proved when no file directly follows itself in the queue, in particular for disjoint episodes, without shuffling and with readable frames; each condition is shown to be needed. Over a base scheduler that neither shuffles nor loops the condition is proved to be exact: the rows are aligned if and only if no file directly follows itself in the queue, and what is delivered otherwise is the queue without immediate repetitions."
  },
  {
   "property": "C23",
   "status": "partial",
   "theorems": [
    "Verif.Episodic.C23_episode_length_partial",
    "Verif.Episodic.C23_refuted",
    "Verif.Episodic.C23_refuted_iter",
    "Verif.Episodic.C23_exactly"
   ],
   "note": "Proved when the wrapped scheduler answers; a failing step is counted, and iter() resets the counter only. C23_exactly: the steps are the requests of the right size since the last restart or iter(), whatever became of them."
  },
  {
   "property": "C24",
   "status": "proved",
   "theorems": [
    "Verif.Episodic.C24_wrong_size_harmless",
    "Verif.Prefetch.C24_wrong_size_harmless_prefetch"
   ],
   "note": ""
  },
  {
   "property": "C25",
   "status": "proved",
   "theorems": [
    "Verif.Prefetch.C25_same_batches_same_order",
    "Verif.Prefetch.C25_no_deadlock"
   ],
   "note": "Transition system of the two threads; queue operations are atomic; schedules without timeouts, as the property says."
  },
  {
   "property": "C26",
   "status": "proved",
   "theorems": [
    "Verif.Prefetch.C26_bounded_buffer"
   ],
   "note": "For every schedule; the lead is counted since construction or the last reset."
  },
  {
   "property": "C27",
   "status": "proved",
   "theorems": [
    "Verif.Prefetch.C27_reset_never_deadlocks"
   ],
   "note": "Assumes that a call of the wrapped scheduler returns."
  },
  {
   "property": "C28",
   "status": "proved",
   "theorems": [
    "Verif.Prefetch.C28_reset_restarts"
   ],
   "note": ""
  },
  {
   "property": "C29",
   "status": "partial",
   "theorems": [
    "Verif.Prefetch.C29_episodes_aligned_partial",
    "Verif.Prefetch.C29_refuted"
   ],
   "note": "Proved when next_episode is not cut short by its deadline and the end-of-stream signal displaces no batch; false when the deadline passes."
  },
  {
   "property": "C30",
   "status": "partial",
   "theorems": [
    "Verif.Prefetch.C30_at_most_one_lost_partial",
    "Verif.Prefetch.C30_refuted"
   ],
   "note": "False: a full queue at the end of the stream loses its oldest batch. Proved: never more than one, which is among the last buffer_size, and none if the put of the signal does not time out."
  },
  {
   "property": "C31",
   "status": "partial",
   "theorems": [
    "Verif.Prefetch.C31_shutdown_stops_partial",
    "Verif.Prefetch.C31_blocked_iff",
    "Verif.Prefetch.C31_ends_or_blocked",
    "Verif.Prefetch.C31_get_batch_frees",
    "Verif.Prefetch.C31_refuted",
    "Verif.Prefetch.C31_refuted_again"
   ],
   "note": "False with a full buffer of any size, however often shutdown is called (race). Proved for a buffer of at least two that is not full; and in general the thread ends within four steps unless it waits to put a batch into a full queue, from which one get_batch frees it."
  },
  {
   "property": "C32",
   "status": "partial",
   "theorems": [
    "Verif.Prefetch.C32_stop_means_exhausted_partial",
    "Verif.Prefetch.C32_refuted_failure",
    "Verif.Prefetch.C32_refuted_slow"
   ],
   "note": "False for every failure of the wrapped scheduler and for slow ones; proved as long as no get times out."
  },
  {
   "property": "C33",
   "status": "proved",
   "theorems": [
    "Verif.Sampler.C33_done_flags",
    "Verif.Sampler.C33_flag_announces_end",
    "Verif.Sampler.C33_episodeEnd_iff_over"
   ],
   "note": "Counted form for histories in which nothing but EpisodeEnd is raised; for all histories: a batch is flagged iff the next call raises EpisodeEnd, which it does iff no steps remain."
  },
  {
   "property": "C34",
   "status": "partial",
   "theorems": [
    "Verif.Sampler.C34_flow_batch_used_partial",
    "Verif.Sampler.C34_episodic_fresh",
    "Verif.Sampler.C34_refuted"
   ],
   "note": "Proved for uninterrupted runs and for episodic schedulers known to the sampler; false for episodes that come through a prefetching scheduler."
  },
  {
   "property": "C35",
   "status": "partial",
   "theorems": [
    "Verif.Sampler.C35_real_stays_finished_partial",
    "Verif.Sampler.C35_refuted"
   ],
   "note": "False for the synthetic sampler whenever it has delivered a batch; proved for the real-image sampler over a base scheduler."
  },
  {
   "property": "C36",
   "status": "partial",
   "theorems": [
    "Verif.Sampler.C36_image_belongs_to_flow_partial",
    "Verif.Sampler.C36_exactly",
    "Verif.Sampler.C36_refuted"
   ],
   "note": "Image and reported flow always agree; the number is i mod n if and only if there is one device, or as many flow fields as images (C36_exactly)."
  },
  {
   "property": "C37",
   "status": "partial",
   "theorems": [
    "Verif.Sampler.C37_in_every_batch_partial",
    "Verif.Sampler.C37_used_evenly_partial",
    "Verif.Sampler.C37_exactly",
    "Verif.Sampler.C37_refuted"
   ],
   "note": "Floor/ceil for any number of devices; which ones are used once more is as stated if and only if there is one device or all are used equally often (C37_exactly)."
  },
  {
   "property": "C38",
   "status": "proved",
   "theorems": [
    "Verif.Sampler.C38_least_multiple",
    "Verif.Sampler.C38_iff",
    "Verif.Sampler.C38_kept"
   ],
   "note": "C38_iff gives exactly which integers the constructor accepts; C38_kept that what is accepted is used as given."
  },
  {
   "property": "C39",
   "status": "proved",
   "theorems": [
    "Verif.Sampler.C39_reset_reproducible"
   ],
   "note": ""
  },
  {
   "property": "C40",
   "status": "proved",
   "theorems": [
    "Verif.Sampler.C40_no_key_twice",
    "Verif.Sampler.C40_draws_use_keys_up",
    "Verif.Sampler.C40_keys_are_those_of_the_run",
    "Verif.Generate.C40_inventory_complete"
   ],
   "note": "Keys are distinct as derivations; includes the keys consumed by splits, and no key comes from one that a draw has used. The images depend on random numbers only through the draws in the inventory."
  },
  {
   "property": "C41",
   "status": "proved",
   "theorems": [
    "Verif.Sampler.C41_insists_on_images",
    "Verif.Sampler.C41_batches_unchanged"
   ],
   "note": "Conversion to float32 is not modelled."
  },
  {
   "property": "C42",
   "status": "partial",
   "theorems": [
    "Verif.Make.C42_builds_what_is_configured",
    "Verif.Make.C42_accepts_what_is_documented",
    "Verif.Make.C42_documented_errors_partial",
    "Verif.Make.C42_refuted",
    "Verif.Make.C42_refusals",
    "Verif.Whole.C42_real_needs_images"
   ],
   "note": "What is built is proved in full. The documented exceptions are incomplete: KeyError for keys the synthetic sampler needs, among them seed, which is documented as optional."
  },
  {
   "property": "C43",
   "status": "partial",
   "theorems": [
    "Verif.Make.C43_first_batch_partial",
    "Verif.Make.C43_mismatch_episodic",
    "Verif.Make.C43_mismatch_prefetch",
    "Verif.Make.C43_devices",
    "Verif.Make.C43_refuted"
   ],
   "note": "False when flow_fields_per_batch differs from batch_size under an episodic or prefetching scheduler, and when the devices do not divide the flow fields; proved otherwise."
  },
  {
   "property": "C44",
   "status": "partial",
   "theorems": [
    "Verif.Make.C44_episodes_partial",
    "Verif.Make.C44_refuted"
   ],
   "note": "False for the order of the files: from_config drops the key, so PRNGKey(0) is always used. The seed does determine the episodes."
  },
  {
   "property": "C45",
   "status": "partial",
   "theorems": [
    "Verif.Types.C45_accepts_documented_partial",
    "Verif.Types.C45_integers",
    "Verif.Types.C45_numbers",
    "Verif.Types.C45_refuted_nan",
    "Verif.Types.C45_refuted_type"
   ],
   "note": "Exact characterisation; NaN passes for dt and noise_gaussian_std, and non-numbers raise TypeError in fields compared without type check."
  },
  {
   "property": "C46",
   "status": "proved",
   "theorems": [
    "Verif.Types.C46_update",
    "Verif.Types.C46_update_nothing",
    "Verif.Types.C46_update_twice",
    "Verif.Types.C46_update_batch",
    "Verif.Types.C46_update_scheduler_data"
   ],
   "note": "Keywords that name no field are ignored."
  },
  {
   "property": "C47",
   "status": "proved",
   "theorems": [
    "Verif.Types.C47_batch_round_trip",
    "Verif.Types.C47_params_round_trip",
    "Verif.Types.C47_injective",
    "Verif.Types.C47_params_injective",
    "Verif.Types.C47_leaves"
   ],
   "note": "jax.tree_util is modelled as flattening of trees with left-to-right leaves."
  },
  {
   "property": "C48",
   "status": "partial",
   "theorems": [
    "Verif.Geometry.C48_window_inside_partial",
    "Verif.Geometry.C48_window_float_partial",
    "Verif.Geometry.C48_refuted"
   ],
   "note": "Proved in exact arithmetic; with Python floats the region can be one pixel smaller than the image (64 pixels at 49 pixels per unit), and it is proved to be never smaller than that."
  },
  {
   "property": "C49",
   "status": "partial",
   "theorems": [
    "Verif.Geometry.C49_origin_inside_partial",
    "Verif.Geometry.C49_refuted"
   ],
   "note": "Proved up to less than one pixel, and exactly when the declared speeds reach a whole number of pixels; false otherwise because sizes are truncated to pixels."
  },
  {
   "property": "C50",
   "status": "partial",
   "theorems": [
    "Verif.Geometry.C50_rejects_impossible_partial",
    "Verif.Geometry.C50_float_partial",
    "Verif.Geometry.C50_refuted"
   ],
   "note": "Proved in exact arithmetic; with Python floats proved up to a hundredth of a pixel, and a possible geometry at the limit is rejected."
  },
  {
   "property": "C51",
   "status": "proved",
   "theorems": [
    "Verif.Interp.C51_grid_points",
    "Verif.Interp.C51_cells",
    "Verif.Interp.C51_clamps",
    "Verif.Interp.C51_in_range",
    "Verif.Interp.C51_affine",
    "Verif.Interp.C51_linear",
    "Verif.Interp.C51_continuous"
   ],
   "note": "Exact arithmetic over any ordered field with a floor; cells plus clamping determine the function completely."
  },
  {
   "property": "C52",
   "status": "proved",
   "theorems": [
    "Verif.Interp.C52_grid_points",
    "Verif.Interp.C52_slices",
    "Verif.Interp.C52_clamps",
    "Verif.Interp.C52_in_range",
    "Verif.Interp.C52_constants",
    "Verif.Interp.C52_linear",
    "Verif.Interp.C52_affine"
   ],
   "note": "Exact arithmetic over any ordered field with a floor."
  },
  {
   "property": "C53",
   "status": "partial",
   "theorems": [
    "Verif.Apply.C53_each_particle",
    "Verif.Apply.C53_each_particle_volume",
    "Verif.Apply.C53_uniform_flow",
    "Verif.Apply.C53_speed_bound",
    "Verif.Apply.C53_accepted_processed_partial",
    "Verif.Apply.C53_refuted"
   ],
   "note": "Everything about the motion is proved; but every three-dimensional input accepted by the input check fails, because the check wants a flow of shape (H, W, 3) and the function one of shape (D, H, W, 3)."
  },
  {
   "property": "C54",
   "status": "proved",
   "theorems": [
    "Verif.Apply.C54_splat",
    "Verif.Apply.C54_total_le",
    "Verif.Apply.C54_total_eq",
    "Verif.Apply.C54_integer_shift",
    "Verif.Apply.C54_identity"
   ],
   "note": "Exact arithmetic."
  },
  {
   "property": "C55",
   "status": "proved",
   "theorems": [
    "Verif.Apply.C55_integer_shift",
    "Verif.Apply.C55_identity",
    "Verif.Apply.C55_in_range",
    "Verif.Apply.C55_sample_point"
   ],
   "note": "Exact arithmetic."
  },
  {
   "property": "C56",
   "status": "partial",
   "theorems": [
    "Verif.Apply.C56_callable_is_array",
    "Verif.Apply.C56_generator_partial",
    "Verif.Apply.C56_refuted"
   ],
   "note": "The array generator calls flow_f(1, row, column), the callable interface flow(t, column, row): the generated array is that of the callable with x and y exchanged."
  },
  {
   "property": "C57",
   "status": "proved",
   "theorems": [
    "Verif.Adapter.C57_tiled",
    "Verif.Adapter.C57_identity",
    "Verif.Adapter.C57_region"
   ],
   "note": "Exact arithmetic; the grids coincide means equal steps and a start on a grid point."
  },
  {
   "property": "C58",
   "status": "partial",
   "theorems": [
    "Verif.Adapter.C58_same_grid_partial",
    "Verif.Adapter.C58_uniform_partial",
    "Verif.Adapter.C58_close_partial",
    "Verif.Adapter.C58_refuted",
    "Verif.Adapter.C58_refuted_uniform",
    "Verif.Adapter.C58_refuted_float"
   ],
   "note": "Exact if flow grid and pixel grid have the same resolution, or the flow is uniform and the region a whole number of grid steps; within the variation of 1 + 2|q-1| grid steps in general; false otherwise, and with floats."
  },
  {
   "property": "C59",
   "status": "partial",
   "theorems": [
    "Verif.Histogram.C59_in_range",
    "Verif.Histogram.C59_monotone",
    "Verif.Histogram.C59_own_histogram_partial",
    "Verif.Histogram.C59_refuted"
   ],
   "note": "Range and monotonicity are proved for every monotone rounding. With the image's own histogram the result is the integer part of each pixel, so it is the identity only on integer-valued images."
  },
  {
   "property": "C60",
   "status": "proved",
   "theorems": [
    "Verif.LeafDirs.C60_leaf_dirs_exactly_once",
    "Verif.LeafDirs.C60_total_and_order_independent"
   ],
   "note": "Iteration order of Python sets is arbitrary; normpath and dirname are parameters."
  },
  {
   "property": "C61",
   "status": "partial",
   "theorems": [
    "Verif.Generate.C61_budget_partial",
    "Verif.Generate.C61_shown",
    "Verif.Generate.C61_float_partial",
    "Verif.Generate.C61_refuted"
   ],
   "note": "Proved in exact arithmetic; Python computes the number of allocated particles in float64 and JAX the number of shown ones in float32, and the latter can be larger; proved to be larger by at most one for up to two million particles."
  },
  {
   "property": "C62",
   "status": "proved",
   "theorems": [
    "Verif.Generate.C62_in_selected_range"
   ],
   "note": "For all draws in [0, 1) and arbitrary normal draws; hidden particles have intensity 0."
  },
  {
   "property": "C63",
   "status": "partial",
   "theorems": [
    "Verif.Generate.C63_pixels_partial",
    "Verif.Generate.C63_refuted",
    "Verif.Generate.C63_exactly"
   ],
   "note": "The range is proved in full; with a template histogram masked pixels are not black. C63_exactly: they are iff the share of dark pixels in the image is at most the share of black in the template."
  },
  {
   "property": "C64",
   "status": "proved",
   "theorems": [
    "Verif.Render.C64_footprint",
    "Verif.Render.expLike_real"
   ],
   "note": "Over any ordered field, for any positive strictly increasing function with value 1 at 0 in place of exp; the real exponential is one."
  },
  {
   "property": "C65",
   "status": "proved",
   "theorems": [
    "Verif.Render.C65_sum_of_light",
    "Verif.Render.C65_order",
    "Verif.Render.C65_hidden",
    "Verif.Render.C65_nonneg"
   ],
   "note": "The sum formula needs an image that can hold a patch; order and hiding hold for all sizes and roundings."
  },
  {
   "property": "C66",
   "status": "partial",
   "theorems": [
    "Verif.Render.C66_patch_inside_partial",
    "Verif.Render.C66_float_partial",
    "Verif.Render.C66_refuted_small",
    "Verif.Render.C66_refuted_float"
   ],
   "note": "Proved in exact arithmetic for images that can hold a patch; false for smaller ones (indices wrap around) and in float32 (one row or column falls outside and is dropped; proved: never more than one, and nothing wraps around)."
  },
  {
   "property": "C67",
   "status": "partial",
   "theorems": [
    "Verif.Sanity.C67_bounds_partial",
    "Verif.Sanity.C67_accepts",
    "Verif.Sanity.C67_refuted",
    "Verif.Sanity.C67_exactly",
    "Verif.Sanity.C67_iff"
   ],
   "note": "Proved for files without NaN; a file with NaN in a component is silently left out of the bounds of that component. C67_exactly: the bounds are those of the files without NaN in the component; C67_iff: the claim holds iff there is no NaN."
  },
  {
   "property": "C68",
   "status": "partial",
   "theorems": [
    "Verif.Sanity.C68_entries_partial",
    "Verif.Sanity.C68_file_list_partial",
    "Verif.Sanity.C68_refuted_file_list",
    "Verif.Sanity.C68_refuted_string",
    "Verif.Sanity.C68_refuted_none",
    "Verif.Sanity.C68_exactly",
    "Verif.Sanity.C68_iff"
   ],
   "note": "Proved for values whose text is read back as the value and for a file list with at least one item; a file list that is empty or a string is dropped and None becomes a string. C68_iff: nothing is lost iff every text is read back as its value and file_list, if there is one, is a list with at least one item."
  },
  {
   "property": "C69",
   "status": "proved",
   "theorems": [
    "Verif.Histogram.C69_follows_template"
   ],
   "note": "Exact arithmetic in the cumulative histograms."
  },
  {
   "property": "C70",
   "status": "partial",
   "theorems": [
    "Verif.Render.C70_true_positions_partial",
    "Verif.Render.C70_refuted"
   ],
   "note": "Proved for pixels more than two patch radii from the border of the region; false near the border, where particles are moved inwards."
  },
  {
   "property": "C71",
   "status": "partial",
   "theorems": [
    "Verif.Generate.C71_shape_partial",
    "Verif.Generate.C71_accepted_partial",
    "Verif.Generate.C71_float_partial",
    "Verif.Generate.C71_refuted"
   ],
   "note": "Proved in exact arithmetic; with floats an accepted configuration gives images of 63 rows instead of 64; proved: never more than one row and column short."
  },
  {
   "property": "C72",
   "status": "proved",
   "theorems": [
    "Verif.Generate.C72_still_flow"
   ],
   "note": "Exact arithmetic."
  },
  {
   "property": "C73",
   "status": "proved",
   "theorems": [
    "Verif.Generate.C73_shift"
   ],
   "note": "Exact arithmetic; C58 says for which flows every particle moves by the same displacement."
  },
  {
   "property": "C74",
   "status": "proved",
   "theorems": [
    "Verif.Sanity.C74_panel",
    "Verif.Sanity.C74_returns",
    "Verif.Sanity.C74_errors",
    "Verif.Sanity.C74_written"
   ],
   "note": "User input is a parameter."
  },
  {
   "property": "C75",
   "status": "partial",
   "theorems": [
    "Verif.Scripts.C75_partition_partial",
    "Verif.Scripts.C75_refuted",
    "Verif.Scripts.C75_first_refuted",
    "Verif.Scripts.C75_nothing_lost",
    "Verif.Scripts.C75_iff",
    "Verif.Scripts.C75_twice"
   ],
   "note": "Proved for ratios that are not negative, with Python floats, for lists of fewer than 2^53 / 100 items; a negative ratio passes the check of the command line and puts items in two lists. C75_iff: exactly when the lists are a partition, for all ratios and roundings. C75_nothing_lost: no item is ever lost; C75_twice: otherwise training and tuning share an item."
  },
  {
   "property": "C76",
   "status": "proved",
   "theorems": [
    "Verif.Scripts.C76_round_trip",
    "Verif.Scripts.C76_read_items_survive",
    "Verif.Scripts.C76_line_ends"
   ],
   "note": ""
  },
  {
   "property": "C77",
   "status": "partial",
   "theorems": [
    "Verif.Scripts.C77_one_split_partial",
    "Verif.Scripts.C77_exactly",
    "Verif.Scripts.C77_plain_name",
    "Verif.Scripts.C77_bare_name",
    "Verif.Scripts.C77_refuted"
   ],
   "note": "Proved for official lists whose lines are reduced to different names; false for files of the same name in two directories. C77_exactly says which splits every file is copied to, for any list."
  },
  {
   "property": "C78",
   "status": "partial",
   "theorems": [
    "Verif.Scripts.C78_numbering",
    "Verif.Scripts.C78_unpacked_partial",
    "Verif.Scripts.C78_exactly",
    "Verif.Scripts.C78_all_kept_iff",
    "Verif.Scripts.C78_refuted"
   ],
   "note": "Proved if at most one TFRecord goes to each directory; a second one replaces the files of the first. C78_exactly says what is in every file for any TFRecords, and C78_all_kept_iff when nothing is lost."
  },
  {
   "property": "C79",
   "status": "proved",
   "theorems": [
    "Verif.Scripts.C79_main"
   ],
   "note": "The run is that of the code after the sampler has been built; a shutdown that raises is not modelled."
  },
  {
   "property": "C80",
   "status": "partial",
   "theorems": [
    "Verif.Scripts.C80_packed_uniform_partial",
    "Verif.Pillow.C80_pillow_uniform_partial",
    "Verif.Pillow.C80_packed_direct_partial",
    "Verif.Pillow.C80_refuted"
   ],
   "note": "Proved for uniform flows, for any resampling that keeps constant images and for Pillow's bilinear filter in exact arithmetic, which does; and for all flows if the target shape is the original or the output shape. False for other flows and target shapes: packing at a coarse shape loses detail."
  },
  {
   "property": "C81",
   "status": "partial",
   "theorems": [
    "Verif.Scripts.C81_listed_packed_partial",
    "Verif.Scripts.C81_refuted"
   ],
   "note": "Proved for paths without white space and base names without the markers; false for a directory with a space in its name."
  },
  {
   "property": "C82",
   "status": "partial",
   "theorems": [
    "Verif.Stack.C82_buffering_invisible_partial",
    "Verif.Stack.C82_base_schedulers_partial",
    "Verif.Stack.C82_python311_partial",
    "Verif.Stack.C82_real_sampler_partial",
    "Verif.Stack.C82_real_base_partial",
    "Verif.Stack.C82_refuted_done",
    "Verif.Stack.C82_refuted_reset"
   ],
   "note": "Proved for next() and reset() under every interleaving without timeouts, without any difference before Python 3.12 and up to the done flags (None becomes all False) since then, and for resets that forget the position; next_episode() and full resets of a looping and shuffling scheduler differ."
  },
  {
   "property": "C83",
   "status": "partial",
   "theorems": [
    "Verif.Stack.C83_buffered_episodes_partial",
    "Verif.Stack.C83_base_schedulers_partial",
    "Verif.Stack.C83_real_sampler_partial",
    "Verif.Stack.C83_real_base_partial",
    "Verif.Stack.C83_refuted_first",
    "Verif.Stack.C83_refuted_reset"
   ],
   "note": "Proved under every interleaving without timeouts for histories that begin with next() and contain no full reset; next_episode() before the first batch and full resets differ."
  },
  {
   "property": "C84",
   "status": "proved",
   "theorems": [
    "Verif.Formats.C84_other_content",
    "Verif.Formats.C84_tree"
   ],
   "note": "The variables are those the readers return: SciPy drops axes of length one."
  },
  {
   "property": "C85",
   "status": "partial",
   "theorems": [
    "Verif.Formats.C85_versions_partial",
    "Verif.Formats.C85_refuted",
    "Verif.Formats.C85_refuted_row"
   ],
   "note": "MATLAB writes version 7.3 files with the axes reversed; the code then exchanges rows and columns, and flows of one row cannot be loaded from older versions at all. Proved what the relation is for square flows without resizing."
  },
  {
   "property": "C86",
   "status": "partial",
   "theorems": [
    "Verif.FormatInit.C86_mat_constructor",
    "Verif.FormatInit.C86_numpy_constructor",
    "Verif.FormatInit.C86_hdf5_constructor_partial",
    "Verif.FormatInit.C86_refuted"
   ],
   "note": "Proved for MAT and NumPy; the HDF5 scheduler checks the extension of the arguments instead of the expanded files and so rejects directories."
  },
  {
   "property": "C87",
   "status": "proved",
   "theorems": [
    "Verif.FormatInit.C87_one_sample"
   ],
   "note": ""
  },
  {
   "property": "C88",
   "status": "partial",
   "theorems": [
    "Verif.FormatInit.C88_temporal_order_partial",
    "Verif.FormatInit.C88_refuted",
    "Verif.FormatInit.C88_exactly"
   ],
   "note": "Proved if all numbers have the same number of digits; otherwise the order is lexicographic, 10 before 2. C88_exactly: numbers of any lengths are in order iff no smaller one, filled up with zeros to the digits of a larger, exceeds it."
  },
  {
   "property": "C89",
   "status": "partial",
   "theorems": [
    "Verif.Synthetic.device_generate",
    "Verif.Synthetic.C89_well_formed_partial",
    "Verif.Synthetic.C89_base_partial",
    "Verif.Synthetic.C89_episodic_partial",
    "Verif.Synthetic.C89_float_partial",
    "Verif.Synthetic.C89_refuted"
   ],
   "note": "Proved in exact arithmetic for every history, with base and episodic schedulers shown to deliver full batches; with floats images may be one row and one column short, never more."
  },
  {
   "property": "C90",
   "status": "partial",
   "theorems": [
    "Verif.Synthetic.C90_aligned_partial",
    "Verif.Synthetic.C90_exactly",
    "Verif.Synthetic.C90_refuted"
   ],
   "note": "Every pair has an entry if and only if there are as many flow fields as pairs (C90_exactly). Proved for flow_fields_per_batch = batch_size on any number of devices; with fewer flow fields mask and file names have flow_fields_per_batch entries only."
  },
  {
   "property": "C91",
   "status": "partial",
   "theorems": [
    "Verif.Synthetic.C91_ground_truth_partial",
    "Verif.Synthetic.C91_refuted"
   ],
   "note": "Exact arithmetic, a region of particles that is a whole number of grid steps. False otherwise (C91_refuted)."
  },
  {
   "property": "C92",
   "status": "partial",
   "theorems": [
    "Verif.MakeKeys.C92_independent_iff_partial",
    "Verif.MakeKeys.C92_refuted_shuffle",
    "Verif.MakeKeys.C92_refuted_devices"
   ],
   "note": "Exact characterisation of the configurations and histories with independent choices; refuted for seed 0 (the default) with shuffling, and for two devices with episodes, because the sampler starts from the key make has already split. Keys are compared as derivations."
  },
  {
   "property": "C93",
   "status": "partial",
   "theorems": [
    "Verif.FileList.C93_base",
    "Verif.FileList.C93_base_delivers",
    "Verif.FileList.C93_prefetch",
    "Verif.FileList.C93_episodic_forgets",
    "Verif.FileList.C93_refuted_episodic"
   ],
   "note": "Proved for the file schedulers and for these behind a prefetching one; false for the episodic scheduler, which keeps the directories found at construction and forgets the assignment."
  },
  {
   "property": "C94",
   "status": "partial",
   "theorems": [
    "Verif.Checks.C94_checks_partial",
    "Verif.Checks.C94_float_partial",
    "Verif.Checks.C94_refuted"
   ],
   "note": "Exact characterisation of what the checks reject; false for flow fields of three channels, reported flow fields without a row or column, windows ending beyond 512 pixels (image generation checks the default region), and with floats for regions one pixel short."
  },
  {
   "property": "C95",
   "status": "partial",
   "theorems": [
    "Verif.Checks.C95_debug_shifts_partial",
    "Verif.Checks.C95_refuted"
   ],
   "note": "False: the constructor consumes a flow batch, and nothing is spread over the devices. Proved for one device: everything is as without the debug mode, batches_per_flow_batch calls later."
  },
  {
   "property": "C96",
   "status": "proved",
   "theorems": [
    "Verif.SplitCopy.C96_copies_exactly"
   ],
   "note": ""
  },
  {
   "property": "C97",
   "status": "partial",
   "theorems": [
    "Verif.SplitCopy.C97_rerun_partial",
    "Verif.SplitCopy.C97_refuted",
    "Verif.SplitCopy.C97_exactly",
    "Verif.SplitCopy.C97_iff"
   ],
   "note": "Proved for any number of runs with the same lists; false if a later run has other lists (another seed): old copies are not removed, so a sample is in two splits. C97_exactly: after any runs a sample is where one of them has put it; C97_iff: the claim holds iff every earlier run's assignments are among the last one's."
  },
  {
   "property": "C98",
   "status": "partial",
   "theorems": [
    "Verif.Convert.C98_packs_all_partial",
    "Verif.Convert.C98_exactly",
    "Verif.Convert.C98_refuted"
   ],
   "note": "False if a sample has two flow files, as .flo and .mat: they are packed into the same file; proved otherwise. C98_exactly says which one is kept."
  },
  {
   "property": "C99",
   "status": "partial",
   "theorems": [
    "Verif.Convert.C99_script_partial",
    "Verif.Convert.C98_refuted"
   ],
   "note": "Under the condition of C98, which is needed (C98_refuted)."
  },
  {
   "property": "C100",
   "status": "partial",
   "theorems": [
    "Verif.ReadFlow.C100_flo_round_trip",
    "Verif.ReadFlow.C100_flo_truncated",
    "Verif.ReadFlow.C100_flo_accepts",
    "Verif.ReadFlow.C100_flo_refuted",
    "Verif.ReadFlow.C100_mat_partial",
    "Verif.ReadFlow.C100_refuted"
   ],
   "note": "Everything for .flo files with non-negative sides in the header; a header with a negative side is not rejected; for .mat files false only for flows with the components first that are two pixels wide."
  },
  {
   "property": "C101",
   "status": "partial",
   "theorems": [
    "Verif.SanityMain.C101_valid_partial",
    "Verif.SanityMain.C101_refuted"
   ],
   "note": "False: the script ignores scheduler_class, include_images, episode_length and buffer_size; proved for configurations that meet the documented requirements and use plain HDF5 files."
  },
  {
   "property": "C102",
   "status": "partial",
   "theorems": [
    "Verif.SanityMain.C102_refuted",
    "Verif.SanityMain.C102_second_run_partial"
   ],
   "note": "False for every configuration: main builds the sampler from the configuration loaded before the speeds were computed, so it ends with an error. Proved: the file is complete afterwards and the next run uses the computed speeds."
  },
  {
   "property": "C103",
   "status": "partial",
   "theorems": [
    "Verif.Crash.C103_rerun_partial",
    "Verif.Crash.C103_dataset",
    "Verif.Crash.C103_refuted"
   ],
   "note": "True for every crash in the extraction or the packing; false for every archive if the download is interrupted: the incomplete archive is never replaced."
  },
  {
   "property": "C104",
   "status": "partial",
   "theorems": [
    "Verif.Crash.C104_run_partial",
    "Verif.Crash.C104_runs_partial",
    "Verif.Crash.C104_refuted",
    "Verif.Crash.C104_refuted_crash"
   ],
   "note": "True for all sequences of uninterrupted runs whose downloads succeed or fail before the file is opened; false if a download breaks off or a run is interrupted."
  },
  {
   "property": "C105",
   "status": "partial",
   "theorems": [
    "Verif.Crash.C105_from_scratch",
    "Verif.Crash.C105_rerun_partial",
    "Verif.Crash.C105_refuted"
   ],
   "note": "True for every crash in the packing; false if download or extraction is interrupted: nothing more is ever downloaded or extracted."
  },
  {
   "property": "C106",
   "status": "proved",
   "theorems": [
    "Verif.TfRecord.C106_sample",
    "Verif.TfRecord.C106_skipped",
    "Verif.TfRecord.C106_loaded"
   ],
   "note": "For every side, 256 in the code; the value of a four-byte word is a parameter."
  },
  {
   "property": "C107",
   "status": "proved",
   "theorems": [
    "Verif.RealPipeline.C107_real_mat",
    "Verif.RealPipeline.C107_real_mat_looping",
    "Verif.RealPipeline.C107_real_mat_prefetched",
    "Verif.RealPipeline.C107_real_mat_looping_prefetched"
   ],
   "note": "Composition of the models of loader, scheduler, prefetching and sampler; conversion to float32 is left out, calls on the prefetching scheduler are those that return."
  },
  {
   "property": "C108",
   "status": "partial",
   "theorems": [
    "Verif.NumpyPipeline.C108_real_numpy_partial",
    "Verif.NumpyPipeline.C108_rest_is_lost"
   ],
   "note": "The pairs of all full batches are served as claimed. The incomplete rest is answered with ValueError and lost, because the padding of colour images uses one pad pair too few; refuted for every number of usable files that is not a multiple of the batch size."
  },
  {
   "property": "C109",
   "status": "proved",
   "theorems": [
    "Verif.SynthPipeline.C109_synthetic_looping",
    "Verif.SynthPipeline.C109_synthetic_ends",
    "Verif.SynthPipeline.C109_synthetic_looping_prefetched",
    "Verif.SynthPipeline.C109_synthetic_ends_prefetched"
   ],
   "note": "Also through a prefetching scheduler, under every interleaving without timeouts. For every generator of images, so also for that of Model/Synthetic; flow_fields_per_batch must be divisible by the number of devices (otherwise the sampler raises), and the file list is without repetition (C01_refuted)."
  },
  {
   "property": "C110",
   "status": "proved",
   "theorems": [
    "Verif.Whole.C110_h5_looping",
    "Verif.Whole.C110_h5_ends"
   ],
   "note": "Composition of all layers from make to the images; the file list is without repetition, flow_fields_per_batch is divisible by the number of devices, and infinite or NaN parameters are outside the model. WellFormed holds for exact arithmetic (C89_refuted for floats)."
  },
  {
   "property": "C111",
   "status": "proved",
   "theorems": [
    "Verif.Whole.C111_mat_ends",
    "Verif.Whole.C111_mat_looping"
   ],
   "note": "Composition of all layers from make to the batches; the file list is without repetition. Resizing is a parameter of the model (see C80)."
  },
  {
   "property": "C112",
   "status": "partial",
   "theorems": [
    "Verif.Glob.C112_directories_partial",
    "Verif.Glob.C112_mat_directories_partial",
    "Verif.Glob.C112_numpy_directories_partial",
    "Verif.Glob.C112_hidden_refuted",
    "Verif.Glob.C112_named_directory_refuted",
    "Verif.Glob.C112_h5_directory_refuted",
    "Verif.Glob.C112_numpy_depth_refuted",
    "Verif.Glob.C112_h5_directories_partial"
   ],
   "note": "Holds for the base constructor, and so for MAT at any depth and for NumPy directly in the directory, for trees without hidden names and without directories that match the pattern. Refuted: hidden files and directories are skipped; a directory named *.mat makes the constructor fail; the HDF5 scheduler refuses directories; the NumPy scheduler does not look into subdirectories. Paths with the characters *, ? and [ are outside the model. Directories whose own names end in .h5 are accepted by the HDF5 scheduler, at any depth."
  },
  {
   "property": "C113",
   "status": "partial",
   "theorems": [
    "Verif.Whole.C113_exact_partial",
    "Verif.Whole.C113_float_partial",
    "Verif.Whole.C113_real_iff"
   ],
   "note": "Equivalence in exact arithmetic for synthetic images and without restriction for real images; with floats, complete configurations whose window fits with a hundredth of a pixel to spare are accepted (at the very limit possible geometries are rejected, C50_refuted). Infinite and NaN parameters are outside the model."
  },
  {
   "property": "C114",
   "status": "partial",
   "theorems": [
    "Verif.Whole.C114_units_partial",
    "Verif.Whole.C114_units_refuted",
    "Verif.Documented.C114_shipped_mat_partial",
    "Verif.Documented.C114_shipped_h5_partial",
    "Verif.Documented.C114_examples_refuted",
    "Verif.Documented.C114_test_data_refuted",
    "Verif.Documented.C114_tutorial_refuted",
    "Verif.Documented.C114_npy_refuted"
   ],
   "note": "Proved for main, cylinder, Jassal and JHTDB with Python's floats. Refuted for the configurations of the tutorial and of docs/examples, and for config/test_data.yaml: none of them is ever accepted."
  },
  {
   "property": "C115",
   "status": "proved",
   "theorems": [
    "Verif.Prefetch.C115_one_worker",
    "Verif.Prefetch.C115_same_as_one_worker",
    "Verif.Prefetch.C115_one_worker_possible",
    "Verif.Prefetch.C115_is_running"
   ],
   "note": "For the join without time limit, as in the code; the abandoned threads are part of the state and could move."
  },
  {
   "property": "C116",
   "status": "proved",
   "theorems": [
    "Verif.Whole.C116_mat",
    "Verif.Whole.C116_npy"
   ],
   "note": "For distinct files with arrays of at most three axes whose number of entries fits their shape, and flow_fields_per_batch a multiple of the number of devices (otherwise C36/C37). Pillow's resampling is a parameter that returns an array of the requested size."
  },
  {
   "property": "C117",
   "status": "partial",
   "theorems": [
    "Verif.Whole.C117_npy",
    "Verif.Whole.C117_h5",
    "Verif.Whole.C117_mat_scaled",
    "Verif.Whole.C117_mat_partial",
    "Verif.Whole.C117_mat_refuted"
   ],
   "note": "Proved for HDF5 and NumPy files in exact arithmetic. For MAT files only for grids of 256 x 256: the default output_shape of the MAT scheduler rescales the velocities of any other grid by 256 over its width and height, although the flow field is in physical units there (refuted with a grid of 512 x 1024). Pillow's resampling is assumed to keep constant images constant."
  },
  {
   "property": "C118",
   "status": "partial",
   "theorems": [
    "Verif.Adapter.C118_place_partial",
    "Verif.Adapter.C118_exact_partial",
    "Verif.Adapter.C118_refuted",
    "Verif.Adapter.C118_refuted_padding",
    "Verif.Adapter.C118_order_refuted"
   ],
   "note": "In exact arithmetic: for every accepted geometry the reported flow is that of a point that lies before the right one by less than a pixel, plus less than a grid step where the flow field is padded, plus what the steps of the two grids differ by; exact for whole-pixel displacements and equal steps. Refuted: the pixel is lost for other displacements, two pixels and more with padding, and the offset is (y0, x0), not (x0, y0) as in the tutorial."
  },
  {
   "property": "C119",
   "status": "partial",
   "theorems": [
    "Verif.Whole.C119_built",
    "Verif.Whole.C119_synthetic_partial",
    "Verif.Whole.C119_real_partial",
    "Verif.Whole.C119_mismatch",
    "Verif.Whole.C119_refuted"
   ],
   "note": "Construction is proved in full: make with the buffer is make without it, with the prefetching scheduler put in between. Histories agree for real images, and for synthetic images if flow_fields_per_batch equals batch_size, up to done flags (False instead of absent since Python 3.12); otherwise the claim is false: every next() raises ValueError, whatever the worker does (refuted, with a configuration that works without the buffer). Left out: reset of a looping shuffling scheduler (C82_refuted_reset), next_episode since Python 3.12 (C82_refuted_done), timeouts while the worker is alive."
  },
  {
   "property": "C120",
   "status": "partial",
   "theorems": [
    "Verif.Whole.C120_synthetic_partial",
    "Verif.Whole.C120_real_partial",
    "Verif.Whole.C120_mismatch",
    "Verif.Whole.C120_disjoint_suffices",
    "Verif.Whole.C120_single_suffices"
   ],
   "note": "Every history of calls refines the abstract player of Spec/Episodes.lean, from the dictionary or YAML file to the batches, for MAT files (the only ones the episodic scheduler lists) without buffer. Hypotheses: randomize off, every frame readable, no file directly after itself in the queue (each refuted otherwise: C22); for synthetic images flow_fields_per_batch = batch_size, without which every next() raises ValueError (C120_mismatch). Two sufficient conditions for the third are given."
  },
  {
   "property": "C121",
   "status": "partial",
   "theorems": [
    "Verif.Whole.C121_built",
    "Verif.Whole.C121_synthetic_partial",
    "Verif.Whole.C121_real_partial",
    "Verif.Whole.C121_refuted"
   ],
   "note": "What make builds is settled for all configurations (C121_built). The two behaviour theorems give the same outcomes under every interleaving without timeouts, and that the calls can return, for histories that begin with next() and contain no full reset (refuted otherwise: C83), with the hypotheses of C120 and batches_per_flow_batch = 1. For other values the claim is false (C121_refuted): the sampler replaces the value by 1 only if its scheduler is the episodic one itself."
  },
  {
   "property": "C122",
   "status": "proved",
   "theorems": [
    "Verif.Single.C122_bilinear",
    "Verif.Single.C122_trilinear",
    "Verif.Single.C122_range_refuted"
   ],
   "note": "For every rounding with relative error at most 2^-24 per operation (hardware_rounds: binary32 with any fusing is one). Overflow, subnormal numbers and reordered sums are not modelled. C122_range_refuted shows that some error is unavoidable: equal entries are not reproduced exactly, on either side."
  },
  {
   "property": "C123",
   "status": "proved",
   "theorems": [
    "Verif.Single.C123_motion",
    "Verif.Single.C123_particle"
   ],
   "note": "Same rounding model as C122; the scale factors come from Python floats."
  },
  {
   "property": "C124",
   "status": "partial",
   "theorems": [
    "Verif.Single.C124_still_partial",
    "Verif.Single.C124_still_close",
    "Verif.Single.C124_refuted",
    "Verif.Single.C124_still_powers_partial"
   ],
   "note": "True if the flow on the region has one grid step per pixel; in general the motion is at most 5 rounding errors of the region's size, and the images can differ (C124_refuted: accepted configuration, possible draw). C72 is the statement in exact arithmetic. C124_still_powers_partial covers every number of grid steps per pixel that is a power of two."
  },
  {
   "property": "C125",
   "status": "proved",
   "theorems": [
    "Verif.Single.C125_in_range",
    "Verif.Single.C125_positions"
   ],
   "note": "Draws are multiples of 2^-23 below 1, as jax.random.uniform makes them from 23 random bits."
  },
  {
   "property": "C126",
   "status": "partial",
   "theorems": [
    "Verif.ForLoop.C126_for_statement",
    "Verif.ForLoop.C126_break",
    "Verif.ForLoop.C126_goes_on",
    "Verif.Whole.C126_h5_ends",
    "Verif.Whole.C126_h5_endless",
    "Verif.Whole.C126_once",
    "Verif.Whole.C126_endless",
    "Verif.Whole.C126_real_ends",
    "Verif.Whole.C126_real_endless",
    "Verif.ForLoop.C126_buffered",
    "Verif.ForLoop.C126_real_buffered",
    "Verif.ForLoop.C126_buffered_episodes",
    "Verif.ForLoop.C126_real_buffered_episodes",
    "Verif.Whole.C126_episodes_refuted",
    "Verif.Whole.C126_real_episodes_refuted"
   ],
   "note": "True without episodes. False with episodes: the loop is left by EpisodeEnd, which is not a StopIteration, after the batches of the episode (the two theorems _refuted). With a buffer a for statement sees what it sees without, under the conditions of C119 and C121 and every interleaving."
  },
  {
   "property": "C127",
   "status": "partial",
   "theorems": [
    "Verif.Iteration.C127_samplers_partial",
    "Verif.Iteration.C127_refuted",
    "Verif.Iteration.C127_counter_refuted"
   ],
   "note": "True for samplers. False for every scheduler: the classes define __iter__ but no __next__, so that both next and the for statement raise TypeError; the for statement moreover resets the step counter of the episodic scheduler."
  },
  {
   "property": "C128",
   "status": "proved",
   "theorems": [
    "Verif.Saved.C128_names",
    "Verif.Saved.C128_saved",
    "Verif.Saved.C128_loop"
   ],
   "note": "What a run that is cut short leaves behind is C191."
  },
  {
   "property": "C129",
   "status": "partial",
   "theorems": [
    "Verif.Command.C129_ratio_read",
    "Verif.Command.C129_shape_read",
    "Verif.Command.C129_wrong_ratio",
    "Verif.Command.C129_status_partial",
    "Verif.Command.C129_shape_refuted",
    "Verif.Command.C129_useless_shape_refuted",
    "Verif.Command.C129_message_refuted"
   ],
   "note": "True for the ratio. False for the target shape: a malformed one is noticed only after the lists have been overwritten and leads to status 0; numbers that are not two positive ones make every triplet fail, silently and with status 0. Every later error is reported as a wrong ratio."
  },
  {
   "property": "C130",
   "status": "partial",
   "theorems": [
    "Verif.Prefetch.C130_shutdown_returns",
    "Verif.Prefetch.C130_few_more_partial",
    "Verif.Prefetch.C130_order_partial",
    "Verif.Prefetch.C130_refuted",
    "Verif.Prefetch.C130_refuted_resumes"
   ],
   "note": "False: batches left in the queue are still delivered after shutdown, one having been thrown away, and a batch may even follow a StopIteration. Proved: shutdown does not wait, at most buffer_size batches follow, the wrapped scheduler is asked at most once more, and the order is kept."
  },
  {
   "property": "C131",
   "status": "partial",
   "theorems": [
    "Verif.Shutdown.C131_made_partial",
    "Verif.Shutdown.C131_exactly_partial",
    "Verif.Shutdown.C131_refuted"
   ],
   "note": "True for every scheduler that make builds; false for nestings with a prefetching scheduler inside another layer, because neither wrapper passes the call on."
  },
  {
   "property": "C132",
   "status": "proved",
   "theorems": [
    "Verif.Pillow.C132_loaded_range",
    "Verif.Pillow.C132_packed_range"
   ],
   "note": "With Pillow's bilinear filter in exact arithmetic (Model/Pillow.lean); the library itself rounds to binary32."
  },
  {
   "property": "C133",
   "status": "proved",
   "theorems": [
    "Verif.Whole.C133_npy",
    "Verif.Whole.C133_h5",
    "Verif.Whole.C133_h5_once",
    "Verif.Whole.C133_mat"
   ],
   "note": "Interpolation in exact arithmetic, the geometry with any rounding; MAT files with Pillow's bilinear filter. Looping samplers and single passes."
  },
  {
   "property": "C134",
   "status": "partial",
   "theorems": [
    "Verif.Synthetic.C134_true_light_partial",
    "Verif.Synthetic.C134_refuted"
   ],
   "note": "Holds for all pixels up to the upper and left border, and at the lower and right border where the declared speeds make the region go on by a patch; false otherwise, because the region is enlarged upwards and to the left only. Exact arithmetic, without noise, mask and histogram."
  },
  {
   "property": "C135",
   "status": "partial",
   "theorems": [
    "Verif.Units.C135_exact_partial",
    "Verif.Units.C135_float_partial",
    "Verif.Units.C135_refuted"
   ],
   "note": "Any factors in exact arithmetic; powers of two with the geometry in binary64 and binary32 (interpolation and motion in exact arithmetic). Other factors can change the region by a pixel through rounding."
  },
  {
   "property": "C136",
   "status": "proved",
   "theorems": [
    "Verif.Units.C136_output_units"
   ],
   "note": ""
  },
  {
   "property": "C137",
   "status": "proved",
   "theorems": [
    "Verif.Single.C137_reported",
    "Verif.Single.C137_region",
    "Verif.Single.C137_uniform",
    "Verif.Single.C137_range"
   ],
   "note": "Same rounding model as C122; what Python computes from the static arguments is rounded to 2^-53. jnp.linspace is modelled as jax implements it. C137_uniform says the uniform case outright and C137_range bounds the reported flow by the stored values."
  },
  {
   "property": "C138",
   "status": "partial",
   "theorems": [
    "Verif.Single.C138_motion_partial"
   ],
   "note": "Same rounding model. Proved for regions that are a whole number of grid steps long (counted right by Python's floats); otherwise the scales disagree already in exact arithmetic (C58_refuted)."
  },
  {
   "property": "C139",
   "status": "proved",
   "theorems": [
    "Verif.Looks.C139_mask"
   ],
   "note": "Masks are arrays here; that the file of the configuration holds zeros and ones is checked by from_config (C43)."
  },
  {
   "property": "C140",
   "status": "proved",
   "theorems": [
    "Verif.Looks.C140_looks"
   ],
   "note": "Both samplers are supposed to be accepted. Number of particles, diameters and hiding are not among what may differ: they take part in the margin around the images."
  },
  {
   "property": "C141",
   "status": "proved",
   "theorems": [
    "Verif.Options.C141_keys",
    "Verif.Options.C141_real",
    "Verif.Options.C141_ignored",
    "Verif.Options.C141_order",
    "Verif.Options.C141_each"
   ],
   "note": "Configurations given as dictionaries with the keys make uses being strings; the YAML loader is outside the model."
  },
  {
   "property": "C142",
   "status": "partial",
   "theorems": [
    "Verif.Devices.C142_devices_partial",
    "Verif.Devices.C142_synthetic_partial",
    "Verif.Devices.C142_refuted",
    "Verif.Devices.C142_exactly"
   ],
   "note": "Proved with as many flow fields as images per batch. With fewer the flow fields come in another order on several devices (C142_refuted). C142_exactly: for different flow fields the order is the same iff the numbers of devices are or there are as many flow fields as images."
  },
  {
   "property": "C143",
   "status": "proved",
   "theorems": [
    "Verif.Sampler.C143_reset_self",
    "Verif.Sampler.C143_reset_fails"
   ],
   "note": ""
  },
  {
   "property": "C144",
   "status": "proved",
   "theorems": [
    "Verif.Generate.C144_monotone",
    "Verif.Generate.C144_separate",
    "Verif.Generate.C144_probability",
    "Verif.Synthetic.C144_black",
    "Verif.Synthetic.C144_always",
    "Verif.Synthetic.C144_own_image"
   ],
   "note": "C144_probability is about one uniform draw, all others being given: that JAX's draws are uniform and independent is outside the model. Monotonicity supposes intensities and mask not to be negative."
  },
  {
   "property": "C145",
   "status": "proved",
   "theorems": [
    "Verif.Changing.C145_as_if_still",
    "Verif.Changing.C145_delivered",
    "Verif.Changing.C145_reset"
   ],
   "note": "A file changes between openings, not while one call of load_file reads it."
  },
  {
   "property": "C146",
   "status": "proved",
   "theorems": [
    "Verif.Changing.C146_once_per_pass"
   ],
   "note": ""
  },
  {
   "property": "C147",
   "status": "partial",
   "theorems": [
    "Verif.SanityCrash.C147_nothing_foreign_partial",
    "Verif.SanityCrash.C147_noticed",
    "Verif.SanityCrash.C147_refuted",
    "Verif.SanityCrash.C147_refuted_empty",
    "Verif.SanityCrash.C147_unnoticed"
   ],
   "note": "The file is emptied and written in place: a stop loses keys, all of the file, or the last files of the list, the last without being noticed. Proved: keys that are left have their new value, except that of one torn line; a stop before the first file of the list is noticed."
  },
  {
   "property": "C148",
   "status": "proved",
   "theorems": [
    "Verif.Superposition.C148_superposition"
   ],
   "note": "In the exact arithmetic of the interpolation; the geometry may be rounded in any way. C122 bounds what single precision does to the interpolation."
  },
  {
   "property": "C149",
   "status": "proved",
   "theorems": [
    "Verif.Superposition.C149_first_images"
   ],
   "note": "For any rounding."
  },
  {
   "property": "C150",
   "status": "proved",
   "theorems": [
    "Verif.Unseen.C150_only_around"
   ],
   "note": "In exact arithmetic, for finite velocities."
  },
  {
   "property": "C151",
   "status": "proved",
   "theorems": [
    "Verif.Types.C151_call",
    "Verif.Types.C151_defaults",
    "Verif.Types.C151_misspelt"
   ],
   "note": "The binding of arguments is that of the __init__ the dataclass decorator makes."
  },
  {
   "property": "C152",
   "status": "partial",
   "theorems": [
    "Verif.FromConfig.C152_options_partial",
    "Verif.FromConfig.C152_constructor_partial",
    "Verif.FromConfig.C152_ignored",
    "Verif.FromConfig.C152_real",
    "Verif.FromConfig.C152_refuted_loop",
    "Verif.FromConfig.C152_refuted_key"
   ],
   "note": "Options that are given are honoured, except key, which all three methods ignore. Left out, loop is True for HDF5 and NumPy files, False for MAT files, and False for all constructors. Names that are no options are ignored."
  },
  {
   "property": "C153",
   "status": "proved",
   "theorems": [
    "Verif.Synthetic.C153_more",
    "Verif.Synthetic.C153_other"
   ],
   "note": "Exact arithmetic for pixel values; any rounding of positions and densities. Without histogram: matching replaces pixel values."
  },
  {
   "property": "C154",
   "status": "proved",
   "theorems": [
    "Verif.Synthetic.C154_brighter",
    "Verif.Synthetic.C154_scaled"
   ],
   "note": "Exact arithmetic for pixel values; any rounding of positions and densities. Without histogram: matching replaces pixel values."
  },
  {
   "property": "C155",
   "status": "proved",
   "theorems": [
    "Verif.Synthetic.C155_denser"
   ],
   "note": "Exact arithmetic for pixel values; any monotone rounding of densities. If neither particles are hidden nor the density varies, the region of the particles may change with the bounds (C134)."
  },
  {
   "property": "C156",
   "status": "proved",
   "theorems": [
    "Verif.Whole.C156_real",
    "Verif.Whole.C156_h5",
    "Verif.Whole.C156_mat",
    "Verif.Whole.C156_npy"
   ],
   "note": "Refinement to the reader of Spec/Reader.lean. File names without repetition and one grid size; the number of devices divides flow_fields_per_batch. With a buffer, compose with C119. The reader shows the last samples again after StopIteration, as the code does (C35)."
  },
  {
   "property": "C157",
   "status": "partial",
   "theorems": [
    "Verif.Prefetch.C157_when",
    "Verif.Prefetch.C157_finalizer",
    "Verif.Prefetch.C157_half_built",
    "Verif.Prefetch.C157_forgotten_partial",
    "Verif.Prefetch.C157_refuted"
   ],
   "note": "False for every wrapped scheduler that never ends: the thread refers to the scheduler it works for, so that __del__ is not called while it is alive. Proved exactly when it is called: the remaining batches fit into the buffer. The end of the interpreter is not modelled."
  },
  {
   "property": "C158",
   "status": "proved",
   "theorems": [
    "Verif.Timed.C158_never_late",
    "Verif.Timed.C158_default",
    "Verif.Timed.C158_first",
    "Verif.Timed.C158_first_default",
    "Verif.Timed.C158_sharp"
   ],
   "note": "The speeds are assumptions on the machine and on the wrapped scheduler, stated in Spec/Timed.lean. This is what the nondeterministic timeouts of C32 leave open. C158_sharp: the bound cannot be improved."
  },
  {
   "property": "C159",
   "status": "proved",
   "theorems": [
    "Verif.Timed.C159_complete",
    "Verif.Timed.C159_sharp"
   ],
   "note": "The unconditional form of C25 and C30 under assumptions on time. C159_sharp: the bound on the user's pauses cannot be improved."
  },
  {
   "property": "C160",
   "status": "proved",
   "theorems": [
    "Verif.Timed.C160_aligned_in_time",
    "Verif.Timed.C160_slow_refuted"
   ],
   "note": "The form of C29 under assumptions on time. The factor L*(2*load + 4*step) is sufficient, not the best possible. C160_slow_refuted: with two seconds per batch it fails."
  },
  {
   "property": "C161",
   "status": "proved",
   "theorems": [
    "Verif.Timed.C161_calls_return"
   ],
   "note": "In reset, the time of the wrapped scheduler's own reset after the join is not counted. That only finitely many steps are made in a bounded time is not part of the statement."
  },
  {
   "property": "C162",
   "status": "partial",
   "theorems": [
    "Verif.Timed.C162_shutdown_ends_partial",
    "Verif.Timed.C162_slow_refuted"
   ],
   "note": "Missing: a buffer of one batch, or a queue that is full when shutdown() is called; then the worker can stay blocked for ever (C31_refuted). For batches that take as long as the join waits it is false."
  },
  {
   "property": "C163",
   "status": "partial",
   "theorems": [
    "Verif.Prefetch.C163_each_once_partial",
    "Verif.Prefetch.C163_started_once",
    "Verif.Prefetch.C163_told_once",
    "Verif.Prefetch.C163_stuck",
    "Verif.Prefetch.C163_refuted_start",
    "Verif.Prefetch.C163_refuted_end",
    "Verif.Prefetch.C163_refuted_episodes",
    "Verif.Prefetch.C163_refuted_count",
    "Verif.Prefetch.C163_turns",
    "Verif.Prefetch.C163_batch_size"
   ],
   "note": "Each batch to one thread and in order, for every schedule; no RuntimeError once one thread has been answered; whoever is stuck waits for a worker that has ended; episodes have the right length if calls do not overlap. False: two first calls at the same time, the end of the stream for all threads but one, and the length of episodes."
  },
  {
   "property": "C164",
   "status": "partial",
   "theorems": [
    "Verif.Missing.C164_reported_partial",
    "Verif.Missing.C164_unaffected",
    "Verif.Missing.C164_between",
    "Verif.Missing.C164_batch",
    "Verif.Missing.C164_present",
    "Verif.Missing.C164_smears",
    "Verif.Missing.C164_refuted"
   ],
   "note": "Exact characterisation; it is the claim for places between the grid lines. On grid lines it is false: neighbours with weight zero count, since 0 * NaN is NaN."
  },
  {
   "property": "C165",
   "status": "partial",
   "theorems": [
    "Verif.Base.C165_harmless_partial",
    "Verif.Base.C165_negative",
    "Verif.Base.C165_zero_once",
    "Verif.Base.C165_refuted_loop"
   ],
   "note": "Proved for negative numbers, and for zero if the scheduler does not loop. A looping scheduler that is asked for no samples restarts its stream and then raises ValueError."
  },
  {
   "property": "C166",
   "status": "proved",
   "theorems": [
    "Verif.Render.C166_unclipped",
    "Verif.Render.C166_pixel",
    "Verif.Render.C166_two_runs",
    "Verif.Render.C166_sequential",
    "Verif.Render.C166_refuted_bits"
   ],
   "note": "That a contribution is computed with a relative error of at most d, at the pixel of exact arithmetic with rounded positions, is an assumption; the error of the device's exponential is not modelled. C166_refuted_bits: in single precision two orders can differ in the last bit."
  },
  {
   "property": "C167",
   "status": "partial",
   "theorems": [
    "Verif.NonFinite.C167_rejected_partial",
    "Verif.NonFinite.C167_exceptions",
    "Verif.NonFinite.C167_finite",
    "Verif.NonFinite.C167_infinite_speed",
    "Verif.NonFinite.C167_refuted_nan",
    "Verif.NonFinite.C167_refuted_size",
    "Verif.NonFinite.C167_refuted_exception"
   ],
   "note": "Proved for everything but speeds that are NaN, which pass as zero, and an infinite size of the flow field, which is accepted and makes the grid resolution zero. Some infinite values raise OverflowError instead of ValueError. C167_finite: for finite values it is the constructor of C48-C50."
  },
  {
   "property": "C168",
   "status": "proved",
   "theorems": [
    "Verif.Axes.C168_pipeline",
    "Verif.Axes.C168_geometry",
    "Verif.Axes.C168_adapter",
    "Verif.Axes.C168_motion",
    "Verif.Axes.C168_image",
    "Verif.Axes.C168_interpolation",
    "Verif.Axes.C168_backward",
    "Verif.Axes.C168_forward"
   ],
   "note": "For given particles, before noise, mask and histogram. Exact arithmetic in the flow fields and intensities: in floating point the order of additions differs between the axes. Drawing particles does not treat the axes alike: the second diameter is drawn around the first."
  },
  {
   "property": "C169",
   "status": "partial",
   "theorems": [
    "Verif.Missing.C169_first",
    "Verif.Missing.C169_second_partial",
    "Verif.Missing.C169_dropped",
    "Verif.Missing.C169_refuted"
   ],
   "note": "All but the last part: pixels can be NaN. C169_second_partial says which, for every conversion of NaN to an integer; C169_dropped: none on devices whose conversion is far outside the image. Without a histogram; infinities are not modelled."
  },
  {
   "property": "C170",
   "status": "partial",
   "theorems": [
    "Verif.Append.C170_queue",
    "Verif.Append.C170_loop",
    "Verif.Append.C170_prefetch_forgets",
    "Verif.Append.C170_refuted_prefetch",
    "Verif.Append.C170_refuted_again"
   ],
   "note": "Holds for file schedulers and files that are not in the list yet (C170_queue: any history, not looping; C170_loop: one addition at any time, looping). False behind a prefetching scheduler whose worker has ended, and for a file that was the last one. The episodic scheduler forgets assignments altogether (C93)."
  },
  {
   "property": "C171",
   "status": "partial",
   "theorems": [
    "Verif.Concurrent.C171_queue",
    "Verif.Concurrent.C171_loop",
    "Verif.Concurrent.C171_alone",
    "Verif.Concurrent.C171_refuted_shorter",
    "Verif.Concurrent.C171_refuted_shuffle"
   ],
   "note": "Proved for schedulers that do not shuffle (C171_queue; C171_loop if they loop), for files not yet in the list, and for calls that return (another thread that keeps adding unreadable files can keep a call from returning). False for schedulers that shuffle (files added during the shuffle are lost) and for lists that are not longer (IndexError). Changes at other moments than the reads of the list cannot be told apart from these; C171_alone ties the model to that of the other properties."
  },
  {
   "property": "C172",
   "status": "partial",
   "theorems": [
    "Verif.Several.C172_divided",
    "Verif.Several.C172_reset",
    "Verif.Several.C172_refuted_reset",
    "Verif.Several.C172_refuted_episodes"
   ],
   "note": "C172_divided: proved for synthetic samplers on schedulers without episodes and histories without a reset of the scheduler. reset() of one sampler starts the scheduler of all again, so that another is given what it has had (C172_refuted_reset); the steps of an episode are counted for all samplers together (C172_refuted_episodes). Calls are taken one after the other: next() of a sampler has no lock."
  },
  {
   "property": "C173",
   "status": "partial",
   "theorems": [
    "Verif.HistogramSingle.C173_exact",
    "Verif.HistogramSingle.C173_own",
    "Verif.HistogramSingle.C173_follows",
    "Verif.HistogramSingle.C173_count",
    "Verif.HistogramSingle.C173_refuted"
   ],
   "note": "C173_exact, C173_own and C173_follows: proved for images of up to 2^24 pixels (4096 x 4096). False for larger ones: a count in float32 made one by one ends at 2^24 (C173_count), and an image of 8192 x 6144 pixels loses its black pixels by its own histogram (C173_refuted). Division is taken to be rounded to nearest."
  },
  {
   "property": "C174",
   "status": "partial",
   "theorems": [
    "Verif.SanitySpeeds.C174_displacements",
    "Verif.SanitySpeeds.C174_origin_partial",
    "Verif.SanitySpeeds.C174_origin_fits",
    "Verif.SanitySpeeds.C174_stretch",
    "Verif.SanitySpeeds.C174_refuted"
   ],
   "note": "C174_origin_fits: proved if the region is a whole number of grid steps and the largest displacements are whole pixels. In general a particle can start outside: by less than one pixel (C49) plus what the stretch adds to the largest displacement (C174_origin_partial), where the stretch is the number of grid steps divided by the integer below (C174_stretch). False without the margin (C174_refuted). In exact arithmetic."
  },
  {
   "property": "C175",
   "status": "partial",
   "theorems": [
    "Verif.Interrupt.C175_resumes_partial",
    "Verif.Interrupt.C175_history",
    "Verif.Interrupt.C175_recovers",
    "Verif.Interrupt.C175_agrees",
    "Verif.Interrupt.C175_refuted_skips",
    "Verif.Interrupt.C175_refuted_stuck"
   ],
   "note": "Proved for every interruption of _get_next except in two places: while the scheduler starts over (reset), and between the assignments of _cached_file and _slice_idx. In the second one flow fields are skipped (C175_refuted_skips), in the first one a scheduler with one file may fail until it is reset (C175_refuted_stuck). A reset repairs all of this (C175_recovers). The steps of the machine are those of the model of C01 ff. (C175_agrees). Interruptions inside load_file and get_next_slice, which store nothing, are interruptions before them."
  },
  {
   "property": "C176",
   "status": "partial",
   "theorems": [
    "Verif.InterruptSampler.C176_resumes_partial",
    "Verif.InterruptSampler.C176_keys",
    "Verif.InterruptSampler.C176_keys_differ",
    "Verif.InterruptSampler.C176_recovers",
    "Verif.InterruptSampler.C176_agrees",
    "Verif.InterruptSampler.C176_refuted_stale",
    "Verif.InterruptSampler.C176_refuted_raw",
    "Verif.InterruptSampler.C176_refuted_lost"
   ],
   "note": "Proved for every interruption outside the exchange of the flow batch. Inside it the code disagrees: interrupted while it waits for the scheduler, the next call returns one more batch of the old flow fields (C176_refuted_stale); interrupted before the adapter has run, it returns images of unadapted flow fields with the reported flow of the old ones (C176_refuted_raw); and the last flow batch of an episode is lost when the call that fetched it is interrupted (C176_refuted_lost). That keys are never used twice holds for interruptions anywhere (C176_keys, C176_keys_differ), and so does the recovery by reset (C176_recovers). The steps of the machine are those of the model of the sampler (C176_agrees)."
  },
  {
   "property": "C177",
   "status": "partial",
   "theorems": [
    "Verif.Prefetch.C177_loses_one_partial",
    "Verif.Prefetch.C177_recovers",
    "Verif.Prefetch.C177_no_runtime_error",
    "Verif.Prefetch.C177_agrees",
    "Verif.Prefetch.C177_refuted_start",
    "Verif.Prefetch.C177_refuted_reset",
    "Verif.Prefetch.C177_refuted_runtime",
    "Verif.Prefetch.C177_refuted_episode"
   ],
   "note": "Proved: order, no repetition and at most one batch lost per interruption of get_batch and next_episode; no RuntimeError unless reset was called; the recovery by reset, without deadlock, after interruptions anywhere. False: a first call interrupted between _started = True and the start of the thread leaves a scheduler that never delivers (C177_refuted_start), and so does an interrupted reset (C177_refuted_reset), or the next call raises RuntimeError (C177_refuted_runtime); a batch that was taken but not counted shifts the episodes (C177_refuted_episode). The steps of the machine include those of the model of C25 ff. (C177_agrees)."
  },
  {
   "property": "C178",
   "status": "partial",
   "theorems": [
    "Verif.InterruptEpisodic.C178_history_partial",
    "Verif.InterruptEpisodic.C178_continues",
    "Verif.InterruptEpisodic.C178_recovers",
    "Verif.InterruptEpisodic.C178_keys",
    "Verif.InterruptEpisodic.C178_agrees",
    "Verif.InterruptEpisodic.C178_restart_agrees",
    "Verif.InterruptEpisodic.C178_refuted_rows",
    "Verif.InterruptEpisodic.C178_refuted_list",
    "Verif.InterruptEpisodic.C178_refuted_step"
   ],
   "note": "Proved for calls interrupted before they have obtained a sample: the others deliver what calls without interruptions deliver, only EpisodeEnd comes early by at most one step per interruption. False once a sample has been obtained, which is then lost and moves every row to another episode (C178_continues, C178_refuted_rows), and for an interrupted next_episode (C178_refuted_list, C178_refuted_step). The recovery by next_episode is proved from every state. The machine is shown to agree with the model without interruptions."
  },
  {
   "property": "C179",
   "status": "partial",
   "theorems": [
    "Verif.Racing.C179_mat_partial",
    "Verif.Racing.C179_numpy_partial",
    "Verif.Racing.C179_numpy_images_partial",
    "Verif.Racing.C179_hdf5_partial",
    "Verif.Racing.C179_serial",
    "Verif.Racing.C179_recovers",
    "Verif.Racing.C179_mat_alone",
    "Verif.Racing.C179_hdf5_alone",
    "Verif.Racing.C179_numpy_alone",
    "Verif.Racing.C179_refuted_twice",
    "Verif.Racing.C179_refuted_lost",
    "Verif.Racing.C179_refuted_raises",
    "Verif.Racing.C179_refuted_name",
    "Verif.Racing.C179_refuted_images",
    "Verif.Racing.C179_refuted_shuffle"
   ],
   "note": "Proved for every number of threads and every interleaving: a MAT sample, and a NumPy flow field with its name, always belongs together and to a listed file; an HDF5 flow field is one of a listed file. Calls that do not overlap are those of the model without threads, by whichever thread. Without shuffling one reset recovers from everything. False in the code, which has no lock: the same flow field twice, files left out, RuntimeError and IndexError, the wrong name (HDF5), the wrong images (NumPy), and files lost for good when two threads shuffle."
  },
  {
   "property": "C180",
   "status": "partial",
   "theorems": [
    "Verif.RacingSampler.C180_serial",
    "Verif.RacingSampler.C180_between_partial",
    "Verif.RacingSampler.C180_sources_partial",
    "Verif.RacingSampler.C180_recovers",
    "Verif.RacingSampler.C180_refuted_keys",
    "Verif.RacingSampler.C180_refuted_first",
    "Verif.RacingSampler.C180_refuted_adapted_twice",
    "Verif.RacingSampler.C180_refuted_lost",
    "Verif.RacingSampler.C180_refuted_mixed",
    "Verif.RacingSampler.C180_refuted_too_many"
   ],
   "note": "Proved for every number of threads and every interleaving: as long as the present flow batch lasts, every call succeeds and all parts of its batch belong together (C180_between_partial); in general every part comes from some flow batch of the scheduler (C180_sources_partial); calls that do not overlap are those of one thread; the reset recovers. False in the code, which has no lock: the same images twice (for every sampler), AttributeError in the first calls, flow fields adapted twice, flow batches left out or used too often, images with the reported flow and name of another flow batch."
  },
  {
   "property": "C181",
   "status": "partial",
   "theorems": [
    "Verif.RacingReal.C181_plain",
    "Verif.RacingReal.C181_serial",
    "Verif.RacingReal.C181_batches_partial",
    "Verif.RacingReal.C181_not_early_partial",
    "Verif.RacingReal.C181_recovers",
    "Verif.RacingReal.C181_refuted_last_twice",
    "Verif.RacingReal.C181_refuted_no_last",
    "Verif.RacingReal.C181_refuted_too_many"
   ],
   "note": "Without episodes proved in full, for every interleaving. With episodes: every answer of the wrapped scheduler is delivered once (C181_batches_partial), EpisodeEnd and done=True never come too early (C181_not_early_partial), next_episode makes up for everything. False in the code, which counts the steps without a lock: episodes with any number of further batches, two last batches, or none."
  },
  {
   "property": "C182",
   "status": "partial",
   "theorems": [
    "Verif.Reported.C182_determined_partial",
    "Verif.Reported.C182_alone_partial",
    "Verif.Reported.C182_refuted"
   ],
   "note": "Proved for samplers with the same greatest diameter over all ranges (and the same upper bound of the density). False otherwise: the size of the patch into which every particle is drawn, and the margin of the region, depend on the greatest diameter of all ranges, which is not reported."
  },
  {
   "property": "C183",
   "status": "partial",
   "theorems": [
    "Verif.Missing.C183_numbers_partial",
    "Verif.Missing.C183_pair_partial",
    "Verif.Missing.C183_first",
    "Verif.Missing.C183_refuted",
    "Verif.Missing.C183_refuted_brightest"
   ],
   "note": "The pixels that are numbers are matched among themselves, also in the image pairs of the sampler. False in the code for every image: a pixel that is NaN becomes a number, the brightest intensity of the template (white if all pixels are NaN), and can no longer be told from data. Rests on JAX putting NaN after all numbers in searchsorted."
  },
  {
   "property": "C184",
   "status": "partial",
   "theorems": [
    "Verif.Episodic.C184_distinct_partial",
    "Verif.Episodic.C184_same_iff",
    "Verif.Episodic.C184_refuted_too_few",
    "Verif.Episodic.C184_refuted_repeated"
   ],
   "note": "Rows play the same episode iff their draws coincide, so that the episodes would be different after every history if the draws were without replacement and there were enough starting positions. False in the code: the draws are with replacement, and with too few starting positions construction succeeds for every generator and two rows play the same episode after every history."
  },
  {
   "property": "C185",
   "status": "partial",
   "theorems": [
    "Verif.Dtypes.C185_once_partial",
    "Verif.Dtypes.C185_exact",
    "Verif.Dtypes.C185_refuted"
   ],
   "note": "Proved for all types but integers of 64 bits and unsigned ones of 32 bits; 8-bit and 16-bit images and everything in single or half precision arrive exactly. False for integers of 64 bits beside a sample in single precision: these are rounded twice. Rests on NumPy's contract for the common type of stacked arrays; exponents are unbounded."
  },
  {
   "property": "C186",
   "status": "partial",
   "theorems": [
    "Verif.Episodic.C186_playlist_partial",
    "Verif.Episodic.C186_played_iff",
    "Verif.Episodic.C186_only_listed_iff",
    "Verif.Episodic.C186_all_listed_iff",
    "Verif.Episodic.C186_refuted_unlisted",
    "Verif.Episodic.C186_refuted_unplayed"
   ],
   "note": "Proved exactly what may be played: what the search finds in the directories of listed files that have no subdirectories. So unlisted files are played unless the list names whole directories, and listed ones are never played if their directory has a subdirectory or the search does not find them."
  },
  {
   "property": "C187",
   "status": "partial",
   "theorems": [
    "Verif.Episodic.C187_mat_partial",
    "Verif.Episodic.C187_refuted",
    "Verif.Episodic.C187_refuted_mixed"
   ],
   "note": "Proved for MAT files. For files of another format construction always raises ValueError, or, if enough MAT files lie beside them, the wrapped scheduler is given these and no batch ever comes (StopIteration, or no return at all with loop=True)."
  },
  {
   "property": "C188",
   "status": "partial",
   "theorems": [
    "Verif.Generate.C188_particles_partial",
    "Verif.Variation.clipped_change",
    "Verif.Variation.clipped_iff",
    "Verif.Generate.C188_more",
    "Verif.Synthetic.C188_first",
    "Verif.Generate.C188_refuted"
   ],
   "note": "The change is the documented one, but clipped to the range reported for the pair: it is the documented one exactly if that stays in the range, has its direction and is never greater. So with ranges of a single value nothing changes at all, however great the variance (C188_refuted). Exact arithmetic, sqrt being a square root of the variances."
  },
  {
   "property": "C189",
   "status": "partial",
   "theorems": [
    "Verif.Convert.C189_grid_partial",
    "Verif.Convert.C189_refuted"
   ],
   "note": "The flow of every packed file has the target shape; the images are left as they are, so that a packed file is on the target grid exactly if its raw images are."
  },
  {
   "property": "C190",
   "status": "proved",
   "theorems": [
    "Verif.Isolation.C190_own_flow_only",
    "Verif.Isolation.C190_synthetic"
   ],
   "note": "For every scheduler that delivers full batches (all do, see C89), every rounding and all histories."
  },
  {
   "property": "C191",
   "status": "proved",
   "theorems": [
    "Verif.Saved.C191_order",
    "Verif.Saved.C191_cut_short",
    "Verif.Saved.C191_no_gap",
    "Verif.Saved.C191_whole"
   ],
   "note": "What has been written is taken to reach the disc; the picture being written may be left in any state."
  },
  {
   "property": "C192",
   "status": "partial",
   "theorems": [
    "Verif.SanityConvert.C192_plain_partial",
    "Verif.SanityConvert.C192_exactly",
    "Verif.SanityConvert.C192_file_list",
    "Verif.SanityConvert.C192_standard",
    "Verif.SanityConvert.C192_refuted"
   ],
   "note": "Proved for scalars and arrays. False for lists with NumPy scalars in them, which are not converted. C192_exactly says what the file gives in every case; C192_standard: for plain values the file is that of C68."
  },
  {
   "property": "C193",
   "status": "partial",
   "theorems": [
    "Verif.Len.C193_constant",
    "Verif.Len.C193_samples_partial",
    "Verif.Len.C193_pass",
    "Verif.Len.C193_episodic",
    "Verif.Len.C193_wrapped",
    "Verif.Len.C193_refuted",
    "Verif.Len.C193_refuted_prefetching"
   ],
   "note": "len() is constant and, for files with one flow field each, the length of a pass (C193_pass: exactly when). False for HDF5 files with several flow fields; an episodic scheduler changes the len() of the one it wraps, and a prefetching scheduler has none."
  },
  {
   "property": "C194",
   "status": "partial",
   "theorems": [
    "Verif.Digits.C194_different_partial",
    "Verif.Digits.C194_frames",
    "Verif.Digits.C194_iff",
    "Verif.Digits.C194_common_iff",
    "Verif.Digits.C194_check_iff",
    "Verif.Digits.C194_refuted"
   ],
   "note": "Proved for numbers written as Python writes them, and exactly (C194_iff): two files share their frames if directory and number are the same. False for numbers with leading zeros or digits of other scripts: flow_7.npy and flow_007.npy are both accepted and have the same frames."
  },
  {
   "property": "C195",
   "status": "partial",
   "theorems": [
    "Verif.Convert.C195_delivered_partial",
    "Verif.Convert.C195_flow",
    "Verif.Convert.C195_refuted",
    "Verif.Convert.C195_raw"
   ],
   "note": "Proved for the flow always, and for the images if the target shape is square or the raw images have it. False otherwise: the images are delivered with height and width exchanged, beside a flow of the target shape. C195_raw: which raw files the packed data come from."
  },
  {
   "property": "C196",
   "status": "proved",
   "theorems": [
    "Verif.Convert.C196_ends",
    "Verif.Convert.C196_looping"
   ],
   "note": "Where the listed files have been moved after packing is free (at_). Raw datasets of other sizes: C189 and C195 say what happens to a single file."
  },
  {
   "property": "C197",
   "status": "proved",
   "theorems": [
    "Verif.Pillow.C197_linear",
    "Verif.Pillow.C197_mirror",
    "Verif.Pillow.C197_axes",
    "Verif.Pillow.C197_affine"
   ],
   "note": "With Pillow's bilinear filter as modelled in Model/Pillow (exact arithmetic). At the border the window is cut off, so that linear flows are not reproduced there."
  },
  {
   "property": "C198",
   "status": "partial",
   "theorems": [
    "Verif.Bicubic.C198_uniform",
    "Verif.Bicubic.C198_uniform8",
    "Verif.Bicubic.C198_range_partial",
    "Verif.Bicubic.C198_refuted",
    "Verif.Bicubic.C198_refuted8",
    "Verif.Bicubic.C198_mirror",
    "Verif.Bicubic.C198_linear",
    "Verif.Nearest.C198_values16",
    "Verif.Nearest.C198_refuted16",
    "Verif.Bicubic.C198_rows"
   ],
   "note": "Proved for uniform images of any size and for the 8-bit range. False for the range of the image itself: the default filter of Pillow has negative weights, and for any two grey values there is an image of these two that is loaded with a pixel darker than both (96 from 100 and 200 with 8 bits). Weights and sums are exact in the model of the filter. Mirror images are loaded as mirror images. Sums and multiples of floating-point images are loaded as sums and multiples. With 16 bits the grey values are kept, but mirror images are not loaded as mirror images. If the number of rows does not change, rows have no influence on each other."
  },
  {
   "property": "C199",
   "status": "proved",
   "theorems": [
    "Verif.Bicubic.C199_pair",
    "Verif.Bicubic.C199_images"
   ],
   "note": "For displacements that are whole numbers after resizing, with Pillow's filters as modelled in Model/Bicubic and Model/Pillow (exact arithmetic; rounding to 8 bits after each pass included)."
  }
 ]
}