{"id": "C01", "title": "A non-looping scheduler delivers every slice exactly once, in order", "statement": "With loop=False, concatenating the unpadded rows of successive get_batch results yields exactly the slices of the files of file_list that can be loaded, file by file in list order and slice by slice within a file, each exactly once, with nothing else in between, whatever batch sizes are requested.", "quantifier": "all file lists, all loaders (any subset of files unreadable, any number of slices per file), all sequences of batch sizes", "why_tests_cant": "The stream depends on how batch boundaries, file boundaries and unreadable files interleave; tests only run a handful of lists and one batch size at a time.", "anchors": ["src/synthpix/scheduler/base.py::BaseFlowFieldScheduler._get_next", "src/synthpix/scheduler/base.py::BaseFlowFieldScheduler.get_batch"]}
{"id": "C02", "title": "The mask marks exactly the real rows, padding is blank and at the end", "statement": "Every batch returned by get_batch(b) has b flow rows, b mask entries and, if present, b image rows and b file names; for some k the first k rows are the samples delivered and are flagged True, the remaining b-k rows are all-zero, carry the file name \"\" and are flagged False.", "quantifier": "all scheduler states, batch sizes, and sample contents", "why_tests_cant": "The split point k ranges over every remaining-sample count; tests check one partial batch.", "anchors": ["src/synthpix/scheduler/base.py::BaseFlowFieldScheduler.get_batch"]}
{"id": "C03", "title": "Exhaustion is permanent until reset", "statement": "With loop=False, once get_batch has raised StopIteration for a batch of at least one sample every later get_batch raises StopIteration too, until reset() is called; a partially filled batch is returned at most once, directly before that.", "quantifier": "all states reachable by any sequence of get_batch calls of any sizes", "why_tests_cant": "It is a statement about all future histories of calls.", "anchors": ["src/synthpix/scheduler/base.py::BaseFlowFieldScheduler.get_batch", "src/synthpix/scheduler/base.py::BaseFlowFieldScheduler.reset"]}
{"id": "C04", "title": "A looping scheduler repeats complete epochs", "statement": "With loop=True (and at least one loadable slice) get_batch never raises StopIteration and always returns full batches; the delivered samples form a sequence of epochs, each containing every slice of every loadable file exactly once; without randomize all epochs are identical.", "quantifier": "all file lists, all batch sizes, any number of batches", "why_tests_cant": "Epoch boundaries fall at arbitrary places inside batches; only unbounded runs show the pattern.", "anchors": ["src/synthpix/scheduler/base.py::BaseFlowFieldScheduler._get_next", "src/synthpix/scheduler/base.py::BaseFlowFieldScheduler.reset"]}
{"id": "C05", "title": "A looping scheduler always answers", "statement": "With loop=True get_batch returns after finitely many file loads, for every data set.", "quantifier": "all file lists and loaders, including lists none of whose files can be loaded", "why_tests_cant": "Non-termination cannot be observed by a test.", "anchors": ["src/synthpix/scheduler/base.py::BaseFlowFieldScheduler._get_next"]}
{"id": "C06", "title": "Unreadable files are skipped and leave no trace", "statement": "The batches served from a file list containing unreadable files are the batches served from the list with those files removed.", "quantifier": "all file lists, any set of unreadable files, all sequences of batch sizes", "why_tests_cant": "All placements of bad files relative to batch boundaries are involved.", "anchors": ["src/synthpix/scheduler/base.py::BaseFlowFieldScheduler._get_next"]}
{"id": "C07", "title": "reset() restarts the stream", "statement": "With randomize=False, after reset() the scheduler behaves exactly as a freshly constructed one, whatever was consumed before; the file list itself never changes.", "quantifier": "all histories of get_batch and reset calls", "why_tests_cant": "Left-over cursors and caches only show for particular histories.", "anchors": ["src/synthpix/scheduler/base.py::BaseFlowFieldScheduler.reset", "src/synthpix/scheduler/base.py::BaseFlowFieldScheduler.__init__"]}
{"id": "C08", "title": "Shuffling only permutes", "statement": "With randomize=True, after any sequence of operations file_list is a permutation of the files given at construction: no file is ever lost, duplicated or invented by a shuffle.", "quantifier": "all histories, all file lists, every outcome of the random permutations", "why_tests_cant": "Tests sample a few seeds; loss on repeated shuffles would be cumulative.", "anchors": ["src/synthpix/scheduler/base.py::BaseFlowFieldScheduler.reset", "src/synthpix/scheduler/base.py::BaseFlowFieldScheduler.__init__"]}
{"id": "C09", "title": "The shuffle orders depend on the key alone", "statement": "The file order in force after the k-th shuffle is a function of the construction key, the expanded list and k only; it does not depend on how many batches, of which size, were drawn in between, and the key used for each shuffle is distinct from all keys used before.", "quantifier": "all histories with the same number of shuffles", "why_tests_cant": "Relational statement over pairs of histories.", "anchors": ["src/synthpix/scheduler/base.py::BaseFlowFieldScheduler.reset", "src/synthpix/scheduler/base.py::BaseFlowFieldScheduler.__init__"]}
{"id": "C10", "title": "Constructor accepts exactly the valid file lists and expands directories in place", "statement": "Construction succeeds iff file_list is a list of strings, its expansion is non-empty and every expanded path is an existing file (and the flags are booleans); the resulting list is the input with every directory replaced, in place, by its matching files in sorted order.", "quantifier": "all argument lists and all file systems", "why_tests_cant": "All mixtures of files, directories, empty directories and missing paths.", "anchors": ["src/synthpix/scheduler/base.py::BaseFlowFieldScheduler.__init__"]}
{"id": "C11", "title": "Batch boundaries are invisible", "statement": "Drawing get_batch(m) then get_batch(n) delivers the same samples, and leaves the scheduler in the same state, as drawing get_batch(m+n).", "quantifier": "all states, all m and n, looping or not, any loader", "why_tests_cant": "Relational over all splits of all batch sizes.", "anchors": ["src/synthpix/scheduler/base.py::BaseFlowFieldScheduler.get_batch", "src/synthpix/scheduler/base.py::BaseFlowFieldScheduler._get_next"]}
{"id": "C12", "title": "A failing get_batch loses no sample", "statement": "If get_batch raises because extracting some slice fails, the samples that were already taken from the stream for that batch are delivered by the following calls.", "quantifier": "all states and all slice-extraction failures", "why_tests_cant": "Requires a failure at an arbitrary position inside a batch.", "anchors": ["src/synthpix/scheduler/base.py::BaseFlowFieldScheduler.get_batch"]}
{"id": "C13", "title": "HDF5: one sample per y-position, in order", "statement": "For a file whose flow volume has shape (X, Y, Z, C) the HDF5 scheduler delivers exactly Y samples, the y-th having the entries volume[x, y, z, c], and then moves on to the next file.", "quantifier": "all volumes of all shapes", "why_tests_cant": "All shapes and all indices.", "anchors": ["src/synthpix/scheduler/hdf5.py::HDF5FlowFieldScheduler.get_next_slice", "src/synthpix/scheduler/hdf5.py::HDF5FlowFieldScheduler.load_file"]}
{"id": "C14", "title": "HDF5: the advertised shape is the delivered shape", "statement": "get_flow_fields_shape() equals the shape of every sample the HDF5 scheduler delivers from a data set of equally shaped volumes.", "quantifier": "all volumes", "why_tests_cant": "All shapes, in particular channel counts other than two.", "anchors": ["src/synthpix/scheduler/hdf5.py::HDF5FlowFieldScheduler.get_flow_fields_shape"]}
{"id": "C15", "title": "MAT: flow layout is normalised", "statement": "Loading a MAT file with a flow stored as (H, W, 2) or (2, H, W) gives an array of shape output_shape + (2,); with no resizing the entry [y, x, c] is the stored entry (respectively V[c, y, x]); any other layout is rejected (and the file skipped).", "quantifier": "all arrays of all shapes", "why_tests_cant": "All shapes incl. ambiguous ones such as (2, W, 2).", "anchors": ["src/synthpix/scheduler/mat.py::MATFlowFieldScheduler.load_file"]}
{"id": "C16", "title": "MAT: resizing scales the velocity with the grid", "statement": "When the stored flow has size (h, w) and output_shape is (H, W), the returned u component is the resampled stored u times W/w and the v component the resampled stored v times H/h.", "quantifier": "all sizes and values", "why_tests_cant": "Axis swaps are invisible on square inputs, which tests use.", "anchors": ["src/synthpix/scheduler/mat.py::MATFlowFieldScheduler.load_file"]}
{"id": "C17", "title": "MAT: images have the requested shape", "statement": "When include_images is set, both images returned for a MAT file have shape output_shape.", "quantifier": "all stored image sizes and output shapes", "why_tests_cant": "Axis swaps are invisible on square output shapes.", "anchors": ["src/synthpix/scheduler/mat.py::MATFlowFieldScheduler.load_file"]}
{"id": "C18", "title": "NumPy: a flow file is paired with its two frames", "statement": "The NumPy scheduler pairs flow_<t>.npy with img_<t-1>.jpg and img_<t>.jpg of the same directory; consecutive flow files share the middle frame, and file names not of that form are rejected.", "quantifier": "all t, all directories, all spellings of t", "why_tests_cant": "Infinite family of names, including zero-padded ones.", "anchors": ["src/synthpix/scheduler/numpy.py::NumpyFlowFieldScheduler.load_file", "src/synthpix/scheduler/numpy.py::NumpyFlowFieldScheduler.get_next_slice", "src/synthpix/scheduler/numpy.py::NumpyFlowFieldScheduler.__init__"]}
{"id": "C19", "title": "A partial final batch with images is deliverable", "statement": "If full batches with images can be served, then so can the final, padded one.", "quantifier": "all image shapes the file formats can deliver", "why_tests_cant": "Depends on the number of image axes, which tests fix.", "anchors": ["src/synthpix/scheduler/base.py::BaseFlowFieldScheduler.get_batch", "src/synthpix/scheduler/numpy.py::NumpyFlowFieldScheduler.get_next_slice"]}
{"id": "C20", "title": "Every admissible episode start is available exactly once", "statement": "The start positions an episodic scheduler samples from are exactly the pairs (leaf directory, s) with s + episode_length <= number of frames, each once; construction fails iff some leaf directory has fewer than episode_length frames, there is no leaf directory, or the sizes are not positive.", "quantifier": "all directory trees, all episode lengths", "why_tests_cant": "Boundary s + L = len for every directory.", "anchors": ["src/synthpix/scheduler/episodic.py::EpisodicFlowFieldScheduler._calculate_starts"]}
{"id": "C21", "title": "An episode is a contiguous window of one sequence", "statement": "Whatever starts are drawn, the frames of each of the batch_size episodes are episode_length consecutive files, in sorted order, of one leaf directory.", "quantifier": "all directory trees, all random draws, all histories of next_episode/reset", "why_tests_cant": "All draws of the random number generator.", "anchors": ["src/synthpix/scheduler/episodic.py::EpisodicFlowFieldScheduler._sample_new_episodes"]}
{"id": "C22", "title": "Row e of the t-th batch is frame t of episode e", "statement": "The t-th get_batch after a (re)start returns, in row e, the t-th frame of the e-th drawn episode, and row e belongs to the same episode for the whole horizon.", "quantifier": "all draws, all batch sizes, episode lengths and steps", "why_tests_cant": "The alignment must survive every draw, including repeated or overlapping episodes.", "anchors": ["src/synthpix/scheduler/episodic.py::EpisodicFlowFieldScheduler._sample_new_episodes", "src/synthpix/scheduler/episodic.py::EpisodicFlowFieldScheduler.get_batch", "src/synthpix/scheduler/base.py::BaseFlowFieldScheduler._get_next"]}
{"id": "C23", "title": "An episode has exactly episode_length steps", "statement": "After construction, reset() or next_episode(), exactly episode_length get_batch calls of the right size are served before EpisodeEnd, EpisodeEnd is then raised until the next next_episode()/reset(), and steps_remaining() is episode_length minus the number of batches served.", "quantifier": "all histories of get_batch / next_episode / reset / wrong-size calls", "why_tests_cant": "Histories are unbounded.", "anchors": ["src/synthpix/scheduler/episodic.py::EpisodicFlowFieldScheduler.get_batch", "src/synthpix/scheduler/episodic.py::EpisodicFlowFieldScheduler.steps_remaining", "src/synthpix/scheduler/episodic.py::EpisodicFlowFieldScheduler.next_episode", "src/synthpix/scheduler/episodic.py::EpisodicFlowFieldScheduler.reset"]}
{"id": "C24", "title": "A wrongly sized request is harmless", "statement": "get_batch with a batch size different from the configured one raises ValueError and changes nothing (episodic and prefetching scheduler).", "quantifier": "all states and sizes", "why_tests_cant": "All states.", "anchors": ["src/synthpix/scheduler/episodic.py::EpisodicFlowFieldScheduler.get_batch", "src/synthpix/scheduler/prefetch.py::PrefetchingFlowFieldScheduler.get_batch"]}
{"id": "C25", "title": "Prefetching delivers the same batches in the same order", "statement": "Under every interleaving of the worker thread and the consumer in which no queue operation times out, the batches returned by the prefetching scheduler are a prefix of the batches the wrapped scheduler produces, in order, without loss, duplication or reordering, and StopIteration comes only after all of them.", "quantifier": "all schedules of the two threads, all buffer sizes, all wrapped schedulers", "why_tests_cant": "Schedules cannot be enumerated by tests.", "anchors": ["src/synthpix/scheduler/prefetch.py::PrefetchingFlowFieldScheduler._worker", "src/synthpix/scheduler/prefetch.py::PrefetchingFlowFieldScheduler.get_batch"]}
{"id": "C26", "title": "At most buffer_size batches are buffered", "statement": "At every moment the prefetch queue holds at most buffer_size entries, and the wrapped scheduler is at most buffer_size + 1 batches ahead of the consumer.", "quantifier": "all schedules, all timeouts, all operations including shutdown and next_episode", "why_tests_cant": "Invariant over all interleavings.", "anchors": ["src/synthpix/scheduler/prefetch.py::PrefetchingFlowFieldScheduler._worker", "src/synthpix/scheduler/prefetch.py::PrefetchingFlowFieldScheduler.get_batch"]}
{"id": "C27", "title": "reset() never deadlocks", "statement": "When reset() is called in any state, the worker thread reaches its exit after finitely many of its own steps with no further action of the consumer, so the join in reset() returns.", "quantifier": "all states reachable under any schedule, all buffer sizes", "why_tests_cant": "Deadlocks depend on the exact interleaving of stop flag, queue and join.", "anchors": ["src/synthpix/scheduler/prefetch.py::PrefetchingFlowFieldScheduler.reset", "src/synthpix/scheduler/prefetch.py::PrefetchingFlowFieldScheduler._worker"]}
{"id": "C28", "title": "reset() restarts the prefetched stream", "statement": "After reset() the prefetching scheduler is in its initial state: empty queue, not started, step counter zero, and the batches that follow are those of the freshly reset wrapped scheduler; nothing prefetched earlier is ever delivered.", "quantifier": "all states and schedules", "why_tests_cant": "Stale items appear only for some interleavings.", "anchors": ["src/synthpix/scheduler/prefetch.py::PrefetchingFlowFieldScheduler.reset"]}
{"id": "C29", "title": "Prefetched episodes stay aligned", "statement": "With an episodic wrapped scheduler, the batch returned when steps_remaining() was episode_length - t is time-step t of one episode, and next_episode() moves to the first step of a later episode, under every schedule.", "quantifier": "all schedules, all histories of get_batch and next_episode, all discard timeouts", "why_tests_cant": "Depends on how far the worker ran ahead.", "anchors": ["src/synthpix/scheduler/prefetch.py::PrefetchingFlowFieldScheduler.next_episode", "src/synthpix/scheduler/prefetch.py::PrefetchingFlowFieldScheduler.get_batch"]}
{"id": "C30", "title": "End of stream loses no batch", "statement": "Every batch the wrapped scheduler produced before it was exhausted is delivered before StopIteration, also when the consumer is slow.", "quantifier": "all schedules including slow consumers", "why_tests_cant": "Needs the queue to stay full for the whole end-of-stream timeout.", "anchors": ["src/synthpix/scheduler/prefetch.py::PrefetchingFlowFieldScheduler._worker"]}
{"id": "C31", "title": "shutdown() stops the worker", "statement": "After shutdown() the worker thread terminates, under every schedule.", "quantifier": "all schedules, buffer sizes", "why_tests_cant": "A race between freeing a slot and injecting the sentinel.", "anchors": ["src/synthpix/scheduler/prefetch.py::PrefetchingFlowFieldScheduler.shutdown"]}
{"id": "C32", "title": "Failures of the wrapped scheduler are not mistaken for the end of the data", "statement": "If the wrapped scheduler fails with an exception other than StopIteration or EpisodeEnd, or is merely slow, get_batch of the prefetching scheduler does not signal the regular end of the stream (StopIteration).", "quantifier": "all schedules, all failures", "why_tests_cant": "Involves thread death and timeouts.", "anchors": ["src/synthpix/scheduler/prefetch.py::PrefetchingFlowFieldScheduler._worker", "src/synthpix/scheduler/prefetch.py::PrefetchingFlowFieldScheduler.get_batch"]}
{"id": "C33", "title": "done is True exactly on the last step of an episode", "statement": "With an episodic scheduler every batch returned by the sampler carries a done vector of length batch_size, all True if the batch is the last one of the episode and all False otherwise; next(sampler) raises EpisodeEnd iff the episode is over.", "quantifier": "all histories, all episode lengths", "why_tests_cant": "All steps of all episodes.", "anchors": ["src/synthpix/sampler/base.py::Sampler.__next__", "src/synthpix/sampler/base.py::Sampler._make_done"]}
{"id": "C34", "title": "Each flow batch is used for exactly batches_per_flow_batch image batches", "statement": "The n-th image batch (n = 0, 1, ...) is generated from the floor(n / batches_per_flow_batch)-th flow batch of the scheduler.", "quantifier": "all n and all batches_per_flow_batch", "why_tests_cant": "Unbounded n.", "anchors": ["src/synthpix/sampler/synthetic.py::SyntheticImageSampler._get_next"]}
{"id": "C35", "title": "A finished sampler stays finished", "statement": "Once next(sampler) has raised StopIteration it raises StopIteration on every further call until reset().", "quantifier": "all histories", "why_tests_cant": "All continuations after exhaustion.", "anchors": ["src/synthpix/sampler/synthetic.py::SyntheticImageSampler._get_next", "src/synthpix/sampler/real.py::RealImageSampler._get_next"]}
{"id": "C36", "title": "Image i belongs to flow field i of the batch", "statement": "In a synthetic batch the i-th image pair is rendered with flow field number i mod n of the n flow fields drawn from the scheduler, and the i-th entry of the returned flow_fields is that same field.", "quantifier": "all batch sizes, numbers of flow fields, numbers of devices", "why_tests_cant": "All index combinations, all device counts.", "anchors": ["src/synthpix/sampler/synthetic.py::SyntheticImageSampler._get_next", "src/synthpix/data_generate.py::generate_images_from_flow", "src/synthpix/utils.py::flow_field_adapter"]}
{"id": "C37", "title": "Flow fields are used evenly", "statement": "Within a batch each of the n flow fields is used floor(B/n) or ceil(B/n) times, the first B mod n of them once more.", "quantifier": "all B and n", "why_tests_cant": "All arithmetic cases.", "anchors": ["src/synthpix/data_generate.py::generate_images_from_flow"]}
{"id": "C38", "title": "The effective batch size is the least admissible one", "statement": "The sampler's batch_size is the smallest multiple of the number of devices that is at least the requested batch size.", "quantifier": "all batch sizes and device counts", "why_tests_cant": "All residues.", "anchors": ["src/synthpix/sampler/synthetic.py::SyntheticImageSampler.__init__"]}
{"id": "C39", "title": "reset() makes the synthetic sampler reproducible", "statement": "With the same seed and a scheduler that restarts its stream, after reset() the sampler produces the same sequence of batches as after construction, whatever happened before.", "quantifier": "all histories", "why_tests_cant": "Left-over state shows only for some histories.", "anchors": ["src/synthpix/sampler/synthetic.py::SyntheticImageSampler._reset", "src/synthpix/sampler/base.py::Sampler.reset"]}
{"id": "C40", "title": "No random key is used twice", "statement": "All random draws behind a run of the sampler (all batches, devices, image pairs and roles: densities, positions, diameters, intensities, rho, noise) use pairwise different keys derived from the seed.", "quantifier": "all numbers of batches, devices, images per batch", "why_tests_cant": "Key reuse shows as subtle correlations only.", "anchors": ["src/synthpix/sampler/synthetic.py::SyntheticImageSampler._get_next", "src/synthpix/data_generate.py::generate_images_from_flow", "src/synthpix/generate.py::add_noise_to_image"]}
{"id": "C41", "title": "The real-image sampler insists on images", "statement": "RealImageSampler can be built on a scheduler iff the innermost scheduler (below any nesting of episodic and prefetching wrappers) includes images, and then returns the scheduler's batches unchanged.", "quantifier": "all nestings of wrappers", "why_tests_cant": "Unbounded nesting.", "anchors": ["src/synthpix/sampler/real.py::RealImageSampler.__init__", "src/synthpix/sampler/real.py::RealImageSampler._get_next"]}
{"id": "C42", "title": "make() builds exactly the configured pipeline or names the first error", "statement": "For every configuration make() either raises one of the documented errors or returns a sampler; the sampler is the real one iff include_images, the scheduler is the class named by scheduler_class, wrapped in an episodic scheduler iff episode_length > 0 and then in a prefetching one iff buffer_size > 0.", "quantifier": "all configurations", "why_tests_cant": "The product of all settings.", "anchors": ["src/synthpix/make.py::make"]}
{"id": "C43", "title": "Every pipeline make() accepts can deliver a batch", "statement": "If make() accepts a configuration and the data set is large enough, then the first next() delivers a batch.", "quantifier": "all accepted configurations", "why_tests_cant": "The product of all settings.", "anchors": ["src/synthpix/make.py::make", "src/synthpix/sampler/synthetic.py::SyntheticImageSampler._get_next", "src/synthpix/scheduler/prefetch.py::PrefetchingFlowFieldScheduler.get_batch"]}
{"id": "C44", "title": "The configured seed determines the order of the files", "statement": "Two configurations that differ in the seed can lead to different shuffles of the files.", "quantifier": "all configurations with randomize", "why_tests_cant": "Statement about all seeds.", "anchors": ["src/synthpix/make.py::make", "src/synthpix/scheduler/mat.py::MATFlowFieldScheduler.from_config"]}
{"id": "C45", "title": "The specification accepts exactly the documented values", "statement": "Constructing an ImageGenerationSpecification succeeds iff every field satisfies its documented constraint; otherwise ValueError.", "quantifier": "all values of all fields including NaN", "why_tests_cant": "Boundary and non-finite values of 16 fields.", "anchors": ["src/synthpix/types.py::ImageGenerationSpecification.__post_init__"]}
{"id": "C46", "title": "update() changes exactly the named fields and re-validates", "statement": "spec.update(**kw) has the value kw[f] in every field f named in kw and the old value elsewhere, leaves the original unchanged and succeeds iff the resulting field values are valid; the same holds for batches and scheduler data.", "quantifier": "all specs and keyword sets", "why_tests_cant": "2^16 keyword sets.", "anchors": ["src/synthpix/types.py::ImageGenerationSpecification.update", "src/synthpix/types.py::SynthpixBatch.update", "src/synthpix/types.py::SchedulerData.update"]}
{"id": "C47", "title": "Batches survive flattening", "statement": "Unflattening the flattened form of a batch or parameter object gives it back, for every content, and flattening is injective.", "quantifier": "all batches", "why_tests_cant": "All contents including None fields.", "anchors": ["src/synthpix/types.py::SynthpixBatch.tree_flatten", "src/synthpix/types.py::SynthpixBatch.tree_unflatten", "src/synthpix/types.py::ImageGenerationParameters.tree_flatten", "src/synthpix/types.py::ImageGenerationParameters.tree_unflatten"]}
{"id": "C48", "title": "The image window lies inside the particle region", "statement": "For every accepted sampler configuration the image window lies inside the region in which particles are seeded: offset >= 0 and offset + image_shape <= region size on both axes.", "quantifier": "all configurations", "why_tests_cant": "All real-valued parameters.", "anchors": ["src/synthpix/sampler/synthetic.py::SyntheticImageSampler.__init__"]}
{"id": "C49", "title": "No particle visible in either image can originate outside the seeded region", "statement": "A particle whose position lies in the image window in the first or second frame and whose displacement is within the declared speed bounds had its initial position inside the seeded region.", "quantifier": "all configurations, all particles", "why_tests_cant": "All positions and velocities.", "anchors": ["src/synthpix/sampler/synthetic.py::SyntheticImageSampler.__init__"]}
{"id": "C50", "title": "The sampler constructor rejects exactly the impossible geometries", "statement": "Construction fails with the documented error iff a speed range is inverted, the offset is smaller than the margin required by the speeds, or the flow field is smaller than the required region.", "quantifier": "all configurations", "why_tests_cant": "All boundary cases.", "anchors": ["src/synthpix/sampler/synthetic.py::SyntheticImageSampler.__init__"]}
{"id": "C51", "title": "Bilinear interpolation is a faithful interpolation", "statement": "bilinear_interpolate returns the stored value at grid points, always lies between the smallest and largest of the image values, reproduces functions affine in x and y exactly inside the grid, is linear in the image, continuous across cells, and extends by clamping outside.", "quantifier": "all images of all sizes and all real coordinates", "why_tests_cant": "All coordinates, including cell boundaries and outside points.", "anchors": ["src/synthpix/utils.py::bilinear_interpolate"]}
{"id": "C52", "title": "Trilinear interpolation is a faithful interpolation", "statement": "trilinear_interpolate returns the stored value at grid points, always lies between the smallest and largest volume value, reproduces constants, is linear in the volume, and equals the bilinear interpolation of the slices when z is an integer.", "quantifier": "all volumes and all real coordinates", "why_tests_cant": "All coordinates.", "anchors": ["src/synthpix/utils.py::trilinear_interpolate"]}
{"id": "C53", "title": "Particles move with the flow", "statement": "apply_flow_to_particles moves each particle independently, keeps their order and number, moves a particle in a uniform flow (u, v) by exactly (v*res_y*dt, u*res_x*dt), leaves it unmoved for dt = 0, and never moves it further than the largest speed allows; every input accepted by the input check is processed.", "quantifier": "all particle sets, flows, time steps", "why_tests_cant": "All positions and flows; dimensions.", "anchors": ["src/synthpix/apply.py::apply_flow_to_particles", "src/synthpix/apply.py::input_check_apply_flow"]}
{"id": "C54", "title": "Forward warping conserves intensity", "statement": "apply_flow_to_image_forward never creates intensity: for a non-negative image the total intensity of the result is at most that of the input and equal if all targets stay inside; the zero flow is the identity and an integer flow a shift.", "quantifier": "all images, flows and time steps", "why_tests_cant": "All images and flows.", "anchors": ["src/synthpix/apply.py::apply_flow_to_image_forward"]}
{"id": "C55", "title": "Backward warping stays in range", "statement": "apply_flow_to_image_backward with zero flow (or dt = 0) is the identity, an integer uniform flow is a shift with edge replication, and the result always lies between the minimum and the maximum of the image.", "quantifier": "all images, flows and time steps", "why_tests_cant": "All images and flows.", "anchors": ["src/synthpix/apply.py::apply_flow_to_image_backward"]}
{"id": "C56", "title": "The callable and the array interface agree", "statement": "Warping with a callable equals warping with the array obtained by evaluating the callable at every pixel (x = column, y = row), and the array generator of the library produces that array.", "quantifier": "all callables, images", "why_tests_cant": "x/y swaps are invisible for symmetric flows.", "anchors": ["src/synthpix/apply.py::apply_flow_to_image_callable", "src/synthpix/utils.py::generate_array_flow_field"]}
{"id": "C57", "title": "Adapting a flow field without resampling is the identity up to units", "statement": "If flow grid and output grid coincide, flow_field_adapter returns the image-window crop of the flow, unscaled for measure units and multiplied by resolution*dt for pixels, tiled to the batch.", "quantifier": "all flows, batch sizes, units", "why_tests_cant": "All index and unit combinations.", "anchors": ["src/synthpix/utils.py::flow_field_adapter"]}
{"id": "C58", "title": "The reported flow is the displacement of the rendered particles", "statement": "With output units pixels, the flow value reported at a pixel is the displacement in pixels, between the two images, of a particle at that pixel.", "quantifier": "all configurations and positions", "why_tests_cant": "Involves every scale factor at once; tests look at pictures.", "anchors": ["src/synthpix/utils.py::flow_field_adapter", "src/synthpix/data_generate.py::generate_images_from_flow"]}
{"id": "C59", "title": "Histogram matching is monotone and in range", "statement": "match_histogram returns values in 0..255, never reverses the order of two pixels, maps equal pixels to equal values, and is the identity if the template is the image's own histogram.", "quantifier": "all images and templates", "why_tests_cant": "All images and all templates.", "anchors": ["src/synthpix/utils.py::match_histogram"]}
{"id": "C60", "title": "discover_leaf_dirs returns each leaf directory exactly once", "statement": "discover_leaf_dirs returns exactly the (normalised) parent directories of the listed paths that can be scanned and have no sub-directory on disk, each exactly once, whatever the order and multiplicity of the paths.", "quantifier": "all path lists, all file systems", "why_tests_cant": "All directory trees.", "anchors": ["src/synthpix/utils.py::discover_leaf_dirs"]}
{"id": "C61", "title": "The particle budget covers every density", "statement": "For every drawn seeding density in the declared range the number of particles to be shown never exceeds the allocated number, and exactly floor(density * H * W) of them are shown before hiding.", "quantifier": "all ranges, shapes, draws", "why_tests_cant": "All draws.", "anchors": ["src/synthpix/data_generate.py::generate_images_from_flow"]}
{"id": "C62", "title": "Drawn particle properties stay in the selected range", "statement": "Every particle's diameter, intensity and rho in both images lies in the range selected for its image pair, for any draw and any variance, and the ranges reported in the batch's params are those used.", "quantifier": "all ranges, variances, draws", "why_tests_cant": "All draws of normal noise.", "anchors": ["src/synthpix/data_generate.py::generate_images_from_flow"]}
{"id": "C63", "title": "Pixels are in [0, 255] and masked pixels are black", "statement": "Every pixel of every generated image lies in [0, 255]; where the mask is 0 the pixel is 0.", "quantifier": "all parameters, draws, noise levels, masks, histograms", "why_tests_cant": "All draws and option combinations.", "anchors": ["src/synthpix/data_generate.py::generate_images_from_flow", "src/synthpix/generate.py::add_noise_to_image"]}
{"id": "C64", "title": "A particle's footprint is positive and peaks at its centre", "statement": "For |rho| < 1 and positive diameters a particle contributes to each pixel a value in (0, I0], with I0 exactly at its centre, and the contribution is symmetric about the centre.", "quantifier": "all parameters and pixels", "why_tests_cant": "All real parameters.", "anchors": ["src/synthpix/generate.py::gaussian_2d_correlated"]}
{"id": "C65", "title": "Rendering adds up particle contributions", "statement": "The rendered image is, pixel by pixel, the sum of the particles' contributions restricted to their patches; it does not depend on the order of the particles, and hidden particles contribute nothing.", "quantifier": "all particle sets, shapes, patch sizes", "why_tests_cant": "All orders and overlaps.", "anchors": ["src/synthpix/generate.py::img_gen_from_data"]}
{"id": "C66", "title": "Patches stay inside the image", "statement": "Every patch written by the renderer lies inside the image and a particle at least a patch radius from the border has its patch centred on it.", "quantifier": "all image shapes, patch sizes, particle positions", "why_tests_cant": "All positions, including those outside the image.", "anchors": ["src/synthpix/generate.py::img_gen_from_data"]}
{"id": "C67", "title": "The speed summary bounds all data and is attained", "statement": "calculate_min_and_max_speeds returns for each component values that bound every velocity of every file and are attained in the data.", "quantifier": "all file lists and contents", "why_tests_cant": "All data sets.", "anchors": ["src/synthpix/sanity.py::calculate_min_and_max_speeds"]}
{"id": "C68", "title": "Updating a config file loses nothing", "statement": "update_config_file keeps every entry it is not asked to change, sets those it is asked to, and keeps the file list.", "quantifier": "all configurations and updates", "why_tests_cant": "All configurations.", "anchors": ["src/synthpix/sanity.py::update_config_file"]}
{"id": "C69", "title": "Histogram matching follows the template", "statement": "For every level k, the number of pixels of match_histogram's result with value at most k never exceeds the template's share up to k of all pixels, and falls short of it by at most the number of source pixels that share one intensity level.", "quantifier": "all images with values in [0, 255], all templates, all levels", "why_tests_cant": "All images and all templates.", "anchors": ["src/synthpix/utils.py::match_histogram"]}
{"id": "C70", "title": "Every particle is drawn where it is", "statement": "Every pixel of a rendered image shows exactly the light, at their true positions, of the particles within a patch radius of it: no particle is drawn at a place where it is not.", "quantifier": "all accepted geometries, all particle positions, all visible pixels", "why_tests_cant": "All positions; only particles near the border of the region are affected.", "anchors": ["src/synthpix/generate.py::img_gen_from_data", "src/synthpix/sampler/synthetic.py::SyntheticImageSampler.__init__"]}
{"id": "C71", "title": "Batches have the configured shape", "statement": "A generated batch has batch_size image pairs and as many entries in every field of params, and every image has the shape image_shape.", "quantifier": "all accepted configurations", "why_tests_cant": "The window is cut out of a region whose size is computed in floats.", "anchors": ["src/synthpix/data_generate.py::generate_images_from_flow", "src/synthpix/sampler/synthetic.py::SyntheticImageSampler.__init__"]}
{"id": "C72", "title": "A still flow gives identical images", "statement": "Without hiding, noise and variation of the particles, the two images of a pair are identical if the flow is zero.", "quantifier": "all seeds, parameters, region sizes", "why_tests_cant": "All random draws.", "anchors": ["src/synthpix/data_generate.py::generate_images_from_flow"]}
{"id": "C73", "title": "A uniform flow of whole pixels shifts the image", "statement": "Without hiding, noise and variation of the particles, if the flow displaces every particle by (a, b) whole pixels then pixel (y + a, x + b) of the second image equals pixel (y, x) of the first, away from the border of the particle region.", "quantifier": "all seeds, parameters, displacements, pixels", "why_tests_cant": "All random draws, all displacements.", "anchors": ["src/synthpix/data_generate.py::generate_images_from_flow", "src/synthpix/generate.py::img_gen_from_data"]}
{"id": "C74", "title": "The speed check returns configured or confirmed speeds only", "statement": "The speed check of a configuration file returns the four configured speeds, in the order max x, max y, min x, min y, if all are numbers. Otherwise it returns the computed bounds in that order, and only if the user chose the computation and then confirmed. In every other case it raises, and the file is not written unless the user chose the computation.", "quantifier": "all configurations, all file contents and all answers of the user", "why_tests_cant": "Configurations, file contents and answers combine freely; a test fixes one combination.", "anchors": ["src/synthpix/sanity.py::missing_speeds_panel"]}
{"id": "C75", "title": "The dataset splits are a partition", "statement": "For every split ratio that the command line accepts, the training, validation and tuning lists written by the dataset script together have every item of the official list exactly once, and validation and tuning get the stated percentages of it, rounded down.", "quantifier": "all official lists, all shuffles, all accepted ratios", "why_tests_cant": "All sizes and ratios; the sizes are computed with a division and a truncation.", "anchors": ["scripts/download_piv_1.py::fetch_splits"]}
{"id": "C76", "title": "Item lists survive being written and read", "statement": "A list of items written to a text file and read back is the same list, if no item is blank, begins or ends with white space or contains a line break; in particular every list of items read from a file survives.", "quantifier": "all lists of items, all file contents, all notions of white space", "why_tests_cant": "All texts.", "anchors": ["scripts/utils.py::read_list", "scripts/utils.py::write_list"]}
{"id": "C77", "title": "A sample is in one split only", "statement": "Every packed file whose sample is named by the official list is copied to exactly one of training, validation and tuning, and a file whose sample is not named there to none of them.", "quantifier": "all official lists, all shuffles, all accepted ratios, all file names", "why_tests_cant": "All lists and names; leakage between training and validation depends on how lines are reduced to names.", "anchors": ["scripts/download_piv_1.py::fetch_splits", "scripts/download_piv_1.py::load_split_file", "scripts/download_piv_1.py::perform_split"]}
{"id": "C78", "title": "Unpacking TFRecords loses nothing", "statement": "After unpacking, the content of every usable record of every TFRecord is in the packed dataset; the files of one TFRecord are numbered 0, 1, 2, ... without gaps, in order.", "quantifier": "all sequences of TFRecords, all sequences of usable and unusable records", "why_tests_cant": "All numbers and orders of records.", "anchors": ["scripts/download_piv_2.py::process_tfrecord", "scripts/download_piv_2.py::main"]}
{"id": "C79", "title": "The main program always shuts the sampler down", "statement": "However a run of the main program ends, the sampler is shut down once, after everything else. Before that exactly the first images, up to the number asked for, of every batch delivered are saved, in order and each under its own name; the run ends normally only if the sampler is exhausted or the user declines.", "quantifier": "all sequences of batches and exceptions of the sampler, all failures of saving, all answers of the user", "why_tests_cant": "All histories.", "anchors": ["src/main.py::main"]}
{"id": "C80", "title": "Packing scales flows consistently", "statement": "If a flow is packed at a target shape and the packed file is loaded at an output shape, displacements in pixels are scaled by output size over original size; the target shape does not matter.", "quantifier": "all flows, target shapes and output shapes", "why_tests_cant": "All shapes.", "anchors": ["scripts/download_piv_1.py::resize_flow", "scripts/download_piv_1.py::pack_triplet", "src/synthpix/scheduler/mat.py::MATFlowFieldScheduler.load_file"]}
{"id": "C81", "title": "Packed files have the names the official lists give them", "statement": "If a line of an official list names a file of a triplet, the file the triplet is packed into has the name found for the line, so it is copied to that split.", "quantifier": "all directories, base names and suffixes, all list contents", "why_tests_cant": "All names.", "anchors": ["scripts/download_piv_1.py::convert", "scripts/download_piv_1.py::load_split_file"]}
{"id": "C82", "title": "Prefetching is invisible to the user of a sampler", "statement": "A sampler over a prefetching scheduler over some scheduler shows the same as the sampler over that scheduler directly: for every history of next(), next_episode() and reset() calls the same batches with the same flags and the same exceptions, however the two threads are interleaved.", "quantifier": "all wrapped schedulers, all histories of calls, all interleavings of the worker and the caller, all buffer sizes", "why_tests_cant": "All interleavings and histories; each run shows one.", "anchors": ["src/synthpix/scheduler/prefetch.py::PrefetchingFlowFieldScheduler.get_batch", "src/synthpix/scheduler/prefetch.py::PrefetchingFlowFieldScheduler._worker", "src/synthpix/scheduler/prefetch.py::PrefetchingFlowFieldScheduler.reset", "src/synthpix/sampler/synthetic.py::SyntheticImageSampler._get_next", "src/synthpix/make.py::make"]}
{"id": "C83", "title": "Prefetching an episodic scheduler changes neither episodes nor flags", "statement": "A sampler over a prefetching scheduler over an episodic scheduler plays the same episodes, with the same end flags and the same EpisodeEnd exceptions, as the sampler over the episodic scheduler, also when episodes are left early, however the two threads are interleaved.", "quantifier": "all wrapped schedulers and random generators, all histories of calls, all interleavings, all buffer sizes", "why_tests_cant": "All interleavings and histories; each run shows one.", "anchors": ["src/synthpix/scheduler/prefetch.py::PrefetchingFlowFieldScheduler.next_episode", "src/synthpix/scheduler/prefetch.py::PrefetchingFlowFieldScheduler._worker", "src/synthpix/scheduler/prefetch.py::PrefetchingFlowFieldScheduler.reset", "src/synthpix/scheduler/episodic.py::EpisodicFlowFieldScheduler", "src/synthpix/sampler/base.py::Sampler.next_episode"]}
{"id": "C84", "title": "Only V, I0 and I1 of a MAT file matter", "statement": "What is loaded from a MAT file depends only on its variables V, I0 and I1: neither further variables, groups and links in the file, nor their order, nor the version of the file change it, and a V inside a group is not taken for the flow. A missing file raises FileNotFoundError, a file that is neither a legacy MAT file nor HDF5, or has no V, raises ValueError.", "quantifier": "all MAT files of both kinds with arbitrarily nested groups", "why_tests_cant": "The trees are unbounded.", "anchors": ["src/synthpix/scheduler/mat.py::MATFlowFieldScheduler.load_file"]}
{"id": "C85", "title": "The version of a MAT file does not matter", "statement": "The same flow saved by MATLAB as version 7 and as version 7.3 is loaded as the same flow.", "quantifier": "all flows", "why_tests_cant": "All flows and sizes.", "anchors": ["src/synthpix/scheduler/mat.py::MATFlowFieldScheduler.load_file"]}
{"id": "C86", "title": "The constructors of the formats accept files and directories of their kind and nothing else", "statement": "The constructor of each file scheduler succeeds exactly if the options are valid and the file list, with every directory replaced by its sorted matching files, is a non-empty list of existing files with the right extension (and, with images, with both frames of every NumPy flow); otherwise it raises ValueError (or FileNotFoundError for a missing frame).", "quantifier": "all arguments and file systems", "why_tests_cant": "All file systems.", "anchors": ["src/synthpix/scheduler/hdf5.py::HDF5FlowFieldScheduler.__init__", "src/synthpix/scheduler/mat.py::MATFlowFieldScheduler.__init__", "src/synthpix/scheduler/numpy.py::NumpyFlowFieldScheduler.__init__"]}
{"id": "C87", "title": "A MAT file gives one sample with its own images and name", "statement": "Every loadable MAT file contributes exactly one sample, named after the file, whose first image is I0 and second image I1 if images are requested and which has no images otherwise; other files contribute nothing.", "quantifier": "all files, options and readers", "why_tests_cant": "All files.", "anchors": ["src/synthpix/scheduler/mat.py::MATFlowFieldScheduler.load_file", "src/synthpix/scheduler/mat.py::MATFlowFieldScheduler.get_next_slice"]}
{"id": "C88", "title": "A directory of numbered flows is served in the order of the numbers", "statement": "Given a directory with files flow_<t>.npy, a scheduler that does not shuffle serves them in the order of increasing t.", "quantifier": "all directories", "why_tests_cant": "All sets of numbers; the failure needs numbers of different length.", "anchors": ["src/synthpix/scheduler/numpy.py::NumpyFlowFieldScheduler", "src/synthpix/scheduler/base.py::BaseFlowFieldScheduler.__init__"]}
{"id": "C89", "title": "Every batch of the synthetic sampler is well-formed", "statement": "Every batch returned by next() of a synthetic sampler that could be constructed consists of as many image pairs and flow fields as the batch size (rounded up to a multiple of the number of devices), every image has the requested shape and intensities between 0 and 255, every flow field has velocities_per_pixel velocities per pixel and axis (rounded down), the reported densities and ranges are within or among the requested ones, and the done flags, if any, are as many as the pairs.", "quantifier": "all accepted arguments, all schedulers that deliver full batches (base and episodic ones do), all random draws, all histories of next(), reset() and next_episode() calls, including failing ones", "why_tests_cant": "All arguments and histories; a wrong size needs rare arguments.", "anchors": ["src/synthpix/sampler/synthetic.py::SyntheticImageSampler.__init__", "src/synthpix/sampler/synthetic.py::SyntheticImageSampler._get_next", "src/synthpix/data_generate.py::generate_images_from_flow", "src/synthpix/utils.py::flow_field_adapter"]}
{"id": "C90", "title": "The mask and the file names describe the pairs they stand beside", "statement": "In every batch of the synthetic sampler entry i of the mask is set iff pair i was made from a real flow field rather than from padding, and entry i of the file names is the file of that flow field.", "quantifier": "all accepted arguments, all base schedulers, all histories of calls", "why_tests_cant": "All batch sizes, numbers of flow fields and devices.", "anchors": ["src/synthpix/sampler/synthetic.py::SyntheticImageSampler._get_next", "src/synthpix/scheduler/base.py::BaseFlowFieldScheduler.get_batch"]}
{"id": "C91", "title": "The reported flow is the motion in the images", "statement": "If the flow is uniform with a displacement of whole pixels and nothing but the particles is random, then in every batch of the synthetic sampler the reported flow is that displacement everywhere, and the second image of every pair is the first one moved by it, away from the border of the region of particles.", "quantifier": "all accepted arguments, all uniform flows with whole-pixel displacement, all random draws, all histories of calls", "why_tests_cant": "All geometries and displacements; the layers are only tested one by one.", "anchors": ["src/synthpix/sampler/synthetic.py::SyntheticImageSampler._get_next", "src/synthpix/data_generate.py::generate_images_from_flow", "src/synthpix/utils.py::flow_field_adapter"]}
{"id": "C92", "title": "The random choices of a pipeline are independent of one another", "statement": "In a pipeline built by make, the shuffling of files, the selection of episodes and the generation of images never draw from the same random key, nor from a key that another of them splits.", "quantifier": "all configurations make accepts, all seeds, all numbers of devices and images, all numbers of shuffles, episodes and batches", "why_tests_cant": "A correlation between random choices is invisible in any one run.", "anchors": ["src/synthpix/make.py::make", "src/synthpix/scheduler/base.py::BaseFlowFieldScheduler.reset", "src/synthpix/scheduler/episodic.py::EpisodicFlowFieldScheduler._sample_new_episodes", "src/synthpix/sampler/synthetic.py::SyntheticImageSampler._get_next"]}
{"id": "C93", "title": "A new file list is served after a reset", "statement": "After file_list has been assigned and reset() has returned, a scheduler serves exactly the data of the new files, as one constructed with them would, whatever it served before and whatever its worker thread had buffered.", "quantifier": "all schedulers, histories of batches, failures, resets and assignments, and thread schedules", "why_tests_cant": "All histories and schedules; left-over buffers and cached directories only show in combination.", "anchors": ["src/synthpix/scheduler/base.py::BaseFlowFieldScheduler.file_list", "src/synthpix/scheduler/base.py::BaseFlowFieldScheduler.reset", "src/synthpix/scheduler/episodic.py::EpisodicFlowFieldScheduler.file_list", "src/synthpix/scheduler/episodic.py::EpisodicFlowFieldScheduler.reset", "src/synthpix/scheduler/prefetch.py::PrefetchingFlowFieldScheduler.file_list", "src/synthpix/scheduler/prefetch.py::PrefetchingFlowFieldScheduler.reset"]}
{"id": "C94", "title": "The debug mode rejects nothing that works without it", "statement": "With DEBUG_JIT switched on, every synthetic sampler that can be constructed and used without it can be constructed and used too; the checks reject only arguments that are invalid.", "quantifier": "all accepted arguments and all shapes of flow fields", "why_tests_cant": "All arguments; the checks of the debug mode are excluded from the tests.", "anchors": ["src/synthpix/utils.py::input_check_flow_field_adapter", "src/synthpix/utils.py::DEBUG_JIT", "src/synthpix/data_generate.py::input_check_gen_img_from_flow", "src/synthpix/data_generate.py::generate_images_from_flow", "src/synthpix/sampler/synthetic.py::SyntheticImageSampler.__init__"]}
{"id": "C95", "title": "The debug mode does not change what is delivered", "statement": "With DEBUG_JIT switched on, a synthetic sampler delivers the batches, of the same sizes and from the same flow fields, that it delivers without it.", "quantifier": "all schedulers, accepted arguments and numbers of calls", "why_tests_cant": "All schedulers and numbers of devices; the debug mode is excluded from the tests.", "anchors": ["src/synthpix/sampler/synthetic.py::SyntheticImageSampler.__init__", "src/synthpix/sampler/synthetic.py::SyntheticImageSampler._get_next"]}
{"id": "C96", "title": "Splitting copies every listed sample intact and touches nothing else", "statement": "After the packed dataset is split, every packed file whose name is in the list of a split is in that split, unchanged, under its own name, below its own directory and in a folder named by its Reynolds number if it has one; no two packed files get in each other's way, and every other file of the splits is as before.", "quantifier": "every packed directory tree, every order in which it is traversed, all four lists, every earlier content of the split directories", "why_tests_cant": "Tests have a handful of files; that no two target paths coincide must hold for all names and directories.", "anchors": ["scripts/download_piv_1.py::perform_split"]}
{"id": "C97", "title": "A sample is in the splits of the current lists only, also when the script is run again", "statement": "However often the dataset script has been run on an output directory, a sample is found in a split only if the current list of the split names it.", "quantifier": "every sequence of runs with their lists and packed files", "why_tests_cant": "Concerns histories of runs with different seeds or ratios.", "anchors": ["scripts/download_piv_1.py::perform_split", "scripts/download_piv_1.py::fetch_splits"]}
{"id": "C98", "title": "Every usable triplet is packed with its own data", "statement": "Every flow file whose two images exist and which can all be read is packed into the file named after it, with its own resized flow, first image and second image; triplets that cannot be used neither stop the script nor leave a file.", "quantifier": "every raw directory tree, every combination of missing and unreadable files, every order of traversal, every earlier content of the packed directory", "why_tests_cant": "Needs all combinations of names and failures; collisions of names show only for particular pairs of files.", "anchors": ["scripts/download_piv_1.py::convert", "scripts/download_piv_1.py::pack_triplet"]}
{"id": "C99", "title": "The dataset script loses and invents no sample", "statement": "Starting from empty directories, every usable raw triplet that the list of a split names is found in that split with its own flow and images, and the splits hold nothing else.", "quantifier": "every raw directory tree, every order of the two traversals, all lists", "why_tests_cant": "An end-to-end statement about all datasets, composed of the steps for one sample.", "anchors": ["scripts/download_piv_1.py::convert", "scripts/download_piv_1.py::pack_triplet", "scripts/download_piv_1.py::perform_split"]}
{"id": "C100", "title": "Flow files are read as they were written", "statement": "A flow written in the Middlebury .flo format is read back with the components of every pixel in place, whatever follows in the file, and a truncated file or any other file is rejected; of a MAT file the first of the variables V, flow, u, uv and F that is a flow is returned with the components as last axis, whichever of the two layouts it has.", "quantifier": "all heights, widths and values, every truncation, every set of variables", "why_tests_cant": "Tests read one or two small files; byte order, layout and truncation must be right for all sizes.", "anchors": ["scripts/download_piv_1.py::read_flow"]}
{"id": "C101", "title": "A configuration that the sanity script reports as valid is accepted by make", "statement": "If the sanity script ends with the report that a configuration file is valid, make() builds a synthetic sampler from that configuration.", "quantifier": "every configuration, every content of the file system, every answer of the user", "why_tests_cant": "Two independent checks of the same configuration must agree on all configurations.", "anchors": ["src/synthpix/sanity.py::main", "src/synthpix/make.py::make"]}
{"id": "C102", "title": "Having missing speeds computed makes the configuration usable", "statement": "If the user lets the sanity script compute missing speeds and continues, the check goes on with the computed speeds; they are in the configuration file afterwards, with everything else as before, and are used from then on.", "quantifier": "every configuration with missing speeds, all data files, every later run", "why_tests_cant": "Concerns sequences of runs with a file that is rewritten in between.", "anchors": ["src/synthpix/sanity.py::main", "src/synthpix/sanity.py::missing_speeds_panel", "src/synthpix/sanity.py::update_config_file"]}
{"id": "C103", "title": "An interrupted build of the class 2 dataset is completed by running the script again", "statement": "However often and wherever earlier runs of the class 2 script were interrupted, the next run that is not interrupted leaves on the disk exactly what a single uninterrupted run from scratch leaves, every packed sample being complete.", "quantifier": "every sequence of interrupted runs, every crash point between two writes (download, extraction, packing), every archive", "why_tests_cant": "Crash points are too many to try, and the effect of a crash shows only in later runs.", "anchors": ["scripts/download_piv_2.py::main", "scripts/download_piv_2.py::process_tfrecord", "scripts/utils.py::download_file"]}
{"id": "C104", "title": "The lists for training, validation and tuning on the disk always belong together", "statement": "Whenever the class 1 script copies files into the splits, the lists for training, validation and tuning are a partition of the official training list.", "quantifier": "every sequence of runs with any seeds, every failure of a download and every interruption in between", "why_tests_cant": "Only histories of runs with failures in between show mixed lists.", "anchors": ["scripts/download_piv_1.py::fetch_splits", "scripts/download_piv_1.py::perform_split", "scripts/utils.py::download_file", "scripts/utils.py::write_list"]}
{"id": "C105", "title": "An interrupted build of the class 1 dataset is completed by running the script again", "statement": "However often and wherever earlier runs of the class 1 script were interrupted, by Ctrl-C as well, the next run that is not interrupted leaves on the disk exactly what a single uninterrupted run from scratch leaves.", "quantifier": "every sequence of interrupted runs, every crash point between two writes (download, extraction, packing), all folders and archives", "why_tests_cant": "Crash points are too many to try, and the effect of a crash shows only in later runs.", "anchors": ["scripts/download_piv_1.py::main", "scripts/download_piv_1.py::download_from_gdrive", "scripts/download_piv_1.py::convert"]}
{"id": "C106", "title": "Examples of a TFRecord become the samples they encode", "statement": "An example whose two features have the right number of bytes is packed with its own flow and with the two channels of its target as first and second image, pixel by pixel, and the MAT scheduler delivers exactly these; every other example is passed over without a file.", "quantifier": "all bytes of the two features, every example, readable or not", "why_tests_cant": "Needs all contents and all wrong sizes; a swapped axis or channel goes unnoticed on symmetric data.", "anchors": ["scripts/download_piv_2.py::process_tfrecord", "scripts/download_piv_2.py::parse_proto", "src/synthpix/scheduler/mat.py::MATFlowFieldScheduler"]}
{"id": "C107", "title": "From the MAT files to the batches of real images", "statement": "Over a list of MAT files without repetition, each of which holds a flow field and an image pair of the requested size or is unusable, the real-image sampler on a scheduler that does not loop serves, batch by batch, exactly the pairs of the usable files: each once, complete, flagged and under its own name, in one order of the files (the given one unless shuffling is on); rows left over are zero, unflagged and nameless; then every call raises StopIteration. A prefetching scheduler in between changes nothing of this.", "quantifier": "all files and contents, all list lengths, batch sizes and numbers of calls, every order drawn, every interleaving of the worker thread with the calls", "why_tests_cant": "The guarantee concerns all layers together: loader, scheduler, worker thread and sampler; tests exercise them one at a time on a few files.", "anchors": ["src/synthpix/scheduler/mat.py::MATFlowFieldScheduler", "src/synthpix/scheduler/base.py::BaseFlowFieldScheduler.get_batch", "src/synthpix/sampler/real.py::RealImageSampler", "src/synthpix/scheduler/prefetch.py::PrefetchingFlowFieldScheduler"]}
{"id": "C108", "title": "From the NumPy files and their frames to the batches of real images", "statement": "Over a list of NumPy flow files without repetition, each of which can be read together with its two frames or cannot be read at all, the real-image sampler on a scheduler that does not loop serves, batch by batch, exactly the pairs of the readable files: each once, complete, flagged and under its own name, in one order of the files; then every call raises StopIteration.", "quantifier": "all files and contents, all list lengths, batch sizes and numbers of calls, every order drawn", "why_tests_cant": "Whether the last pairs arrive depends on the remainder of the number of files modulo the batch size, and on how many axes the images have; the tests use grey images or full batches.", "anchors": ["src/synthpix/scheduler/numpy.py::NumpyFlowFieldScheduler", "src/synthpix/scheduler/base.py::BaseFlowFieldScheduler.get_batch", "src/synthpix/sampler/real.py::RealImageSampler"]}
{"id": "C109", "title": "From the HDF5 files to the synthetic images", "statement": "Over a list of HDF5 files without repetition, each of which holds a volume of flow fields of one size or is unusable, the synthetic sampler makes image batch n from the flow fields that follow the first floor(n/k)*m (k image batches per flow batch, m flow fields per batch) of the passes over the files: the image of a pair, the flow reported with it and the name belong to the same slice of the same file. Looping, it never ends; otherwise it serves ceil(T/m)*k batches of T flow fields, marks the missing rows of the last as padding, and raises StopIteration.", "quantifier": "all files and contents, list lengths, batch sizes, numbers of flow fields, devices and calls, every order drawn, every image generator", "why_tests_cant": "The guarantee concerns loader, scheduler and sampler together, for unbounded runs; a shift by one between flows, images and names in any layer breaks it and shows only in long runs over several files.", "anchors": ["src/synthpix/scheduler/hdf5.py::HDF5FlowFieldScheduler", "src/synthpix/scheduler/base.py::BaseFlowFieldScheduler.get_batch", "src/synthpix/sampler/synthetic.py::SyntheticImageSampler", "src/synthpix/sampler/base.py::Sampler"]}
{"id": "C110", "title": "From the configuration to the synthetic batches", "statement": "If make accepts a configuration for synthetic images from HDF5 files without episodes and buffer, the sampler it returns makes its images from the flow fields of exactly the files that file_list names (directories stand for the files in them), with the values of the configuration for every parameter, in passes over the files as loop and randomize say, flow_fields_per_batch at a time and batches_per_flow_batch times each; the batch size is the least multiple of the number of devices that is not below batch_size; in exact arithmetic every batch has the requested image size and the documented ranges.", "quantifier": "all configurations given as dictionary or file, all files and contents, all numbers of calls, every order drawn", "why_tests_cant": "It composes the parsing of some thirty keys, the constructors, the scheduler and the sampler; a swapped or dropped argument in any of them changes the images without an error.", "anchors": ["src/synthpix/make.py::make", "src/synthpix/sampler/synthetic.py::SyntheticImageSampler.from_config", "src/synthpix/sampler/synthetic.py::SyntheticImageSampler", "src/synthpix/scheduler/hdf5.py::HDF5FlowFieldScheduler", "src/synthpix/scheduler/base.py::BaseFlowFieldScheduler"]}
{"id": "C111", "title": "From the configuration to the real images", "statement": "If make accepts a configuration for the images in MAT files without episodes and buffer, the sampler it returns serves, in batches of batch_size, exactly the pairs and flow fields in the usable files that file_list names, resized to image_shape (256 x 256 if not given), under their names: each once and then the end if loop is off, in passes without end, every batch full, if it is on; in the given order unless randomize is on.", "quantifier": "all configurations given as dictionary or file, all files and contents, all numbers of calls, every order drawn", "why_tests_cant": "It composes the parsing of the configuration, the constructor, the loader, the scheduler and the sampler over unbounded runs.", "anchors": ["src/synthpix/make.py::make", "src/synthpix/scheduler/mat.py::MATFlowFieldScheduler", "src/synthpix/sampler/real.py::RealImageSampler", "src/synthpix/scheduler/base.py::BaseFlowFieldScheduler"]}
{"id": "C112", "title": "A directory in file_list stands for the files below it", "statement": "Every directory in file_list is replaced, in place, by the paths of all files below it, at any depth, that have the extension of the format, each once and in increasing order; the constructor then accepts the list if there is at least one file and raises ValueError otherwise.", "quantifier": "all lists of directories, all directory trees of any depth and width, every order in which the system lists entries, all formats", "why_tests_cant": "The trees are unbounded; what is skipped (hidden names), found twice or mistaken for a file shows only in particular layouts.", "anchors": ["src/synthpix/scheduler/base.py::BaseFlowFieldScheduler.__init__", "src/synthpix/scheduler/mat.py::MATFlowFieldScheduler._file_pattern", "src/synthpix/scheduler/mat.py::MATFlowFieldScheduler.__init__", "src/synthpix/scheduler/hdf5.py::HDF5FlowFieldScheduler._file_pattern", "src/synthpix/scheduler/hdf5.py::HDF5FlowFieldScheduler.__init__", "src/synthpix/scheduler/numpy.py::NumpyFlowFieldScheduler._file_pattern"]}
{"id": "C113", "title": "make accepts exactly the complete configurations", "statement": "A configuration without episodes and buffer is accepted by make exactly if it is complete. For synthetic images: the listed files exist and have the extension of the class, every key that the sampler needs is there with a value of the documented type and range, at least one of the requested devices exists, a mask has the shape of the images, a histogram has 256 bins that count all pixels, and the window of the images, with the way of the fastest particles, lies inside the flow field. For real images: MAT files, a positive batch size, two positive numbers as image shape, and flow_fields_per_batch.", "quantifier": "all configurations, file systems, file contents, devices and random generators", "why_tests_cant": "Rejection of a good configuration and acceptance of a bad one can depend on any combination of some forty values with the files.", "anchors": ["src/synthpix/make.py::make", "src/synthpix/sampler/synthetic.py::SyntheticImageSampler.from_config", "src/synthpix/sampler/synthetic.py::SyntheticImageSampler.__init__", "src/synthpix/sampler/real.py::RealImageSampler.from_config", "src/synthpix/types.py::ImageGenerationSpecification.__post_init__"]}
{"id": "C114", "title": "The configurations that come with the package work", "statement": "The configuration files in config/ and docs/examples and the configurations printed in the tutorial are accepted by make wherever the data they name is available.", "quantifier": "all machines with a device and all file systems in which the named files or directories exist, with any contents of the right format", "why_tests_cant": "The data is not part of the repository, and acceptance must hold for any such data and machine.", "anchors": ["config/main.yaml::image_shape", "config/cylinder.yaml::image_shape", "config/Jassal.yaml::image_shape", "config/JHTDB.yaml::file_list", "config/test_data.yaml::file_list", "docs/tutorials.md::file_list", "docs/examples/mat/config.yaml::file_list", "docs/examples/npy/config.yaml::file_list", "src/synthpix/make.py::make"]}
{"id": "C115", "title": "reset() of the prefetching scheduler leaves no thread behind", "statement": "However the threads are scheduled: when reset() has joined the worker, that thread has ended and never touches the queue or the wrapped scheduler again; while reset() reinitialises both, no other thread moves, so at most one worker is alive at any time; is_running() is false after construction and after reset(); and what the user sees is what they would see with a single worker and a reset() that happens at once.", "quantifier": "all schedules of the user's thread and of all workers ever started, line by line within reset(), all wrapped schedulers and configurations", "why_tests_cant": "Whether a late worker of an earlier session can put a stale batch depends on the interleaving of threads, which tests cannot enumerate.", "anchors": ["src/synthpix/scheduler/prefetch.py::PrefetchingFlowFieldScheduler.reset", "src/synthpix/scheduler/prefetch.py::PrefetchingFlowFieldScheduler._worker", "src/synthpix/scheduler/prefetch.py::PrefetchingFlowFieldScheduler.is_running", "src/synthpix/scheduler/prefetch.py::PrefetchingFlowFieldScheduler.shutdown"]}
{"id": "C116", "title": "From a configuration to synthetic images of the flows in MAT and NumPy files", "statement": "A configuration for synthetic images from MAT or NumPy files, without episodes and buffer, that make accepts gives a sampler that serves image batches of the flow fields in exactly the files of file_list: batch n is made with the flow_fields_per_batch flow fields that come next after every batches_per_flow_batch batches, in passes over all files in the given order, or in an order of their own if randomize is set; files that cannot be used are left out; without loop it raises StopIteration after one pass. A MAT file contributes its array V, with both components resampled to 256 x 256, u multiplied with 256 / width and v with 256 / height.", "quantifier": "all configurations, file systems, file contents, devices and random generators, all numbers of calls", "why_tests_cant": "The result combines some forty values of the configuration with all files, and the run has no end.", "anchors": ["src/synthpix/make.py::make", "src/synthpix/sampler/synthetic.py::SyntheticImageSampler.from_config", "src/synthpix/sampler/synthetic.py::SyntheticImageSampler._get_next", "src/synthpix/scheduler/mat.py::MATFlowFieldScheduler.load_file", "src/synthpix/scheduler/mat.py::MATFlowFieldScheduler.from_config", "src/synthpix/scheduler/numpy.py::NumpyFlowFieldScheduler.get_next_slice"]}
{"id": "C117", "title": "A uniform flow is reported as pixels per unit times dt times the stored velocity, whatever the file format", "statement": "If every flow field in the files is uniform with velocity (u, v), every batch that a looping sampler made from a configuration without episodes and buffer delivers, with output in pixels, reports the flow (u, v) times resolution times dt at every point, whatever the size of the stored grid and whichever of HDF5, MAT and NumPy the files are.", "quantifier": "all such configurations, files with uniform flows on grids of any size, batch sizes, device counts, windows, and any number of batches", "why_tests_cant": "Rescaling on the way depends on the size of the grid in the file, and the files in the tests all have the one size for which it has no effect.", "anchors": ["src/synthpix/make.py::make", "src/synthpix/scheduler/mat.py::MATFlowFieldScheduler.from_config", "src/synthpix/scheduler/mat.py::MATFlowFieldScheduler.load_file", "src/synthpix/sampler/synthetic.py::SyntheticImageSampler.from_config"]}
{"id": "C118", "title": "The images show the part of the flow field that begins at img_offset", "statement": "The flow reported at row j and column i of the output is the flow of the file at img_offset plus j and i steps of the output grid, to within a pixel, and exactly there if the displacements at the largest speeds are whole pixels and the output grid has the steps of the flow grid.", "quantifier": "all accepted geometries, flow fields, output shapes and points of the output", "why_tests_cant": "Five roundings (two offsets, the padding, the region and the output grid) combine, and the place is right or wrong by fractions that depend on all of them.", "anchors": ["src/synthpix/sampler/synthetic.py::SyntheticImageSampler.__init__", "src/synthpix/utils.py::flow_field_adapter", "docs/tutorials.md::img_offset"]}
{"id": "C119", "title": "Adding buffer_size to a configuration changes nothing but the time batches take", "statement": "make accepts a configuration with buffer_size if and only if it accepts it without, and every history of next and reset on the sampler made with it shows the same batches and exceptions as on the one made without, whatever the worker thread does between and during the calls; and every such history can take place.", "quantifier": "all configurations without episodes, all three scheduler classes, synthetic and real images, all environments, histories of calls and interleavings with the worker in which no timeout strikes while it is alive", "why_tests_cant": "The configuration, the size of the buffer, the history of calls and the interleaving of two threads vary together; tests fix one configuration and see one interleaving.", "anchors": ["src/synthpix/make.py::make", "src/synthpix/scheduler/prefetch.py::PrefetchingFlowFieldScheduler", "src/synthpix/sampler/synthetic.py::SyntheticImageSampler.from_config", "src/synthpix/sampler/real.py::RealImageSampler.from_config"]}
{"id": "C120", "title": "A configuration with episodes plays episodes: frames in order, done at the last one, then EpisodeEnd", "statement": "A sampler made from a configuration with episode_length plays episodes, each of episode_length consecutive files of the sorted listing of one leaf directory of the files in file_list, batch_size of them side by side: call t of an episode shows frame t of every episode, done flags are set at the last step only, further calls raise EpisodeEnd, and next_episode and reset begin a new draw; batches are numbered from the last reset.", "quantifier": "all configurations with episode_length that make accepts, synthetic and real images, all file systems, draws and histories of next, next_episode and reset", "why_tests_cant": "Configuration, directory contents, random draws and histories of calls vary together; tests fix one directory and call next a few times.", "anchors": ["src/synthpix/make.py::make", "src/synthpix/scheduler/episodic.py::EpisodicFlowFieldScheduler", "src/synthpix/sampler/base.py::Sampler.__next__", "src/synthpix/sampler/base.py::Sampler.reset", "src/synthpix/sampler/base.py::Sampler.next_episode", "src/synthpix/sampler/synthetic.py::SyntheticImageSampler._get_next", "src/synthpix/sampler/real.py::RealImageSampler._get_next"]}
{"id": "C121", "title": "Episodes and a buffer together: the same film, only prefetched", "statement": "Adding buffer_size to a configuration with episode_length changes whether make succeeds in no case, and what it returns only by the prefetching scheduler in between. The batches, done flags and EpisodeEnds seen by the user are those without the buffer, whatever the worker thread does meanwhile, and every call can return.", "quantifier": "all configurations with episode_length and buffer_size, synthetic and real images, file systems, draws, histories of next, next_episode and partial reset, all interleavings of the worker thread", "why_tests_cant": "Buffering, episodes, configuration and thread interleavings interact; tests check the prefetching scheduler over a mock and the sampler over a mock.", "anchors": ["src/synthpix/make.py::make", "src/synthpix/scheduler/prefetch.py::PrefetchingFlowFieldScheduler", "src/synthpix/scheduler/episodic.py::EpisodicFlowFieldScheduler", "src/synthpix/sampler/base.py::Sampler.__next__", "src/synthpix/sampler/base.py::Sampler.next_episode", "src/synthpix/sampler/synthetic.py::SyntheticImageSampler.__init__", "src/synthpix/sampler/synthetic.py::SyntheticImageSampler._get_next", "src/synthpix/sampler/real.py::RealImageSampler._get_next"]}
{"id": "C122", "title": "Interpolation in single precision is accurate", "statement": "The bilinear and trilinear interpolation of the package, computed in single precision, differ from the exact interpolation of the same entries at the same point by at most 10 and 17 rounding errors (2^-24) of the largest entry.", "quantifier": "all images and volumes, all points inside and outside, all ways of rounding each operation or fusing it with the next", "why_tests_cant": "The error depends on values, positions and on which operations the compiler fuses; tests compare a few values with a tolerance.", "anchors": ["src/synthpix/utils.py::bilinear_interpolate", "src/synthpix/utils.py::trilinear_interpolate"]}
{"id": "C123", "title": "Particles move in single precision as the flow says", "statement": "In single precision a particle of the region ends where exact arithmetic puts it, up to 2^-24 times the sum of 5 region sizes, 21 times the largest displacement and 4 times the displacement that the variation of the flow over the region amounts to.", "quantifier": "all region sizes, flow fields, time steps, resolutions and positions in the region, all ways of rounding, fusing, and replacing the division by a multiplication", "why_tests_cant": "The scaling to grid steps and back, the interpolation and the step each round; tests use a few positions and tolerances.", "anchors": ["src/synthpix/data_generate.py::generate_images_from_flow", "src/synthpix/apply.py::apply_flow_to_particles", "src/synthpix/utils.py::bilinear_interpolate"]}
{"id": "C124", "title": "A still flow gives two identical images on the machine", "statement": "Where the flow is zero and nothing varies, the two images of a pair are identical, in single precision too.", "quantifier": "all region sizes, resolutions of the flow, particles at single-precision positions, ways of rounding", "why_tests_cant": "Whether scaling a position to grid steps and back restores it depends on the sizes and the position; a shift of one unit in the last place at a pixel border moves the whole patch by a pixel.", "anchors": ["src/synthpix/data_generate.py::generate_images_from_flow", "src/synthpix/generate.py::img_gen_from_data"]}
{"id": "C125", "title": "Drawn properties and positions stay in their ranges in single precision", "statement": "Diameters, correlations, intensities and densities drawn in single precision lie in the range they are drawn from (end points included), and positions lie in the region (its upper end excluded).", "quantifier": "all ranges of single-precision numbers, all draws that the generator can return, all ways of rounding or fusing", "why_tests_cant": "Rounding near the upper end can leave a range; the draws concerned are one in millions.", "anchors": ["src/synthpix/data_generate.py::generate_images_from_flow"]}
{"id": "C126", "title": "A for loop over a sampler sees every batch and ends normally", "statement": "for batch in sampler runs its body once for each batch, in order; it ends without an exception when the data is used up (loop: false) or the episode is over, and never ends by itself with loop: true and no episodes. After break, another loop goes on with the batch that follows.", "quantifier": "all samplers, histories and places of break; all accepted configurations of the kinds of C110, C111, C116 and C120", "why_tests_cant": "It is the composition of the iterator protocol, the sampler, the scheduler and the files; tests call next a few times on one configuration.", "anchors": ["src/synthpix/sampler/base.py::Sampler.__iter__", "src/synthpix/sampler/base.py::Sampler.__next__", "src/synthpix/make.py::make"]}
{"id": "C127", "title": "What says it can be iterated can be iterated", "statement": "next(x) and for item in x work for every object whose documentation says so: the samplers, and the schedulers, which define __iter__ and whose descriptions show next(scheduler) and a for loop.", "quantifier": "all states of a scheduler or sampler", "why_tests_cant": "A test that calls the iteration methods directly does not notice that Python's iterator protocol does not find them.", "anchors": ["src/synthpix/sampler/base.py::Sampler.__iter__", "src/synthpix/sampler/base.py::Sampler.__next__", "src/synthpix/scheduler/base.py::BaseFlowFieldScheduler.__iter__", "src/synthpix/scheduler/episodic.py::EpisodicFlowFieldScheduler.__iter__", "src/synthpix/scheduler/prefetch.py::PrefetchingFlowFieldScheduler"]}
{"id": "C128", "title": "The pictures saved by the main program are those of the batches delivered", "statement": "After a run of the main program the output directory holds, for every batch delivered and each of its first num samples, the two images and the flow of exactly that sample: no two pictures share a name, nothing else is touched; the run ends normally exactly if the sampler was exhausted or the user stops it, and with the sampler's exception otherwise.", "quantifier": "all sequences of outcomes of the sampler, answers of the user, numbers of pictures and previous contents of the directory", "why_tests_cant": "A collision of names needs particular pairs of batch and sample numbers; a test looks at a few of them.", "anchors": ["src/main.py::main", "src/main.py::visualize_and_save"]}
{"id": "C129", "title": "The dataset script reports what is wrong with its command line, and then changes nothing", "statement": "A split ratio that is not three integers with sum 100, or a target shape that is not HxW, is reported as such, with a non-zero exit status, and nothing on the disk is changed; a status of 0 means that the dataset has been made.", "quantifier": "all texts of the two arguments, contents of the disk and outcomes of the downloads", "why_tests_cant": "The arguments are arbitrary text and the outcome depends on what is on the disk; the script has no tests.", "anchors": ["scripts/download_piv_1.py::main", "scripts/download_piv_1.py::fetch_splits", "scripts/download_piv_1.py::convert", "scripts/download_piv_1.py::perform_split"]}
{"id": "C130", "title": "After shutdown() a prefetching scheduler delivers nothing more", "statement": "shutdown() of a prefetching scheduler returns without waiting for data, and from then on, until reset(), get_batch raises StopIteration instead of delivering batches; whatever is delivered before or after keeps the order of the wrapped scheduler.", "quantifier": "all wrapped schedulers, buffer sizes, states in which shutdown can be called, later calls and interleavings of the two threads", "why_tests_cant": "What remains in the queue and in the hands of the worker when shutdown is called depends on the interleaving.", "anchors": ["src/synthpix/scheduler/prefetch.py::PrefetchingFlowFieldScheduler.shutdown", "src/synthpix/scheduler/prefetch.py::PrefetchingFlowFieldScheduler.get_batch", "src/synthpix/scheduler/prefetch.py::PrefetchingFlowFieldScheduler._worker"]}
{"id": "C131", "title": "Sampler.shutdown() tells every background thread to stop", "statement": "When shutdown() of a sampler has returned, every prefetching scheduler underneath has been told to stop its thread, however the schedulers are nested.", "quantifier": "all nestings of file reading, episodic and prefetching schedulers", "why_tests_cant": "The nestings are unboundedly many; tests use mocks of the scheduler.", "anchors": ["src/synthpix/sampler/base.py::Sampler.shutdown", "src/synthpix/scheduler/prefetch.py::PrefetchingFlowFieldScheduler.shutdown", "src/synthpix/scheduler/episodic.py::EpisodicFlowFieldScheduler"]}
{"id": "C132", "title": "Resizing never enlarges displacements beyond the change of scale", "statement": "If a component of a stored flow lies between lo and hi at every pixel, then after loading at another size, or packing at one size and loading at another, it lies between lo and hi times output size over original size.", "quantifier": "all flows, both layouts, all original, target and output sizes", "why_tests_cant": "The weights of the resampling filter depend on both sizes and on the pixel; over- and undershoot appears only for particular combinations.", "anchors": ["src/synthpix/scheduler/mat.py::MATFlowFieldScheduler.load_file", "scripts/download_piv_1.py::resize_flow"]}
{"id": "C133", "title": "Reported displacements stay within the range of the stored velocities", "statement": "If both velocity components of all flow fields in the files lie between lo and hi, then in every batch that a sampler made from a configuration without episodes and buffer delivers, the flow reported for every pair that is not padding lies between lo and hi times the change of units (resolution times dt for pixels), at every point; for MAT files also times 256 over the stored size.", "quantifier": "all such configurations, file contents, grids, batch sizes and device counts, any number of batches", "why_tests_cant": "Padding, resizing, cropping and resampling all contribute to a reported value; an overshoot would appear only for particular grids.", "anchors": ["src/synthpix/utils.py::flow_field_adapter", "src/synthpix/utils.py::bilinear_interpolate", "src/synthpix/sampler/synthetic.py::SyntheticImageSampler._get_next", "src/synthpix/scheduler/mat.py::MATFlowFieldScheduler.load_file", "src/synthpix/make.py::make"]}
{"id": "C134", "title": "With hidden particles or varied density every particle is drawn where it is", "statement": "For a sampler whose specification hides particles or varies their density (the case for which the constructor enlarges the region in which particles are seeded), every pixel of both images of every pair shows exactly the light, at their true positions, of the particles within a patch radius of it.", "quantifier": "all accepted samplers with such a specification, all random draws, flow fields, pairs and pixels", "why_tests_cant": "Only particles within a patch of the border of the region are affected; it takes particular draws to see it.", "anchors": ["src/synthpix/sampler/synthetic.py::SyntheticImageSampler.__init__", "src/synthpix/generate.py::img_gen_from_data", "src/synthpix/data_generate.py::generate_images_from_flow"]}
{"id": "C135", "title": "The units of length and time do not matter", "statement": "Writing the same experiment down in other units of length and time (offset and size of the flow field, resolution, speeds, dt and the stored velocities converted) changes neither whether the synthetic sampler is accepted nor, over any history of calls, any image, mask, file name, flag or failure; flow fields reported in pixels stay the same and velocities are converted.", "quantifier": "all positive conversion factors, arguments, flow fields, schedulers, random draws and histories of calls", "why_tests_cant": "Every formula of the geometry, the adapter and the motion has to be dimensionally right; a wrong one may cancel for the usual units.", "anchors": ["src/synthpix/sampler/synthetic.py::SyntheticImageSampler.__init__", "src/synthpix/sampler/synthetic.py::SyntheticImageSampler._get_next", "src/synthpix/utils.py::flow_field_adapter", "src/synthpix/apply.py::apply_flow_to_particles", "src/synthpix/data_generate.py::generate_images_from_flow"]}
{"id": "C136", "title": "output_units changes nothing but the reported flow", "statement": "Choosing pixels instead of measure units per second as output_units changes neither whether the sampler is accepted nor any image, mask, file name, flag or failure over any history of calls; every reported velocity is multiplied by the resolution and dt.", "quantifier": "all arguments, schedulers, random draws and histories of calls", "why_tests_cant": "All inputs and histories.", "anchors": ["src/synthpix/sampler/synthetic.py::SyntheticImageSampler.__init__", "src/synthpix/sampler/synthetic.py::SyntheticImageSampler._get_next", "src/synthpix/utils.py::flow_field_adapter"]}
{"id": "C137", "title": "The reported flow in single precision", "statement": "In the arithmetic of the device the reported flow field and the flow field that moves the particles differ from those of exact arithmetic by at most a few rounding errors (2^-24) of the largest velocity and of what the flow changes over the region, and have the same shape.", "quantifier": "all flow fields, arguments, pixels, roundings of the single operations and fusings of operations", "why_tests_cant": "All inputs; an error of the grid grows with the distance from the corner.", "anchors": ["src/synthpix/utils.py::flow_field_adapter", "src/synthpix/utils.py::bilinear_interpolate"]}
{"id": "C138", "title": "The reported flow describes the motion of the particles in single precision", "statement": "On the device the displacement of a particle between the images equals the flow reported (in pixels) at its pixel, up to what the flow changes within about one grid step and a few rounding errors of the size of the region and of the displacement.", "quantifier": "all flow fields, arguments, pixels, roundings of the single operations and fusings of operations", "why_tests_cant": "Tests compare values with a tolerance, for some flows.", "anchors": ["src/synthpix/utils.py::flow_field_adapter", "src/synthpix/utils.py::bilinear_interpolate", "src/synthpix/apply.py::apply_flow_to_particles", "src/synthpix/data_generate.py::generate_images_from_flow"]}
{"id": "C139", "title": "A mask blackens pixels and changes nothing else", "statement": "Giving a synthetic sampler without histogram a mask of zeros and ones of the shape of the images changes, in every history of calls, nothing but the masked pixels, which are black in both images of every pair; a mask of another shape is refused.", "quantifier": "all sampler arguments, masks, schedulers, histories of calls, random draws and roundings", "why_tests_cant": "All histories and all arguments.", "anchors": ["src/synthpix/sampler/synthetic.py::SyntheticImageSampler.__init__", "src/synthpix/sampler/synthetic.py::SyntheticImageSampler._get_next", "src/synthpix/data_generate.py::generate_images_from_flow"]}
{"id": "C140", "title": "Seed, noise and the looks of particles do not influence the flow", "statement": "Two samplers that differ in seed, brightness, shape of particles, noise, mask and histogram only give, on the same scheduler, the same number of images, the same flow fields, masks, file names, flags and failures over every history of calls.", "quantifier": "all sampler arguments, schedulers, histories of calls, random draws and roundings", "why_tests_cant": "All histories, all arguments and all seeds.", "anchors": ["src/synthpix/sampler/synthetic.py::SyntheticImageSampler.__init__", "src/synthpix/sampler/synthetic.py::SyntheticImageSampler._get_next", "src/synthpix/sampler/base.py::Sampler.__next__", "src/synthpix/sampler/base.py::Sampler.reset"]}
{"id": "C141", "title": "Only the documented keys of a configuration matter", "statement": "make looks at the documented keys only: configurations that give them the same values have the same outcome, whatever the order of the entries and whatever else they contain (a misspelled option is ignored without a word). With images of files only eleven of the keys matter. Each of the keys has an influence.", "quantifier": "all configurations and machines", "why_tests_cant": "All configurations, with any additional keys.", "anchors": ["src/synthpix/make.py::make", "src/synthpix/sampler/synthetic.py::SyntheticImageSampler.from_config"]}
{"id": "C142", "title": "The number of devices changes nothing but the random draws", "statement": "Samplers on different numbers of devices show on the same scheduler, over every history of calls, the same flow fields, masks, file names, flags and failures, and image i shows the same flow field.", "quantifier": "all numbers of devices that divide the batch, schedulers, histories of calls, generators", "why_tests_cant": "All histories and device counts; tests run on one device.", "anchors": ["src/synthpix/sampler/synthetic.py::SyntheticImageSampler.__init__", "src/synthpix/sampler/synthetic.py::SyntheticImageSampler._get_next", "src/synthpix/utils.py::flow_field_adapter"]}
{"id": "C143", "title": "Resetting without the scheduler restarts the draws, not the data", "statement": "Whatever happened before, after reset(scheduler_reset=False) a synthetic sampler shows, for every further sequence of calls, what a newly constructed sampler shows on the scheduler as it is now; a full reset() whose scheduler cannot be reset raises the scheduler's exception and otherwise has the same effect.", "quantifier": "all states of the sampler, schedulers, failures of the scheduler and sequences of calls", "why_tests_cant": "All histories before and after the reset.", "anchors": ["src/synthpix/sampler/synthetic.py::SyntheticImageSampler.reset", "src/synthpix/sampler/synthetic.py::SyntheticImageSampler._get_next", "src/synthpix/sampler/base.py::Sampler.reset"]}
{"id": "C144", "title": "Hiding particles", "statement": "p_hide_img1 and p_hide_img2 are the probabilities that a particle that takes part is dark in the first and in the second image; each concerns its own image only; with the same seed, hiding more makes no pixel brighter (without histogram); and hiding all gives black images (without noise and histogram), in every batch of every history of calls.", "quantifier": "all parameters, random draws, roundings, masks, flow fields, schedulers and histories of calls", "why_tests_cant": "A statement about all draws and all parameters; a test sees a few images.", "anchors": ["src/synthpix/data_generate.py::generate_images_from_flow", "src/synthpix/generate.py::img_gen_from_data", "src/synthpix/generate.py::add_noise_to_image", "src/synthpix/sampler/synthetic.py::SyntheticImageSampler._get_next"]}
{"id": "C145", "title": "Files that change while they are served", "statement": "Whatever happens to the files while a scheduler without loop serves them (rewritten, deleted, repaired between two openings), every sequence of batches is that of files that never change, each file being what it is at the moment it is opened; its samples come from one version only, each once; no file is opened before more samples are asked for than the files before it have; and after reset() the files are served as they are from then on.", "quantifier": "all changes of the files between openings, lists without repetitions, shuffles and sequences of batch sizes", "why_tests_cant": "A race between whoever writes the files and the scheduler: all interleavings of changes with openings.", "anchors": ["src/synthpix/scheduler/base.py::BaseFlowFieldScheduler._get_next", "src/synthpix/scheduler/base.py::BaseFlowFieldScheduler.get_batch", "src/synthpix/scheduler/base.py::BaseFlowFieldScheduler.reset"]}
{"id": "C146", "title": "Every pass opens every file at most once", "statement": "Over every history of get_batch and reset calls, looping or not, shuffled or not, and whatever the files contain, the files are opened pass by pass; in each pass the files opened are an initial part of the list in its current order, each opened once.", "quantifier": "all histories of calls, files (readable or not, changing or not), keys, and lists without repetitions", "why_tests_cant": "All histories of calls.", "anchors": ["src/synthpix/scheduler/base.py::BaseFlowFieldScheduler._get_next", "src/synthpix/scheduler/base.py::BaseFlowFieldScheduler.get_batch", "src/synthpix/scheduler/base.py::BaseFlowFieldScheduler.reset"]}
{"id": "C147", "title": "An interrupted sanity script leaves the old or the new configuration", "statement": "If the sanity script is stopped at any point while it writes the computed speeds into the configuration file, the file holds afterwards the old configuration or the complete new one, or at least something that the script notices when it is run again.", "quantifier": "all configurations, updates and points at which the program may stop, also in the middle of a line", "why_tests_cant": "All crash points; a test lets the function finish.", "anchors": ["src/synthpix/sanity.py::update_config_file", "src/synthpix/sanity.py::missing_speeds_panel"]}
{"id": "C148", "title": "The reported flow is linear in the delivered flow", "statement": "If the flow fields of two data sets are combined with any two factors, the sampler fed with the combinations reports the combinations of the flow fields it reports for the two data sets, and it fails, ends and marks its batches at the same calls.", "quantifier": "all accepted configurations, schedulers, pairs of flow fields, factors and histories of calls", "why_tests_cant": "All flow fields and factors; a test compares a few fields.", "anchors": ["src/synthpix/sampler/synthetic.py::SyntheticImageSampler._get_next", "src/synthpix/sampler/synthetic.py::SyntheticImageSampler.__init__", "src/synthpix/utils.py::flow_field_adapter", "src/synthpix/utils.py::bilinear_interpolate"]}
{"id": "C149", "title": "Only the second images and the reported velocities depend on the flow", "statement": "With the same seed and configuration, the first images, the drawn generation parameters, the shapes of the reported flow fields, masks, file names, done flags and failures do not depend on the velocities the scheduler delivers.", "quantifier": "all accepted configurations, roundings, schedulers, histories of calls and any two assignments of flow fields", "why_tests_cant": "All flow fields and histories; a test compares two fields for one call.", "anchors": ["src/synthpix/sampler/synthetic.py::SyntheticImageSampler._get_next", "src/synthpix/data_generate.py::generate_images_from_flow"]}
{"id": "C150", "title": "Only the flow around the window matters", "statement": "The flow at grid points from which no particle of the declared speeds can reach the image (with a margin of two grid steps before it and one behind it, and the size of a particle where particles may be hidden) has no influence on anything a synthetic sampler delivers.", "quantifier": "all accepted configurations, schedulers, histories of calls and all changes of the flow outside the declared neighbourhood of the window", "why_tests_cant": "All changes of the flow field outside; a test perturbs a few entries.", "anchors": ["src/synthpix/sampler/synthetic.py::SyntheticImageSampler.__init__", "src/synthpix/sampler/synthetic.py::SyntheticImageSampler._get_next", "src/synthpix/utils.py::flow_field_adapter", "src/synthpix/utils.py::bilinear_interpolate", "src/synthpix/apply.py::apply_flow_to_particles"]}
{"id": "C151", "title": "A specification may be given in part", "statement": "A generation specification can be created with any number of positional and keyword arguments. Fields without an argument take the documented default, the defaults meet all documented constraints, and arguments that fit no field, or a field twice, are a TypeError. A misspelt name is rejected when a specification is created, and ignored when one is updated.", "quantifier": "all lists of positional arguments and all sets of keyword arguments, with any values", "why_tests_cant": "All combinations of the sixteen fields and all names; a test tries a few.", "anchors": ["src/synthpix/types.py::ImageGenerationSpecification", "src/synthpix/types.py::ImageGenerationSpecification.update"]}
{"id": "C152", "title": "from_config builds what the configuration says", "statement": "A scheduler built by from_config works with the options of the configuration, and an option that is left out has the value the constructor of the class gives it: from_config(options) is the class called with these options.", "quantifier": "all configurations, with any names and values, and all three file formats", "why_tests_cant": "All configurations; a test tries a few complete ones.", "anchors": ["src/synthpix/scheduler/hdf5.py::HDF5FlowFieldScheduler.from_config", "src/synthpix/scheduler/hdf5.py::HDF5FlowFieldScheduler.__init__", "src/synthpix/scheduler/mat.py::MATFlowFieldScheduler.from_config", "src/synthpix/scheduler/mat.py::MATFlowFieldScheduler.__init__", "src/synthpix/scheduler/numpy.py::NumpyFlowFieldScheduler.from_config", "src/synthpix/scheduler/numpy.py::NumpyFlowFieldScheduler.__init__", "src/synthpix/sampler/real.py::RealImageSampler.from_config"]}
{"id": "C153", "title": "More noise darkens no pixel, and noise changes a pixel by a bounded amount", "statement": "With a larger noise_uniform or noise_gaussian_mean and everything else the same, seed included, a synthetic sampler without histogram is accepted too, and over every history of calls no pixel of either image is darker than before, none is brighter by more than the sum of the increases, and flow fields, masks, file names, flags, generation parameters and failures are the same. With any other noise, no pixel changes by more than the change of noise_uniform, plus that of the mean, plus B times that of the standard deviation, where B bounds the draws of the standard normal distribution.", "quantifier": "all configurations, seeds, draws, flow fields and histories of calls of the synthetic sampler; all values of the three noise parameters", "why_tests_cant": "All pixels under all random draws, and two configurations at once; a test compares statistics of a few images.", "anchors": ["src/synthpix/generate.py::add_noise_to_image", "src/synthpix/data_generate.py::generate_images_from_flow", "src/synthpix/sampler/synthetic.py::SyntheticImageSampler"]}
{"id": "C154", "title": "Brighter particles darken no pixel", "statement": "With as many intensity_ranges whose ends are not smaller, and everything else the same, seed included, a synthetic sampler without histogram is accepted too, and over every history of calls no pixel of either image is darker than before, the reported intensity range is the corresponding one, and nothing else changes. With all intensity_ranges and the standard deviation of the intensity multiplied by a factor of at least one, and no noise, every pixel is multiplied by this factor, up to 255.", "quantifier": "all configurations, seeds, draws, flow fields and histories of calls of the synthetic sampler; all lists of ranges, all factors", "why_tests_cant": "All pixels under all random draws, and two configurations at once; a test renders a few particles.", "anchors": ["src/synthpix/generate.py::img_gen_from_data", "src/synthpix/generate.py::add_noise_to_image", "src/synthpix/data_generate.py::generate_images_from_flow", "src/synthpix/sampler/synthetic.py::SyntheticImageSampler"]}
{"id": "C155", "title": "A denser seeding darkens no pixel", "statement": "With a higher lower bound of seeding_density_range, the same upper bound and everything else the same, seed included, a synthetic sampler without histogram whose particles may be hidden or whose density varies is accepted too, and over every history of calls no reported density is lower, no pixel of either image is darker, and nothing else changes.", "quantifier": "all configurations, seeds, draws, monotone roundings, flow fields and histories of calls of the synthetic sampler; all lower bounds", "why_tests_cant": "All pixels under all random draws, and two configurations at once; a test renders a few particles.", "anchors": ["src/synthpix/data_generate.py::generate_images_from_flow", "src/synthpix/generate.py::img_gen_from_data", "src/synthpix/sampler/synthetic.py::SyntheticImageSampler"]}
{"id": "C156", "title": "Every history of next, reset and next_episode reads the files as a reader would", "statement": "From any accepted configuration without episodes and buffer, every history of calls on the sampler is that of a reader of the samples in the usable files. next shows the next samples of the pass in batches of the configured size (real images), or makes batches_per_flow_batch image batches from every flow_fields_per_batch samples; a looping reader goes on with further passes and never ends, another pads its last batch and raises StopIteration. reset() starts a new pass and numbers the image batches from zero again, reset(scheduler_reset=False) goes on in the current pass with the image batches numbered from zero, next_episode raises AttributeError and changes nothing. Passes are in the given order unless randomize is on.", "quantifier": "all accepted configurations for real images from MAT files and for synthetic images from HDF5, MAT and NumPy files; all file contents, permutations and draws; all histories of calls of any length", "why_tests_cant": "The number of histories of calls is infinite and the position in the pass, the flow batch in use and the key interact; tests call next a few times and reset once.", "anchors": ["src/synthpix/sampler/base.py::Sampler.__next__", "src/synthpix/sampler/base.py::Sampler.reset", "src/synthpix/sampler/base.py::Sampler.next_episode", "src/synthpix/sampler/synthetic.py::SyntheticImageSampler._get_next", "src/synthpix/sampler/synthetic.py::SyntheticImageSampler._reset", "src/synthpix/sampler/real.py::RealImageSampler._get_next", "src/synthpix/scheduler/base.py::BaseFlowFieldScheduler.get_batch", "src/synthpix/scheduler/base.py::BaseFlowFieldScheduler.reset", "src/synthpix/make.py::make"]}
{"id": "C157", "title": "A prefetching scheduler that is no longer used stops its thread", "statement": "When the program drops its last reference to a prefetching scheduler without calling shutdown(), the destructor is called, it does not hang or fail, and no background thread is left.", "quantifier": "all wrapped schedulers, buffer sizes, histories of calls, moments of the last reference being dropped, and interleavings with the background thread", "why_tests_cant": "All histories and interleavings; a test can wait for the destructor of a few objects only, and cannot show that it is never called.", "anchors": ["src/synthpix/scheduler/prefetch.py::PrefetchingFlowFieldScheduler.__del__", "src/synthpix/scheduler/prefetch.py::PrefetchingFlowFieldScheduler.__init__", "src/synthpix/scheduler/prefetch.py::PrefetchingFlowFieldScheduler._worker", "src/synthpix/scheduler/prefetch.py::PrefetchingFlowFieldScheduler.shutdown"]}
{"id": "C158", "title": "StopIteration is never raised because a batch was late, if batches are loaded fast enough", "statement": "Let a call of the wrapped scheduler take at most load seconds and anything else the background thread does at most step seconds, and let at most n episodes end in a row (0 without episodes, 1 with episodes). If (n+1)*load + (n+2)*step is less than startup_timeout and steady_state_timeout, then StopIteration from get_batch means that the wrapped scheduler has come to its end or failed, whenever the user calls get_batch and next_episode. With the defaults and no episodes: batches must take less than two seconds. With exactly two seconds it fails.", "quantifier": "all wrapped schedulers, buffer sizes, timeouts and speeds; all sessions of get_batch and next_episode calls at any times, and all interleavings with the background thread", "why_tests_cant": "Timing of two threads: a test sees one machine's speed and a few interleavings, and the bound between load time and timeouts is a statement about all of them.", "anchors": ["src/synthpix/scheduler/prefetch.py::PrefetchingFlowFieldScheduler.get_batch", "src/synthpix/scheduler/prefetch.py::PrefetchingFlowFieldScheduler._worker", "src/synthpix/scheduler/prefetch.py::PrefetchingFlowFieldScheduler.__init__"]}
{"id": "C159", "title": "A user who asks often enough gets every batch through the buffer", "statement": "Under the speeds of C158, if the user only calls get_batch and, while the background thread is alive, takes the next item less than eos_timeout (two seconds) after the last, then the batches returned are, in order, those of the wrapped scheduler used directly; when StopIteration is raised they are all of them, and nothing is returned afterwards. With a pause of exactly two seconds the last batch can be lost.", "quantifier": "all wrapped schedulers, buffer sizes, timeouts and speeds; all times at which the user asks within the bound; all interleavings", "why_tests_cant": "The loss needs a full queue for the whole of a timeout at the end of the stream; only a statement over all timings shows that the bound excludes it.", "anchors": ["src/synthpix/scheduler/prefetch.py::PrefetchingFlowFieldScheduler.get_batch", "src/synthpix/scheduler/prefetch.py::PrefetchingFlowFieldScheduler._worker"]}
{"id": "C160", "title": "Episodes stay aligned through the buffer if batches are loaded fast enough", "statement": "For a wrapped scheduler with episodes of L steps, if both threads are prompt, the user asks often enough (C159) and L times the longest wait for an item (2*load + 4*step) is less than join_timeout of next_episode, then every batch returned when steps_remaining() is L - t is time step t of its episode, and none is skipped or repeated, whatever calls of get_batch and next_episode are made.", "quantifier": "all wrapped schedulers with episodes of any length, buffer sizes, timeouts and speeds; all sessions of calls and all interleavings", "why_tests_cant": "next_episode silently stops discarding at its deadline; whether it can be reached depends on the timing of both threads over the whole history.", "anchors": ["src/synthpix/scheduler/prefetch.py::PrefetchingFlowFieldScheduler.next_episode", "src/synthpix/scheduler/prefetch.py::PrefetchingFlowFieldScheduler._worker", "src/synthpix/scheduler/prefetch.py::PrefetchingFlowFieldScheduler.get_batch"]}
{"id": "C161", "title": "Every call on the prefetching scheduler returns within a bounded time", "statement": "If both threads take their steps promptly, then at most this much time passes in a call: the timeout in force and two steps in get_batch; join_timeout and four steps in next_episode; one call of the wrapped scheduler and four steps in reset; join_timeout and three steps in shutdown. In every reachable state one of the threads can take a step within its time.", "quantifier": "all wrapped schedulers, buffer sizes, timeouts and speeds; all histories of calls of all methods, and all interleavings", "why_tests_cant": "Deadlock freedom and response times concern every interleaving and every history of calls.", "anchors": ["src/synthpix/scheduler/prefetch.py::PrefetchingFlowFieldScheduler.get_batch", "src/synthpix/scheduler/prefetch.py::PrefetchingFlowFieldScheduler.reset", "src/synthpix/scheduler/prefetch.py::PrefetchingFlowFieldScheduler.shutdown", "src/synthpix/scheduler/prefetch.py::PrefetchingFlowFieldScheduler.next_episode"]}
{"id": "C162", "title": "shutdown ends the worker thread before it returns", "statement": "If the wrapped scheduler loads a batch in less than the two seconds for which shutdown() waits, then after shutdown() has returned the background thread has ended and is_running() is False.", "quantifier": "all wrapped schedulers, buffer sizes, speeds, histories of calls before, and timed interleavings with the background thread", "why_tests_cant": "All timed interleavings: a test sees the few that its machine happens to produce.", "anchors": ["src/synthpix/scheduler/prefetch.py::PrefetchingFlowFieldScheduler.shutdown", "src/synthpix/scheduler/prefetch.py::PrefetchingFlowFieldScheduler._worker", "src/synthpix/scheduler/prefetch.py::PrefetchingFlowFieldScheduler.is_running"]}
{"id": "C163", "title": "Several threads may draw from one prefetching scheduler", "statement": "If several threads call get_batch() of one prefetching scheduler, every batch of the wrapped scheduler goes to exactly one of them, each thread gets its batches in order, every thread is told of the end of the stream or of an episode by StopIteration or EpisodeEnd, no call fails for another reason, and no thread waits while a batch can still be produced.", "quantifier": "all wrapped schedulers, buffer sizes, numbers of threads, and interleavings of their steps with each other and with the background thread", "why_tests_cant": "The number of interleavings of unsynchronised reads and writes has no bound; a test sees those its machine happens to produce.", "anchors": ["src/synthpix/scheduler/prefetch.py::PrefetchingFlowFieldScheduler.get_batch", "src/synthpix/scheduler/prefetch.py::PrefetchingFlowFieldScheduler._start_worker", "src/synthpix/scheduler/prefetch.py::PrefetchingFlowFieldScheduler._worker"]}
{"id": "C164", "title": "A vector missing from a flow file spoils only what is reported in its place", "statement": "If some vectors of a flow field are NaN, a reported vector is NaN exactly if one of the vectors from which it is interpolated, i.e. one with a weight other than zero, is NaN; every other reported vector is the one that would be reported if nothing were missing, and the other flow fields of a batch are not affected.", "quantifier": "all flow fields, sets of missing vectors, image shapes, offsets, resolutions, paddings, output shapes and batch sizes", "why_tests_cant": "The sets of missing vectors and the positions of the sampling points are unbounded; a test has a few masks.", "anchors": ["src/synthpix/utils.py::bilinear_interpolate", "src/synthpix/utils.py::flow_field_adapter"]}
{"id": "C165", "title": "A request for no samples, or for a negative number, is harmless", "statement": "get_batch(n) with n zero or negative raises an exception and changes nothing: put anywhere into a sequence of requests, it changes none of the other answers.", "quantifier": "all file lists, loaders, states, histories and integers n", "why_tests_cant": "All histories and positions of such requests in them.", "anchors": ["src/synthpix/scheduler/base.py::BaseFlowFieldScheduler.get_batch", "src/synthpix/scheduler/base.py::BaseFlowFieldScheduler.reset"]}
{"id": "C166", "title": "The image hardly depends on the order in which the particles are added", "statement": "A device may add the contributions of the particles to a pixel in any order and grouping. If N particles contribute, the contributions have relative errors of at most d and each addition one of at most u (2^-24 in single precision), then each pixel of img_gen_from_data is that of exact arithmetic up to 255*((1+d)*(1+u)^N - 1) grey levels, and two runs that add the same contributions in different orders differ by at most 255*4*N*u grey levels. The images need not be equal bit for bit.", "quantifier": "all images that can hold a patch, all particles with intensities that are not negative, all orders and groupings of the additions, all roundings within the bound", "why_tests_cant": "A test sees the order of one device; the bound is over all orders.", "anchors": ["src/synthpix/generate.py::img_gen_from_data"]}
{"id": "C167", "title": "Infinite and NaN parameters are rejected with ValueError", "statement": "A sampler cannot be built from an infinite or NaN time step, image offset, resolution, particle diameter, number of velocities per pixel, speed or size of the flow field: the constructor raises ValueError. (YAML has .inf and .nan.)", "quantifier": "all values of all parameters that enter the geometry, finite or not, in all combinations, and all roundings", "why_tests_cant": "Comparisons with NaN are false and pass silently through range checks; the combinations of special values in all parameters are too many to test.", "anchors": ["src/synthpix/sampler/synthetic.py::SyntheticImageSampler.__init__"]}
{"id": "C168", "title": "Rows and columns are treated alike", "statement": "Exchange rows and columns in everything that goes in: image shape, offset, flow field size and shape, the speed limits in x and y, the flow fields together with the components of their vectors, and the particles with their diameters. Then the constructor accepts exactly the configurations it accepted before, and the geometry, the reported flow fields, the flow fields that move the particles and both images of every pair are the old ones with rows and columns exchanged. The same holds for apply_flow_to_image_forward and apply_flow_to_image_backward.", "quantifier": "all configurations, all flow fields, all given particles, all images, every rounding of the geometry and of patch positions", "why_tests_cant": "A test with square images or symmetric offsets passes although two axes are confused; the statement is an equation between two runs, for every pair of shapes.", "anchors": ["src/synthpix/sampler/synthetic.py::SyntheticImageSampler.__init__", "src/synthpix/utils.py::flow_field_adapter", "src/synthpix/utils.py::bilinear_interpolate", "src/synthpix/generate.py::img_gen_from_data", "src/synthpix/apply.py::apply_flow_to_particles", "src/synthpix/apply.py::apply_flow_to_image_forward", "src/synthpix/apply.py::apply_flow_to_image_backward"]}
{"id": "C169", "title": "Missing vectors cost particles, not images", "statement": "If a flow field has missing vectors (NaN), the first image of a pair is as with any values in their place. In the second image the particles next to a missing vector are absent; every pixel is the one that the other particles give, and is a number.", "quantifier": "all flow fields with any set of missing values, all parameters, masks, seeds and positions in the batch, whatever integer the device makes of NaN", "why_tests_cant": "Which pixels are affected depends on the particles drawn and on the device's conversion of NaN; tests use complete flow fields.", "anchors": ["src/synthpix/data_generate.py::generate_images_from_flow", "src/synthpix/generate.py::img_gen_from_data", "src/synthpix/generate.py::add_noise_to_image", "src/synthpix/apply.py::apply_flow_to_particles", "src/synthpix/utils.py::bilinear_interpolate"]}
{"id": "C170", "title": "Files can be added while the others are being served", "statement": "Appending files to a scheduler's file_list (file_list = file_list + more), at any time and as often as wanted, needs no reset: the added files are served after those already in the list, nothing is served twice or lost, and a scheduler that had raised StopIteration goes on with the added files. A looping scheduler finishes the pass in progress with them and includes them in all later passes.", "quantifier": "all interleavings of requests of any sizes and additions of any files, all file contents, shuffled or not, looping or not; for the prefetching scheduler all schedules of its two threads", "why_tests_cant": "The position inside a file, the cached file and the end-of-stream state at the moment of the addition all matter; tests assign the list only right before a reset.", "anchors": ["src/synthpix/scheduler/base.py::BaseFlowFieldScheduler.file_list", "src/synthpix/scheduler/base.py::BaseFlowFieldScheduler._get_next", "src/synthpix/scheduler/base.py::BaseFlowFieldScheduler.get_batch", "src/synthpix/scheduler/prefetch.py::PrefetchingFlowFieldScheduler.file_list", "src/synthpix/scheduler/prefetch.py::PrefetchingFlowFieldScheduler._worker"]}
{"id": "C171", "title": "Files can be added from another thread", "statement": "While one thread is inside get_batch (as the worker of a prefetching scheduler is most of the time), another may assign file_list. Appended files are then served after the others, once each and in order; get_batch raises nothing but StopIteration, and that only after all files that were in the list when it was called.", "quantifier": "all moments of the additions relative to every read of the list by get_batch, all request sizes, numbers of requests, file contents and added files", "why_tests_cant": "The three reads of the list in one pass of the loop can each see a different list; a test cannot place an assignment between them.", "anchors": ["src/synthpix/scheduler/base.py::BaseFlowFieldScheduler.file_list", "src/synthpix/scheduler/base.py::BaseFlowFieldScheduler._get_next", "src/synthpix/scheduler/base.py::BaseFlowFieldScheduler.get_batch", "src/synthpix/scheduler/base.py::BaseFlowFieldScheduler.reset", "src/synthpix/scheduler/prefetch.py::PrefetchingFlowFieldScheduler.file_list", "src/synthpix/scheduler/prefetch.py::PrefetchingFlowFieldScheduler._worker"]}
{"id": "C172", "title": "Samplers that share a scheduler divide its data", "statement": "If several samplers (say, of different settings) are constructed with the same scheduler, every flow batch of the scheduler goes to exactly one of them, in the order of the scheduler, and each sampler behaves as it does alone on the flow batches that it was given.", "quantifier": "all numbers of samplers, settings, schedulers without episodes, and orders in which calls are made on the samplers (without a reset of the scheduler)", "why_tests_cant": "The order of the calls on the samplers is arbitrary, and each of them keeps its flow batch for an arbitrary number of image batches.", "anchors": ["src/synthpix/sampler/base.py::Sampler.__init__", "src/synthpix/sampler/base.py::Sampler.__next__", "src/synthpix/sampler/base.py::Sampler.reset", "src/synthpix/sampler/base.py::Sampler.next_episode", "src/synthpix/sampler/synthetic.py::SyntheticImageSampler._get_next", "src/synthpix/sampler/synthetic.py::SyntheticImageSampler._reset"]}
{"id": "C173", "title": "Histogram matching is exact in single precision", "statement": "match_histogram counts, accumulates and normalises in float32. For a template of whole numbers that sum to the number of pixels (as documented) the result is nevertheless that of exact arithmetic: an image of integers is unchanged by its own histogram, and the result follows the template to within the largest number of pixels of one grey level.", "quantifier": "all images with values from 0 to 255, all templates of counts, all orders in which the device adds", "why_tests_cant": "The order of the additions is chosen by the compiler, and whether two rounded fractions are still told apart depends on all counts and on the number of pixels.", "anchors": ["src/synthpix/utils.py::match_histogram", "src/synthpix/sampler/synthetic.py::SyntheticImageSampler.__init__"]}
{"id": "C174", "title": "The speeds computed by the sanity script are those the sampler needs", "statement": "If the speeds in the configuration are those that calculate_min_and_max_speeds returns for the files, then for every flow field from these files every particle that is seen in one of the two images was seeded inside the particle region, so that no particle is missing from an image.", "quantifier": "all files without NaN, all configurations the sampler accepts, all flow fields with velocities from the files, all positions", "why_tests_cant": "The claim ties the values in all files to the geometry of the region and to interpolation at every position; tests check the returned dictionary for one file.", "anchors": ["src/synthpix/sanity.py::calculate_min_and_max_speeds", "src/synthpix/sampler/synthetic.py::SyntheticImageSampler.__init__", "src/synthpix/apply.py::apply_flow_to_particles", "src/synthpix/utils.py::flow_field_adapter"]}
{"id": "C175", "title": "An interrupted call of a scheduler loses at most one flow field", "statement": "If a call of a scheduler is interrupted (Ctrl-C, or the stop button of a notebook) and the user goes on, the later calls deliver what they would have delivered without it: no flow field is delivered twice, none out of order, and at most one is missing per interruption. A reset makes up for everything.", "quantifier": "all files and loaders, all states, all numbers of interruptions, every point between two assignments of a call", "why_tests_cant": "The interruption can come between any two instructions; a test would have to raise it at each of them, in every state.", "anchors": ["src/synthpix/scheduler/base.py::BaseFlowFieldScheduler._get_next", "src/synthpix/scheduler/base.py::BaseFlowFieldScheduler.reset"]}
{"id": "C176", "title": "An interrupted call of the sampler leaves it consistent", "statement": "If a call of the synthetic sampler is interrupted (Ctrl-C, or the stop button of a notebook) and the user goes on, the next call returns a batch like the one the interrupted call would have returned: images of the same flow fields, rendered from the adapted ones, with the matching reported flow, mask and names. Batches returned never share a random key, and resetting the sampler makes up for everything.", "quantifier": "all schedulers, image generators and configurations, all states, every point between two assignments of a call, all histories with any number of interruptions", "why_tests_cant": "The interruption can come between any two instructions; a test would have to raise it at each of them, in every state.", "anchors": ["src/synthpix/sampler/base.py::Sampler.__next__", "src/synthpix/sampler/synthetic.py::SyntheticImageSampler._get_next", "src/synthpix/sampler/synthetic.py::SyntheticImageSampler._reset"]}
{"id": "C177", "title": "An interrupted call of a prefetching scheduler loses at most one batch", "statement": "If calls of a prefetching scheduler are interrupted (Ctrl-C, or the stop button of a notebook) and the user goes on, no batch is delivered twice or out of order, at most one is missing per interruption, episodes keep their length, and the later calls deliver as long as the wrapped scheduler does and raise nothing unexpected. A reset makes up for everything and cannot hang.", "quantifier": "all wrapped schedulers, buffer sizes, histories of get_batch, next_episode, reset and shutdown, numbers of interruptions and places in a call, and all interleavings with the background thread", "why_tests_cant": "The interruption can come between any two instructions, while the other thread is anywhere; a test would have to raise it at each of them, under every schedule.", "anchors": ["src/synthpix/scheduler/prefetch.py::PrefetchingFlowFieldScheduler.get_batch", "src/synthpix/scheduler/prefetch.py::PrefetchingFlowFieldScheduler._start_worker", "src/synthpix/scheduler/prefetch.py::PrefetchingFlowFieldScheduler.reset", "src/synthpix/scheduler/prefetch.py::PrefetchingFlowFieldScheduler.next_episode", "src/synthpix/scheduler/prefetch.py::PrefetchingFlowFieldScheduler.shutdown"]}
{"id": "C178", "title": "An interrupted call of an episodic scheduler does not mix the episodes", "statement": "If calls of an episodic scheduler over a base scheduler are interrupted (Ctrl-C, or the stop button of a notebook) and the user goes on, every row of the following batches still shows consecutive frames of one episode, and the next call delivers the step that the interrupted one would have delivered; an interrupted next_episode has either happened or not; and a next_episode that is not interrupted makes up for everything.", "quantifier": "all file lists, generators, keys, states, histories of get_batch and next_episode, numbers of interruptions and places in a call", "why_tests_cant": "The interruption can come between any two instructions of either scheduler, with any number of samples of the batch obtained; a test would have to raise it at each of them.", "anchors": ["src/synthpix/scheduler/episodic.py::EpisodicFlowFieldScheduler.get_batch", "src/synthpix/scheduler/episodic.py::EpisodicFlowFieldScheduler.next_episode", "src/synthpix/scheduler/episodic.py::EpisodicFlowFieldScheduler._sample_new_episodes", "src/synthpix/scheduler/base.py::BaseFlowFieldScheduler.get_batch", "src/synthpix/scheduler/base.py::BaseFlowFieldScheduler.reset"]}
{"id": "C179", "title": "Threads can share a base scheduler", "statement": "If several threads call get_batch and reset of one base scheduler, every flow field that is delivered comes with its own images and the name of its own file, each is delivered once, none is left out, and no call fails; calls that do not overlap behave as those of one thread; and when all threads have finished, reset makes the scheduler as it was when new.", "quantifier": "all file lists, formats, file contents, keys, numbers of threads and interleavings of their reads and writes of the scheduler's attributes", "why_tests_cant": "The outcome depends on where the interpreter switches threads; there are arbitrarily many places and numbers of threads.", "anchors": ["src/synthpix/scheduler/base.py::BaseFlowFieldScheduler._get_next", "src/synthpix/scheduler/base.py::BaseFlowFieldScheduler.reset", "src/synthpix/scheduler/mat.py::MATFlowFieldScheduler.get_next_slice", "src/synthpix/scheduler/hdf5.py::HDF5FlowFieldScheduler.get_next_slice", "src/synthpix/scheduler/numpy.py::NumpyFlowFieldScheduler.get_next_slice"]}
{"id": "C180", "title": "Threads can share a synthetic sampler", "statement": "If several threads call next() on one synthetic sampler over a scheduler that serves them one at a time, every batch shows images of the flow fields that are reported with it, with their mask and names; each flow batch is used batches_per_flow_batch times; no two batches are made with the same random key; no call fails; calls that do not overlap behave as those of one thread; and when all threads have finished, reset(scheduler_reset=False) makes up for everything.", "quantifier": "all schedulers, generators, configurations, numbers of threads and interleavings of their reads and writes of the sampler's attributes", "why_tests_cant": "The outcome depends on where the interpreter switches threads; there are arbitrarily many places and numbers of threads.", "anchors": ["src/synthpix/sampler/synthetic.py::SyntheticImageSampler._get_next", "src/synthpix/sampler/synthetic.py::SyntheticImageSampler._reset", "src/synthpix/sampler/base.py::Sampler.__next__", "src/synthpix/sampler/base.py::Sampler.reset"]}
{"id": "C181", "title": "Threads can share a sampler of real images", "statement": "If several threads call next() on one RealImageSampler over a scheduler that serves them one at a time, the batches are those one thread would have got: each is delivered exactly once, and every thread gets its own in order. With episodes, exactly episode_length batches are delivered before EpisodeEnd, and exactly the last one has done=True. Calls that do not overlap behave as those of one thread.", "quantifier": "all schedulers, batch sizes, episode lengths, numbers of threads and interleavings of their reads and writes of the step counter", "why_tests_cant": "The outcome depends on where the interpreter switches threads; there are arbitrarily many places and numbers of threads.", "anchors": ["src/synthpix/sampler/real.py::RealImageSampler._get_next", "src/synthpix/sampler/base.py::Sampler.__next__", "src/synthpix/sampler/base.py::Sampler._make_done", "src/synthpix/scheduler/episodic.py::EpisodicFlowFieldScheduler.get_batch", "src/synthpix/scheduler/episodic.py::EpisodicFlowFieldScheduler.steps_remaining"]}
{"id": "C182", "title": "The reported generation parameters determine the image pair", "statement": "The params of a batch tell what each image pair was made from: if two samplers differ only in the ranges they choose from (diameters, intensities, correlations, lower bound of the density), then at every place where both report the same seeding density and ranges they deliver the same image pair; in particular, a pair reported with given ranges is the pair that a sampler with only these ranges delivers there.", "quantifier": "all accepted configurations and lists of ranges, schedulers, histories of calls, draws and roundings", "why_tests_cant": "The lists of ranges and the histories are unbounded, and the choice is random.", "anchors": ["src/synthpix/data_generate.py::generate_images_from_flow", "src/synthpix/sampler/synthetic.py::SyntheticImageSampler.__init__", "src/synthpix/sampler/synthetic.py::SyntheticImageSampler._get_next", "src/synthpix/types.py::ImageGenerationParameters"]}
{"id": "C183", "title": "Histogram matching leaves missing pixels missing and the others alone", "statement": "If pixels of an image are NaN because vectors of the flow field are missing, matching the image to a histogram leaves them NaN, and matches the other pixels to the histogram among themselves, as if the missing ones were not there.", "quantifier": "all images with any number and places of NaN, all histograms, roundings, flow fields with missing vectors and image pairs", "why_tests_cant": "Where pixels are NaN depends on the flow field and on random positions of particles; images and histograms are unbounded.", "anchors": ["src/synthpix/utils.py::match_histogram", "src/synthpix/data_generate.py::generate_images_from_flow"]}
{"id": "C184", "title": "The episodes of a batch are different", "statement": "The parallel episodes that an episodic scheduler plays in one batch begin at pairwise different positions of the data, and construction raises ValueError if there are fewer distinct starting positions than episodes in a batch.", "quantifier": "all directory trees and listings, batch sizes, episode lengths, random generators, wrapped schedulers and histories of get_batch, reset, next_episode and iter", "why_tests_cant": "Which starts are drawn is random, and trees and histories are unbounded; a test sees a few draws, and repetitions may be rare.", "anchors": ["src/synthpix/scheduler/episodic.py::EpisodicFlowFieldScheduler.__init__", "src/synthpix/scheduler/episodic.py::_sample_new_episodes", "src/synthpix/scheduler/episodic.py::_calculate_starts"]}
{"id": "C185", "title": "Stored numbers reach the user rounded once to single precision, whatever their companions", "statement": "Every pixel and flow component that the real-image sampler delivers is the stored number rounded once to single precision. It does not depend on the number types in which the other samples of the batch are stored, and 8-bit and 16-bit images arrive exactly.", "quantifier": "all batches, all combinations of number types (booleans, integers, half, single and double precision), all stored numbers", "why_tests_cant": "The number types of the files in a batch combine in unboundedly many ways, and a second rounding shows only for rare numbers.", "anchors": ["src/synthpix/scheduler/base.py::get_batch", "src/synthpix/sampler/real.py::RealImageSampler._get_next"]}
{"id": "C186", "title": "Episodes consist of the files of the list", "statement": "The files that an episodic scheduler may play are exactly those of the file list it is built with: no file outside the list is ever served, and every file of the list can occur in an episode.", "quantifier": "all file lists, directory trees, batch sizes, episode lengths, random generators, wrapped schedulers that keep their list, and histories of get_batch, reset, next_episode and iter", "why_tests_cant": "Which frames are played is random and histories are unbounded; a test that lists all files of its directories cannot notice that the list itself is not used.", "anchors": ["src/synthpix/scheduler/episodic.py::EpisodicFlowFieldScheduler.__init__", "src/synthpix/scheduler/episodic.py::_calculate_starts", "src/synthpix/scheduler/episodic.py::_sample_new_episodes", "src/synthpix/utils.py::discover_leaf_dirs"]}
{"id": "C187", "title": "Episodes can be made of files of every format", "statement": "An episodic scheduler can wrap a scheduler of any of the supported formats: if the listed files of that format lie in directories with at least episode_length of them each, construction succeeds and episodes of these files are played.", "quantifier": "all file lists, directory trees, formats, batch sizes, episode lengths, random generators and wrapped schedulers", "why_tests_cant": "A test uses the one format its data are stored in; that no tree of files of another format is accepted is a statement about all trees.", "anchors": ["src/synthpix/scheduler/episodic.py::EpisodicFlowFieldScheduler.__init__", "src/synthpix/scheduler/episodic.py::_calculate_starts", "src/synthpix/scheduler/episodic.py::_sample_new_episodes", "src/synthpix/scheduler/episodic.py::get_batch"]}
{"id": "C188", "title": "The *_var parameters govern how particles change between the two images", "statement": "From the first to the second image of a pair, each diameter, the correlation and the brightness of every particle changes by a draw of its own from the standard normal distribution times the square root of diameter_var, rho_var or intensity_var, as the README says; without variance nothing changes, with more variance and the same seed nothing changes less; and the variances have no influence on the first images, the reported flow, the reported parameters or anything else that is delivered.", "quantifier": "all draws, seeds, specifications, flow fields, masks, histograms, particles, pairs of a batch, histories of calls and schedulers", "why_tests_cant": "Tests look at statistics of a few images; the law of every particle for all draws, and the independence of everything else over all histories, cannot be sampled.", "anchors": ["src/synthpix/data_generate.py::generate_images_from_flow", "src/synthpix/sampler/synthetic.py::SyntheticImageSampler"]}
{"id": "C189", "title": "A packed sample has its flow and its images on the target grid", "statement": "Packing a dataset with a target shape yields files whose flow and whose two images have that shape, as pack_triplet documents ('Target shape (height, width) for resizing images and flow').", "quantifier": "all raw datasets, target shapes, resampling filters and sizes of flows and images", "why_tests_cant": "A test packs samples of one size; which files have the documented shape depends on all sizes in the raw dataset.", "anchors": ["scripts/download_piv_1.py::pack_triplet", "scripts/download_piv_1.py::convert", "scripts/download_piv_1.py::resize_flow"]}
{"id": "C190", "title": "A pair depends on its own flow field only", "statement": "The images, the reported generation parameters and the reported flow of a pair depend on the flow field the pair is made of and not on the other flow fields of the batch: replacing these (by blank, damaged or any other ones) changes nothing in the pair, nor any mask, file name, flag or exception.", "quantifier": "all schedulers that deliver full batches, accepted configurations, numbers of devices, replacements and histories of calls", "why_tests_cant": "A test compares a few batches; that nothing leaks between the rows must hold for all contents, device counts and histories.", "anchors": ["src/synthpix/sampler/synthetic.py::SyntheticImageSampler._get_next", "src/synthpix/sampler/synthetic.py::SyntheticImageSampler.__init__", "src/synthpix/utils.py::flow_field_adapter", "src/synthpix/data_generate.py::generate_images_from_flow"]}
{"id": "C191", "title": "A run of the main program that is cut short leaves all earlier pictures", "statement": "The main program writes its pictures one by one, in the order of batches, samples and image 1, image 2, quiver plot. Wherever the run stops (an exception while a picture is written, an interrupt, a crash), the pictures written before are complete, at most the file of the picture being written is damaged, every other file is as it was, and a complete new picture implies that all pictures wanted before it are there too.", "quantifier": "all samplers, batch sizes, answers of the user, numbers of pictures, places where the run stops, states of the damaged file and previous contents of the directory", "why_tests_cant": "A test stops a run at a few places; the claim is about every place and every history.", "anchors": ["src/main.py::visualize_and_save", "src/main.py::main"]}
{"id": "C192", "title": "NumPy and JAX values in a configuration are written as plain values", "statement": "update_config_file writes NumPy and JAX numbers and arrays, in the configuration or among the updates, so that the file gives back the Python numbers and nested lists they stand for; a file list given as an array is kept as a list.", "quantifier": "all configurations and updates, arrays of all shapes, every loader that reads the texts of plain values back", "why_tests_cant": "All kinds, shapes and nestings of values.", "anchors": ["src/synthpix/sanity.py::update_config_file"]}
{"id": "C193", "title": "len(scheduler) is what there is to come", "statement": "len() of a scheduler for files is the number of its files and never changes; a pass over readable files that do not loop has that many flow fields. len() of an episodic scheduler is the number of steps of its episodes, of which steps_remaining() are left. Wrapping a scheduler does not take len() away or change it.", "quantifier": "all file lists, contents, histories of requests, resets and episodes", "why_tests_cant": "All histories and contents.", "anchors": ["src/synthpix/scheduler/base.py::BaseFlowFieldScheduler.__len__", "src/synthpix/scheduler/episodic.py::EpisodicFlowFieldScheduler.__len__", "src/synthpix/scheduler/episodic.py::EpisodicFlowFieldScheduler.episode_length", "src/synthpix/scheduler/episodic.py::EpisodicFlowFieldScheduler.steps_remaining", "src/synthpix/scheduler/episodic.py::EpisodicFlowFieldScheduler.reset_episode"]}
{"id": "C194", "title": "Different NumPy flow files come with different frames", "statement": "With images enabled, two different flow files of the list are never delivered with the same two frames, however their numbers are written (leading zeros, digits of other scripts); they have a frame in common exactly if they are in the same directory and their numbers are consecutive.", "quantifier": "all directories, names and spellings of numbers", "why_tests_cant": "All spellings of all numbers.", "anchors": ["src/synthpix/scheduler/numpy.py::NumpyFlowFieldScheduler.__init__", "src/synthpix/scheduler/numpy.py::NumpyFlowFieldScheduler.get_next_slice"]}
{"id": "C195", "title": "What the dataset script packs is what the MAT scheduler delivers", "statement": "A file that the class 1 script has packed for a target shape, loaded by the MAT scheduler with the same output_shape, gives exactly one sample: the packed flow, unchanged and of that shape, and (with include_images) two images on the same grid, which are the raw ones if those have the target shape.", "quantifier": "all raw datasets, target shapes, resampling filters and sizes of flows and images", "why_tests_cant": "All raw datasets and shapes.", "anchors": ["scripts/download_piv_1.py::pack_triplet", "scripts/download_piv_1.py::convert", "scripts/download_piv_1.py::resize_flow", "src/synthpix/scheduler/mat.py::MATFlowFieldScheduler.load_file", "src/synthpix/scheduler/mat.py::MATFlowFieldScheduler.get_next_slice"]}
{"id": "C196", "title": "From the raw dataset to the batches: the sampler serves the triplets", "statement": "If all flows and images of a raw dataset have the configured image_shape, the class 1 script has packed them for that shape and a configuration for real images lists packed files, then the sampler serves, in batches of batch_size, the flow and the two frames of the triplet with the stem of every listed file exactly as they are in the raw dataset, each once per pass, in the given order unless randomize is on; without loop it ends after one pass, and with it goes on forever with full batches.", "quantifier": "all raw datasets of one size, configurations without episodes and buffer, lists of packed files, random orders, numbers of calls", "why_tests_cant": "All datasets, configurations and numbers of calls.", "anchors": ["scripts/download_piv_1.py::pack_triplet", "scripts/download_piv_1.py::convert", "src/synthpix/scheduler/mat.py::MATFlowFieldScheduler.load_file", "src/synthpix/sampler/real.py::RealImageSampler", "src/synthpix/make.py::make"]}
{"id": "C197", "title": "Resizing a flow field treats positions and axes evenly", "statement": "Loading a MAT file whose flow has another size than output_shape keeps the structure of the flow: a sum of multiples of flow fields is loaded as the sum of the multiples; a flow field with rows or columns in the opposite order is loaded with rows or columns in the opposite order, so that nothing is shifted; a flow field with x and y exchanged is loaded with x and y exchanged; and a linear flow field whose size is a whole multiple of the requested one is loaded, away from the border, as its value at the centres of the larger pixels, in units of the larger pixels.", "quantifier": "all flow fields, sizes, output shapes and both layouts of the stored array", "why_tests_cant": "All flow fields and sizes; a shift by half a pixel or a swapped axis is invisible on uniform or symmetric test data.", "anchors": ["src/synthpix/scheduler/mat.py::MATFlowFieldScheduler.load_file"]}
{"id": "C198", "title": "Resizing the images of a MAT file keeps their grey values in range", "statement": "An image of a MAT file that is resized for output_shape has, once loaded, only grey values between the smallest and the largest one in the file; a uniform image stays uniform with the same value; an 8-bit image has whole numbers from 0 to 255; the mirror image of an image is loaded as the mirror image, and, in floating point, sums and multiples of images as sums and multiples.", "quantifier": "all files, images, sizes of images and requested sizes, for 8-bit, 16-bit and floating-point images", "why_tests_cant": "All images and all pairs of sizes.", "anchors": ["src/synthpix/scheduler/mat.py::MATFlowFieldScheduler.load_file"]}
{"id": "C199", "title": "Resized image pairs move as the resized flow says", "statement": "If the second image of a MAT file is the first one moved by a displacement, and the flow field of the file is that displacement everywhere, then after resizing by whole factors to a square output_shape the second image is the first one moved by the displacement divided by the factors, and the delivered flow is that displacement.", "quantifier": "all image pairs, 8-bit and floating-point, displacements in all directions and whole factors for height and width; two pixels along the border excepted", "why_tests_cant": "All images, factors and displacements.", "anchors": ["src/synthpix/scheduler/mat.py::MATFlowFieldScheduler.load_file"]}
