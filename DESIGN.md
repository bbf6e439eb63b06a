# Formal model of synthpix: design

`/repo` (antonioterpin/synthpix, pinned commit) is read as text. This file says, for each property of
`properties.jsonl`, what is modelled, how it is proved and what is missing. Disagreements between property and code are
listed in the section "Where the code disagrees".

## Layout

* `lean/Verif/Model/*.lean`: total, computable Lean functions mirroring the Python, one file per source
  file (or topic); every definition cites the lines it models and states its simplifications.
* `lean/Verif/Spec/*.lean`: small specifications written without the model's helpers.
* `lean/Verif/Proofs/*.lean`: lemmas.
* `lean/Verif/Props/*.lean`: the property theorems (`Cnn_...`), each with a concrete non-trivial `example` meeting its
  hypotheses. Suffix `_partial`: only part of the property. Suffix `_refuted`: the code violates the property; a
  concrete witness.
* `MANIFEST.json`: status and theorem names per property. `seeded/LOG.jsonl`: edits of the model that imitate bugs, and
  the theorems that failed.

## Conventions

* Python exceptions are values (`Except`-like result types); `StopIteration`, `EpisodeEnd`, `ValueError`, ... are
  constructors. Messages and logging are not modelled.
* The file system, the loaders (SciPy, h5py, `np.load`, Pillow, YAML) and the random generator are parameters of the
  model: arbitrary functions, universally quantified in the theorems. Assumptions on them are hypotheses of the theorem
  (for example: a permutation of `n` indices is one; a uniform draw lies in `[0, 1)`).
* Potentially non-terminating loops are modelled with fuel; theorems say for which inputs some fuel suffices and that
  more fuel changes nothing, or that no fuel suffices.
* Numeric code is modelled over an arbitrary linearly ordered field with floor. Where rounding matters the model takes
  the rounding function as a parameter (`fl`): the identity gives exact arithmetic, `binary64` and `binary32` of
  `Model/Rounding.lean` give IEEE rounding to nearest even of rationals (without overflow and subnormals); `Proofs/Rounding.lean` proves its error bound, monotonicity and exactness on integers. `Model/Single.lean` and `Model/SingleAdapter.lean` have the interpolation, the adapter and the motion of particles with every single operation rounded, each by its own function, so that fused operations are covered. `exp`, `sqrt` and
  the normal distribution are parameters. NaN and infinities are modelled in argument checks (`Model/PyVal.lean`) and in
  `Model/Sanity.lean` and `Model/NonFinite.lean` (the sampler's geometry), NaN also in `Model/Missing.lean` and `Model/MissingImage.lean` (flow fields with gaps), nowhere else.
* Threads (prefetching) are a labelled transition system of atomic queue and event operations with arbitrary
  interleaving; timeouts are nondeterministic transitions there, and conditions on a clock in `Model/Timed` (C158-C161).
* Random keys: JAX keys are elements of the free algebra of derivations (`Model/Key.lean`), so "different keys" means
  "derived differently".

## Trusted base

* Lean 4.33.0's kernel.
* The axioms `propext`, `Classical.choice` and `Quot.sound` of Lean's library, no others; which theorem uses which is listed
  at the end. No axioms of our own, no `sorry`, no `native_decide`, no `bv_decide`.
* The transcription of the Python source in `Verif/Model` (cited line by line), and the behaviour attributed there to
  Python, NumPy, JAX, h5py, SciPy, Pillow, `queue.Queue` and `threading.Event`. Nothing was executed.
* The statements in `Verif/Props` and the specifications in `Verif/Spec`.

## What is modelled

| source | modelled | not modelled |
|---|---|---|
| `scheduler/base.py` | constructor checks and expansion of directories (on directory trees, `Glob`), `reset`, `_get_next`, `get_batch`, `__iter__` (which returns the scheduler itself); `get_batch` divided at its reads of `file_list` (`Concurrent`); `_get_next` and `reset` assignment by assignment (`Interrupt`), and by any number of threads (`Racing`) | logging, `batch_size` that is not an integer |
| `scheduler/hdf5.py` | all of `load_file`, `get_next_slice`, `get_flow_fields_shape`, extension check; the number types of the data (`Dtypes`) | |
| `scheduler/mat.py` | all of `load_file` including the flattening of HDF5 trees, `get_next_slice`, `get_flow_fields_shape` | the bytes of MAT files, Pillow's resampling (a parameter; the bilinear filter is modelled in `Model/Pillow` for C80, C132, C133, C197, the bicubic one in `Model/Bicubic` and the nearest pixel in `Model/Nearest` for C198), dtypes inside Pillow |
| `scheduler/numpy.py` | all, including name grammar and paths; digits of other scripts in names (`Digits`) | JPEG decoding (parameter) |
| `scheduler/episodic.py` | all public methods over an arbitrary wrapped scheduler; `get_batch` and `next_episode` assignment by assignment over a base scheduler (`InterruptEpisodic`); `get_batch` by any number of threads (`RacingReal`) | |
| `scheduler/prefetch.py` | worker, `get_batch`, `reset`, `next_episode`, `shutdown`, `steps_remaining` as a transition system; `__del__` and the references that keep the object alive (`Finalizer`); any number of threads in `get_batch`, divided at every access to a shared attribute (`Shared`); all methods divided in the same way and interrupted (`InterruptPrefetch`) | wall-clock time except in `Model/Timed`, where the speed of the threads is an assumption; `__del__` at the end of the interpreter |
| `scheduler/protocol.py` | exceptions and protocols as far as `isinstance` distinguishes | |
| `sampler/base.py`, `sampler/real.py` | all of construction, `__next__`, `reset`, `next_episode`, `shutdown`; several samplers on one scheduler (`Several`), any number of threads on one sampler (`RacingReal`, `RacingSampler`) | logging |
| `sampler/synthetic.py` | constructor checks and geometry, `__next__`, batching over devices, key handling, `reset`, `from_config`, the debug mode; `_get_next` assignment by assignment (`InterruptSampler`), and by any number of threads (`RacingSampler`) | compilation, sharding mechanics, device discovery (number of devices is a parameter) |
| `make.py` | the whole decision logic; the stack of schedulers it builds (`Stack`); with the constructors filled in and the sampler run (`Whole`, with episodes `WholeEpisodes`); the configurations that come with the package (`Documented`) | file parsing by YAML (parameter) |
| `types.py` | `ImageGenerationSpecification`, `ImageGenerationParameters`, `SynthpixBatch`, `SchedulerData`: validation, `update`, flattening | JAX's tree registry itself |
| `utils.py` | `bilinear_interpolate`, `trilinear_interpolate`, `generate_array_flow_field`, `flow_field_adapter` (also on flow fields with NaN, `Missing`), `match_histogram` (in float32: `HistogramSingle`), `discover_leaf_dirs`, `input_check_flow_field_adapter` | `load_configuration` (YAML), loggers |
| `apply.py` | all functions including the input check | |
| `generate.py` | all functions; the order and the rounding of the additions to the image in `Model/Scatter` (C166) | the error of the device's exponential function (an assumption of C166) |
| `data_generate.py` | `generate_images_from_flow` (also on flow fields with NaN, `MissingImage`, with histogram matching `MissingHistogram`), `input_check_gen_img_from_flow` | |
| `sanity.py` | `calculate_min_and_max_speeds`, `update_config_file`, `missing_speeds_panel`, `main`; the conversion of NumPy values (`SanityConvert`) | argument parsing, progress bar |
| `src/main.py`, `scripts/` | the main loop and the pictures it saves, splitting, item lists, names, the copying into splits, the command line, reading of flow files, packing of triplets, decoding and numbering of TFRecord samples; downloads, extraction and packing as sequences of writes that a crash cuts off | what is downloaded, the formats of archives and TFRecords, plotting, `argparse`, decoding of images and MAT files |

## Properties

| id | property | modelled | method | status | what is proved, what is missing |
|---|---|---|---|---|---|
| C01 | A non-looping scheduler delivers every slice exactly once, in order | `_get_next`/`get_batch` as a state machine over an abstract loader | refinement to the flat list of slices; induction over files and batch sizes | partial | Proved if and only if no file with slices is listed directly after itself (C01_exactly); C01_delivered_exactly says what is delivered for every list, and C01_refuted shows that a file listed twice in a row is served once. |
| C02 | The mask marks exactly the real rows, padding is blank and at the end | `get_batch`: mask, stacking, file names, padding | exact characterisation of the returned rows, for every state | proved | For any state, loader and size; assumes only that extracting a slice does not itself raise StopIteration. |
| C03 | Exhaustion is permanent until reset | `get_batch` without `loop` | invariant "exhausted" over all later requests | proved | For requests of at least one sample. |
| C04 | A looping scheduler repeats complete epochs | `get_batch` with `loop` and reshuffling | refinement to a stream of epochs; induction over requests | partial | Proved for duplicate-free file lists; C04_epochs_exactly covers every list, with immediate repetitions served once. |
| C05 | A looping scheduler always answers | `_get_next` with fuel | progress measure; refutation for every fuel | partial | Answers whenever some file yields a slice; proved never to return when no file does. |
| C06 | Unreadable files are skipped and leave no trace | `_get_next` with failing loads | simulation with the filtered list | partial | Without shuffling and looping the exact condition is proved: unreadable files leave no trace if and only if no readable file with samples is listed twice with nothing but unreadable files in between. With looping the condition is proved to suffice. |
| C07 | reset() restarts the stream | `reset`, shuffling by an arbitrary permutation, key derivation | invariants over operation histories; free key algebra | proved |  |
| C08 | Shuffling only permutes | `reset`, shuffling by an arbitrary permutation, key derivation | invariants over operation histories; free key algebra | proved | Assumes that jax.random.permutation returns a permutation. |
| C09 | The shuffle orders depend on the key alone | `reset`, shuffling by an arbitrary permutation, key derivation | invariants over operation histories; free key algebra | proved | Keys are distinct as derivations. |
| C10 | Constructor accepts exactly the valid file lists and expands directories in place | `__init__` over an abstract file system | decision function equals an independent specification | proved |  |
| C11 | Batch boundaries are invisible | two `get_batch` calls and the combined one | induction on the first size | proved | If both requests return (or the second reports exhaustion) the combined request draws the same samples and ends in the same state; it returns a batch whenever the samples can be stacked. |
| C12 | A failing get_batch loses no sample | `get_batch` with failing slice extraction | refutation by witness, induction for what survives | partial | False: the samples already taken are lost. Proved: only these are lost, nothing behind the failing slice is skipped. C12_exactly: nothing is lost iff the failing slice is the first of the batch. |
| C13 | HDF5: one sample per y-position, in order | `hdf5.py` over row-major arrays | index arithmetic; refutation for channel counts | proved | Values are exact copies; the numeric conversion to float32 is not modelled. |
| C14 | HDF5: the advertised shape is the delivered shape | `hdf5.py` over row-major arrays | index arithmetic; refutation for channel counts | partial | True for two channels; false for every other number of channels. |
| C15 | MAT: flow layout is normalised | `mat.py` with SciPy, h5py and Pillow as parameters | index arithmetic and shape equations; refutation for non-square images | partial | Proved for stored arrays with at most three axes; an array of shape (H, W, 2, k) is accepted. C15_exactly, C15_wrong_shape_iff: exactly which arrays are accepted, and that those of the wrong shape are the ones with more axes that begin with output_shape + (2,). |
| C16 | MAT: resizing scales the velocity with the grid | `mat.py` with SciPy, h5py and Pillow as parameters | index arithmetic and shape equations; refutation for non-square images | proved | Pillow's resampling is a parameter, assumed to return an array of the requested size. |
| C17 | MAT: images have the requested shape | `mat.py` with SciPy, h5py and Pillow as parameters | index arithmetic and shape equations; refutation for non-square images | partial | True for square output shapes or images of the right size; for every other resize height and width are exchanged. |
| C18 | NumPy: a flow file is paired with its two frames | `numpy.py` | grammar of the names over character lists; padding of image stacks | proved | For ASCII digits and directories not ending in '/'. |
| C19 | A partial final batch with images is deliverable | `numpy.py` | grammar of the names over character lists; padding of image stacks | partial | True for images with two axes; false for the three-axis images the NumPy scheduler delivers, always (C19_colour_never). C19_exactly says for any samples when they are delivered. |
| C20 | Every admissible episode start is available exactly once | `episodic.py` over an arbitrary wrapped scheduler, and over the base scheduler | list combinatorics; invariants over operation histories; refutation by runs | proved | Construction also fails when there is no leaf directory at all. |
| C21 | An episode is a contiguous window of one sequence | `episodic.py` over an arbitrary wrapped scheduler, and over the base scheduler | list combinatorics; invariants over operation histories; refutation by runs | proved | For wrapped schedulers that leave the file list they are given alone (every base scheduler without shuffling); only *.mat files are considered by the code. |
| C22 | Row e of the t-th batch is frame t of episode e | `episodic.py` over an arbitrary wrapped scheduler, and over the base scheduler | list combinatorics; invariants over operation histories; refutation by runs | partial | Proved when no file directly follows itself in the queue, in particular for disjoint episodes, without shuffling and with readable frames; each condition is shown to be needed. Over a base scheduler that neither shuffles nor loops the condition is proved to be exact: the rows are aligned if and only if no file directly follows itself in the queue, and what is delivered otherwise is the queue without immediate repetitions. |
| C23 | An episode has exactly episode_length steps | `episodic.py` over an arbitrary wrapped scheduler, and over the base scheduler | list combinatorics; invariants over operation histories; refutation by runs | partial | Proved when the wrapped scheduler answers; a failing step is counted, and iter() resets the counter only. C23_exactly: the steps are the requests of the right size since the last restart or iter(), whatever became of them. |
| C24 | A wrongly sized request is harmless | `episodic.py` over an arbitrary wrapped scheduler, and over the base scheduler | list combinatorics; invariants over operation histories; refutation by runs | proved |  |
| C25 | Prefetching delivers the same batches in the same order | `prefetch.py` as a transition system of two threads with atomic queue operations and arbitrary timeouts | inductive invariants over all schedules; refutation by traces | proved | Transition system of the two threads; queue operations are atomic; schedules without timeouts, as the property says. |
| C26 | At most buffer_size batches are buffered | `prefetch.py` as a transition system of two threads with atomic queue operations and arbitrary timeouts | inductive invariants over all schedules; refutation by traces | proved | For every schedule; the lead is counted since construction or the last reset. |
| C27 | reset() never deadlocks | `prefetch.py` as a transition system of two threads with atomic queue operations and arbitrary timeouts | inductive invariants over all schedules; refutation by traces | proved | Assumes that a call of the wrapped scheduler returns. |
| C28 | reset() restarts the prefetched stream | `prefetch.py` as a transition system of two threads with atomic queue operations and arbitrary timeouts | inductive invariants over all schedules; refutation by traces | proved |  |
| C29 | Prefetched episodes stay aligned | `prefetch.py` as a transition system of two threads with atomic queue operations and arbitrary timeouts | inductive invariants over all schedules; refutation by traces | partial | Proved when next_episode is not cut short by its deadline and the end-of-stream signal displaces no batch; false when the deadline passes. |
| C30 | End of stream loses no batch | `prefetch.py` as a transition system of two threads with atomic queue operations and arbitrary timeouts | inductive invariants over all schedules; refutation by traces | partial | False: a full queue at the end of the stream loses its oldest batch. Proved: never more than one, which is among the last buffer_size, and none if the put of the signal does not time out. |
| C31 | shutdown() stops the worker | `prefetch.py` as a transition system of two threads with atomic queue operations and arbitrary timeouts | inductive invariants over all schedules; refutation by traces | partial | False with a full buffer of any size, however often shutdown is called (race). Proved for a buffer of at least two that is not full; and in general the thread ends within four steps unless it waits to put a batch into a full queue, from which one get_batch frees it. |
| C32 | Failures of the wrapped scheduler are not mistaken for the end of the data | `prefetch.py` as a transition system of two threads with atomic queue operations and arbitrary timeouts | inductive invariants over all schedules; refutation by traces | partial | False for every failure of the wrapped scheduler and for slow ones; proved as long as no get times out. |
| C33 | done is True exactly on the last step of an episode | both samplers as state machines over an arbitrary scheduler | invariants over operation histories; arithmetic of indices | proved | Counted form for histories in which nothing but EpisodeEnd is raised; for all histories: a batch is flagged iff the next call raises EpisodeEnd, which it does iff no steps remain. |
| C34 | Each flow batch is used for exactly batches_per_flow_batch image batches | both samplers as state machines over an arbitrary scheduler | invariants over operation histories; arithmetic of indices | partial | Proved for uninterrupted runs and for episodic schedulers known to the sampler; false for episodes that come through a prefetching scheduler. |
| C35 | A finished sampler stays finished | both samplers as state machines over an arbitrary scheduler | invariants over operation histories; arithmetic of indices | partial | False for the synthetic sampler whenever it has delivered a batch; proved for the real-image sampler over a base scheduler. |
| C36 | Image i belongs to flow field i of the batch | both samplers as state machines over an arbitrary scheduler | invariants over operation histories; arithmetic of indices | partial | Image and reported flow always agree; the number is i mod n if and only if there is one device, or as many flow fields as images (C36_exactly). |
| C37 | Flow fields are used evenly | both samplers as state machines over an arbitrary scheduler | invariants over operation histories; arithmetic of indices | partial | Floor/ceil for any number of devices; which ones are used once more is as stated if and only if there is one device or all are used equally often (C37_exactly). |
| C38 | The effective batch size is the least admissible one | both samplers as state machines over an arbitrary scheduler | invariants over operation histories; arithmetic of indices | proved | C38_iff gives exactly which integers the constructor accepts; C38_kept that what is accepted is used as given. |
| C39 | reset() makes the synthetic sampler reproducible | both samplers as state machines over an arbitrary scheduler | invariants over operation histories; arithmetic of indices | proved |  |
| C40 | No random key is used twice | key derivations of the synthetic sampler, image generator (`Generate`) | injectivity in the free key algebra, induction over runs; the generator as a function of the draws listed | proved | Keys are distinct as derivations; includes the keys consumed by splits, and no key comes from one that a draw has used. The images depend on random numbers only through the draws in the inventory. |
| C41 | The real-image sampler insists on images | `real.py` | invariants over histories | proved | Conversion to float32 is not modelled. |
| C42 | make() builds exactly the configured pipeline or names the first error | `make.py`, constructors and `from_config` of samplers and schedulers as decision functions | case analysis against an independent specification; composition with the scheduler models | partial | What is built is proved in full. The documented exceptions are incomplete: KeyError for keys the synthetic sampler needs, among them seed, which is documented as optional. |
| C43 | Every pipeline make() accepts can deliver a batch | `make.py`, constructors and `from_config` of samplers and schedulers as decision functions | case analysis against an independent specification; composition with the scheduler models | partial | False when flow_fields_per_batch differs from batch_size under an episodic or prefetching scheduler, and when the devices do not divide the flow fields; proved otherwise. |
| C44 | The configured seed determines the order of the files | `make.py`, constructors and `from_config` of samplers and schedulers as decision functions | case analysis against an independent specification; composition with the scheduler models | partial | False for the order of the files: from_config drops the key, so PRNGKey(0) is always used. The seed does determine the episodes. |
| C45 | The specification accepts exactly the documented values | `types.py`: validation, `update`, pytree flattening | accept-iff, field-wise equations, round trips | partial | Exact characterisation; NaN passes for dt and noise_gaussian_std, and non-numbers raise TypeError in fields compared without type check. |
| C46 | update() changes exactly the named fields and re-validates | `types.py`: validation, `update`, pytree flattening | accept-iff, field-wise equations, round trips | proved | Keywords that name no field are ignored. |
| C47 | Batches survive flattening | `types.py`: validation, `update`, pytree flattening | accept-iff, field-wise equations, round trips | proved | jax.tree_util is modelled as flattening of trees with left-to-right leaves. |
| C48 | The image window lies inside the particle region | constructor arithmetic of `synthetic.py`, parametric in the rounding | ordered-field reasoning with floor and ceiling; refutation in binary64 | partial | Proved in exact arithmetic; with Python floats the region can be one pixel smaller than the image (64 pixels at 49 pixels per unit), and it is proved to be never smaller than that. |
| C49 | No particle visible in either image can originate outside the seeded region | constructor arithmetic of `synthetic.py`, parametric in the rounding | ordered-field reasoning with floor and ceiling; refutation in binary64 | partial | Proved up to less than one pixel, and exactly when the declared speeds reach a whole number of pixels; false otherwise because sizes are truncated to pixels. |
| C50 | The sampler constructor rejects exactly the impossible geometries | constructor arithmetic of `synthetic.py`, parametric in the rounding | ordered-field reasoning with floor and ceiling; refutation in binary64 | partial | Proved in exact arithmetic; with Python floats proved up to a hundredth of a pixel, and a possible geometry at the limit is rejected. |
| C51 | Bilinear interpolation is a faithful interpolation | `bilinear_interpolate`, `trilinear_interpolate` over any ordered field with floor | ordered-field reasoning | proved | Exact arithmetic over any ordered field with a floor; cells plus clamping determine the function completely. |
| C52 | Trilinear interpolation is a faithful interpolation | `bilinear_interpolate`, `trilinear_interpolate` over any ordered field with floor | ordered-field reasoning | proved | Exact arithmetic over any ordered field with a floor. |
| C53 | Particles move with the flow | `apply.py`, `generate_array_flow_field` | ordered-field reasoning, sums over grids | partial | Everything about the motion is proved; but every three-dimensional input accepted by the input check fails, because the check wants a flow of shape (H, W, 3) and the function one of shape (D, H, W, 3). |
| C54 | Forward warping conserves intensity | `apply.py`, `generate_array_flow_field` | ordered-field reasoning, sums over grids | proved | Exact arithmetic. |
| C55 | Backward warping stays in range | `apply.py`, `generate_array_flow_field` | ordered-field reasoning, sums over grids | proved | Exact arithmetic. |
| C56 | The callable and the array interface agree | `apply.py`, `generate_array_flow_field` | ordered-field reasoning, sums over grids | partial | The array generator calls flow_f(1, row, column), the callable interface flow(t, column, row): the generated array is that of the callable with x and y exchanged. |
| C57 | Adapting a flow field without resampling is the identity up to units | `flow_field_adapter` | index arithmetic, error bounds, refutations | proved | Exact arithmetic; the grids coincide means equal steps and a start on a grid point. |
| C58 | The reported flow is the displacement of the rendered particles | `flow_field_adapter` | index arithmetic, error bounds, refutations | partial | Exact if flow grid and pixel grid have the same resolution, or the flow is uniform and the region a whole number of grid steps; within the variation of 1 + 2|q-1| grid steps in general; false otherwise, and with floats. |
| C59 | Histogram matching is monotone and in range | `match_histogram` | monotonicity of cumulative counts and of the search | partial | Range and monotonicity are proved for every monotone rounding. With the image's own histogram the result is the integer part of each pixel, so it is the identity only on integer-valued images. |
| C60 | discover_leaf_dirs returns each leaf directory exactly once | `discover_leaf_dirs` over an abstract file system | membership equivalences, permutation invariance | proved | Iteration order of Python sets is arbitrary; normpath and dirname are parameters. |
| C61 | The particle budget covers every density | `generate_images_from_flow` for arbitrary draws | ordered-field reasoning; refutation in binary32/binary64 | partial | Proved in exact arithmetic; Python computes the number of allocated particles in float64 and JAX the number of shown ones in float32, and the latter can be larger; proved to be larger by at most one for up to two million particles. |
| C62 | Drawn particle properties stay in the selected range | `generate_images_from_flow` for arbitrary draws | ordered-field reasoning; refutation in binary32/binary64 | proved | For all draws in [0, 1) and arbitrary normal draws; hidden particles have intensity 0. |
| C63 | Pixels are in [0, 255] and masked pixels are black | `generate_images_from_flow` for arbitrary draws | ordered-field reasoning; refutation in binary32/binary64 | partial | The range is proved in full; with a template histogram masked pixels are not black. C63_exactly: they are iff the share of dark pixels in the image is at most the share of black in the template. |
| C64 | A particle's footprint is positive and peaks at its centre | `img_gen_from_data`, `gaussian_2d_correlated`, `add_noise_to_image` with an abstract exponential | sums of patches, ordered-field reasoning | proved | Over any ordered field, for any positive strictly increasing function with value 1 at 0 in place of exp; the real exponential is one. |
| C65 | Rendering adds up particle contributions | `img_gen_from_data`, `gaussian_2d_correlated`, `add_noise_to_image` with an abstract exponential | sums of patches, ordered-field reasoning | proved | The sum formula needs an image that can hold a patch; order and hiding hold for all sizes and roundings. |
| C66 | Patches stay inside the image | `img_gen_from_data`, `gaussian_2d_correlated`, `add_noise_to_image` with an abstract exponential | sums of patches, ordered-field reasoning | partial | Proved in exact arithmetic for images that can hold a patch; false for smaller ones (indices wrap around) and in float32 (one row or column falls outside and is dropped; proved: never more than one, and nothing wraps around). |
| C67 | The speed summary bounds all data and is attained | `calculate_min_and_max_speeds` with IEEE special values | fold invariant | partial | Proved for files without NaN; a file with NaN in a component is silently left out of the bounds of that component. C67_exactly: the bounds are those of the files without NaN in the component; C67_iff: the claim holds iff there is no NaN. |
| C68 | Updating a config file loses nothing | `update_config_file` with textual form and YAML reader as parameters | association lists | partial | Proved for values whose text is read back as the value and for a file list with at least one item; a file list that is empty or a string is dropped and None becomes a string. C68_iff: nothing is lost iff every text is read back as its value and file_list, if there is one, is a list with at least one item. |
| C69 | Histogram matching follows the template | `match_histogram` | monotonicity of cumulative counts and of the search | proved | Exact arithmetic in the cumulative histograms. |
| C70 | Every particle is drawn where it is | `img_gen_from_data`, `gaussian_2d_correlated`, `add_noise_to_image` with an abstract exponential | sums of patches, ordered-field reasoning | partial | Proved for pixels more than two patch radii from the border of the region; false near the border, where particles are moved inwards. |
| C71 | Batches have the configured shape | `generate_images_from_flow` for arbitrary draws | ordered-field reasoning; refutation in binary32/binary64 | partial | Proved in exact arithmetic; with floats an accepted configuration gives images of 63 rows instead of 64; proved: never more than one row and column short. |
| C72 | A still flow gives identical images | `generate_images_from_flow` for arbitrary draws | ordered-field reasoning; refutation in binary32/binary64 | proved | Exact arithmetic. |
| C73 | A uniform flow of whole pixels shifts the image | `generate_images_from_flow` for arbitrary draws | ordered-field reasoning; refutation in binary32/binary64 | proved | Exact arithmetic; C58 says for which flows every particle moves by the same displacement. |
| C74 | The speed check returns configured or confirmed speeds only | `missing_speeds_panel` as a decision function of configuration, files and answers | case analysis | proved | User input is a parameter. |
| C75 | The dataset splits are a partition | `fetch_splits`, `load_split_file`, `perform_split` for an arbitrary shuffle | list slicing, permutations, refutations | partial | Proved for ratios that are not negative, with Python floats, for lists of fewer than 2^53 / 100 items; a negative ratio passes the check of the command line and puts items in two lists. C75_iff: exactly when the lists are a partition, for all ratios and roundings. C75_nothing_lost: no item is ever lost; C75_twice: otherwise training and tuning share an item. |
| C76 | Item lists survive being written and read | `read_list`, `write_list` with universal newlines | list induction | proved |  |
| C77 | A sample is in one split only | `fetch_splits`, `load_split_file`, `perform_split` for an arbitrary shuffle | list slicing, permutations, refutations | partial | Proved for official lists whose lines are reduced to different names; false for files of the same name in two directories. C77_exactly says which splits every file is copied to, for any list. |
| C78 | Unpacking TFRecords loses nothing | `process_tfrecord` and the loop of `main` (class 2) with overwriting files | list induction, refutation | partial | Proved if at most one TFRecord goes to each directory; a second one replaces the files of the first. C78_exactly says what is in every file for any TFRecords, and C78_all_kept_iff when nothing is lost. |
| C79 | The main program always shuts the sampler down | the loop of `src/main.py` over an arbitrary sampler | induction over the batches | proved | The run is that of the code after the sampler has been built; a shutdown that raises is not modelled. |
| C80 | Packing scales flows consistently | `resize_flow` followed by the MAT scheduler's `load_file`, with any resampling that keeps constants and with Pillow's filter (`Model/Pillow`) | algebra over the array model; concrete counterexample | partial | Proved for uniform flows, for any resampling that keeps constant images and for Pillow's bilinear filter in exact arithmetic, which does; and for all flows if the target shape is the original or the output shape. False for other flows and target shapes: packing at a coarse shape loses detail. |
| C81 | Packed files have the names the official lists give them | `convert`'s and `load_split_file`'s names | list lemmas about first and last occurrences | partial | Proved for paths without white space and base names without the markers; false for a directory with a space in its name. |
| C82 | Prefetching is invisible to the user of a sampler | the stack base - prefetching - synthetic sampler; a call on the prefetching scheduler has every outcome some interleaving can give it | simulation of the sampler over the prefetching scheduler by the sampler over the wrapped one (the buffered batches are the next ones), induction over the history; refutations | partial | Proved for next() and reset() under every interleaving without timeouts, without any difference before Python 3.12 and up to the done flags (None becomes all False) since then, and for resets that forget the position; next_episode() and full resets of a looping and shuffling scheduler differ. |
| C83 | Prefetching an episodic scheduler changes neither episodes nor flags | the stack base - episodic - prefetching - synthetic sampler | the same simulation with the episodes; refutations | partial | Proved under every interleaving without timeouts for histories that begin with next() and contain no full reset; next_episode() before the first batch and full resets differ. |
| C84 | Only V, I0 and I1 of a MAT file matter | MAT files as data (`MatTree`): variables of legacy files, trees of HDF5 files, the flattening into a dictionary | induction over paths and trees | proved | The variables are those the readers return: SciPy drops axes of length one. |
| C85 | The version of a MAT file does not matter | the same, with MATLAB's convention for the order of axes in HDF5 as an assumption | the exact relation for square flows; refuted by a witness | partial | MATLAB writes version 7.3 files with the axes reversed; the code then exchanges rows and columns, and flows of one row cannot be loaded from older versions at all. Proved what the relation is for square flows without resizing. |
| C86 | The constructors of the formats accept files and directories of their kind and nothing else | the three constructors on top of the base constructor (`FormatInit`) | decision logic stated outright; refuted for HDF5 directories | partial | Proved for MAT and NumPy; the HDF5 scheduler checks the extension of the arguments instead of the expanded files and so rejects directories. |
| C87 | A MAT file gives one sample with its own images and name | `matLoad`, `matNext` | case analysis | proved |  |
| C88 | A directory of numbered flows is served in the order of the numbers | the sorted expansion of a directory and the grammar of the names | lexicographic order on digits of equal length is numerical; refuted otherwise | partial | Proved if all numbers have the same number of digits; otherwise the order is lexicographic, 10 before 2. C88_exactly: numbers of any lengths are in order iff no smaller one, filled up with zeros to the digits of a larger, exceeds it. |
| C89 | Every batch of the synthetic sampler is well-formed | the constructor with all numeric checks, and the sampler with adapter and generator put in (`Synthetic`) | invariant over all histories: every batch is made from a delivered flow batch; then the properties of the parts | partial | Proved in exact arithmetic for every history, with base and episodic schedulers shown to deliver full batches; with floats images may be one row and one column short, never more. |
| C90 | The mask and the file names describe the pairs they stand beside | as C89, over the base scheduler | the invariant of C89 with C02; refuted with fewer flow fields than pairs | partial | Every pair has an entry if and only if there are as many flow fields as pairs (C90_exactly). Proved for flow_fields_per_batch = batch_size on any number of devices; with fewer flow fields mask and file names have flow_fields_per_batch entries only. |
| C91 | The reported flow is the motion in the images | as C89 | the invariant of C89 with C58 and C73 | partial | Exact arithmetic, a region of particles that is a whole number of grid steps. False otherwise (C91_refuted). |
| C92 | The random choices of a pipeline are independent of one another | all splits and draws of `make`, the base scheduler, the episodic layer and the synthetic sampler (`MakeKeys`) | ancestors in the free algebra of keys; every pair of components compared; refuted for seed 0 and for two devices | partial | Exact characterisation of the configurations and histories with independent choices; refuted for seed 0 (the default) with shuffling, and for two devices with episodes, because the sampler starts from the key make has already split. Keys are compared as derivations. |
| C93 | A new file list is served after a reset | the setters of `file_list` in all three scheduler layers (`FileList`) | the state after assignment and reset is a constructor's state; under prefetching an invariant over all schedules; refuted for episodes | partial | Proved for the file schedulers and for these behind a prefetching one; false for the episodic scheduler, which keeps the directories found at construction and forgets the assignment. |
| C94 | The debug mode rejects nothing that works without it | the two input checks and their calls (`Checks`) | every check compared with what the constructor ensures, with C48; refuted by three-channel flows, small output shapes, images beyond 512 pixels and float rounding | partial | Exact characterisation of what the checks reject; false for flow fields of three channels, reported flow fields without a row or column, windows ending beyond 512 pixels (image generation checks the default region), and with floats for regions one pixel short. |
| C95 | The debug mode does not change what is delivered | constructor and `__next__` in debug mode (`Checks`) | equality of the two modes on one device, then C34 on both runs; refuted by episodes and devices | partial | False: the constructor consumes a flow batch, and nothing is spread over the devices. Proved for one device: everything is as without the debug mode, batches_per_flow_batch calls later. |
| C96 | Splitting copies every listed sample intact and touches nothing else | the copying loop of `perform_split` with the target paths (`SplitCopy`) | induction over the packed files; the target path is injective because the folder is a function of the name | proved |  |
| C97 | A sample is in the splits of the current lists only, also when the script is run again | repeated runs of `perform_split` (`SplitCopy`) | induction over the runs, with C96; refuted by a run with other lists | partial | Proved for any number of runs with the same lists; false if a later run has other lists (another seed): old copies are not removed, so a sample is in two splits. C97_exactly: after any runs a sample is where one of them has put it; C97_iff: the claim holds iff every earlier run's assignments are among the last one's. |
| C98 | Every usable triplet is packed with its own data | `convert` and `pack_triplet` with missing and unreadable files (`Convert`) | induction over the flow files; refuted by a .flo and a .mat of one sample | partial | False if a sample has two flow files, as .flo and .mat: they are packed into the same file; proved otherwise. C98_exactly says which one is kept. |
| C99 | The dataset script loses and invents no sample | `convert` and `perform_split` in sequence (`Convert`, `SplitCopy`) | composition of C96 and C98 | partial | Under the condition of C98, which is needed (C98_refuted). |
| C100 | Flow files are read as they were written | `read_flow` on bytes and on MAT variables (`ReadFlow`) | parsing inverts writing; induction over the words and the variable names | partial | Everything for .flo files with non-negative sides in the header; a header with a negative side is not rejected; for .mat files false only for flows with the components first that are two pixels wide. |
| C101 | A configuration that the sanity script reports as valid is accepted by make | `sanity.main` (`SanityMain`) with `make` (`Make`) | the run of `main` gives all constructor calls that `make` needs; refuted by a configuration without scheduler class | partial | False: the script ignores scheduler_class, include_images, episode_length and buffer_size; proved for configurations that meet the documented requirements and use plain HDF5 files. |
| C102 | Having missing speeds computed makes the configuration usable | `sanity.main` with panel and rewriting of the file (`SanityMain`, `Sanity`) | refuted for all configurations; for the second run C68 and C74 | partial | False for every configuration: main builds the sampler from the configuration loaded before the speeds were computed, so it ends with an error. Proved: the file is complete afterwards and the next run uses the computed speeds. |
| C103 | An interrupted build of the class 2 dataset is completed by running the script again | runs of the class 2 script as sequences of writes that a crash cuts off anywhere (`Crash`) | invariant over all histories: what is on the disk is covered by the writes of a full run; refuted for all archives | partial | True for every crash in the extraction or the packing; false for every archive if the download is interrupted: the incomplete archive is never replaced. |
| C104 | The lists for training, validation and tuning on the disk always belong together | `fetch_splits` as writes of four lists, downloads that fail or break off (`Crash`) | composition with C75, induction over the runs; refuted by two runs | partial | True for all sequences of uninterrupted runs whose downloads succeed or fail before the file is opened; false if a download breaks off or a run is interrupted. |
| C105 | An interrupted build of the class 1 dataset is completed by running the script again | download, extraction and packing of the class 1 script as writes (`Crash`) | invariants over all histories; refuted: a raw directory that is not empty never changes | partial | True for every crash in the packing; false if download or extraction is interrupted: nothing more is ever downloaded or extracted. |
| C106 | Examples of a TFRecord become the samples they encode | decoding of the examples (`TfRecord`) and the MAT loader (`Formats`) | the bytes of an array are decoded entry by entry, induction over the words | proved | For every side, 256 in the code; the value of a four-byte word is a parameter. |
| C107 | From the MAT files to the batches of real images | MAT loader, base scheduler, prefetching scheduler and real-image sampler put together (`Formats`, `Base`, `Prefetch`, `Stack`, `Sampler`) | C87 and the run of a scheduler that does not loop, call by call; C82 for the prefetching scheduler | proved | Composition of the models of loader, scheduler, prefetching and sampler; conversion to float32 is left out, calls on the prefetching scheduler are those that return. |
| C108 | From the NumPy files and their frames to the batches of real images | NumPy loader, base scheduler and real-image sampler put together (`Formats`, `Base`, `Sampler`) | the run of a scheduler that does not loop, call by call; full batches stack, incomplete ones cannot be padded | partial | The pairs of all full batches are served as claimed. The incomplete rest is answered with ValueError and lost, because the padding of colour images uses one pad pair too few; refuted for every number of usable files that is not a multiple of the batch size. |
| C109 | From the HDF5 files to the synthetic images | HDF5 loader, base scheduler and synthetic sampler put together (`Formats`, `Base`, `Sampler`, `Synthetic`) | progress of the sampler as long as the scheduler draws, then the run of the scheduler cut into flow batches | proved | Also through a prefetching scheduler, under every interleaving without timeouts. For every generator of images, so also for that of Model/Synthetic; flow_fields_per_batch must be divisible by the number of devices (otherwise the sampler raises), and the file list is without repetition (C01_refuted). |
| C110 | From the configuration to the synthetic batches | `make` with the constructors of scheduler and sampler filled in (`Whole`), the run of the resulting sampler | inversion of `make` and `from_config` key by key, then C109 and C89 for the scheduler and arguments found | proved | Composition of all layers from make to the images; the file list is without repetition, flow_fields_per_batch is divisible by the number of devices, and infinite or NaN parameters are outside the model. WellFormed holds for exact arithmetic (C89_refuted for floats). |
| C111 | From the configuration to the real images | `make` with the constructor of the MAT scheduler filled in (`Whole`), the run of the resulting sampler | inversion of `make`, then C107 | proved | Composition of all layers from make to the batches; the file list is without repetition. Resizing is a parameter of the model (see C80). |
| C112 | A directory in file_list stands for the files below it | Python's `glob` for the patterns of the schedulers on a directory tree (`Glob`), with the expansion of `BaseInit` | mutual induction over trees for membership and for multiplicity, injectivity of paths; witnesses for the exceptions | partial | Holds for the base constructor, and so for MAT at any depth and for NumPy directly in the directory, for trees without hidden names and without directories that match the pattern. Refuted: hidden files and directories are skipped; a directory named *.mat makes the constructor fail; the HDF5 scheduler refuses directories; the NumPy scheduler does not look into subdirectories. Paths with the characters *, ? and [ are outside the model. Directories whose own names end in .h5 are accepted by the HDF5 scheduler, at any depth. |
| C113 | make accepts exactly the complete configurations | `make` with all constructors filled in (`Whole`); completeness as a predicate on the dictionary and the environment (`Spec/Complete`) | both directions: inversion of `make` key by key, and evaluation of `make` from the values, using the equivalences C86, C45, C50 | partial | Equivalence in exact arithmetic for synthetic images and without restriction for real images; with floats, complete configurations whose window fits with a hundredth of a pixel to spare are accepted (at the very limit possible geometries are rejected, C50_refuted). Infinite and NaN parameters are outside the model. |
| C114 | The configurations that come with the package work | the configurations as dictionaries (`Documented`) in `Whole` | C113 for the accepted ones, geometry by computation with binary64; evaluation of `make` for the others | partial | Proved for main, cylinder, Jassal and JHTDB with Python's floats. Refuted for the configurations of the tutorial and of docs/examples, and for config/test_data.yaml: none of them is ever accepted. |
| C115 | reset() of the prefetching scheduler leaves no thread behind | `Threads`: the worker, all replaced workers, and the lines of `reset` after the join as separate steps | simulation by the model with one worker (`Prefetch`), in both directions | proved | For the join without time limit, as in the code; the abandoned threads are part of the state and could move. |
| C116 | From a configuration to synthetic images of the flows in MAT and NumPy files | `Whole` with `matWorld` and `npWorld`; `SynthAny` is C109 for any format | inversion of `make`, then the run theorem for any format; MAT files by `C15`, `C16` | proved | For distinct files with arrays of at most three axes whose number of entries fits their shape, and flow_fields_per_batch a multiple of the number of devices (otherwise C36/C37). Pillow's resampling is a parameter that returns an array of the requested size. |
| C117 | A uniform flow is reported as pixels per unit times dt times the stored velocity, whatever the file format | `make` with all constructors and the sampler run (`Whole`), the three formats (`Formats`), Pillow as a parameter that keeps constants | C110 and C116 with C57: each stored field is constant, and interpolation keeps constants; witness for MAT | partial | Proved for HDF5 and NumPy files in exact arithmetic. For MAT files only for grids of 256 x 256: the default output_shape of the MAT scheduler rescales the velocities of any other grid by 256 over its width and height, although the flow field is in physical units there (refuted with a grid of 512 x 1024). Pillow's resampling is assumed to keep constant images constant. |
| C118 | The images show the part of the flow field that begins at img_offset | constructor (`Geometry`) and `flow_field_adapter` (`Adapter`), exact | interpolation in an edge-padded grid is interpolation at a shifted point; floor and ceiling bounds on one axis; witnesses | partial | In exact arithmetic: for every accepted geometry the reported flow is that of a point that lies before the right one by less than a pixel, plus less than a grid step where the flow field is padded, plus what the steps of the two grids differ by; exact for whole-pixel displacements and equal steps. Refuted: the pixel is lost for other displacements, two pixels and more with padding, and the offset is (y0, x0), not (x0, y0) as in the tutorial. |
| C119 | Adding buffer_size to a configuration changes nothing but the time batches take | `make` and all constructors (`Whole`), prefetching scheduler with its worker (`Prefetch`, `Stack`), samplers (`Sampler`) | `make` commutes with putting the buffer in; C82 for the histories; a schedule in which every call returns is built by induction over the history; witness | partial | Construction is proved in full: make with the buffer is make without it, with the prefetching scheduler put in between. Histories agree for real images, and for synthetic images if flow_fields_per_batch equals batch_size, up to done flags (False instead of absent since Python 3.12); otherwise the claim is false: every next() raises ValueError, whatever the worker does (refuted, with a configuration that works without the buffer). Left out: reset of a looping shuffling scheduler (C82_refuted_reset), next_episode since Python 3.12 (C82_refuted_done), timeouts while the worker is alive. |
| C120 | A configuration with episodes plays episodes: frames in order, done at the last one, then EpisodeEnd | `make` with all constructors (`Whole`), leaf directories, episodic and MAT scheduler, samplers run (`WholeEpisodes`) | refinement of all histories of calls to an abstract player (`Spec/Episodes`), by induction over the history with an invariant that says which step of which draw comes next | partial | Every history of calls refines the abstract player of Spec/Episodes.lean, from the dictionary or YAML file to the batches, for MAT files (the only ones the episodic scheduler lists) without buffer. Hypotheses: randomize off, every frame readable, no file directly after itself in the queue (each refuted otherwise: C22); for synthetic images flow_fields_per_batch = batch_size, without which every next() raises ValueError (C120_mismatch). Two sufficient conditions for the third are given. |
| C121 | Episodes and a buffer together: the same film, only prefetched | as C120, with the prefetching scheduler and its worker thread between episodic scheduler and sampler (`Spec/BufferedEpisodes`) | comparison of the two constructions; C83 instantiated with the invariant of C120; liveness by choosing an interleaving that returns to a quiet state; counterexample computed | partial | What make builds is settled for all configurations (C121_built). The two behaviour theorems give the same outcomes under every interleaving without timeouts, and that the calls can return, for histories that begin with next() and contain no full reset (refuted otherwise: C83), with the hypotheses of C120 and batches_per_flow_batch = 1. For other values the claim is false (C121_refuted): the sampler replaces the value by 1 only if its scheduler is the episodic one itself. |
| C122 | Interpolation in single precision is accurate | `bilinear_interpolate`, `trilinear_interpolate` with every operation rounded by its own function (`Model/Single`) | error analysis: weights, products, sums; weights add up to 1 | proved | For every rounding with relative error at most 2^-24 per operation (hardware_rounds: binary32 with any fusing is one). Overflow, subnormal numbers and reordered sums are not modelled. C122_range_refuted shows that some error is unavoidable: equal entries are not reproduced exactly, on either side. |
| C123 | Particles move in single precision as the flow says | position scaling, step and scaling back, likewise rounded; division or multiplication with the reciprocal | error analysis per axis, with C122 and the Lipschitz bound of C51 | proved | Same rounding model as C122; the scale factors come from Python floats. |
| C124 | A still flow gives two identical images on the machine | as C123, followed by the rendering of C65 | fixed points of the rounding; C123 with a zero flow; counterexample computed | partial | True if the flow on the region has one grid step per pixel; in general the motion is at most 5 rounding errors of the region's size, and the images can differ (C124_refuted: accepted configuration, possible draw). C72 is the statement in exact arithmetic. C124_still_powers_partial covers every number of grid steps per pixel that is a power of two. |
| C125 | Drawn properties and positions stay in their ranges in single precision | `jax.random.uniform` with bounds, positions, rounded | relative errors against the gap of the largest draw to 1; monotonicity of rounding | proved | Draws are multiples of 2^-23 below 1, as jax.random.uniform makes them from 23 random bits. |
| C126 | A for loop over a sampler sees every batch and ends normally | `Sampler.__iter__`, the `for` statement (`Model/ForLoop`), over the samplers of `Model/Whole` and `Model/WholeEpisodes` | induction over the iterations; C110, C111, C116, C120 for the calls | partial | True without episodes. False with episodes: the loop is left by EpisodeEnd, which is not a StopIteration, after the batches of the episode (the two theorems _refuted). With a buffer a for statement sees what it sees without, under the conditions of C119 and C121 and every interleaving. |
| C127 | What says it can be iterated can be iterated | which of `__iter__`, `__next__` the classes define (`Model/Iteration`) and what `next` and `for` make of it | definitions unfolded; the statements range over all states | partial | True for samplers. False for every scheduler: the classes define __iter__ but no __next__, so that both next and the for statement raise TypeError; the for statement moreover resets the step counter of the episodic scheduler. |
| C128 | The pictures saved by the main program are those of the batches delivered | the names and the writing of the pictures (`Model/Saved`) on top of the run of `main` (`Model/Scripts`) | decimal digits are injective and contain no underscore; induction over the events; C79 | proved | What a run that is cut short leaves behind is C191. |
| C129 | The dataset script reports what is wrong with its command line, and then changes nothing | the parsing of the two arguments and the order of the steps (`Model/Command`), packing and splitting from `Model/Convert`, `Model/SplitCopy`, `Model/Crash` | induction over numerals; case analysis of the program | partial | True for the ratio. False for the target shape: a malformed one is noticed only after the lists have been overwritten and leads to status 0; numbers that are not two positive ones make every triplet fail, silently and with status 0. Every later error is reported as a wrong ratio. |
| C130 | After shutdown() a prefetching scheduler delivers nothing more | the transition system of `Model/Prefetch` | a potential (batches in the queue and in flight) that no step increases once the flag is set; conservation of batches under every step; general and concrete counterexamples | partial | False: batches left in the queue are still delivered after shutdown, one having been thrown away, and a batch may even follow a StopIteration. Proved: shutdown does not wait, at most buffer_size batches follow, the wrapped scheduler is asked at most once more, and the order is kept. |
| C131 | Sampler.shutdown() tells every background thread to stop | the nesting of schedulers with their stop flags (`Model/Shutdown`) | case analysis, for every nesting | partial | True for every scheduler that make builds; false for nestings with a prefetching scheduler inside another layer, because neither wrapper passes the call on. |
| C132 | Resizing never enlarges displacements beyond the change of scale | Pillow's bilinear filter in exact arithmetic (`Model/Pillow`), the loader and `resize_flow` | the normalised weights are not negative, add up to 1 and there is always one that is positive: convexity, for all sizes | proved | With Pillow's bilinear filter in exact arithmetic (Model/Pillow.lean); the library itself rounds to binary32. |
| C133 | Reported displacements stay within the range of the stored velocities | `make`, loaders, scheduler, sampler and adapter as in C110, C116, with Pillow's filter | convexity of the interpolations, carried through C110 and C116 | proved | Interpolation in exact arithmetic, the geometry with any rounding; MAT files with Pillow's bilinear filter. Looping samplers and single passes. |
| C134 | With hidden particles or varied density every particle is drawn where it is | the constructor of the synthetic sampler, generation and rendering (`Model/Synthetic`, `Model/Geometry`, `Model/Generate`, `Model/Render`) | the enlarged margin holds a whole patch, then C70; concrete counterexample at the lower border | partial | Holds for all pixels up to the upper and left border, and at the lower and right border where the declared speeds make the region go on by a patch; false otherwise, because the region is enlarged upwards and to the left only. Exact arithmetic, without noise, mask and histogram. |
| C135 | The units of length and time do not matter | the whole synthetic sampler (`Model/Synthetic`) | every formula is homogeneous, the state machine does not look into flow fields (simulation over histories); rounding commutes with powers of two | partial | Any factors in exact arithmetic; powers of two with the geometry in binary64 and binary32 (interpolation and motion in exact arithmetic). Other factors can change the region by a pixel through rounding. |
| C136 | output_units changes nothing but the reported flow | the whole synthetic sampler (`Model/Synthetic`) | simulation over histories | proved |  |
| C137 | The reported flow in single precision | the adapter with every operation rounded (`Model/SingleAdapter`) | rounding errors of the grid (`linspace`), Lipschitz bound of interpolation, errors of interpolation | proved | Same rounding model as C122; what Python computes from the static arguments is rounded to 2^-53. jnp.linspace is modelled as jax implements it. C137_uniform says the uniform case outright and C137_range bounds the reported flow by the stored values. |
| C138 | The reported flow describes the motion of the particles in single precision | the adapter and the motion with every operation rounded (`Model/SingleAdapter`, `Model/Single`) | C137, C123 for two nearby flow fields, and C58 in exact arithmetic | partial | Same rounding model. Proved for regions that are a whole number of grid steps long (counted right by Python's floats); otherwise the scales disagree already in exact arithmetic (C58_refuted). |
| C139 | A mask blackens pixels and changes nothing else | the synthetic sampler (`Model/Sampler`, `Model/Synthetic`, `Model/Generate`) | simulation between the two samplers, step by step, with images related by blackening | proved | Masks are arrays here; that the file of the configuration holds zeros and ones is checked by from_config (C43). |
| C140 | Seed, noise and the looks of particles do not influence the flow | the same | simulation by the sampler whose images are erased | proved | Both samplers are supposed to be accepted. Number of particles, diameters and hiding are not among what may differ: they take part in the margin around the images. |
| C141 | Only the documented keys of a configuration matter | `make` (`Model/Make`) | rewriting with the agreement of the two dictionaries, key by key; necessity by one configuration per key | proved | Configurations given as dictionaries with the keys make uses being strings; the YAML loader is outside the model. |
| C142 | The number of devices changes nothing but the random draws | the synthetic sampler (`Model/Sampler`) | blocks over devices concatenate to the whole; simulation by the sampler whose images are the flow fields | partial | Proved with as many flow fields as images per batch. With fewer the flow fields come in another order on several devices (C142_refuted). C142_exactly: for different flow fields the order is the same iff the numbers of devices are or there are as many flow fields as images. |
| C143 | Resetting without the scheduler restarts the draws, not the data | the synthetic sampler on any scheduler (`Model/Sampler`) | simulation of runs: both samplers agree up to what is left of the current flow batch | proved |  |
| C144 | Hiding particles | the drawing of particles (`Model/Generate`, `Model/Render`), the sampler (`Model/Sampler`, `Model/Synthetic`) | an image is a sum over particles, each linear in its brightness; Lebesgue measure of the draws that hide; invariant over runs for black images | proved | C144_probability is about one uniform draw, all others being given: that JAX's draws are uniform and independent is outside the model. Monotonicity supposes intensities and mask not to be negative. |
| C145 | Files that change while they are served | the base scheduler with load outcomes that depend on the number of the opening (`Model/Changing`) | the run is compared step by step with that of the base model on the files as opened; invariant: the opened files are an initial part of the list | proved | A file changes between openings, not while one call of load_file reads it. |
| C146 | Every pass opens every file at most once | as C145, with reset and looping | invariant over histories of calls: earlier passes, position in the current one | proved |  |
| C147 | An interrupted sanity script leaves the old or the new configuration | the lines of the configuration file at every point of `update_config_file` (`Model/SanityCrash`) | the lines on the disk are an initial part of those to be written, the last perhaps torn; entries and items of initial parts | partial | The file is emptied and written in place: a stop loses keys, all of the file, or the last files of the list, the last without being noticed. Proved: keys that are left have their new value, except that of one torn line; a stop before the first file of the list is noticed. |
| C148 | The reported flow is linear in the delivered flow | the synthetic sampler on a scheduler that delivers pairs of flow fields | relational induction over histories (`Proofs/Parametric`); linearity of the bilinear interpolation | proved | In the exact arithmetic of the interpolation; the geometry may be rounded in any way. C122 bounds what single precision does to the interpolation. |
| C149 | Only the second images and the reported velocities depend on the flow | as C148, with any two flow fields for what is delivered | relational induction over histories; the first particles do not use the flow | proved | For any rounding. |
| C150 | Only the flow around the window matters | as C149, with the geometry of the constructor | relational induction over histories; interpolation looks less than one step around a point, and the points read lie in the region | proved | In exact arithmetic, for finite velocities. |
| C151 | A specification may be given in part | the call of the dataclass: binding of positional and keyword arguments, defaults, checks | induction over the arguments; C46 | proved | The binding of arguments is that of the __init__ the dataclass decorator makes. |
| C152 | from_config builds what the configuration says | the three from_config methods with arbitrary configurations, the constructors called with keywords | case analysis over formats and items, no restriction on the values | partial | Options that are given are honoured, except key, which all three methods ignore. Left out, loop is True for HDF5 and NumPy files, False for MAT files, and False for all constructors. Names that are no options are ignored. |
| C153 | More noise darkens no pixel, and noise changes a pixel by a bounded amount | synthetic sampler with all numbers, two noise settings on the same draws | the noise at one pixel is monotone and 1-Lipschitz; lifted to histories by the relational lemma for samplers | proved | Exact arithmetic for pixel values; any rounding of positions and densities. Without histogram: matching replaces pixel values. |
| C154 | Brighter particles darken no pixel | synthetic sampler with all numbers, two lists of intensity ranges on the same draws | the light of a particle is monotone and linear in its brightness; lifted as C153 | proved | Exact arithmetic for pixel values; any rounding of positions and densities. Without histogram: matching replaces pixel values. |
| C155 | A denser seeding darkens no pixel | synthetic sampler with all numbers, two density ranges on the same draws | the particles that take part with the lower density take part with the higher one; lifted as C153 | proved | Exact arithmetic for pixel values; any monotone rounding of densities. If neither particles are hidden nor the density varies, the region of the particles may change with the bounds (C134). |
| C156 | Every history of next, reset and next_episode reads the files as a reader would | the whole construction with any history of calls, against an abstract reader (Spec/Reader.lean) | simulation: the state of the scheduler determines the rest of the pass, one step lemma per call, induction on the history | proved | Refinement to the reader of Spec/Reader.lean. File names without repetition and one grid size; the number of devices divides flow_fields_per_batch. With a buffer, compose with C119. The reader shows the last samples again after StopIteration, as the code does (C35). |
| C157 | A prefetching scheduler that is no longer used stops its thread | `__del__`, the references between program, scheduler, thread and stack, the attributes the constructor sets; the transition system of the prefetching scheduler | reachability in the graph of references; invariants over all schedules of the background thread | partial | False for every wrapped scheduler that never ends: the thread refers to the scheduler it works for, so that __del__ is not called while it is alive. Proved exactly when it is called: the remaining batches fit into the buffer. The end of the interpreter is not modelled. |
| C158 | StopIteration is never raised because a batch was late, if batches are loaded fast enough | the transition system of the prefetching scheduler with a clock and the timeouts as conditions on it (Model/Timed); speeds as assumptions (Spec/Timed) | invariant: while the consumer waits on an empty queue an item comes by a fixed moment, or the worker has ended | proved | The speeds are assumptions on the machine and on the wrapped scheduler, stated in Spec/Timed.lean. This is what the nondeterministic timeouts of C32 leave open. C158_sharp: the bound cannot be improved. |
| C159 | A user who asks often enough gets every batch through the buffer | the same, with the user's pauses | invariant: while the worker waits to put the end-of-stream signal into a full queue nothing has been taken; then C25's accounting | proved | The unconditional form of C25 and C30 under assumptions on time. C159_sharp: the bound on the user's pauses cannot be improved. |
| C160 | Episodes stay aligned through the buffer if batches are loaded fast enough | the same, with the deadline of `next_episode` | invariant on the lag of the discarding loop; then C29 | proved | The form of C29 under assumptions on time. The factor L*(2*load + 4*step) is sufficient, not the best possible. C160_slow_refuted: with two seconds per batch it fails. |
| C161 | Every call on the prefetching scheduler returns within a bounded time | the same, with all calls | invariant on the moments of every call; no step is overdue, so one thread can always go on | proved | In reset, the time of the wrapped scheduler's own reset after the join is not counted. That only finitely many steps are made in a bounded time is not part of the statement. |
| C162 | shutdown ends the worker thread before it returns | `shutdown` and the worker in the transition system with a clock | invariant with the deadline by which the worker ends; a counterexample run at the bound | partial | Missing: a buffer of one batch, or a queue that is full when shutdown() is called; then the worker can stay blocked for ever (C31_refuted). For batches that take as long as the join waits it is false. |
| C163 | Several threads may draw from one prefetching scheduler | `get_batch` of any number of threads, divided at every read and write of a shared attribute, with the worker of the prefetch model | the invariant of C25/C30 carried over to the shared system; invariants on `_started` and the places of the threads; counterexample runs | partial | Each batch to one thread and in order, for every schedule; no RuntimeError once one thread has been answered; whoever is stuck waits for a worker that has ended; episodes have the right length if calls do not overlap. False: two first calls at the same time, the end of the stream for all threads but one, and the length of episodes. |
| C164 | A vector missing from a flow file spoils only what is reported in its place | `bilinear_interpolate` and `flow_field_adapter` on values with NaN | the interpolation as a number or NaN, the two grid points of an axis as an interval, comparison with the model without NaN on filled fields; a counterexample on the grid | partial | Exact characterisation; it is the claim for places between the grid lines. On grid lines it is false: neighbours with weight zero count, since 0 * NaN is NaN. |
| C165 | A request for no samples, or for a negative number, is harmless | `get_batch` of the base scheduler with integers | by cases, and induction over the sequence of requests | partial | Proved for negative numbers, and for zero if the scheduler does not loop. A looping scheduler that is asked for no samples restarts its stream and then raises ValueError. |
| C166 | The image hardly depends on the order in which the particles are added | the additions of `image.at[...].add(...)` as any tree with a rounding at each node (Model/Scatter) | induction over the tree; a particle reaches a pixel once at most | proved | That a contribution is computed with a relative error of at most d, at the pixel of exact arithmetic with rounded positions, is an assumption; the error of the device's exponential is not modelled. C166_refuted_bits: in single precision two orders can differ in the last bit. |
| C167 | Infinite and NaN parameters are rejected with ValueError | the constructor's geometry on numbers with infinities and NaN (Model/NonFinite) | no operation turns an infinity or NaN into a number, except the quotient by an infinity and `max(0.0, nan)`; by cases | partial | Proved for everything but speeds that are NaN, which pass as zero, and an infinite size of the flow field, which is accepted and makes the grid resolution zero. Some infinite values raise OverflowError instead of ValueError. C167_finite: for finite values it is the constructor of C48-C50. |
| C168 | Rows and columns are treated alike | the existing models of geometry, adapter, motion, rendering, crop and warping, run twice | each model equation under the exchange of axes; composition for the pair of images | proved | For given particles, before noise, mask and histogram. Exact arithmetic in the flow fields and intensities: in floating point the order of additions differs between the axes. Drawing particles does not treat the axes alike: the second diameter is drawn around the first. |
| C169 | Missing vectors cost particles, not images | motion, rendering, crop, noise and mask on flow fields with missing values (Model/MissingImage) | the pixel as a sum that is NaN if a term is; a particle without a place spoils one patch and nothing else | partial | All but the last part: pixels can be NaN. C169_second_partial says which, for every conversion of NaN to an integer; C169_dropped: none on devices whose conversion is far outside the image. Without a histogram; infinities are not modelled. |
| C170 | Files can be added while the others are being served | histories of requests and assignments of longer lists on the file scheduler (Model/FileList), the prefetching scheduler's transition system | refinement of a queue of samples; what is still to come after an addition is what was to come plus the samples of the added files; an ended worker never touches the wrapped scheduler again | partial | Holds for file schedulers and files that are not in the list yet (C170_queue: any history, not looping; C170_loop: one addition at any time, looping). False behind a prefetching scheduler whose worker has ended, and for a file that was the last one. The episodic scheduler forgets assignments altogether (C93). |
| C171 | Files can be added from another thread | `get_batch` divided at its reads of the list, with an arbitrary change of the list before each (Model/Concurrent) | linearisation: every pass is an atomic one on some later list; invariant: handed out plus still to come is the contents of the list | partial | Proved for schedulers that do not shuffle (C171_queue; C171_loop if they loop), for files not yet in the list, and for calls that return (another thread that keeps adding unreadable files can keep a call from returning). False for schedulers that shuffle (files added during the shuffle are lost) and for lists that are not longer (IndexError). Changes at other moments than the reads of the list cannot be told apart from these; C171_alone ties the model to that of the other properties. |
| C172 | Samplers that share a scheduler divide its data | any number of synthetic samplers holding one scheduler (Model/Several) | projection: induction over the interleaved history, with the log of the scheduler's answers as the existential witness | partial | C172_divided: proved for synthetic samplers on schedulers without episodes and histories without a reset of the scheduler. reset() of one sampler starts the scheduler of all again, so that another is given what it has had (C172_refuted_reset); the steps of an episode are counted for all samplers together (C172_refuted_episodes). Calls are taken one after the other: next() of a sampler has no lock. |
| C173 | Histogram matching is exact in single precision | `match_histogram` with float32 counts, sums and quotients and an arbitrary bracketing of each sum (Model/HistogramSingle) | induction over the bracketing; fractions with a common denominator up to 2^24 are at least one unit in the last place apart, so rounding keeps their order | partial | C173_exact, C173_own and C173_follows: proved for images of up to 2^24 pixels (4096 x 4096). False for larger ones: a count in float32 made one by one ends at 2^24 (C173_count), and an image of 8192 x 6144 pixels loses its black pixels by its own histogram (C173_refuted). Division is taken to be rounded to nearest. |
| C174 | The speeds computed by the sanity script are those the sampler needs | `calculate_min_and_max_speeds` (Model/Sanity), the constructor's geometry, the adapter and the moving of particles (Model/Synthetic, Adapter, Apply) together | composition of C67, C51 and C49; the displacement is the interpolated velocity times dt, resolution and the stretch | partial | C174_origin_fits: proved if the region is a whole number of grid steps and the largest displacements are whole pixels. In general a particle can start outside: by less than one pixel (C49) plus what the stretch adds to the largest displacement (C174_origin_partial), where the stretch is the number of grid steps divided by the integer below (C174_stretch). False without the margin (C174_refuted). In exact arithmetic. |
| C175 | An interrupted call of a scheduler loses at most one flow field | `_get_next` and `reset` assignment by assignment, with `_cached_file` and `_cached_data` apart (Model/Interrupt); a call can be stopped after any assignment | small-step machine; an invariant per program point; beginning again at a point leads back to it; induction over histories; agreement with `Base.getNext` | partial | Proved for every interruption of _get_next except in two places: while the scheduler starts over (reset), and between the assignments of _cached_file and _slice_idx. In the second one flow fields are skipped (C175_refuted_skips), in the first one a scheduler with one file may fail until it is reset (C175_refuted_stuck). A reset repairs all of this (C175_recovers). The steps of the machine are those of the model of C01 ff. (C175_agrees). Interruptions inside load_file and get_next_slice, which store nothing, are interruptions before them. |
| C176 | An interrupted call of the sampler leaves it consistent | `__next__` and `_get_next` of the synthetic sampler assignment by assignment (Model/InterruptSampler); a call can be stopped after any assignment, and while it waits leaves the scheduler in any state | small-step machine; an invariant per program point; induction over histories for the keys; agreement with `Sampler.next` | partial | Proved for every interruption outside the exchange of the flow batch. Inside it the code disagrees: interrupted while it waits for the scheduler, the next call returns one more batch of the old flow fields (C176_refuted_stale); interrupted before the adapter has run, it returns images of unadapted flow fields with the reported flow of the old ones (C176_refuted_raw); and the last flow batch of an episode is lost when the call that fetched it is interrupted (C176_refuted_lost). That keys are never used twice holds for interruptions anywhere (C176_keys, C176_keys_differ), and so does the recovery by reset (C176_recovers). The steps of the machine are those of the model of the sampler (C176_agrees). |
| C177 | An interrupted call of a prefetching scheduler loses at most one batch | every public method of the prefetching scheduler divided at each access to an attribute, the queue, the stop flag or the thread, with an interruption that gives up the call anywhere (Model/InterruptPrefetch) | the accounting invariant of C25/C163 extended to abandoned calls; an invariant per place in `reset` with a decreasing measure; simulation of Model/Prefetch | partial | Proved: order, no repetition and at most one batch lost per interruption of get_batch and next_episode; no RuntimeError unless reset was called; the recovery by reset, without deadlock, after interruptions anywhere. False: a first call interrupted between _started = True and the start of the thread leaves a scheduler that never delivers (C177_refuted_start), and so does an interrupted reset (C177_refuted_reset), or the next call raises RuntimeError (C177_refuted_runtime); a batch that was taken but not counted shifts the episodes (C177_refuted_episode). The steps of the machine include those of the model of C25 ff. (C177_agrees). |
| C178 | An interrupted call of an episodic scheduler does not mix the episodes | `get_batch` and `next_episode` of the episodic scheduler with the wrapped base scheduler, assignment by assignment (Model/InterruptEpisodic, on Model/Interrupt) | invariant per place relating the state to uninterrupted calls of the wrapped scheduler, C175 for the interrupted one, induction over the history; simulation both ways with Model/Episodic; C22 for the recovery | partial | Proved for calls interrupted before they have obtained a sample: the others deliver what calls without interruptions deliver, only EpisodeEnd comes early by at most one step per interruption. False once a sample has been obtained, which is then lost and moves every row to another episode (C178_continues, C178_refuted_rows), and for an interrupted next_episode (C178_refuted_list, C178_refuted_step). The recovery by next_episode is proved from every state. The machine is shown to agree with the model without interruptions. |
| C179 | Threads can share a base scheduler | `_get_next` and `reset` of the base scheduler and the three `get_next_slice`, divided at every read and write of an attribute, for any number of threads (Model/Racing) | invariant over all schedules (what is cached, listed or being returned comes from listed files), induction over the schedule; simulation of undisturbed calls with Model/Base; concrete schedules for the refutations | partial | Proved for every number of threads and every interleaving: a MAT sample, and a NumPy flow field with its name, always belongs together and to a listed file; an HDF5 flow field is one of a listed file. Calls that do not overlap are those of the model without threads, by whichever thread. Without shuffling one reset recovers from everything. False in the code, which has no lock: the same flow field twice, files left out, RuntimeError and IndexError, the wrong name (HDF5), the wrong images (NumPy), and files lost for good when two threads shuffle. |
| C180 | Threads can share a synthetic sampler | `__next__` and `_get_next` of the synthetic sampler divided at every read and write of an attribute, for any number of threads, over a scheduler whose calls are one step (Model/RacingSampler) | invariant over all schedules with a count of the calls that have still to store key and counter; provenance invariant for all states; simulation of undisturbed calls with Model/Sampler; concrete schedules and one for every sampler for the refutations | partial | Proved for every number of threads and every interleaving: as long as the present flow batch lasts, every call succeeds and all parts of its batch belong together (C180_between_partial); in general every part comes from some flow batch of the scheduler (C180_sources_partial); calls that do not overlap are those of one thread; the reset recovers. False in the code, which has no lock: the same images twice (for every sampler), AttributeError in the first calls, flow fields adapted twice, flow batches left out or used too often, images with the reported flow and name of another flow batch. |
| C181 | Threads can share a sampler of real images | `__next__` of the real sampler and `get_batch` of the episodic scheduler divided at every read and write of `_t`, for any number of threads, over a scheduler whose calls are one step (Model/RacingReal) | invariant over all schedules: the answers in the order in which the scheduler gave them, and the threads that have counted but not yet asked; a schedule for every episode length and number of threads for the refutation | partial | Without episodes proved in full, for every interleaving. With episodes: every answer of the wrapped scheduler is delivered once (C181_batches_partial), EpisodeEnd and done=True never come too early (C181_not_early_partial), next_episode makes up for everything. False in the code, which counts the steps without a lock: episodes with any number of further batches, two last batches, or none. |
| C182 | The reported generation parameters determine the image pair | the pipeline of the synthetic sampler with two lists of ranges (Model/Synthetic, Model/Generate); specification `SameReport`, `withRanges`, `Greatest` in Spec/Reported | equality of the particles from equal reported parameters, then relational lifting over all histories; a concrete pixel for the refutation | partial | Proved for samplers with the same greatest diameter over all ranges (and the same upper bound of the density). False otherwise: the size of the patch into which every particle is drawn, and the margin of the region, depend on the greatest diameter of all ranges, which is not reported. |
| C183 | Histogram matching leaves missing pixels missing and the others alone | `match_histogram` on images with NaN and the second image of a pair made from a flow field with missing vectors (Model/MissingHistogram) | the counts are those of the numbers alone; C169 says which pixels are NaN; monotone cumulative sums put NaN at the top | partial | The pixels that are numbers are matched among themselves, also in the image pairs of the sampler. False in the code for every image: a pixel that is NaN becomes a number, the brightest intensity of the template (white if all pixels are NaN), and can no longer be told from data. Rests on JAX putting NaN after all numbers in searchsorted. |
| C184 | The episodes of a batch are different | the constructor, the starting positions and the drawing of episodes (Model/Episodic); specification `ClearListings`, `startCount`, `WithoutReplacement`, `SameRows` in Spec/Distinct | windows of different starts differ in their first file; invariant of the queue over all histories; pigeonhole principle for the refutation | partial | Rows play the same episode iff their draws coincide, so that the episodes would be different after every history if the draws were without replacement and there were enough starting positions. False in the code: the draws are with replacement, and with too few starting positions construction succeeds for every generator and two rows play the same episode after every history. |
| C185 | Stored numbers reach the user rounded once to single precision, whatever their companions | the common type of `np.stack` as a parameter with NumPy's contract, the casts to it and the conversion to single precision (Model/Dtypes) | numbers of `p` significant bits are fixed by rounding to `p` or more bits, hence safe casts are exact; a number rounded twice for the refutation | partial | Proved for all types but integers of 64 bits and unsigned ones of 32 bits; 8-bit and 16-bit images and everything in single or half precision arrive exactly. False for integers of 64 bits beside a sample in single precision: these are rounded twice. Rests on NumPy's contract for the common type of stacked arrays; exponents are unbounded. |
| C186 | Episodes consist of the files of the list | the constructor, `discover_leaf_dirs`, the starting positions and the drawing of episodes (Model/Episodic, Model/LeafDirs); specification `MayBePlayed`, `IsLeaf`, `WholeDirectories`, `AllInLeaves` in Spec/Playlist | invariant of the queue over all histories; every frame lies in an admissible window, and a constant generator plays it | partial | Proved exactly what may be played: what the search finds in the directories of listed files that have no subdirectories. So unlisted files are played unless the list names whole directories, and listed ones are never played if their directory has a subdirectory or the search does not find them. |
| C187 | Episodes can be made of files of every format | the constructor of the episodic scheduler and its first request over a base scheduler (Model/Episodic, Model/Base); the search for `*.mat` is a parameter with the contract `FindsMat` | C20's condition for construction; the queue holds only names that the search finds; C05 and C06 for files that cannot be read | partial | Proved for MAT files. For files of another format construction always raises ValueError, or, if enough MAT files lie beside them, the wrapped scheduler is given these and no batch ever comes (StopIteration, or no return at all with loop=True). |
| C188 | The *_var parameters govern how particles change between the two images | the properties of the particles in both images (Model/Generate); the sampler (Model/Synthetic, Model/Sampler); draws are parameters | the clipped value is the closest one of the range, which determines it; monotonicity of clipping; comparison of two samplers over every history (Spec/Compare) | partial | The change is the documented one, but clipped to the range reported for the pair: it is the documented one exactly if that stays in the range, has its direction and is never greater. So with ranges of a single value nothing changes at all, however great the variance (C188_refuted). Exact arithmetic, sqrt being a square root of the variances. |
| C189 | A packed sample has its flow and its images on the target grid | `convert` and `pack_triplet` (Model/Convert) with `resize_flow` (Model/Scripts); Pillow's filter is a parameter with the contract `PilOK` | every packed file comes from a usable triplet (induction over the flow files); the shape of a resized flow (C15) | partial | The flow of every packed file has the target shape; the images are left as they are, so that a packed file is on the target grid exactly if its raw images are. |
| C190 | A pair depends on its own flow field only | the sampler (Model/Sampler) on two schedulers that differ in the other rows (Spec/Isolation) | the flow fields are numbered, the numbers carried along by parametricity (Proofs/Parametric), and read off the images | proved | For every scheduler that delivers full batches (all do, see C89), every rounding and all histories. |
| C191 | A run of the main program that is cut short leaves all earlier pictures | the pictures one by one (`Model/SavedCut`) for the events of a run of `main`, stopped after any number of them | the order by induction over batches and samples (C79); names are injective (C128) | proved | What has been written is taken to reach the disc; the picture being written may be left in any state. |
| C192 | NumPy and JAX values in a configuration are written as plain values | `convert_to_standard_type` and `update_config_file` on values that may be NumPy scalars, arrays or lists of them (`Model/SanityConvert`) | the entries under any function of the values are those of C68; induction over the shape for the nested lists | partial | Proved for scalars and arrays. False for lists with NumPy scalars in them, which are not converted. C192_exactly says what the file gives in every case; C192_standard: for plain values the file is that of C68. |
| C193 | len(scheduler) is what there is to come | `__len__` of the schedulers (`Model/Len`) on the states of the base and episodic models | C08 and C01 for the base scheduler, C23 and C21 for the episodic one | partial | len() is constant and, for files with one flow field each, the length of a pass (C193_pass: exactly when). False for HDF5 files with several flow fields; an episodic scheduler changes the len() of the one it wraps, and a prefetching scheduler has none. |
| C194 | Different NumPy flow files come with different frames | names of NumPy flow files with the decimal digits of Unicode as a parameter and `$` before a final newline (`Model/Digits`) | parsing of names; Python's spelling of integers is injective; splitting of paths at the last slash; for ASCII names the model of C18 (`Digits.frames_ascii`) | partial | Proved for numbers written as Python writes them, and exactly (C194_iff): two files share their frames if directory and number are the same. False for numbers with leading zeros or digits of other scripts: flow_7.npy and flow_007.npy are both accepted and have the same frames. |
| C195 | What the dataset script packs is what the MAT scheduler delivers | the packed file (`Model/PackedFile`) as an HDF5 tree on the disk of `Model/MatTree`; `convert` of `Model/Convert`; `load_file` of `Model/Formats` | C189 for the shapes of what is packed, C17 for the images, evaluation of the loader on the three datasets | partial | Proved for the flow always, and for the images if the target shape is square or the raw images have it. False otherwise: the images are delivered with height and width exchanged, beside a flow of the target shape. C195_raw: which raw files the packed data come from. |
| C196 | From the raw dataset to the batches: the sampler serves the triplets | the packing script (`Model/Convert`, `Model/PackedFile`), the disk (`Model/MatTree`), `make` and the real-image sampler (`Model/Whole`) | C195_raw for every listed file, then C111 | proved | Where the listed files have been moved after packing is free (at_). Raw datasets of other sizes: C189 and C195 say what happens to a single file. |
| C197 | Resizing a flow field treats positions and axes evenly | Pillow's bilinear filter (`Model/Pillow`), `load_file` (`Model/Formats`) | the filter as a weighted mean over all pixels (pixels outside the window have no weight); reflection and exchange of finite sums; the first moment vanishes by symmetry | proved | With Pillow's bilinear filter as modelled in Model/Pillow (exact arithmetic). At the border the window is cut off, so that linear flows are not reproduced there. |
| C198 | Resizing the images of a MAT file keeps their grey values in range | Pillow's default (bicubic) filter in exact arithmetic (`Model/Bicubic`), with the rounding and clipping of 8-bit images; the nearest pixel for 16 bits (`Model/Nearest`); `load_file` of `Model/Formats` | the sum of the weights is positive for all sizes, by counting the pixels near the centre and those with negative weight; a row of three dark pixels and a bright one for the negation | partial | Proved for uniform images of any size and for the 8-bit range. False for the range of the image itself: the default filter of Pillow has negative weights, and for any two grey values there is an image of these two that is loaded with a pixel darker than both (96 from 100 and 200 with 8 bits). Weights and sums are exact in the model of the filter. Mirror images are loaded as mirror images. Sums and multiples of floating-point images are loaded as sums and multiples. With 16 bits the grey values are kept, but mirror images are not loaded as mirror images. If the number of rows does not change, rows have no influence on each other. |
| C199 | Resized image pairs move as the resized flow says | Pillow's bicubic and bilinear filters (`Model/Bicubic`, `Model/Pillow`), `load_file` (`Model/Formats`) | away from the border the filter is a sum over five blocks with weights that do not depend on the position; uniform flows are kept up to the ratio of the sizes | proved | For displacements that are whole numbers after resizing, with Pillow's filters as modelled in Model/Bicubic and Model/Pillow (exact arithmetic; rounding to 8 bits after each pass included). |

## Where the code disagrees

Each item is proved by a theorem named in brackets, unless marked "observed": read off the code, not part of a theorem.

Schedulers
* README: the change of a particle between the images is Gaussian with variance `*_var`. Code: it is clipped to the selected range, so that particles at the end of the range change less and a range of one value allows no change [C188_refuted].
* A file that directly follows itself in the (shuffled) list is served once, because the cache is keyed by the path and the
  slice index is not reset [C01_refuted, C04_refuted, C06_refuted].
* `get_batch` pads image stacks with three pad pairs, so a short last batch of RGB images raises [C19_refuted]; through the whole pipeline the pairs of the rest are never served [C108_rest_is_lost].
* A looping scheduler none of whose files yields a slice never returns from `get_batch` [C05_refuted].
* A slice that fails in the middle of a batch loses the samples already drawn [C12_refuted].
* `get_flow_fields_shape` of the HDF5 scheduler always reports two channels [C14_refuted]. Its extension check looks at the
  unexpanded list and so rejects directories [C86_refuted].
* The MAT scheduler accepts four-axis arrays [C15_refuted] and resizes images to width x height [C17_refuted]. Files of version 7.3
  written by MATLAB are loaded with rows and columns exchanged but the components in place [C85_refuted]; a flow of one row
  cannot be loaded from an older version [C85_refuted_row].
* The NumPy scheduler: directories are expanded in lexicographic order, `flow_10` before `flow_2` [C88_refuted]; a flow with
  number 0 refers to `img_-1.jpg` (covered by C18).
* Episodic: repeated or overlapping episodes, a shuffling base scheduler and unreadable frames misalign the rows
  [C22_refuted_*]; a failing step is counted [C23_refuted] and `iter()` resets the counter without starting a new episode
  [C23_refuted_iter]; assigning `file_list`
  has no effect beyond the current episode [C93_refuted_episodic]; files of a directory that are not in the list are played too [C186_refuted_unlisted], and listed ones in a directory with subdirectories never are [C186_refuted_unplayed]; only `*.mat` is searched, so that other formats are rejected or replaced [C187_refuted, C187_refuted_mixed].
* `DEBUG_JIT`: the constructor throws the fetched flow batch away (a first episode loses its first step), image generation checks the
  default region of 512 x 512 pixels instead of the sampler's, and three-channel flows are rejected although the sampler takes them
  [C94_refuted, C95_refuted].
* Prefetching: the end-of-stream signal may displace a batch [C30_refuted]; a slow or failing wrapped scheduler looks like the end
  of the data [C32_refuted_*]; `shutdown` may leave the thread running [C31_refuted, C31_refuted_again: for every buffer size and any number of `shutdown` calls]; `next_episode` that meets its deadline leaves
  the stream in the middle of an episode [C29_refuted].
* Prefetching in a sampler: over a scheduler without episodes `done` becomes all `False` instead of `None` and `next_episode`, which
  raises without prefetching, does nothing [C82_refuted_done]; this is so since Python 3.12, where
  `isinstance` with a protocol no longer evaluates properties, while before there is no difference [C82_python311_partial]; what follows a full `reset` depends on the timing of the threads
  [C82_refuted_reset, C83_refuted_reset]; `next_episode` before the first batch has no effect [C83_refuted_first].

Samplers
* After `StopIteration` the synthetic sampler keeps producing batches from the last flow fields [C35_refuted].
* Episodes behind a prefetching scheduler are repeated `batches_per_flow_batch` times [C34_refuted].
* With fewer flow fields than pairs the mask and the file names have one entry per flow field, not per pair, although a comment
  says `(batch_size,)` [C90_refuted].
* On several devices image `i` does not belong to flow field `i mod n` [C36_refuted, C37_refuted].
* Float rounding can make the region one pixel too small [C48_refuted, C71_refuted, C89_refuted] and reject geometries at the limit
  [C50_refuted]; a reach that is not a whole number of pixels lets a particle origin lie outside by less than a pixel
  [C49_refuted].

`make`
* `KeyError` for missing optional keys (`seed` among them) [C42_refuted]; `flow_fields_per_batch` different from `batch_size` under an
  episodic or prefetching scheduler fails on every batch [C43_refuted]; `from_config` drops the key, so the file order
  does not depend on the seed [C44_refuted].
* The synthetic sampler starts from `PRNGKey(seed)`, which `make` has already split for the episodes, and the base scheduler from
  `PRNGKey(0)`. So with two devices a selection of episodes and a seeding density are drawn from one key
  [C92_refuted_devices], and with seed 0 a shuffle is drawn from the key that episodes and images are derived from
  [C92_refuted_shuffle]. (With JAX's partitionable generator, where row 0 of `split(k, 1)` is row 0 of `split(k, 2)`, one device
  is affected like two; the model treats these as different keys.)

Data classes
* NaN passes for `dt` and `noise_gaussian_std` [C45_refuted_nan]; non-numbers in some fields raise `TypeError` rather than the documented
  `ValueError` [C45_refuted_type].

Numerics
* Three-dimensional inputs accepted by the input check of `apply_flow_to_particles` cannot be processed [C53_refuted].
* `generate_array_flow_field` exchanges row and column with respect to the callable interface [C56_refuted].
* `flow_field_adapter` is biased when the region is not a whole number of grid steps [C58_refuted*, C91_refuted].
* `match_histogram` truncates to integers, so that the own histogram is not the identity [C59_refuted].
* The number of allocated particles (float64) can be smaller than the number of shown ones (float32) [C61_refuted].
* With a template histogram masked pixels are not black [C63_refuted].
* Images smaller than a patch wrap around; float32 can push a row or column of a patch outside [C66_refuted_*].
* Particles near the border are drawn displaced inwards [C70_refuted].
* For specifications that hide particles or vary the density the constructor enlarges the region of the particles by a patch,
  but only at the top and on the left. At the bottom and on the right, patches of particles at the border of the region are still shifted
  into the image [C134_refuted].
* Rounding makes the region depend on the units in which an experiment is written down [C135_refuted].

`sanity`
* A file with NaN is left out of the bounds [C67_refuted]; `file_list` is dropped if empty or a string
  [C68_refuted_file_list, C68_refuted_string]; `None` becomes the string "None" [C68_refuted_none].
* The script reports configurations as valid that `make` rejects [C101_refuted], and ends with an error after it has computed missing speeds
  [C102_refuted].

`scripts`, `main`
* A negative ratio passes the check of the command line and puts items into two lists [C75_refuted]; two lines of the official list that are
  reduced to the same name put one sample into two splits [C77_refuted]; several TFRecords of one split replace each other's files
  [C78_refuted]; directories with spaces in the official list lead to names that no packed file has [C81_refuted].
* Running the script again with another seed leaves the old copies, so that a sample is in two splits [C97_refuted]; a sample with a .flo and a .mat
  flow is packed twice into the same file [C98_refuted]; a flow with the components first and two columns is misread [C100_refuted], and a
  .flo file whose header has a negative side is read as if that side fitted the length of the file [C100_flo_refuted].
* An interrupted download is never repaired: every later run of the class 2 script stops at the incomplete archive [C103_refuted], every later run of the
  class 1 script takes a raw directory with any entry for the complete data, also after the Ctrl-C announced as safe [C105_refuted].
* If the download of the training list breaks off, or a run is interrupted, a sample can be in the lists for training and for validation
  [C104_refuted, C104_refuted_crash].
* The tutorial names the units `measure_units_per_second`; no configuration with that name is accepted [C114_units_refuted].
* `pack_triplet` is documented to resize the images too, but resizes the flow only [C189_refuted].
* `main` does not treat the end of an episode specially: with an episodic configuration it ends with that exception, after the shutdown
  (example at C79).
* The tutorial says that all subdirectories of a directory in `file_list` are searched: hidden ones are not, the NumPy scheduler searches none,
  the HDF5 scheduler refuses directories, and a directory whose name ends in `.mat` makes the MAT scheduler fail (`C112_*_refuted`).
* The configurations printed in the tutorial, those in `docs/examples` and `config/test_data.yaml` are never accepted by `make`: `flow_fields_per_batch`
  is required for real images too, `file_list` must be a list, `noise_level` does not exist, `scheduler_class` is missing, and images from NumPy
  files are refused (`C114_*_refuted`).
* The MAT scheduler made by `make` resizes every flow field to 256 x 256 and scales its velocities by 256 over the width and the height of the file,
  as if they were pixels; the synthetic sampler then takes them as physical velocities. A uniform flow of (1, 1) on a grid of 512 x 1024 is reported as
  (1/4, 1/2), and the images move accordingly (`C117_mat_refuted`).
* The images do not begin at `img_offset` unless the displacements are whole pixels: by less than a pixel before it, and by up to a grid step more
  where the flow field is padded (`C118_refuted`, `C118_refuted_padding`). `img_offset` is `(y0, x0)`, not `(x0, y0)` as in the tutorial (`C118_order_refuted`).
* `make` gives the prefetching scheduler `batch_size`, the synthetic sampler asks it for `flow_fields_per_batch`. If they differ, adding `buffer_size` to a
  configuration that works makes every `next()` raise `ValueError` (`C119_mismatch`, `C119_refuted`).
* `make` accepts a configuration with `episode_length` whose `flow_fields_per_batch` is not `batch_size`; the sampler it returns raises `ValueError` at
  every `next()` (`C120_mismatch`).
* With `episode_length` and `buffer_size`, `batches_per_flow_batch` is not replaced by 1 as it is without the buffer (`isinstance` sees the prefetching
  scheduler): frames are shown several times, except the last, and the first batch after `next_episode()` is made from the last frame of the old
  episode (`C121_refuted`).
* In single precision a still flow can move a particle across a pixel border, and with it its whole patch by a pixel: the two images differ
  (`C124_refuted`); interpolating equal entries does not give that value exactly (`C122_range_refuted`).
* `for batch in sampler` over a sampler with episodes does not end normally when the episode is over: `EpisodeEnd` is no `StopIteration` and
  leaves the loop (`C126_episodes_refuted`, `C126_real_episodes_refuted`).
* The schedulers define `__iter__` but no `__next__`: `next(episodic)` (episodic.py lines 53-54) and a `for` loop (line 115) raise `TypeError`,
  and the attempt resets the step counter of the episodic scheduler (`C127_refuted`, `C127_counter_refuted`).
* `download_piv_1.py` ends with status 0 after a malformed target shape, having overwritten the lists [C129_shape_refuted], and after a shape like
  `256` with which no triplet can be packed [C129_useless_shape_refuted]; every later error is reported as a wrong ratio [C129_message_refuted].
* After `shutdown()` a prefetching scheduler still delivers up to `buffer_size` batches, having thrown one away [C130_refuted], and may deliver one
  after it has raised `StopIteration` [C130_refuted_resumes]. `shutdown()` of an episodic scheduler over a prefetching one does not reach the worker
  [C131_refuted].
* The target shape chosen when packing the flows of class 1 does matter, unless it is the original or the later output shape [C80_refuted].
* C142: with fewer flow fields than images per batch, the reported flow fields (and the images) come in another order on several devices than on one
  [`Devices.C142_refuted`].
* The docstring of `download_piv_1.py` places the result under `out_dir/data`; the split is written to `out_dir` itself (`Model/SplitCopy` models the code).
* `update_config_file` empties the configuration file before it writes it: a stop there loses everything [C147_refuted_empty]; a stop between two items of
  `file_list` leaves a configuration that passes the sanity check but has lost its last files [C147_refuted, C147_unnoticed].
* Lists with NumPy scalars in them are written by `update_config_file` as `[np.float64(1.5)]`, of which YAML makes strings [C192_refuted].
* `flow_7.npy` and `flow_007.npy` are different files with the same frames, `img_6.jpg` and `img_7.jpg`; frames numbered with leading zeros are never found [C194_refuted, C194_frames].
* Samples packed for a target shape that is not square, from images of another size, are delivered with images whose height and width are exchanged, beside a flow of the target shape [C195_refuted].
* Images that are resized by the MAT scheduler can get grey values outside the range of the file's, because no filter is named and Pillow's default one has negative weights [C198_refuted, C198_refuted8]. With 16 bits Pillow takes the nearest pixel instead, to the right and below if two are equally near, so that mirror images are loaded differently and small particles may vanish [C198_refuted16].
* `len()` of an HDF5 scheduler counts files, not flow fields; an episodic scheduler changes the `len()` of the scheduler it wraps, and a
  prefetching scheduler has no `len()` [C193_refuted, C193_wrapped, C193_refuted_prefetching].
* C152: `from_config` of the three formats drops `key`; without `loop` the HDF5 and NumPy schedulers it builds loop and the MAT scheduler does not, while none of the constructors loops by default.
* C157: `threading.Thread(target=self._worker)` makes the thread refer to the scheduler, so `__del__` is never called while the thread is alive: a prefetching scheduler over a looping one that is forgotten without `shutdown()` keeps its thread and `buffer_size` batches for ever.
* C162: `shutdown()` waits two seconds for the thread; if the wrapped scheduler needs that long for a batch, it returns while the thread is alive and still reading files.
* C163: `get_batch()` of the prefetching scheduler takes no lock. Two threads whose first calls overlap: one of them can get `RuntimeError` (`threads can only be started once`). At the end of the stream one thread gets the signal, the others wait until their timeout. Two threads together can get more than `episode_length` batches in an episode.
* C164: `bilinear_interpolate` multiplies neighbours that have weight zero. If the reported grid falls on the grid of the file, one NaN in the file is reported as four: also to the left of it, above it, and above to the left.
* C165: `get_batch(0)` of a looping scheduler takes the empty batch for the end of the data: it resets, which restarts the stream, and then fails with `ValueError`. A scheduler that does not loop answers `get_batch(0)` with `StopIteration` although there is data left.
* C167: `max(0.0, nan)` is `0.0` in Python, so speeds that are NaN pass as zero, and the region has no room for moving particles [C167_refuted_nan]. An infinite `flow_field_size` is accepted, and the flow field then has 0 grid steps per unit of length [C167_refuted_size]. An infinite diameter or resolution raises `OverflowError` instead of `ValueError` [C167_refuted_exception].
* C169: a particle next to a missing vector has NaN as its new place. Its contribution is NaN even if the particle is hidden or the density is too low for it to be shown (0 times NaN), and it goes wherever the device puts NaN as an index, which for 0 is the upper left corner of the particle region. The mask does not remove it [C169_refuted].
* C170: files added to `file_list` of a prefetching scheduler after its worker has reached the end are never served: the worker is not restarted before `reset()`, which begins with the first file again [C170_prefetch_forgets, C170_refuted_prefetch]. A file scheduler does not serve a file again that is added right after itself [C170_refuted_again].
* C171: no lock protects `file_list`. If another thread assigns a shorter list between the check of the length and the look-up, `get_batch` raises `IndexError`, which ends the worker of a prefetching scheduler [C171_refuted_shorter]. Files added while a looping scheduler shuffles are overwritten by the shuffled list [C171_refuted_shuffle].
* C172: `reset()` of a sampler resets its scheduler unless told otherwise, also if other samplers hold the same one; these are then given data again that they have had [C172_refuted_reset]. The steps of an episode and `next_episode` are likewise those of all samplers together [C172_refuted_episodes].
* C173: `jnp.histogram` counts in float32, so that the count of a grey level cannot exceed 2^24. An image of more pixels can be changed by matching its own histogram [C173_refuted].
* C174: the flow field of the region has a whole number of grid points, and displacements are scaled by the size of the region over that number. With coarse grids particles move further than the speeds computed allow for, and particles that should have come from outside the region are missing in the second image [C174_refuted].
* C175: `_slice_idx` is set after `_cached_file`, so that an interruption between them makes the next file begin in the middle [C175_refuted_skips]; `reset` clears the data before the name of the cached file, so that an interruption between them leaves a name without data, which is not loaded again [C175_refuted_stuck].
* C176: `_batches_generated` is set to zero before the new flow batch is there, and `_current_flows` is stored before it is adapted. A call interrupted in between makes the next one return another batch of the old flow fields [C176_refuted_stale], images of unadapted flow fields with the reported flow of the old ones [C176_refuted_raw], or, at the end of an episode, `EpisodeEnd` [C176_refuted_lost].
* C177: `_start_worker` sets `_started` before it starts the thread, `reset` clears the stop flag and makes the new thread at its end, and `get_batch` counts a batch after taking it. Interrupted in between, they leave a scheduler that never delivers [C177_refuted_start, C177_refuted_reset], raises `RuntimeError` [C177_refuted_runtime] or shifts its episodes by one [C177_refuted_episode], until it is reset.
* C178: the episodic `get_batch` counts the step before it asks the wrapped scheduler, which loses the samples it has obtained when it is interrupted; `next_episode` sets the new list, the cursors and the counter one after the other. Interrupted in between, they deliver batches whose rows belong to other episodes [C178_refuted_rows, C178_refuted_list] or cut the new episodes short [C178_refuted_step], until `next_episode` is called again.
* C179: the base scheduler has no lock. Threads that share it can get the same flow field twice [C179_refuted_twice], leave files out [C179_refuted_lost], get `RuntimeError` or `IndexError` [C179_refuted_raises], get a flow field with the name (HDF5) or the images (NumPy) of another file [C179_refuted_name, C179_refuted_images], and with `randomize=True` lose files for good [C179_refuted_shuffle].
* C180: the synthetic sampler has no lock. Threads that share it can get the same images twice [C180_refuted_keys], `AttributeError` [C180_refuted_first], flow fields that went through the adapter twice [C180_refuted_adapted_twice], and images with the reported flow and names of another flow batch [C180_refuted_mixed]; flow batches are left out [C180_refuted_lost] or used too often [C180_refuted_too_many].
* C181: the episodic scheduler counts its steps without a lock. Threads that share a sampler over it can get more than `episode_length` batches [C181_refuted_too_many], several with `done=True` [C181_refuted_last_twice] or none [C181_refuted_no_last].
* C182: a particle is drawn into a patch whose size depends on the greatest diameter of all ranges, chosen or not. Adding a range of large diameters therefore changes image pairs that report another range [C182_refuted].
* C183: matching to a histogram turns every pixel that is NaN into the brightest intensity of the histogram [C183_refuted, C183_refuted_brightest].
* C184: the documentation promises ValueError if there are fewer distinct starting positions than episodes in a batch, and a comment says that starts are drawn without replacement. The constructor does not count the positions and draws with replacement, so that rows play the same episode [C184_refuted_too_few, C184_refuted_repeated].
* C185: 64-bit integers stacked with samples in single precision are rounded twice, first to double, then to single precision [C185_refuted].

## Axioms

Checked with `#print axioms` for every theorem of the manifest:

* **none** (7): `Len.C193_refuted_prefetching`, `Sampler.C37_refuted`, `Shutdown.C131_exactly_partial`, `Shutdown.C131_made_partial`, `Shutdown.C131_refuted`, `Types.C46_update_batch`, `Types.C46_update_scheduler_data`
* **propext** (65): `Append.C170_refuted_again`, `Append.C170_refuted_prefetch`, `Base.C01_refuted`, `Base.C04_refuted`, `Base.C06_refuted`, `Base.C07_reset_restarts`, `Base.C12_refuted`, `Base.C165_negative`, `Base.C165_zero_once`, `Changing.C145_reset`, `Command.C129_wrong_ratio`, `Devices.C142_refuted`, `Episodic.C24_wrong_size_harmless`, `FileList.C93_episodic_forgets`, `Formats.C13_other_files`, `Formats.C17_image_shape_partial`, `Formats.C17_refuted`, `Formats.C19_refuted`, `FromConfig.C152_real`, `Interrupt.C175_refuted_skips`, `InterruptEpisodic.C178_refuted_list`, `InterruptEpisodic.C178_refuted_rows`, `InterruptEpisodic.C178_refuted_step`, `InterruptEpisodic.C178_restart_agrees`, `InterruptSampler.C176_refuted_lost`, `InterruptSampler.C176_refuted_raw`, `InterruptSampler.C176_refuted_stale`, `Iteration.C127_refuted`, `Iteration.C127_samplers_partial`, `Len.C193_refuted`, `Prefetch.C115_is_running`, `Prefetch.C115_one_worker_possible`, `Prefetch.C130_refuted_resumes`, `Prefetch.C157_half_built`, `Prefetch.C163_refuted_count`, `Prefetch.C163_refuted_start`, `Prefetch.C177_refuted_runtime`, `Prefetch.C24_wrong_size_harmless_prefetch`, `Prefetch.C25_no_deadlock`, `Prefetch.C30_refuted`, `Prefetch.C31_refuted`, `Prefetch.C32_refuted_slow`, `Racing.C179_refuted_name`, `RacingReal.C181_recovers`, `RacingReal.C181_refuted_last_twice`, `RacingReal.C181_refuted_no_last`, `RacingSampler.C180_refuted_adapted_twice`, `RacingSampler.C180_refuted_first`, `RacingSampler.C180_refuted_lost`, `RacingSampler.C180_refuted_mixed`, `RacingSampler.C180_refuted_too_many`, `Sampler.C34_refuted`, `Sampler.C36_refuted`, `Sampler.C41_batches_unchanged`, `Sanity.C68_refuted_string`, `Scripts.C76_line_ends`, `Scripts.C78_numbering`, `Several.C172_refuted_episodes`, `Several.C172_refuted_reset`, `Types.C45_integers`, `Types.C47_batch_round_trip`, `Types.C47_injective`, `Types.C47_leaves`, `Types.C47_params_injective`, `Types.C47_params_round_trip`
* **Quot.sound, propext** (102): `Append.C170_prefetch_forgets`, `Apply.C53_each_particle`, `Apply.C53_each_particle_volume`, `Axes.C168_adapter`, `Axes.C168_backward`, `Axes.C168_interpolation`, `Axes.C168_motion`, `Base.C05_refuted`, `Base.C08_shuffling_permutes`, `Base.C09_order_depends_on_key_alone`, `Base.C09_shuffle_keys_distinct`, `Base.C165_harmless_partial`, `Base.C165_refuted_loop`, `Changing.C145_as_if_still`, `Changing.C146_once_per_pass`, `Command.C129_shape_refuted`, `Concurrent.C171_alone`, `Concurrent.C171_refuted_shuffle`, `Crash.C105_refuted`, `FileList.C93_base`, `FileList.C93_prefetch`, `Formats.C18_spelling_faithful`, `Generate.C144_separate`, `Generate.C40_inventory_complete`, `Generate.C71_shape_partial`, `Histogram.C59_in_range`, `Interp.C51_linear`, `Interp.C52_linear`, `Interrupt.C175_agrees`, `Interrupt.C175_recovers`, `Interrupt.C175_refuted_stuck`, `InterruptEpisodic.C178_keys`, `InterruptSampler.C176_keys`, `InterruptSampler.C176_keys_differ`, `InterruptSampler.C176_resumes_partial`, `Iteration.C127_counter_refuted`, `LeafDirs.C60_leaf_dirs_exactly_once`, `LeafDirs.C60_total_and_order_independent`, `Len.C193_constant`, `Make.C43_devices`, `Make.C43_mismatch_prefetch`, `Missing.C164_present`, `Missing.C169_first`, `Missing.C183_first`, `Prefetch.C115_one_worker`, `Prefetch.C115_same_as_one_worker`, `Prefetch.C130_few_more_partial`, `Prefetch.C130_order_partial`, `Prefetch.C130_refuted`, `Prefetch.C130_shutdown_returns`, `Prefetch.C163_batch_size`, `Prefetch.C163_each_once_partial`, `Prefetch.C163_refuted_end`, `Prefetch.C163_started_once`, `Prefetch.C163_stuck`, `Prefetch.C163_told_once`, `Prefetch.C163_turns`, `Prefetch.C177_agrees`, `Prefetch.C177_loses_one_partial`, `Prefetch.C177_no_runtime_error`, `Prefetch.C177_recovers`, `Prefetch.C177_refuted_reset`, `Prefetch.C177_refuted_start`, `Prefetch.C25_same_batches_same_order`, `Prefetch.C26_bounded_buffer`, `Prefetch.C27_reset_never_deadlocks`, `Prefetch.C28_reset_restarts`, `Prefetch.C29_episodes_aligned_partial`, `Prefetch.C30_at_most_one_lost_partial`, `Prefetch.C32_refuted_failure`, `Prefetch.C32_stop_means_exhausted_partial`, `Racing.C179_hdf5_alone`, `Racing.C179_hdf5_partial`, `Racing.C179_recovers`, `Racing.C179_serial`, `RacingReal.C181_serial`, `RacingSampler.C180_refuted_keys`, `RacingSampler.C180_sources_partial`, `ReadFlow.C100_flo_refuted`, `ReadFlow.C100_flo_round_trip`, `Render.C166_sequential`, `Render.C65_hidden`, `Render.C65_order`, `Sampler.C33_episodeEnd_iff_over`, `Sampler.C35_refuted`, `Sampler.C36_image_belongs_to_flow_partial`, `Sampler.C40_keys_are_those_of_the_run`, `Sampler.C41_insists_on_images`, `Sanity.C67_accepts`, `SanityConvert.C192_standard`, `Scripts.C76_round_trip`, `Several.C172_divided`, `Several.C172_reset`, `Stack.C82_refuted_done`, `Stack.C82_refuted_reset`, `Stack.C83_refuted_first`, `Stack.C83_refuted_reset`, `Types.C45_numbers`, `Types.C46_update`, `Types.C46_update_nothing`, `Types.C46_update_twice`, `Whole.C42_real_needs_images`
* **Classical.choice, Quot.sound, propext** (570): `Adapter.C118_exact_partial`, `Adapter.C118_order_refuted`, `Adapter.C118_place_partial`, `Adapter.C118_refuted`, `Adapter.C118_refuted_padding`, `Adapter.C57_identity`, `Adapter.C57_region`, `Adapter.C57_tiled`, `Adapter.C58_close_partial`, `Adapter.C58_refuted`, `Adapter.C58_refuted_float`, `Adapter.C58_refuted_uniform`, `Adapter.C58_same_grid_partial`, `Adapter.C58_uniform_partial`, `Append.C170_loop`, `Append.C170_queue`, `Apply.C53_accepted_processed_partial`, `Apply.C53_refuted`, `Apply.C53_speed_bound`, `Apply.C53_uniform_flow`, `Apply.C54_identity`, `Apply.C54_integer_shift`, `Apply.C54_splat`, `Apply.C54_total_eq`, `Apply.C54_total_le`, `Apply.C55_identity`, `Apply.C55_in_range`, `Apply.C55_integer_shift`, `Apply.C55_sample_point`, `Apply.C56_callable_is_array`, `Apply.C56_generator_partial`, `Apply.C56_refuted`, `Axes.C168_forward`, `Axes.C168_geometry`, `Axes.C168_image`, `Axes.C168_pipeline`, `Base.C01_delivered_exactly`, `Base.C01_every_slice_once_partial`, `Base.C01_exactly`, `Base.C02_mask_marks_real_rows`, `Base.C03_exhaustion_permanent`, `Base.C04_complete_epochs_partial`, `Base.C04_epochs_exactly`, `Base.C05_looping_answers_partial`, `Base.C06_exactly_partial`, `Base.C06_unreadable_skipped_partial`, `Base.C06_unseparated_partial`, `Base.C11_batch_boundaries`, `Base.C12_exactly`, `Base.C12_failure_repeats_partial`, `Base.C19_colour_never`, `Base.C19_exactly`, `BaseInit.C10_constructor_accepts`, `Bicubic.C198_linear`, `Bicubic.C198_mirror`, `Bicubic.C198_range_partial`, `Bicubic.C198_refuted`, `Bicubic.C198_refuted8`, `Bicubic.C198_rows`, `Bicubic.C198_uniform`, `Bicubic.C198_uniform8`, `Bicubic.C199_images`, `Bicubic.C199_pair`, `Changing.C145_delivered`, `Checks.C94_checks_partial`, `Checks.C94_float_partial`, `Checks.C94_refuted`, `Checks.C95_debug_shifts_partial`, `Checks.C95_refuted`, `Command.C129_message_refuted`, `Command.C129_ratio_read`, `Command.C129_shape_read`, `Command.C129_status_partial`, `Command.C129_useless_shape_refuted`, `Concurrent.C171_loop`, `Concurrent.C171_queue`, `Concurrent.C171_refuted_shorter`, `Convert.C189_grid_partial`, `Convert.C189_refuted`, `Convert.C195_delivered_partial`, `Convert.C195_flow`, `Convert.C195_raw`, `Convert.C195_refuted`, `Convert.C196_ends`, `Convert.C196_looping`, `Convert.C98_exactly`, `Convert.C98_packs_all_partial`, `Convert.C98_refuted`, `Convert.C99_script_partial`, `Crash.C103_dataset`, `Crash.C103_refuted`, `Crash.C103_rerun_partial`, `Crash.C104_refuted`, `Crash.C104_refuted_crash`, `Crash.C104_run_partial`, `Crash.C104_runs_partial`, `Crash.C105_from_scratch`, `Crash.C105_rerun_partial`, `Devices.C142_devices_partial`, `Devices.C142_exactly`, `Devices.C142_synthetic_partial`, `Digits.C194_check_iff`, `Digits.C194_common_iff`, `Digits.C194_different_partial`, `Digits.C194_frames`, `Digits.C194_iff`, `Digits.C194_refuted`, `Documented.C114_examples_refuted`, `Documented.C114_npy_refuted`, `Documented.C114_shipped_h5_partial`, `Documented.C114_shipped_mat_partial`, `Documented.C114_test_data_refuted`, `Documented.C114_tutorial_refuted`, `Dtypes.C185_exact`, `Dtypes.C185_once_partial`, `Dtypes.C185_refuted`, `Episodic.C184_distinct_partial`, `Episodic.C184_refuted_repeated`, `Episodic.C184_refuted_too_few`, `Episodic.C184_same_iff`, `Episodic.C186_all_listed_iff`, `Episodic.C186_only_listed_iff`, `Episodic.C186_played_iff`, `Episodic.C186_playlist_partial`, `Episodic.C186_refuted_unlisted`, `Episodic.C186_refuted_unplayed`, `Episodic.C187_mat_partial`, `Episodic.C187_refuted`, `Episodic.C187_refuted_mixed`, `Episodic.C20_construction_iff`, `Episodic.C20_starts_exactly`, `Episodic.C21_contiguous_windows`, `Episodic.C22_aligned_iff`, `Episodic.C22_delivered_exactly`, `Episodic.C22_disjoint_episodes_suffice`, `Episodic.C22_refuted_overlap`, `Episodic.C22_refuted_repeated`, `Episodic.C22_refuted_shuffled`, `Episodic.C22_refuted_unreadable`, `Episodic.C22_rows_aligned_partial`, `Episodic.C23_episode_length_partial`, `Episodic.C23_exactly`, `Episodic.C23_refuted`, `Episodic.C23_refuted_iter`, `FileList.C93_base_delivers`, `FileList.C93_refuted_episodic`, `ForLoop.C126_break`, `ForLoop.C126_buffered`, `ForLoop.C126_buffered_episodes`, `ForLoop.C126_for_statement`, `ForLoop.C126_goes_on`, `ForLoop.C126_real_buffered`, `ForLoop.C126_real_buffered_episodes`, `FormatInit.C86_hdf5_constructor_partial`, `FormatInit.C86_mat_constructor`, `FormatInit.C86_numpy_constructor`, `FormatInit.C86_refuted`, `FormatInit.C87_one_sample`, `FormatInit.C88_exactly`, `FormatInit.C88_refuted`, `FormatInit.C88_temporal_order_partial`, `Formats.C13_one_sample_per_y`, `Formats.C14_refuted`, `Formats.C14_shape_two_channels_partial`, `Formats.C15_exactly`, `Formats.C15_layout_partial`, `Formats.C15_refuted`, `Formats.C15_wrong_shape_iff`, `Formats.C16_resize_scales`, `Formats.C18_consecutive_share_frame`, `Formats.C18_constructor_checks_frames`, `Formats.C18_frames_no_folder`, `Formats.C18_frames_of_flow`, `Formats.C18_other_names_rejected`, `Formats.C18_sample_pairs_frames`, `Formats.C19_final_batch_partial`, `Formats.C84_other_content`, `Formats.C84_tree`, `Formats.C85_refuted`, `Formats.C85_refuted_row`, `Formats.C85_versions_partial`, `FromConfig.C152_constructor_partial`, `FromConfig.C152_ignored`, `FromConfig.C152_options_partial`, `FromConfig.C152_refuted_key`, `FromConfig.C152_refuted_loop`, `Generate.C144_monotone`, `Generate.C144_probability`, `Generate.C188_more`, `Generate.C188_particles_partial`, `Generate.C188_refuted`, `Generate.C61_budget_partial`, `Generate.C61_float_partial`, `Generate.C61_refuted`, `Generate.C61_shown`, `Generate.C62_in_selected_range`, `Generate.C63_exactly`, `Generate.C63_pixels_partial`, `Generate.C63_refuted`, `Generate.C71_accepted_partial`, `Generate.C71_float_partial`, `Generate.C71_refuted`, `Generate.C72_still_flow`, `Generate.C73_shift`, `Geometry.C48_refuted`, `Geometry.C48_window_float_partial`, `Geometry.C48_window_inside_partial`, `Geometry.C49_origin_inside_partial`, `Geometry.C49_refuted`, `Geometry.C50_float_partial`, `Geometry.C50_refuted`, `Geometry.C50_rejects_impossible_partial`, `Glob.C112_directories_partial`, `Glob.C112_h5_directories_partial`, `Glob.C112_h5_directory_refuted`, `Glob.C112_hidden_refuted`, `Glob.C112_mat_directories_partial`, `Glob.C112_named_directory_refuted`, `Glob.C112_numpy_depth_refuted`, `Glob.C112_numpy_directories_partial`, `Histogram.C59_monotone`, `Histogram.C59_own_histogram_partial`, `Histogram.C59_refuted`, `Histogram.C69_follows_template`, `HistogramSingle.C173_count`, `HistogramSingle.C173_exact`, `HistogramSingle.C173_follows`, `HistogramSingle.C173_own`, `HistogramSingle.C173_refuted`, `Interp.C51_affine`, `Interp.C51_cells`, `Interp.C51_clamps`, `Interp.C51_continuous`, `Interp.C51_grid_points`, `Interp.C51_in_range`, `Interp.C52_affine`, `Interp.C52_clamps`, `Interp.C52_constants`, `Interp.C52_grid_points`, `Interp.C52_in_range`, `Interp.C52_slices`, `Interrupt.C175_history`, `Interrupt.C175_resumes_partial`, `InterruptEpisodic.C178_agrees`, `InterruptEpisodic.C178_continues`, `InterruptEpisodic.C178_history_partial`, `InterruptEpisodic.C178_recovers`, `InterruptSampler.C176_agrees`, `InterruptSampler.C176_recovers`, `Isolation.C190_own_flow_only`, `Isolation.C190_synthetic`, `Len.C193_episodic`, `Len.C193_pass`, `Len.C193_samples_partial`, `Len.C193_wrapped`, `Looks.C139_mask`, `Looks.C140_looks`, `Make.C42_accepts_what_is_documented`, `Make.C42_builds_what_is_configured`, `Make.C42_documented_errors_partial`, `Make.C42_refusals`, `Make.C42_refuted`, `Make.C43_first_batch_partial`, `Make.C43_mismatch_episodic`, `Make.C43_refuted`, `Make.C44_episodes_partial`, `Make.C44_refuted`, `MakeKeys.C92_independent_iff_partial`, `MakeKeys.C92_refuted_devices`, `MakeKeys.C92_refuted_shuffle`, `Missing.C164_batch`, `Missing.C164_between`, `Missing.C164_refuted`, `Missing.C164_reported_partial`, `Missing.C164_smears`, `Missing.C164_unaffected`, `Missing.C169_dropped`, `Missing.C169_refuted`, `Missing.C169_second_partial`, `Missing.C183_numbers_partial`, `Missing.C183_pair_partial`, `Missing.C183_refuted`, `Missing.C183_refuted_brightest`, `Nearest.C198_refuted16`, `Nearest.C198_values16`, `NonFinite.C167_exceptions`, `NonFinite.C167_finite`, `NonFinite.C167_infinite_speed`, `NonFinite.C167_refuted_exception`, `NonFinite.C167_refuted_nan`, `NonFinite.C167_refuted_size`, `NonFinite.C167_rejected_partial`, `NumpyPipeline.C108_real_numpy_partial`, `NumpyPipeline.C108_rest_is_lost`, `Options.C141_each`, `Options.C141_ignored`, `Options.C141_keys`, `Options.C141_order`, `Options.C141_real`, `Pillow.C132_loaded_range`, `Pillow.C132_packed_range`, `Pillow.C197_affine`, `Pillow.C197_axes`, `Pillow.C197_linear`, `Pillow.C197_mirror`, `Pillow.C80_packed_direct_partial`, `Pillow.C80_pillow_uniform_partial`, `Pillow.C80_refuted`, `Prefetch.C157_finalizer`, `Prefetch.C157_forgotten_partial`, `Prefetch.C157_refuted`, `Prefetch.C157_when`, `Prefetch.C163_refuted_episodes`, `Prefetch.C177_refuted_episode`, `Prefetch.C29_refuted`, `Prefetch.C31_blocked_iff`, `Prefetch.C31_ends_or_blocked`, `Prefetch.C31_get_batch_frees`, `Prefetch.C31_refuted_again`, `Prefetch.C31_shutdown_stops_partial`, `Racing.C179_mat_alone`, `Racing.C179_mat_partial`, `Racing.C179_numpy_alone`, `Racing.C179_numpy_images_partial`, `Racing.C179_numpy_partial`, `Racing.C179_refuted_images`, `Racing.C179_refuted_lost`, `Racing.C179_refuted_raises`, `Racing.C179_refuted_shuffle`, `Racing.C179_refuted_twice`, `RacingReal.C181_batches_partial`, `RacingReal.C181_not_early_partial`, `RacingReal.C181_plain`, `RacingReal.C181_refuted_too_many`, `RacingSampler.C180_between_partial`, `RacingSampler.C180_recovers`, `RacingSampler.C180_serial`, `ReadFlow.C100_flo_accepts`, `ReadFlow.C100_flo_truncated`, `ReadFlow.C100_mat_partial`, `ReadFlow.C100_refuted`, `RealPipeline.C107_real_mat`, `RealPipeline.C107_real_mat_looping`, `RealPipeline.C107_real_mat_looping_prefetched`, `RealPipeline.C107_real_mat_prefetched`, `Render.C166_pixel`, `Render.C166_refuted_bits`, `Render.C166_two_runs`, `Render.C166_unclipped`, `Render.C64_footprint`, `Render.C65_nonneg`, `Render.C65_sum_of_light`, `Render.C66_float_partial`, `Render.C66_patch_inside_partial`, `Render.C66_refuted_float`, `Render.C66_refuted_small`, `Render.C70_refuted`, `Render.C70_true_positions_partial`, `Render.expLike_real`, `Reported.C182_alone_partial`, `Reported.C182_determined_partial`, `Reported.C182_refuted`, `Sampler.C143_reset_fails`, `Sampler.C143_reset_self`, `Sampler.C33_done_flags`, `Sampler.C33_flag_announces_end`, `Sampler.C34_episodic_fresh`, `Sampler.C34_flow_batch_used_partial`, `Sampler.C35_real_stays_finished_partial`, `Sampler.C36_exactly`, `Sampler.C37_exactly`, `Sampler.C37_in_every_batch_partial`, `Sampler.C37_used_evenly_partial`, `Sampler.C38_iff`, `Sampler.C38_kept`, `Sampler.C38_least_multiple`, `Sampler.C39_reset_reproducible`, `Sampler.C40_draws_use_keys_up`, `Sampler.C40_no_key_twice`, `Sanity.C67_bounds_partial`, `Sanity.C67_exactly`, `Sanity.C67_iff`, `Sanity.C67_refuted`, `Sanity.C68_entries_partial`, `Sanity.C68_exactly`, `Sanity.C68_file_list_partial`, `Sanity.C68_iff`, `Sanity.C68_refuted_file_list`, `Sanity.C68_refuted_none`, `Sanity.C74_errors`, `Sanity.C74_panel`, `Sanity.C74_returns`, `Sanity.C74_written`, `SanityConvert.C192_exactly`, `SanityConvert.C192_file_list`, `SanityConvert.C192_plain_partial`, `SanityConvert.C192_refuted`, `SanityCrash.C147_nothing_foreign_partial`, `SanityCrash.C147_noticed`, `SanityCrash.C147_refuted`, `SanityCrash.C147_refuted_empty`, `SanityCrash.C147_unnoticed`, `SanityMain.C101_refuted`, `SanityMain.C101_valid_partial`, `SanityMain.C102_refuted`, `SanityMain.C102_second_run_partial`, `SanitySpeeds.C174_displacements`, `SanitySpeeds.C174_origin_fits`, `SanitySpeeds.C174_origin_partial`, `SanitySpeeds.C174_refuted`, `SanitySpeeds.C174_stretch`, `Saved.C128_loop`, `Saved.C128_names`, `Saved.C128_saved`, `Saved.C191_cut_short`, `Saved.C191_no_gap`, `Saved.C191_order`, `Saved.C191_whole`, `Scripts.C75_first_refuted`, `Scripts.C75_iff`, `Scripts.C75_nothing_lost`, `Scripts.C75_partition_partial`, `Scripts.C75_refuted`, `Scripts.C75_twice`, `Scripts.C76_read_items_survive`, `Scripts.C77_bare_name`, `Scripts.C77_exactly`, `Scripts.C77_one_split_partial`, `Scripts.C77_plain_name`, `Scripts.C77_refuted`, `Scripts.C78_all_kept_iff`, `Scripts.C78_exactly`, `Scripts.C78_refuted`, `Scripts.C78_unpacked_partial`, `Scripts.C79_main`, `Scripts.C80_packed_uniform_partial`, `Scripts.C81_listed_packed_partial`, `Scripts.C81_refuted`, `Single.C122_bilinear`, `Single.C122_range_refuted`, `Single.C122_trilinear`, `Single.C123_motion`, `Single.C123_particle`, `Single.C124_refuted`, `Single.C124_still_close`, `Single.C124_still_partial`, `Single.C124_still_powers_partial`, `Single.C125_in_range`, `Single.C125_positions`, `Single.C137_range`, `Single.C137_region`, `Single.C137_reported`, `Single.C137_uniform`, `Single.C138_motion_partial`, `SplitCopy.C96_copies_exactly`, `SplitCopy.C97_exactly`, `SplitCopy.C97_iff`, `SplitCopy.C97_refuted`, `SplitCopy.C97_rerun_partial`, `Stack.C82_base_schedulers_partial`, `Stack.C82_buffering_invisible_partial`, `Stack.C82_python311_partial`, `Stack.C82_real_base_partial`, `Stack.C82_real_sampler_partial`, `Stack.C83_base_schedulers_partial`, `Stack.C83_buffered_episodes_partial`, `Stack.C83_real_base_partial`, `Stack.C83_real_sampler_partial`, `Superposition.C148_superposition`, `Superposition.C149_first_images`, `SynthPipeline.C109_synthetic_ends`, `SynthPipeline.C109_synthetic_ends_prefetched`, `SynthPipeline.C109_synthetic_looping`, `SynthPipeline.C109_synthetic_looping_prefetched`, `Synthetic.C134_refuted`, `Synthetic.C134_true_light_partial`, `Synthetic.C144_always`, `Synthetic.C144_black`, `Synthetic.C144_own_image`, `Synthetic.C153_more`, `Synthetic.C153_other`, `Synthetic.C154_brighter`, `Synthetic.C154_scaled`, `Synthetic.C155_denser`, `Synthetic.C188_first`, `Synthetic.C89_base_partial`, `Synthetic.C89_episodic_partial`, `Synthetic.C89_float_partial`, `Synthetic.C89_refuted`, `Synthetic.C89_well_formed_partial`, `Synthetic.C90_aligned_partial`, `Synthetic.C90_exactly`, `Synthetic.C90_refuted`, `Synthetic.C91_ground_truth_partial`, `Synthetic.C91_refuted`, `Synthetic.device_generate`, `TfRecord.C106_loaded`, `TfRecord.C106_sample`, `TfRecord.C106_skipped`, `Timed.C158_default`, `Timed.C158_first`, `Timed.C158_first_default`, `Timed.C158_never_late`, `Timed.C158_sharp`, `Timed.C159_complete`, `Timed.C159_sharp`, `Timed.C160_aligned_in_time`, `Timed.C160_slow_refuted`, `Timed.C161_calls_return`, `Timed.C162_shutdown_ends_partial`, `Timed.C162_slow_refuted`, `Types.C151_call`, `Types.C151_defaults`, `Types.C151_misspelt`, `Types.C45_accepts_documented_partial`, `Types.C45_refuted_nan`, `Types.C45_refuted_type`, `Units.C135_exact_partial`, `Units.C135_float_partial`, `Units.C135_refuted`, `Units.C136_output_units`, `Unseen.C150_only_around`, `Variation.clipped_change`, `Variation.clipped_iff`, `Whole.C110_h5_ends`, `Whole.C110_h5_looping`, `Whole.C111_mat_ends`, `Whole.C111_mat_looping`, `Whole.C113_exact_partial`, `Whole.C113_float_partial`, `Whole.C113_real_iff`, `Whole.C114_units_partial`, `Whole.C114_units_refuted`, `Whole.C116_mat`, `Whole.C116_npy`, `Whole.C117_h5`, `Whole.C117_mat_partial`, `Whole.C117_mat_refuted`, `Whole.C117_mat_scaled`, `Whole.C117_npy`, `Whole.C119_built`, `Whole.C119_mismatch`, `Whole.C119_real_partial`, `Whole.C119_refuted`, `Whole.C119_synthetic_partial`, `Whole.C120_disjoint_suffices`, `Whole.C120_mismatch`, `Whole.C120_real_partial`, `Whole.C120_single_suffices`, `Whole.C120_synthetic_partial`, `Whole.C121_built`, `Whole.C121_real_partial`, `Whole.C121_refuted`, `Whole.C121_synthetic_partial`, `Whole.C126_endless`, `Whole.C126_episodes_refuted`, `Whole.C126_h5_endless`, `Whole.C126_h5_ends`, `Whole.C126_once`, `Whole.C126_real_endless`, `Whole.C126_real_ends`, `Whole.C126_real_episodes_refuted`, `Whole.C133_h5`, `Whole.C133_h5_once`, `Whole.C133_mat`, `Whole.C133_npy`, `Whole.C156_h5`, `Whole.C156_mat`, `Whole.C156_npy`, `Whole.C156_real`
