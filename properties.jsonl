{"id": "C01", "title": "max_order selects exactly the reflection sequences of that order", "statement": "simulate_rir / simulate_dynamic_rir with max_order=N and no nb_img sum over one image per integer index vector whose absolute values add up to at most N: no such vector is missing, none is repeated and none of higher order is present.", "quantifier": "every room dimension and every non-negative max_order", "why_tests_cant": "The image set grows without bound with max_order and dimension; tests only inspect a few small orders.", "anchors": ["src/torchrir/sim/ism/images.py:_image_source_indices", "src/torchrir/sim/ism/api.py:simulate_rir", "src/torchrir/sim/ism/api.py:simulate_dynamic_rir"]}
{"id": "C02", "title": "nb_img selects exactly the requested box of images", "statement": "With nb_img=(n1,..,nd) the simulation uses exactly one image per integer vector with |i_k|<=n_k on every axis, (2 n_1+1)...(2 n_d+1) in all, whatever max_order is; an nb_img whose length differs from the room dimension is rejected with an error.", "quantifier": "every room dimension and every vector of image counts", "why_tests_cant": "Unbounded family of boxes; a dropped corner or an off-by-one on one axis only shows up in late samples.", "anchors": ["src/torchrir/sim/ism/images.py:_image_source_indices"]}
{"id": "C03", "title": "Every image is an actual mirror image of the source", "statement": "The position used for image index n on an axis of length L is the point obtained from the source coordinate by |n| successive reflections in the two walls x=0 and x=L (alternating walls, last wall x=L for n>0 and x=0 for n<0); for a source inside the room it lies in the n-th mirrored copy [nL,(n+1)L] of the room.", "quantifier": "every room size, source position and integer index (both signs, both parities)", "why_tests_cant": "Tests check a handful of first order images numerically; sign and parity cases for large indices are never exercised.", "anchors": ["src/torchrir/sim/ism/images.py:_image_positions", "src/torchrir/sim/ism/images.py:_image_positions_batch", "src/torchrir/sim/ism/contributions.py:_compute_image_contributions_time_batch"]}
{"id": "C04", "title": "Each image carries exactly the coefficients of the walls its path crosses", "statement": "The reflection gain of an image is the product, over every wall plane crossed by the straight line from the image to the microphone in the unfolded room, of that wall's coefficient (beta ordered lo/hi per axis): per axis, the low wall counts once per crossed even multiple of L and the high wall once per crossed odd multiple; the number of factors equals the reflection order.", "quantifier": "every index vector, every set of wall coefficients, every source and microphone strictly inside the room", "why_tests_cant": "Swapping two walls or miscounting one parity is invisible when all walls share one coefficient, which is how nearly all tests are written.", "anchors": ["src/torchrir/sim/ism/images.py:_reflection_coefficients"]}
{"id": "C05", "title": "Static RIR equals the image-source formula sample by sample", "statement": "With the high-pass filter disabled and no diffuse tail, simulate_rir succeeds on valid omni inputs and its value at (source s, microphone m, sample k) is the sum over the selected images of gain/distance times the fractional-delay kernel evaluated at k minus the arrival time distance*fs/c and shifted by half the kernel length, where kernel taps outside the buffer are simply absent.", "quantifier": "all rooms, all numbers of sources, microphones and images, all buffer lengths, all kernel lengths", "why_tests_cant": "The buffer is filled by chunked flat scatter-adds; only a proof covers every interaction of chunking, offsets and clipping.", "anchors": ["src/torchrir/sim/ism/api.py:simulate_rir", "src/torchrir/sim/ism/accumulate.py:_accumulate_rir_batch_impl", "src/torchrir/sim/ism/contributions.py:_compute_image_contributions_batch"]}
{"id": "C06", "title": "Chunk sizes never change the result", "statement": "For any two positive image_chunk_size values and any two positive accumulate_chunk_size values the simulated RIRs (static and dynamic) are equal.", "quantifier": "all positive chunk sizes, including ones larger than and not dividing the number of images, all inputs", "why_tests_cant": "Tests compare one or two chunk sizes; boundary chunks of every residue cannot be enumerated.", "anchors": ["src/torchrir/sim/ism/api.py:simulate_rir", "src/torchrir/sim/ism/api.py:simulate_dynamic_rir", "src/torchrir/sim/ism/accumulate.py:_accumulate_rir_batch_impl", "src/torchrir/config.py:SimulationConfig"]}
{"id": "C07", "title": "No cross-talk between source/microphone pairs", "statement": "Entry (s,m) of a batched simulation is the RIR obtained by simulating source s and microphone m alone; in particular removing, adding or reordering other sources and microphones only removes, adds or reorders the corresponding rows.", "quantifier": "all source and microphone lists of any length, every pair of indices", "why_tests_cant": "Rows live in one flat buffer; a tap that spills into a neighbour row needs a particular delay to show up.", "anchors": ["src/torchrir/sim/ism/accumulate.py:_accumulate_rir_batch_impl", "src/torchrir/sim/ism/api.py:simulate_rir"]}
{"id": "C08", "title": "A shorter RIR is a prefix of a longer one", "statement": "Without filter and tail, simulating with nsample=a and nsample=b>=a on the same inputs gives RIRs that agree on the first a samples: late arrivals are dropped, never wrapped or folded back.", "quantifier": "all buffer lengths a<=b and all inputs", "why_tests_cant": "Wrap-around depends on exact coincidences of delay and buffer length.", "anchors": ["src/torchrir/sim/ism/accumulate.py:_accumulate_rir_batch_impl", "src/torchrir/sim/ism/validate.py:_validate_static_args"]}
{"id": "C09", "title": "No sound before the direct path", "statement": "Without filter and tail, for a source and microphone inside the room every sample of the RIR with index below (source-microphone distance)*fs/c - 1 is exactly zero, for every max_order or nb_img; and no tap is ever lost at the left edge of the buffer.", "quantifier": "all rooms, positions, orders and kernel lengths", "why_tests_cant": "An image closer than the direct path or a misplaced kernel would need a universally quantified geometric argument to exclude.", "anchors": ["src/torchrir/sim/ism/contributions.py:_compute_image_contributions_batch", "src/torchrir/sim/ism/accumulate.py:_accumulate_rir_batch_impl"]}
{"id": "C10", "title": "Acoustic reciprocity for omnidirectional devices", "statement": "Exchanging the source positions and the microphone positions transposes the omni RIR matrix: rir'(m,s,k)=rir(s,m,k).", "quantifier": "all rooms, wall coefficients, positions, max_order and nb_img values", "why_tests_cant": "The equality relies on a bijection between the image sets of the two problems; tests can only sample positions.", "anchors": ["src/torchrir/sim/ism/images.py:_image_positions_batch", "src/torchrir/sim/ism/images.py:_reflection_coefficients", "src/torchrir/sim/ism/api.py:simulate_rir"]}
{"id": "C11", "title": "Directional reciprocity", "statement": "Exchanging sources and microphones together with their directivity patterns and orientations transposes the RIR matrix.", "quantifier": "all rooms, positions, orientations and patterns", "why_tests_cant": "Whether the directional gains of images are mirrored correctly needs reasoning about every image parity.", "anchors": ["src/torchrir/sim/ism/contributions.py:_compute_image_contributions_batch", "src/torchrir/sim/ism/helpers.py:_cos_between"]}
{"id": "C12", "title": "Mirroring the room mirrors the simulation", "statement": "Replacing every x coordinate by Lx-x and swapping the two x-wall coefficients (likewise for any other axis) leaves the omni RIRs unchanged. The same holds for directional devices if their orientations are mirrored as well.", "quantifier": "all axes, rooms, coefficients, positions, orders", "why_tests_cant": "Needs an index bijection n -> -n and the low/high wall convention to be consistent everywhere.", "anchors": ["src/torchrir/sim/ism/images.py:_image_positions_batch", "src/torchrir/sim/ism/images.py:_reflection_coefficients"]}
{"id": "C13", "title": "A dynamic simulation is the static simulation of each time step", "statement": "simulate_dynamic_rir(...)[t] equals simulate_rir at the positions src_traj[t], mic_traj[t] with the same room, order, length, directivity, orientation and configuration.", "quantifier": "all trajectories, numbers of steps, sources and microphones, chunk sizes, directivities", "why_tests_cant": "The dynamic path re-implements the image computation and reshapes time into the source axis; agreement must hold for every step index.", "anchors": ["src/torchrir/sim/ism/api.py:simulate_dynamic_rir", "src/torchrir/sim/ism/contributions.py:_compute_image_contributions_time_batch", "src/torchrir/sim/ism/contributions.py:_compute_image_contributions_batch"]}
{"id": "C14", "title": "estimate_image_counts_from_tmax loses nothing within tmax", "statement": "Using nb_img=estimate_image_counts_from_tmax(tmax, room size, c) with a buffer of ceil(tmax*fs) samples and a kernel of at least 3 taps gives exactly the RIR of the room with all images: any larger nb_img produces the same samples.", "quantifier": "all tmax, room sizes, sound speeds, sampling rates and positions inside the room, all larger image boxes", "why_tests_cant": "A statement about infinitely many images that were left out.", "anchors": ["src/torchrir/util/acoustics.py:estimate_image_counts_from_tmax", "src/torchrir/sim/ism/images.py:_image_source_indices", "src/torchrir/sim/ism/accumulate.py:_accumulate_rir_batch_impl"]}
{"id": "C15", "title": "The sinc table is never read out of bounds and samples the right argument", "statement": "For every validated configuration the lookup-table path reads only valid table entries and yields exactly the piecewise linear interpolant, on the grid of step 1/granularity, of sinc at the same argument the direct path evaluates.", "quantifier": "all odd kernel lengths, all granularities, all fractional delays in [0,1)", "why_tests_cant": "Index arithmetic with floor at a continuum of fractional delays.", "anchors": ["src/torchrir/sim/ism/accumulate.py:_accumulate_rir_batch_impl", "src/torchrir/sim/ism/accumulate.py:_get_sinc_lut", "src/torchrir/config.py:SimulationConfig.validate"]}
{"id": "C16", "title": "use_lut changes every sample by a bounded amount", "statement": "The RIRs with use_lut=True and use_lut=False differ at each sample by at most pi^2/(24*granularity^2) times the sum over images of |gain|/distance, so the error vanishes as the granularity grows.", "quantifier": "all inputs, all granularities", "why_tests_cant": "An analytic error bound for all delays; tests only compare one configuration with a tolerance.", "anchors": ["src/torchrir/sim/ism/accumulate.py:_accumulate_rir_batch_impl", "src/torchrir/sim/ism/accumulate.py:_get_sinc_lut"]}
{"id": "C17", "title": "Wall absorption bounds the amplitudes", "statement": "For coefficients in [0,1] every image gain lies in [0,1], never increases when a coefficient decreases, is 1 for perfectly reflecting walls, and with all coefficients 0 the omni RIR is the direct path alone whatever max_order is.", "quantifier": "all coefficients, index vectors and orders", "why_tests_cant": "Quantifies over all images and coefficients.", "anchors": ["src/torchrir/sim/ism/images.py:_reflection_coefficients", "src/torchrir/sim/ism/contributions.py:_compute_image_contributions_batch"]}
{"id": "C18", "title": "The diffuse tail only touches the tail", "statement": "simulate_rir with tdiff changes no sample before the index min(nsample-1, floor(tdiff*fs)); it changes nothing at all when tdiff is absent, not below tmax, or maps to index 0; and the result depends on the seed only (None behaves as 0).", "quantifier": "all inputs, noise generators, tdiff and tmax values", "why_tests_cant": "The split index depends on a floor of a product and on an interplay of optional arguments.", "anchors": ["src/torchrir/sim/ism/diffuse.py:_apply_diffuse_tail", "src/torchrir/sim/ism/api.py:simulate_rir"]}
{"id": "C19", "title": "Precomputed tables are transparent", "statement": "The result of a simulation does not depend on which simulations (with which configurations, devices and dtypes) ran earlier in the process.", "quantifier": "all finite histories of earlier calls", "why_tests_cant": "Cache key omissions only show after a particular order of calls.", "anchors": ["src/torchrir/sim/ism/accumulate.py:_get_accumulate_fn", "src/torchrir/sim/ism/accumulate.py:_get_sinc_lut", "src/torchrir/sim/ism/accumulate.py:_get_fdl_grid", "src/torchrir/sim/ism/accumulate.py:_get_fdl_offsets", "src/torchrir/sim/ism/accumulate.py:_get_fdl_window"]}
{"id": "C20", "title": "Wall coefficients: explicit beta, else t60, else rigid", "statement": "A room with beta uses it, a room with t60 behaves exactly like the same room with beta=estimate_beta_from_t60(size,t60), and a room with neither behaves like beta=1 on every wall.", "quantifier": "all rooms and scenes", "why_tests_cant": "Equality of whole simulations over all rooms.", "anchors": ["src/torchrir/sim/ism/helpers.py:_resolve_beta", "src/torchrir/sim/ism/helpers.py:_validate_beta", "src/torchrir/util/acoustics.py:estimate_beta_from_t60"]}
{"id": "C21", "title": "Lengths, orders and precedence of simulation arguments", "statement": "simulate_rir returns shape (n_src, n_mic, N) and simulate_dynamic_rir (T, n_src, n_mic, N) where N is nsample if given, otherwise the smallest integer >= tmax*fs with tmax taken from the argument or else the configuration; a missing length, a non-positive length, a negative or missing max_order, or shapes that do not match the room are rejected.", "quantifier": "all combinations of optional arguments and shapes", "why_tests_cant": "Large cross product of optional arguments.", "anchors": ["src/torchrir/sim/ism/validate.py:_resolve_config", "src/torchrir/sim/ism/validate.py:_validate_static_args", "src/torchrir/sim/ism/validate.py:_validate_dynamic_args", "src/torchrir/sim/ism/validate.py:_validate_pos_shapes", "src/torchrir/sim/ism/validate.py:_validate_traj_shapes", "src/torchrir/sim/ism/prepare.py:_prepare_static_tensors", "src/torchrir/sim/ism/prepare.py:_prepare_dynamic_tensors"]}
{"id": "C22", "title": "fft_convolve is linear convolution", "statement": "For non-empty 1-D inputs x and h fft_convolve(x,h) has length len(x)+len(h)-1 and its k-th sample is sum_j x[j] h[k-j]; the FFT size is the least power of two not smaller than that length, so there is no circular aliasing.", "quantifier": "all non-empty signals and responses", "why_tests_cant": "Aliasing appears only at particular length pairs; the identity must hold for every length and every value.", "anchors": ["src/torchrir/signal/static.py:fft_convolve"]}
{"id": "C23", "title": "convolve_rir mixes every source into every microphone", "statement": "convolve_rir returns, for every microphone, the sum over sources of the convolution of the source signal with the RIR of that pair (a single signal is shared by all sources); the result is linear in the signal, has length n_samples+rir_len-1, is 1-D exactly when there is one microphone, and a source-count mismatch is rejected.", "quantifier": "all signal and RIR shapes accepted by the API, all values", "why_tests_cant": "Shape normalisation has many branches and the loop nest must be right for every count.", "anchors": ["src/torchrir/signal/static.py:convolve_rir", "src/torchrir/signal/internal.py:_ensure_signal", "src/torchrir/signal/internal.py:_ensure_static_rirs"]}
{"id": "C24", "title": "Trajectory-mode convolution is the time-varying convolution", "statement": "DynamicConvolver(mode='trajectory') returns y[m,k]=sum_s sum_j x[s,j] h[t(j),s,m,k-j], where t(j) is the RIR step whose time interval contains sample j; every signal sample is used by exactly one step.", "quantifier": "all signals, RIR sequences, numbers of steps (also more steps than samples) and all admissible timestamps", "why_tests_cant": "Segment boundaries come from a truncated product of floats; every split of every length must be covered.", "anchors": ["src/torchrir/signal/dynamic.py:_convolve_dynamic_rir_trajectory", "src/torchrir/signal/internal.py:_ensure_dynamic_rirs"]}
{"id": "C25", "title": "Dynamic convolution with a constant RIR is static convolution", "statement": "If all time steps carry the same RIRs, trajectory-mode DynamicConvolver output equals convolve_rir of that RIR, for any number of steps and any admissible timestamps.", "quantifier": "all signals, RIRs and step counts", "why_tests_cant": "Requires that overlap-add of arbitrary segmentations is exact.", "anchors": ["src/torchrir/signal/dynamic.py:_convolve_dynamic_rir_trajectory", "src/torchrir/signal/static.py:convolve_rir"]}
{"id": "C26", "title": "GPU and CPU trajectory convolution agree", "statement": "The batched implementation used on CUDA/MPS returns the same result as the loop used on CPU, whatever the batch (chunk) size.", "quantifier": "all signals, RIRs, segmentations and chunk sizes", "why_tests_cant": "Tests have no GPU; the two code paths pad and sum differently.", "anchors": ["src/torchrir/signal/dynamic.py:_convolve_dynamic_rir_trajectory", "src/torchrir/signal/dynamic.py:_convolve_dynamic_rir_trajectory_batched"]}
{"id": "C27", "title": "Hop-mode convolution uses the whole signal", "statement": "DynamicConvolver(mode='hop', hop=H) returns the time-varying convolution in which sample j uses RIR step floor(j/H), and no signal sample is lost.", "quantifier": "all signals, hops and numbers of RIR steps", "why_tests_cant": "Depends on the relation of three lengths.", "anchors": ["src/torchrir/signal/dynamic.py:_convolve_dynamic_rir_hop"]}
{"id": "C28", "title": "A source is never dropped or invented silently by the dynamic convolver", "statement": "If the number of signal sources does not match the number of RIR sources, DynamicConvolver raises an error instead of silently ignoring or duplicating a source.", "quantifier": "all combinations of signal and RIR shapes in both modes", "why_tests_cant": "Cross product of shapes; the silent cases are exactly the ones nobody wrote a test for.", "anchors": ["src/torchrir/signal/dynamic.py:_convolve_dynamic_rir_hop", "src/torchrir/signal/dynamic.py:_convolve_dynamic_rir_trajectory", "src/torchrir/signal/internal.py:_ensure_dynamic_rirs"]}
{"id": "C29", "title": "Dynamic convolution is linear and causal", "statement": "Both modes are linear in the signal, and output sample k does not depend on signal samples after k.", "quantifier": "all signals and RIR sequences", "why_tests_cant": "Algebraic law over all inputs.", "anchors": ["src/torchrir/signal/dynamic.py:DynamicConvolver.convolve"]}
{"id": "C30", "title": "Sabine round trip", "statement": "estimate_t60_from_beta(size, estimate_beta_from_t60(size,t60)) equals t60 whenever the implied absorption is below 0.999, and otherwise equals the shortest time that limit allows; t60<=0 is rejected.", "quantifier": "all positive sizes in 2-D and 3-D and all t60", "why_tests_cant": "Identity over a continuum of sizes and times.", "anchors": ["src/torchrir/util/acoustics.py:estimate_beta_from_t60", "src/torchrir/util/acoustics.py:estimate_t60_from_beta"]}
{"id": "C31", "title": "Estimated coefficients are physical and monotone", "statement": "estimate_beta_from_t60 returns 4 (2-D) or 6 (3-D) equal values in [sqrt(0.001),1), non-decreasing in t60; estimate_t60_from_beta is infinite exactly when no wall absorbs and never increases when a coefficient decreases.", "quantifier": "all sizes, times and coefficients", "why_tests_cant": "Continuum of inputs.", "anchors": ["src/torchrir/util/acoustics.py:estimate_beta_from_t60", "src/torchrir/util/acoustics.py:estimate_t60_from_beta", "src/torchrir/util/acoustics.py:attenuation_db_to_time_sabine"]}
{"id": "C32", "title": "Orientation inputs denote unit vectors", "statement": "orientation_to_unit maps angles, azimuth/elevation pairs and vectors of norm at least 1e-8 to vectors of norm exactly 1 pointing in the stated direction, ignores positive scaling of vectors, and rejects unsupported shapes and dimensions.", "quantifier": "all angles, vectors, counts and shapes", "why_tests_cant": "Many shape branches over a continuum of values.", "anchors": ["src/torchrir/util/orientation.py:orientation_to_unit", "src/torchrir/util/orientation.py:normalize_orientation"]}
{"id": "C33", "title": "Directivity patterns are first-order patterns with unit on-axis gain", "statement": "Each pattern gives gain 1 on axis and a gain in [-1,1] for every direction (non-negative for omni, half-omni, subcardioid, cardioid), is a function of the angle only, names are case-insensitive, and any other name is rejected.", "quantifier": "all pattern names and all directions", "why_tests_cant": "All strings and a continuum of angles.", "anchors": ["src/torchrir/sim/directivity.py:directivity_gain", "src/torchrir/sim/directivity.py:split_directivity"]}
{"id": "C34", "title": "Every spelling of the omni pattern is treated as omni", "statement": "Any directivity name that denotes the omnidirectional pattern simulates without orientation information and yields the omni RIR.", "quantifier": "all accepted spellings of omni", "why_tests_cant": "Requires comparing all spellings across two modules.", "anchors": ["src/torchrir/sim/directivity.py:directivity_gain", "src/torchrir/sim/ism/api.py:simulate_rir"]}
{"id": "C35", "title": "Room construction accepts exactly physical rooms", "statement": "Constructing a Room succeeds exactly when size has 2 or 3 strictly positive finite entries, fs and c are positive, at most one of beta and t60 is given, t60 is positive, and beta has 2*dim finite entries in [0,1]; replace() re-validates.", "quantifier": "all argument combinations", "why_tests_cant": "Infinite input space; acceptance must be an equivalence, not just examples.", "anchors": ["src/torchrir/models/room.py:Room"]}
{"id": "C36", "title": "The wall coefficients of a room are the ones passed in", "statement": "room.beta holds the values given by the caller.", "quantifier": "all sizes and coefficients, integer or floating point", "why_tests_cant": "The conversion depends on the element type of a different argument.", "anchors": ["src/torchrir/models/room.py:Room", "src/torchrir/util/tensor.py:as_tensor"]}
{"id": "C37", "title": "Accepted scenes never fail shape checks later", "statement": "If StaticScene / DynamicScene construction succeeds then the shape validation inside the simulation succeeds and the result has one RIR per source and microphone (and step); mismatched dimensions, counts or step counts are rejected at construction; a deprecated Scene is dynamic exactly when both trajectories are present and converts accordingly.", "quantifier": "all shapes of rooms, entities and trajectories", "why_tests_cant": "Relates two independent validation layers for all shapes.", "anchors": ["src/torchrir/models/scene.py:StaticScene", "src/torchrir/models/scene.py:DynamicScene", "src/torchrir/models/scene.py:Scene", "src/torchrir/sim/ism/validate.py:_validate_traj_shapes", "src/torchrir/models/room.py:_validate_orientation"]}
{"id": "C38", "title": "Simulator and configuration may not disagree", "statement": "ISMSimulator.simulate raises when max_order or tmax is set both in the simulator and in the configuration to different values, otherwise the values in force are the simulator's; scene, configuration and seed are returned unchanged in the result.", "quantifier": "all simulators, configurations and scenes", "why_tests_cant": "Cross product of optional values.", "anchors": ["src/torchrir/sim/simulators.py:ISMSimulator", "src/torchrir/sim/simulators.py:_ensure_no_conflict", "src/torchrir/sim/simulators.py:_normalize_scene"]}
{"id": "C39", "title": "Directional devices work in dynamic scenes", "statement": "ISMSimulator with a directional pattern simulates a DynamicScene whose sources and microphones carry orientations.", "quantifier": "all dynamic scenes with orientations and all directional patterns", "why_tests_cant": "A universally failing path is invisible if no test takes it.", "anchors": ["src/torchrir/sim/simulators.py:ISMSimulator.simulate", "src/torchrir/sim/ism/api.py:simulate_dynamic_rir"]}
{"id": "C40", "title": "Configurations are validated invariantly", "statement": "SimulationConfig.validate accepts exactly the configurations with positive fs/tmax/granularity/chunk sizes/filter cutoff and order, non-negative max_order and seed and an odd positive kernel length; every config produced by any sequence of replace() calls from an accepted one satisfies this.", "quantifier": "all configurations and all sequences of replace calls", "why_tests_cant": "All histories of updates.", "anchors": ["src/torchrir/config.py:SimulationConfig.validate", "src/torchrir/config.py:SimulationConfig.replace"]}
{"id": "C41", "title": "Device resolution never selects an unavailable backend", "statement": "resolve_device falls back to CPU whenever the requested CUDA or MPS backend is unavailable, 'auto' returns the first available preferred backend, explicit device objects pass through, and inferred dtype/device follow the first tensor unless overridden.", "quantifier": "all device strings, availability combinations and argument lists", "why_tests_cant": "Test machines have one fixed availability combination.", "anchors": ["src/torchrir/util/device.py:resolve_device", "src/torchrir/util/device.py:DeviceSpec", "src/torchrir/util/device.py:infer_device_dtype"]}
{"id": "C42", "title": "Linear and binaural arrays are centred with exact spacing", "statement": "linear_array returns num positions on the given line, consecutive ones exactly spacing apart, with centroid at the centre; binaural_array returns two positions symmetric about the centre 2*offset apart.", "quantifier": "all centres, counts, spacings, axes and non-zero directions", "why_tests_cant": "All counts and a continuum of geometry.", "anchors": ["src/torchrir/geometry/arrays.py:linear_array", "src/torchrir/geometry/arrays.py:binaural_array"]}
{"id": "C43", "title": "Circular arrays lie on the stated circle", "statement": "circular_array returns num points at distance radius from the centre, in the plane through the centre orthogonal to the given normal (or the named coordinate plane), at equal angular steps, with centroid at the centre when num>=2.", "quantifier": "all centres, counts, radii, planes and non-zero normals", "why_tests_cant": "A degenerate normal is a measure-zero event that sampling tests miss.", "anchors": ["src/torchrir/geometry/arrays.py:circular_array", "src/torchrir/geometry/arrays.py:_basis_from_normal"]}
{"id": "C44", "title": "Polyhedron arrays are inscribed in the sphere and balanced", "statement": "polyhedron_array returns 4, 8, 6, 20 or 12 pairwise distinct points, each exactly radius from the centre, with centroid at the centre; spherical arrays from angles also lie on the sphere.", "quantifier": "all centres and radii, every kind", "why_tests_cant": "Exact algebra with the golden ratio, for all radii.", "anchors": ["src/torchrir/geometry/arrays.py:polyhedron_array", "src/torchrir/geometry/arrays.py:_polyhedron_vertices", "src/torchrir/geometry/arrays.py:_spherical_array_from_angles"]}
{"id": "C45", "title": "clamp_positions projects into the room", "statement": "clamp_positions returns points within [margin, size-margin] on every axis, leaves points already inside unchanged, is idempotent and moves a point no further than necessary.", "quantifier": "all positions, sizes and margins", "why_tests_cant": "Continuum of positions; the degenerate margin case is easily missed.", "anchors": ["src/torchrir/geometry/sampling.py:clamp_positions"]}
{"id": "C46", "title": "Sampled positions respect margins, heights and distances", "statement": "sample_positions, sample_positions_with_z_range and sample_positions_min_distance return exactly num points within the margins (and z range and minimum distance), or raise after at most max_attempts draws; they never return a point violating the constraints.", "quantifier": "all random streams, sizes, margins and distances", "why_tests_cant": "The random stream is universally quantified.", "anchors": ["src/torchrir/geometry/sampling.py:sample_positions", "src/torchrir/geometry/sampling.py:sample_positions_with_z_range", "src/torchrir/geometry/sampling.py:sample_positions_min_distance"]}
{"id": "C47", "title": "Linear trajectories are uniform segments", "statement": "linear_trajectory(start,end,steps) has steps points, starts at start, ends at end, advances by equal increments and stays inside any convex region (in particular the room) containing both ends.", "quantifier": "all end points and step counts", "why_tests_cant": "All step counts including the degenerate ones.", "anchors": ["src/torchrir/geometry/trajectories.py:linear_trajectory"]}
{"id": "C48", "title": "Archive extraction cannot write outside the destination", "statement": "Extracting a dataset archive either raises before touching the disk, or creates every file and directory inside the destination directory; archives containing links are always rejected.", "quantifier": "all archives (all member lists and names, including absolute and dot-dot names)", "why_tests_cant": "Adversarial inputs: the space of path strings is infinite.", "anchors": ["src/torchrir/datasets/_archive.py:safe_extractall"]}
{"id": "C49", "title": "A downloaded archive on disk is complete", "statement": "Whatever the point at which the process is killed or the network fails, a file under the final archive name is either absent or holds the complete response body that the server announced; partial data only ever exists under the temporary name.", "quantifier": "all crash points, all chunkings and failures of the response, any number of restarts", "why_tests_cant": "Crash points cannot be enumerated by unit tests.", "anchors": ["src/torchrir/datasets/cmu_arctic.py:_stream_download", "src/torchrir/datasets/cmu_arctic.py:_download", "src/torchrir/datasets/librispeech.py:_stream_download", "src/torchrir/datasets/librispeech.py:_download"]}
{"id": "C50", "title": "Interrupted extraction is repaired on the next run", "statement": "After a crash at any point of a download=True construction, constructing the dataset again with download=True and a working network ends with the complete extracted dataset.", "quantifier": "all crash points", "why_tests_cant": "Needs every intermediate file-system state.", "anchors": ["src/torchrir/datasets/cmu_arctic.py:CmuArcticDataset._download_and_extract", "src/torchrir/datasets/librispeech.py:LibriSpeechDataset._download_and_extract"]}
{"id": "C51", "title": "Downloads are retried a bounded number of times and clean up", "statement": "A construction performs at most two attempts per download and at most four requests in total, reports failure of the last attempt, and never leaves a file under the final name after a failed download.", "quantifier": "all sequences of network outcomes", "why_tests_cant": "All failure histories.", "anchors": ["src/torchrir/datasets/cmu_arctic.py:_download", "src/torchrir/datasets/cmu_arctic.py:CmuArcticDataset._download_and_extract"]}
{"id": "C52", "title": "Transcript lines parse back to what was written", "statement": "A CMU line '( id \"text\" )' parses to (id, text) for every id without blanks, quotes or parentheses and every text, including texts containing quotes; a LibriSpeech line 'id text' parses to (id, text without surrounding blanks).", "quantifier": "all identifiers and texts", "why_tests_cant": "All strings.", "anchors": ["src/torchrir/datasets/cmu_arctic.py:_parse_text_line", "src/torchrir/datasets/librispeech.py:_parse_text_line"]}
{"id": "C53", "title": "Fixed-length sources have exactly the requested length and provenance", "statement": "load_dataset_sources returns one row per distinct speaker, every row exactly int(duration*fs) samples long and equal to the prefix of the concatenation of the listed utterances in the listed order; mixed sampling rates are rejected.", "quantifier": "all datasets, shuffles, durations and numbers of sources", "why_tests_cant": "The loop length and order depend on data and random shuffles.", "anchors": ["src/torchrir/datasets/utils.py:load_dataset_sources", "src/torchrir/datasets/utils.py:choose_speakers", "src/torchrir/datasets/dynamic_cmu_arctic.py:_load_fixed_length_signal"]}
{"id": "C54", "title": "Source loading terminates", "statement": "load_dataset_sources and the dataset builder's signal loader terminate for every dataset with at least one sentence.", "quantifier": "all datasets and shuffles", "why_tests_cant": "Termination cannot be tested.", "anchors": ["src/torchrir/datasets/utils.py:load_dataset_sources", "src/torchrir/datasets/dynamic_cmu_arctic.py:_load_fixed_length_signal"]}
{"id": "C55", "title": "Collation pads without altering audio", "statement": "collate_dataset_items returns a (batch, max length) tensor whose row i starts with item i's audio, is filled with pad_value after lengths[i], keeps ids/texts/speakers in order, and rejects empty batches and mixed sampling rates.", "quantifier": "all batches", "why_tests_cant": "All batch sizes and lengths.", "anchors": ["src/torchrir/datasets/collate.py:collate_dataset_items"]}
{"id": "C56", "title": "Dataset indexing is a stable snapshot", "statement": "After the first access, len(dataset) and the item sequence are fixed for the life of the object and indices i and i-len denote the same item, out-of-range indices raise, whatever accesses happened before and however the files change.", "quantifier": "all access histories and file-system changes", "why_tests_cant": "All histories.", "anchors": ["src/torchrir/datasets/base.py:BaseDataset"]}
{"id": "C57", "title": "Built scenes keep every source inside the allowed area", "statement": "In every scene built by build_dynamic_cmu_arctic_dataset each source stays, at every trajectory step, within the source margins of the room (up to 1e-9 relative) and at least 1.8 m from the array centre horizontally.", "quantifier": "all seeds / random streams, room sizes, margins, step counts, speeds and motion windows", "why_tests_cant": "Random placement followed by arc motion; only a proof covers all streams and steps.", "anchors": ["src/torchrir/datasets/dynamic_cmu_arctic.py:_build_constrained_source_positions", "src/torchrir/datasets/dynamic_cmu_arctic.py:_max_radius_for_azimuth", "src/torchrir/datasets/dynamic_cmu_arctic.py:_sample_position_on_azimuth", "src/torchrir/datasets/dynamic_cmu_arctic.py:_build_source_trajectory"]}
{"id": "C58", "title": "Motion follows the annotated profile", "statement": "Non-moving sources never move; a moving source rests at its start before the move window, turns about the array centre at constant radius, height and the annotated speed inside the window, and rests at its end position afterwards; exactly n_moving_sources sources move, with speeds in the requested range.", "quantifier": "all streams, windows and step counts", "why_tests_cant": "Continuum of windows and all steps.", "anchors": ["src/torchrir/datasets/dynamic_cmu_arctic.py:_build_source_trajectory", "src/torchrir/datasets/dynamic_cmu_arctic.py:_build_constrained_source_positions"]}
{"id": "C59", "title": "Initial azimuths are evenly separated", "statement": "The start azimuths of the n sources are n distinct multiples of 360/n degrees from a common base.", "quantifier": "all numbers of sources and random permutations", "why_tests_cant": "All permutations.", "anchors": ["src/torchrir/datasets/dynamic_cmu_arctic.py:_build_constrained_source_positions"]}
{"id": "C60", "title": "Random array placement is always feasible", "statement": "If the sampling of a random array centre succeeds then the array is inside the room and source placement succeeds on the first trial for every random stream.", "quantifier": "all rooms, margins and streams", "why_tests_cant": "All streams.", "anchors": ["src/torchrir/datasets/dynamic_cmu_arctic.py:_sample_random_mic_center", "src/torchrir/datasets/dynamic_cmu_arctic.py:_build_constrained_source_positions"]}
{"id": "C61", "title": "Stems share one scale, stay below the limit, and add up to the mixture", "statement": "The stems written for a scene have peak at most 0.99, are the convolved sources times one common factor, and their sum is the mixture, which also stays within full scale.", "quantifier": "all source signals and RIRs", "why_tests_cant": "Worst-case amplitudes.", "anchors": ["src/torchrir/datasets/dynamic_cmu_arctic.py:_normalize_sources", "src/torchrir/datasets/dynamic_cmu_arctic.py:build_dynamic_cmu_arctic_dataset", "src/torchrir/datasets/dynamic_cmu_arctic.py:_to_time_channel_audio"]}
{"id": "C62", "title": "A failing build does not destroy an existing dataset", "statement": "If build_dynamic_cmu_arctic_dataset raises because of invalid arguments, a dataset that already existed at dataset_root is still there.", "quantifier": "all arguments", "why_tests_cant": "All orders of validation and deletion.", "anchors": ["src/torchrir/datasets/dynamic_cmu_arctic.py:build_dynamic_cmu_arctic_dataset"]}
{"id": "C63", "title": "Saved audio has the requested peak and only that changes", "statement": "Saving with normalize=True writes the input times one non-negative factor so that the largest magnitude equals peak (silence is written unchanged); normalize=False writes the values unchanged; a non-positive peak is rejected.", "quantifier": "all audio and peaks", "why_tests_cant": "Continuum of signals.", "anchors": ["src/torchrir/io/audio.py:_save_audio"]}
{"id": "C64", "title": "Channel-first audio is written with its channels as channels", "statement": "Saving an (n_channels, n_samples) tensor writes a file with n_channels channels and n_samples frames.", "quantifier": "all channel and sample counts", "why_tests_cant": "Depends on a numeric threshold in a heuristic.", "anchors": ["src/torchrir/io/audio.py:_save_audio"]}
{"id": "C65", "title": "The default audio backend is always a registered one", "statement": "After any sequence of set_audio_backend calls get_audio_backend() is in list_audio_backends(), a failing call changes nothing, and load/save/info without backend use the last successfully set one; wav entry points accept exactly wav/wave formats.", "quantifier": "all call histories and all format strings", "why_tests_cant": "All histories.", "anchors": ["src/torchrir/io/__init__.py:set_audio_backend", "src/torchrir/io/__init__.py:_resolve_backend", "src/torchrir/io/__init__.py:_normalize_format"]}
{"id": "C66", "title": "Metadata agrees with the scene", "statement": "build_metadata reports dynamic=True exactly when there is more than one time step, rejects inconsistent step counts, gives one time stamp and one direction of arrival per step/source/microphone, with azimuth in (-pi,pi] and elevation in [-pi/2,pi/2] that reconstruct the source direction, and the array centre and spacing are the centroid and minimum distinct distance.", "quantifier": "all scenes and trajectories", "why_tests_cant": "All shapes and positions.", "anchors": ["src/torchrir/io/metadata.py:build_metadata", "src/torchrir/io/metadata.py:_compute_doa", "src/torchrir/io/metadata.py:_normalize_traj", "src/torchrir/io/metadata.py:_array_attributes"]}
{"id": "C67", "title": "Metadata timestamps reproduce the convolution", "statement": "Feeding the timestamps that build_metadata reports back into DynamicConvolver gives the same output as the default segmentation used to create the audio.", "quantifier": "all numbers of steps and signal lengths", "why_tests_cant": "Two modules each discretise time; agreement must hold for all lengths.", "anchors": ["src/torchrir/io/metadata.py:build_metadata", "src/torchrir/signal/dynamic.py:_convolve_dynamic_rir_trajectory"]}
{"id": "C68", "title": "Attribution files always carry the required fields", "statement": "save_attribution_file writes every required attribution field, the subset when present and every modification note in order, or raises before writing if a required field is missing.", "quantifier": "all attribution mappings and notes", "why_tests_cant": "All mappings.", "anchors": ["src/torchrir/io/outputs.py:save_attribution_file", "src/torchrir/io/outputs.py:_coerce_attribution_mapping"]}
{"id": "C69", "title": "setup_logging installs one handler and obeys the last level", "statement": "After any sequence of setup_logging calls there is exactly one torchrir handler and messages at or above the level of the last call are emitted.", "quantifier": "all call histories", "why_tests_cant": "All histories.", "anchors": ["src/torchrir/logging.py:setup_logging", "src/torchrir/logging.py:LoggingConfig.resolve_level"]}
{"id": "C70", "title": "get_logger names stay below torchrir", "statement": "get_logger(name) always returns the torchrir logger or a logger below it in the hierarchy, and is idempotent.", "quantifier": "all names", "why_tests_cant": "All strings.", "anchors": ["src/torchrir/logging.py:get_logger"]}
{"id": "C71", "title": "Animations show every stretch of the motion", "statement": "Animation frames have in-range, strictly increasing step indices starting at 0, at most `step` apart, ending at the last trajectory step, at a frame rate of at least 1.", "quantifier": "all step counts and strides", "why_tests_cant": "All count/stride residues.", "anchors": ["src/torchrir/viz/animation.py:_build_scene_animation"]}
{"id": "C72", "title": "Saving and loading returns the first channel", "statement": "Loading a file that was saved with normalize=False returns channel 0 of the saved audio sample by sample, up to what the file format does to a single sample.", "quantifier": "all audio of all channel layouts the library writes, all sample codecs", "why_tests_cant": "Continuum of signals and all shapes.", "anchors": ["src/torchrir/io/audio.py:_save_audio", "src/torchrir/io/audio.py:_load_audio_data"]}
{"id": "C73", "title": "Only ratios of lengths, speeds and rates matter", "statement": "Multiplying room size, every position and the speed of sound by q > 0 divides every RIR sample by q (1/r spreading) and moves nothing in time, for omnidirectional and directional devices; multiplying fs and c by q changes nothing.", "quantifier": "all rooms, positions, image selections, configs without HPF, all q > 0 (no path shorter than the 1e-6 m floor before or after)", "why_tests_cant": "Continuum of rooms and scale factors; a unit mix-up shows only off the tested scale.", "anchors": ["src/torchrir/sim/ism/api.py:simulate_rir", "src/torchrir/sim/ism/contributions.py"]}
{"id": "C74", "title": "The axes of the room are interchangeable", "statement": "Renaming the axes of the room, of the wall coefficients, of nb_img, of positions and of orientations consistently leaves the RIR unchanged.", "quantifier": "all 2-D and 3-D rooms, all permutations of the axes, all selections, with and without HPF for omnidirectional devices", "why_tests_cant": "An axis mix-up can cancel in symmetric test rooms.", "anchors": ["src/torchrir/sim/ism/images.py", "src/torchrir/sim/ism/api.py:simulate_rir"]}
{"id": "C75", "title": "Raising max_order only adds the new reflections", "statement": "simulate_rir with max_order N+1 is the result with N plus exactly the images of order N+1, so samples before the first arrival of that order stay; with all walls absorbing only the direct path remains for any order.", "quantifier": "all rooms, positions, orders, lengths, configs without HPF", "why_tests_cant": "Unbounded orders.", "anchors": ["src/torchrir/sim/ism/api.py:simulate_rir", "src/torchrir/sim/ism/images.py:_image_source_indices"]}
{"id": "C76", "title": "A scene in which nothing moves sounds like the static scene", "statement": "simulate_dynamic_rir on constant trajectories followed by trajectory-mode convolution equals simulate_rir followed by convolve_rir.", "quantifier": "all accepted static simulations, all step counts, devices, timestamps, signals", "why_tests_cant": "End to end over two pipelines, all step counts and timestamp choices.", "anchors": ["src/torchrir/sim/ism/api.py:simulate_dynamic_rir", "src/torchrir/signal/dynamic.py", "src/torchrir/signal/static.py"]}
{"id": "C77", "title": "Auralisation is superposition of paths", "statement": "simulate_rir followed by convolve_rir gives, at each microphone, the sum over all sources and images of the source signal filtered by the kernel of the path delay and scaled by wall gains over distance.", "quantifier": "all rooms, positions, selections, signals and configs without HPF", "why_tests_cant": "Continuum of scenes and signals; end to end.", "anchors": ["src/torchrir/sim/ism/api.py:simulate_rir", "src/torchrir/signal/static.py:convolve_rir"]}
{"id": "C78", "title": "Adding sound never damages a rendered video", "statement": "While save_scene_videos adds the mixture to a video, at every moment, including crashes, the video is the old file or the complete output of a successful ffmpeg run on the old file and a two-channel track made of the requested channels (the first two if unavailable, the single one twice); nothing but two temporary files beside it changes, and these are gone when the call returns.", "quantifier": "all disks, names, mixtures, channel requests, behaviours of decoder, encoder and ffmpeg, and crash points", "why_tests_cant": "Crash points and failures of an external program cannot be enumerated.", "anchors": ["src/torchrir/viz/animation.py:_add_stereo_audio_to_mp4"]}
{"id": "C79", "title": "A static plot shows the scene", "statement": "plot_scene_static draws the rectangle or exactly the twelve edges of the box, every source and every microphone once at its place under its label, numbers the sources in order, and draws nothing else.", "quantifier": "all room sizes, numbers of sources and microphones, positions, 2-D and 3-D", "why_tests_cant": "Image comparisons cover single scenes.", "anchors": ["src/torchrir/viz/scene.py:plot_scene_static", "src/torchrir/viz/scene.py:_draw_room_3d"]}
{"id": "C80", "title": "A dynamic plot shows start and path of what moves, and only positions of what rests", "statement": "plot_scene_dynamic marks every entity at its start, draws for a moving group the path of every entity through its positions at the multiples of step, up to the last, and no path for a group at rest; each group has one legend entry.", "quantifier": "all room sizes, trajectories of any length, steps, given positions, 2-D and 3-D", "why_tests_cant": "Unbounded trajectories and strides; image comparisons cover single scenes.", "anchors": ["src/torchrir/viz/scene.py:plot_scene_dynamic", "src/torchrir/viz/scene.py:_plot_entity", "src/torchrir/viz/scene.py:_is_moving"]}
{"id": "C81", "title": "All requested views of a scene are saved, with the right content", "statement": "render_scene_plots saves one static image per enabled view that the room allows and, if any trajectory is given, one dynamic image per view; each shows the given positions and trajectories cut to the coordinates of its view, and a missing trajectory means that the group stays at its positions.", "quantifier": "all scenes, trajectories, view selections, prefixes and steps", "why_tests_cant": "The loop overwrites its own inputs; that later views are unaffected must hold for all inputs.", "anchors": ["src/torchrir/viz/io.py:render_scene_plots", "src/torchrir/viz/utils.py:_trajectory_to_cpu"]}
{"id": "C82", "title": "Every frame of an animation shows its step", "statement": "An animation has one frame per selected trajectory step, in order; a frame marks every entity at its position at that step, with a trail through exactly the positions up to that step, cut to the coordinates of the view. A missing trajectory means that the group stays at its positions; without view or trajectory the call is rejected.", "quantifier": "all rooms, trajectories of any length, strides, frame rates and view selections", "why_tests_cant": "Rendered frames are not compared by tests, and lengths and strides are unbounded.", "anchors": ["src/torchrir/viz/animation.py:_build_scene_animation", "src/torchrir/viz/animation.py:animate_scene_gif"]}
{"id": "C83", "title": "Saved layouts, GIFs and videos are complete, or stop at the first failure", "statement": "save_scene_layout_images, save_scene_gifs and save_scene_videos save one file per requested view that the room allows, under distinct names, each with the content of its view, at the requested frame rate or the one that matches the length of the sound; if a rendering raises, exactly the files before it are saved and no exception escapes.", "quantifier": "all scenes, trajectories, view selections, frame rates and positions of the failing rendering", "why_tests_cant": "The exception handlers hide failures from tests.", "anchors": ["src/torchrir/viz/io.py:save_scene_layout_images", "src/torchrir/viz/io.py:save_scene_gifs", "src/torchrir/viz/io.py:save_scene_videos"]}
{"id": "C84", "title": "Every supported dataset gets a complete attribution file", "statement": "For CMU ARCTIC and LibriSpeech, in any capitalisation, attribution_for yields information that save_attribution_file accepts, and the file states the required attribution, the licence and its URL, the LibriSpeech subset and every modification note; any other dataset name is rejected; the notes say whether the scene was dynamic.", "quantifier": "all spellings of the dataset name, subsets, notes and earlier contents of the file", "why_tests_cant": "Names, subsets and notes are arbitrary strings, also with line feeds.", "anchors": ["src/torchrir/datasets/attribution.py:attribution_for", "src/torchrir/io/outputs.py:save_attribution_file"]}
{"id": "C85", "title": "The high-pass filter is the last step and acts on every response by itself", "statement": "With rir_hpf_enable, simulate_rir and simulate_dynamic_rir return exactly the result they give without it, diffuse tail included, with every response filtered along time by itself; the filter is designed with order n (default 2), cutoff rir_hpf_fc relative to half the sample rate and ftype taken from type; a cutoff of half the sample rate or more is rejected; with the filter off scipy plays no role. With a linear filter the image sum becomes the sum of filtered kernels.", "quantifier": "all rooms, devices, configurations, filter keywords, numbers of sources, microphones and steps", "why_tests_cant": "Tests compare a few filtered responses; that filtering commutes with everything else needs all calls.", "anchors": ["src/torchrir/sim/ism/hpf.py:apply_rir_hpf", "src/torchrir/sim/ism/hpf.py:_design_hpf_sos", "src/torchrir/sim/ism/api.py:simulate_rir", "src/torchrir/sim/ism/api.py:simulate_dynamic_rir"]}
{"id": "C86", "title": "Zero-phase filtering keeps responses linear and removes offsets, and keeps their onset and their samples", "statement": "With scipy's sosfiltfilt the filtered response is a linear function of the unfiltered one, constant offsets are removed completely from the first sample on, responses of at most nine samples are rejected with the default filter; and as without the filter, the response is silent before the direct sound and its samples do not depend on how many are asked for.", "quantifier": "all sections, signals and lengths", "why_tests_cant": "The default configuration has the filter on, but tests of onset and truncation switch it off.", "anchors": ["src/torchrir/sim/ism/hpf.py:apply_rir_hpf", "src/torchrir/config.py:SimulationConfig"]}
{"id": "C87", "title": "An archive that is there is reused, a damaged one is replaced, an unsafe one is refused", "statement": "Constructing a dataset with download=True sends no request and changes nothing if archive and dataset are there; extracts a complete archive without a request; replaces an archive that cannot be read by a fresh download and extracts that; and refuses an archive with links or outside members with ValueError without a request and without touching the disk.", "quantifier": "all layouts, archives, disks and networks", "why_tests_cant": "Tests mock a single good or bad archive.", "anchors": ["src/torchrir/datasets/cmu_arctic.py:CmuArcticDataset._download_and_extract", "src/torchrir/datasets/librispeech.py:LibriSpeechDataset._download_and_extract", "src/torchrir/datasets/_archive.py:safe_extractall"]}
{"id": "C88", "title": "The scenarios of the command line program place talkers and ears as described and render them", "statement": "In a room with sides of at least 1 m every scenario of examples/cli.py that finds a placement has two ears 16 cm apart and num_sources talkers inside the room, the talkers at least 1.5 m from the centre of the ears at the start; in dynamic_src the talkers and in dynamic_mic the ears move on straight lines in max(2, steps) equal steps without leaving the room, and everything else stands still. A placement is found exactly if enough of 1000 random points are far enough. The responses are those of the image method at the given order with wall coefficient 0.9, ceil(tmax * fs) samples and the default high-pass filter, and the audio is the sum over the talkers of the signals convolved with the responses, in the moving scenarios with the responses of the current step.", "quantifier": "all rooms, numbers of sources, steps, orders, lengths, signals and random streams", "why_tests_cant": "The examples are not tested; a run shows one random placement and one output file.", "anchors": ["examples/cli.py:_run_static", "examples/cli.py:_run_dynamic_src", "examples/cli.py:_run_dynamic_mic", "examples/cli.py:main"]}
{"id": "C89", "title": "Options, configuration file and built-in values of the command line program", "statement": "Each documented option of examples/cli.py sets its setting to its argument read as documented, and no other option is accepted. Every setting has the value of the last option for it, else that of the configuration file named by --config-in (directories become paths, a room a list of floats, strings for numbers are converted), else its built-in value; a command line is accepted exactly if all of these can be read. A rejected command line has no effect, and neither has one with an unknown level for the log or a seed that is no number or does not fit into 64 bits. Any other accepted one writes its configuration if --config-out is set and then runs the scenario its mode names; a later run with --config-in on a file with what was written runs the same scenario with the same settings. A flag that a configuration turns on cannot be turned off by an option, and an unknown mode in a configuration is noticed only after the configuration was written.", "quantifier": "all command lines, configurations, conversions of strings to numbers and file systems", "why_tests_cant": "The examples are not tested; a test would try a few command lines, not every combination of options and configuration entries.", "anchors": ["examples/cli.py:main", "examples/cli.py:_build_parser", "examples/cli.py:_load_config", "examples/cli.py:_normalize_config_values", "examples/cli.py:_serialize_args", "src/torchrir/util/cli.py:add_output_args", "src/torchrir/logging.py:LoggingConfig.resolve_level"]}
{"id": "C90", "title": "The script that builds a dynamic dataset", "statement": "examples/build_dynamic_dataset.py draws its microphones once (two ears, or a line with 8 cm spacing moved into the room) and makes its scenes one after the other. In every finished scene the asked number of sources moves, straight or in two legs, the others stand still, the reported modes and moving indices say which; all sources start at least 1.5 m from the microphones' centre and stay 0.5 m from the walls. The responses are those of the image method at every step, the mixture is the sum of the references, and the files are named after scene and source without collisions and hold the signals brought to a peak of 1. Scene i depends only on the generators of seed and seed + i, so asking for more scenes does not change the earlier ones; an exception ends the run at the scene that raised it. The script rejects no sources and no microphones; a zigzag of two steps, nine or more microphones and long lines near a wall do not work as intended. The names of up to a thousand scenes sort like the scenes.", "quantifier": "all 2-D and 3-D rooms with sides of at least 1 m, arguments, random generators, loaded signals and high-pass filters", "why_tests_cant": "The examples are not tested, the scenes are random, and a run needs a downloaded dataset.", "anchors": ["examples/build_dynamic_dataset.py:main", "examples/build_dynamic_dataset.py:_build_source_trajectories", "examples/build_dynamic_dataset.py:_random_trajectory", "src/torchrir/io/outputs.py:save_scene_audio"]}
{"id": "C91", "title": "Datasets in the same directory do not disturb each other", "statement": "Constructing a CMU ARCTIC speaker or a LibriSpeech subset with download=True never changes the archive, the temporary file or the extracted files of another speaker, subset or of the other dataset in the same root directory, at no moment and however the construction ends; a dataset that is not there does not count as extracted because others are.", "quantifier": "all speakers and subsets, archives whose members lie where the published ones do, disks, networks, crash points and sequences of constructions", "why_tests_cant": "Tests construct single datasets; interference shows only for particular combinations and crash points.", "anchors": ["src/torchrir/datasets/cmu_arctic.py:CmuArcticDataset.__init__", "src/torchrir/datasets/librispeech.py:LibriSpeechDataset.__init__", "src/torchrir/datasets/cmu_arctic.py:CmuArcticDataset._download_and_extract", "src/torchrir/datasets/librispeech.py:LibriSpeechDataset._download_and_extract"]}
{"id": "C92", "title": "With the default high-pass filter and with motion, what is heard is the superposition of the filtered paths", "statement": "Simulating and convolving in the default configuration gives the sum over all sources and images of the source signal through the filtered kernel of the path, attenuated by walls and distance; with moving sources or microphones every signal sample travels along the paths of the step that is current at that sample. Scaling room, positions and speed of sound by q divides the result by q, scaling sampling rate, speed of sound and cutoff together changes nothing, and raising max_order by one adds exactly the filtered new reflections.", "quantifier": "all rooms, positions, trajectories, signals, orders, devices, timestamps and filters that act linearly on rows", "why_tests_cant": "Tests compare single rooms; the closed form connects simulation, filter and convolution for all of them.", "anchors": ["src/torchrir/sim/ism/api.py:simulate_rir", "src/torchrir/sim/ism/api.py:simulate_dynamic_rir", "src/torchrir/sim/ism/hpf.py:apply_rir_hpf", "src/torchrir/signal/static.py:convolve_rir", "src/torchrir/signal/dynamic.py:DynamicConvolver.convolve"]}
{"id": "C93", "title": "Different descriptions of the same motion sound the same", "statement": "Dividing the steps of a trajectory into more steps with the same responses does not change the output of the dynamic convolution, with uniform steps or timestamps on either side; repeating every step k times changes nothing. Hop mode equals trajectory mode when the signal has exactly hop samples per step, and equals trajectory mode with the timestamps t*hop/fs, followed by zeros, when the steps cover the signal.", "quantifier": "all numbers of steps, sources, microphones, signal and response lengths, devices, timestamps, hops and sampling rates", "why_tests_cant": "Tests compare single trajectories; rounding of segment starts goes wrong only for particular lengths.", "anchors": ["src/torchrir/signal/dynamic.py:DynamicConvolver.convolve", "src/torchrir/signal/dynamic.py:_convolve_dynamic_rir_trajectory", "src/torchrir/signal/dynamic.py:_convolve_dynamic_rir_hop"]}
{"id": "C94", "title": "Whole delays give single samples; small movements change the response a little", "statement": "A path whose delay is a whole number of samples puts a single sample of height gain/distance into the response, with and without the lookup table. If source and microphone move by delta metres together, each path changes by at most pi/2 per sample of delay, plus the change of 1/r, plus one step of height sin^2(pi/(frac_delay_length-1)) for every whole number of samples that its delay passes. Where no path has a whole delay the response is a continuous function of the positions; at a whole delay of the direct sound the step really occurs, for arbitrarily small movements.", "quantifier": "all rooms, positions, movements, orders, box limits, valid configurations, sampling rates and devices", "why_tests_cant": "Tests compare single positions; the bound and the steps concern all pairs of positions, and the step is about a thousandth of the amplitude.", "anchors": ["src/torchrir/sim/ism/api.py:simulate_rir", "src/torchrir/sim/ism/accumulate.py:_accumulate_rir_batch", "src/torchrir/sim/ism/contributions.py:_compute_image_contributions_batch"]}
{"id": "C95", "title": "The example scripts static.py, dynamic_src.py and dynamic_mic.py", "statement": "In a room with sides of at least 1 m every script places the requested number of microphones around a random centre (two ears, or a line with neighbours 8 cm apart) and num_sources sources that start at least 1.5 m from it, all inside the room. In dynamic_src.py exactly min(num_sources, max(1, num_moving_sources)) sources walk, in a straight line and at constant height, the others stand still. In dynamic_mic.py the centre moves in a straight line at constant height, the microphones of every step are those around the current centre, and up to eleven of them keep their arrangement. A placement is found exactly if the number of microphones is positive and enough of the first 1000 points drawn are far enough away. The reference of a source is its signal through its own responses, the mixture is the sum of the references, and with up to eight microphones the files hold them brought to a peak of 1, with names that differ between all files of all scripts. With two microphones the scenes are those of the command line program (in the plane, with all sources moving).", "quantifier": "all rooms, numbers of sources, microphones, moving sources and steps, orders, lengths, signals, fair random generators, filters and devices", "why_tests_cant": "The scripts are not tested at all; the claims concern every state of the random generator and every combination of arguments.", "anchors": ["examples/static.py:main", "examples/dynamic_src.py:main", "examples/dynamic_mic.py:main"]}
{"id": "C96", "title": "The command line of the dataset builder, its files and its metadata", "statement": "python -m torchrir.datasets.dynamic_cmu_arctic calls build_dynamic_cmu_arctic_dataset exactly when every option is known and has arguments of its kind, --cmu-root was given and the three triplets can be read; each argument of the call is what the last option for it says, or its default, and the defaults of the options are those of the function. The files of a dataset have different paths, and up to ten thousand scenes the directories sort like the scenes. source_info.json has one record per source in order, which says that the source moves exactly if it does, with its speed and turn; the speed line of the pictures names exactly the moving sources. While the array centre is drawn at random, mic_center has no effect.", "quantifier": "all command lines, string conversions, numbers of scenes and sources, random draws and environments", "why_tests_cant": "The command line has 34 options that can be repeated and contradict each other; tests never call main. The metadata claim concerns every state of the random generator.", "anchors": ["datasets/dynamic_cmu_arctic.py:_parse_args", "datasets/dynamic_cmu_arctic.py:main", "datasets/dynamic_cmu_arctic.py:_parse_triplet", "datasets/dynamic_cmu_arctic.py:build_dynamic_cmu_arctic_dataset", "datasets/dynamic_cmu_arctic.py:_build_layout_annotation_lines"]}
{"id": "C97", "title": "The getting-started example", "statement": "Whatever the random jitter, no assertion of getting_started.py fails and the script runs to its end: the microphones are 20 cm apart within 3 cm of the room centre, the two sources are 2.2 m away with 120 degrees between them, everything stays at least 1.49 m from the walls; in the second half source 1 and the microphones stay and source 2 walks in 128 equal steps towards source 1, approaching it at every step. The responses, the convolved audio and the six files (different names, each signal at peak 1) are those of the image method and of the static and dynamic convolution.", "quantifier": "all values of the random generator, all pairs of signals, all rates above 20 Hz, all filters and environments", "why_tests_cant": "The script runs with one seed only; the assertions and the geometry have to hold for every jitter.", "anchors": ["examples/getting_started.py"]}
{"id": "C98", "title": "The number of orientations", "statement": "A directional simulation accepts one direction for all devices of a kind or one direction for each of them, in any of the documented forms (vectors, angles in the plane, azimuth and elevation in space), and rejects every other number of directions, for sources and for microphones, in static and in dynamic simulations.", "quantifier": "all rooms, all numbers of sources and microphones, all orientation tensors, all patterns", "why_tests_cant": "Whether a wrong number is noticed depends on broadcasting rules that differ for sources and microphones and on the numbers involved; a few sample shapes do not show the exceptions.", "anchors": ["src/torchrir/sim/ism/api.py:86-109", "src/torchrir/sim/ism/api.py:187-212", "src/torchrir/sim/ism/contributions.py:79-97", "src/torchrir/sim/ism/accumulate.py:41-46"]}
{"id": "C99", "title": "The sentences of a corpus on disk", "statement": "For a LibriSpeech subset or a CMU ARCTIC speaker on disk, available_sentences lists exactly the transcript lines whose audio file is there, each once and with its text, speaker and chapter; a dataset of one LibriSpeech speaker lists the sentences of that speaker; list_speakers of a subset is the sorted list of its speaker directories; load_audio of a listed sentence reads the audio file that belongs to the line; so an item of the dataset has identifier, text and audio of one and the same utterance.", "quantifier": "all directory contents in the layout of the corpora, whatever else lies there and in whatever order it is listed; all speakers, chapters, texts and indices", "why_tests_cant": "A fixture corpus has a few files in one order; that listing, path construction from identifiers and transcript parsing agree for every corpus is a statement about all directory trees.", "anchors": ["src/torchrir/datasets/librispeech.py:90-130", "src/torchrir/datasets/librispeech.py:195-198", "src/torchrir/datasets/cmu_arctic.py:94-154", "src/torchrir/datasets/base.py:53-75"]}
{"id": "C100", "title": "Items name their speaker, listed speakers can be opened", "statement": "Every item of a dataset names the speaker of its utterance, and every speaker that list_speakers names can be opened as a dataset.", "quantifier": "all corpora on disk, all indices, all speakers", "why_tests_cant": "The tests use single-speaker datasets whose directory is there; the deviations show up for whole subsets and for speakers that were not downloaded.", "anchors": ["src/torchrir/datasets/base.py:56-70", "src/torchrir/datasets/librispeech.py:82-96", "src/torchrir/datasets/cmu_arctic.py:44-47", "src/torchrir/datasets/cmu_arctic.py:78-92", "src/torchrir/datasets/cmu_arctic.py:143-145"]}
{"id": "C101", "title": "The example scripts leave complete and truthful outputs", "statement": "Each of the scripts static.py, dynamic_src.py and dynamic_mic.py writes the attribution file before anything else, whatever happens later; writes references, mixture and metadata in this order, so that metadata is there exactly if the run has finished; and the metadata is truthful: it lists for every source the file that holds the signal of the named utterances of the named speaker as heard at the microphones, and gives the positions, trajectories and directions of the simulated scene. A finished run leaves only its own files in the output directory.", "quantifier": "all datasets, shuffles and random draws, all rooms, sources, microphones and step counts, all outcomes of loading, and all exceptions in between", "why_tests_cant": "A run of a script shows one scene; that references, names, speakers, utterances and positions belong together for every outcome, and what is left after an exception at any step, is a statement about all runs.", "anchors": ["examples/static.py:133-274", "examples/dynamic_src.py:141-308", "examples/dynamic_mic.py:135-303", "src/torchrir/io/outputs.py:18-114"]}
{"id": "C102", "title": "Rounded additions: what device and chunk sizes can change", "statement": "On a device whose additions are rounded, simulated responses do not depend on image_chunk_size and accumulate_chunk_size, on how the device orders the additions of one scatter_add_, and hence not on the device, beyond rounding: a sample differs from the exact image-source sum by at most (1+u)^n - 1 times the sum of the magnitudes of the contributions (n images, relative error u per addition), and rounding never makes a call fail. A device that adds in order gives the same samples to the last bit for all chunk sizes (for a device that adds in another order only the bound holds).", "quantifier": "all additions (for the bit-exact part) or all additions of relative error u, all orders of every scatter_add_, all chunk sizes, rooms, positions, gains and configurations", "why_tests_cant": "Tests compare two chunk sizes or two devices with a tolerance found by trial; the order of atomic additions on a GPU differs from run to run, and no test covers all orders.", "anchors": ["src/torchrir/sim/ism/accumulate.py:28-115", "src/torchrir/sim/ism/api.py:108-131", "src/torchrir/sim/ism/api.py:209-236"]}
{"id": "C103", "title": "A dynamic dataset on disk is complete, truthful and licensed", "statement": "The dataset script writes the attribution file before any recording-derived file, then scene by scene the references, the mixture and the metadata, under names none of which repeats. If it is interrupted, every scene whose metadata is there is complete. In such a scene each listed file holds the signal of the listed speaker's listed utterances as heard at the shared microphones from the moving source; the mixture is the sum of these; motion modes, moving sources, trajectories, directions, licence and sampling rate in the metadata are those of the audio. The script finishes exactly if all scenes can be loaded and their motion is found.", "quantifier": "all rooms of 2 or 3 dimensions with sides of at least 1 m, numbers of scenes and sources, 1 to 8 microphones, seeds, generators, corpora, durations, orders and points of failure", "why_tests_cant": "The script is not run by any test; interruptions, speaker assignment and the agreement of metadata with audio over all seeds cannot be enumerated.", "anchors": ["examples/build_dynamic_dataset.py:298-466", "src/torchrir/io/outputs.py:12-115", "src/torchrir/datasets/attribution.py:27-75"]}
{"id": "C104", "title": "Floating point: how far a simulated response is from the exact one", "statement": "If every operation of a simulation of omnidirectional devices is carried out in binary floating point of p significant bits (image positions, wall gains, distances, delays, kernel taps, accumulation), the simulation does not fail on account of rounding and every sample is within an explicit bound of the exact image-source sum. The bound adds up, over the images, amplitude times rounding errors of kernel, amplitude and delay; if a delay lies within its own error of a whole number of samples, a step of the window comes on top. It applies unless source image and microphone nearly coincide; for points in a room it holds if their distance is at least 400 u times the sum of their coordinates. With more bits the response converges to the exact one unless a delay is a whole number of samples. With exact arithmetic the floating-point model is the simulation of the other properties.", "quantifier": "all precisions of 14 bits or more, all machines whose elementary operations round to nearest, whose norms, powers and products are good to four roundings and whose sinc and tables are good to epsilon, all orders of the scattered additions, all rooms, positions, orders, kernel lengths and chunk sizes, static and dynamic", "why_tests_cant": "Tests compare single runs with a tolerance found by trial, in one precision on one device; they neither bound the error for other rooms nor find the delays at which the whole part tips over.", "anchors": ["src/torchrir/sim/ism/images.py:42-66", "src/torchrir/sim/ism/contributions.py:55-145", "src/torchrir/sim/ism/accumulate.py:20-115", "src/torchrir/sim/ism/api.py:86-238"]}
{"id": "C105", "title": "Floating point: directional devices", "statement": "The error bound of C104 extends to directional devices with an orientation each, given as vectors, as angles in two dimensions or as azimuth and elevation in three. Cosines and sines of the angles, direction, normalised axis, the cosine between them and the pattern's gain are computed in floating point too; the gain of each device is then off by at most 80 u times the path's scale over its length, so that each image's bound takes a factor for either device. The exception is the half-omni pattern, whose gain jumps: it may be off by 1 if the cosine is within its error of zero. Nothing fails on account of rounding. For omnidirectional devices the bound is that of C104. With more bits the response converges to the exact one unless a delay is a whole number of samples or a half-omni device sees an image at a right angle. With exact arithmetic the floating-point simulations are the exact ones for all inputs, angles as orientations, filter, tail and rejected calls included.", "quantifier": "all precisions of 14 bits or more, all machines as in C104 whose sums of up to three numbers, cosines and sines are good to four roundings, all patterns and spellings for sources and microphones, all axes not shorter than 2e-8 and all angles, all rooms, positions, orders, kernel lengths and chunk sizes, static and dynamic; exact arithmetic: all inputs", "why_tests_cant": "Tests of patterns check a few angles with a tolerance. They do not bound how the error of a direction grows as image and microphone come close, nor find the angle at which a pattern with a jump takes the wrong side.", "anchors": ["src/torchrir/sim/directivity.py:9-24", "src/torchrir/sim/ism/contributions.py:55-145", "src/torchrir/sim/ism/helpers.py:76-80", "src/torchrir/util/orientation.py:9-46", "src/torchrir/sim/ism/api.py:86-238"]}
{"id": "C106", "title": "Images of one source agree with the batch", "statement": "_compute_image_contributions, the function for one source, gives for every microphone and image the sample and attenuation that _compute_image_contributions_batch gives for this source alone, and raises the same errors, whatever orientations the microphones have.", "quantifier": "all sources, microphones, rooms, image indices and coefficients, patterns, orientations of the source, and of the microphones as one vector, one vector each, or none", "why_tests_cant": "Nothing calls the function, so no test reaches it. With omnidirectional devices or one direction for all microphones the two functions agree, and with a direction for each microphone the usual call only raises; it is for equal numbers of images and microphones that the result is silently wrong.", "anchors": ["src/torchrir/sim/ism/contributions.py:16-52", "src/torchrir/sim/ism/contributions.py:55-97", "src/torchrir/sim/ism/images.py:35-47", "src/torchrir/sim/ism/helpers.py:76-80"]}
{"id": "C107", "title": "Work and report of the benchmark script", "statement": "The benchmark script runs one of two fixed workloads that always succeed: the 2 by 16 responses of a fixed scene, or a moving microphone hearing one second of noise. On the CPU and then on the chosen device it runs the workload once to warm up and then the requested number of times, reports the average duration of the timed runs in milliseconds, and at last the ratio of the averages; if the chosen device is the CPU it says so instead. Arguments it cannot use are rejected before any work.", "quantifier": "all linear filters scipy may design, noise, readings of the clock, sets of available devices, and values of the four options", "why_tests_cant": "The script takes minutes and prints timings, which differ on each run and computer, so tests do not run it; the sums over some thousands of images for 32 pairs and any filter, and the number of runs for any number of repetitions, are beyond comparison with stored values.", "anchors": ["examples/benchmark_device.py:33-62", "examples/benchmark_device.py:65-114", "examples/benchmark_device.py:117-163"]}
{"id": "C108", "title": "A microphone at the place of a source or of an image", "statement": "If a microphone lies exactly at a source or at one of its images, the simulation still returns the response of the image formula, with the distance of that path counted as a micrometre, whatever the patterns of the two devices.", "quantifier": "all rooms, image sets, scenes, orientations, patterns and spellings of patterns; static and moving", "why_tests_cant": "The position sets on which a path has length zero have measure zero, so random scenes never meet them, and an image at a microphone is not visible from the positions; a moving scene is spoilt by a single step.", "anchors": ["src/torchrir/sim/ism/contributions.py:_compute_image_contributions_batch", "src/torchrir/sim/ism/contributions.py:_compute_image_contributions_time_batch", "src/torchrir/sim/ism/helpers.py:_cos_between", "src/torchrir/sim/directivity.py:directivity_gain"]}
{"id": "C109", "title": "Integer tensors are as good as floating ones", "statement": "The result of a simulation depends on the numbers given for positions, room size and wall coefficients, and not on whether the tensors that hold them are integer or floating ones.", "quantifier": "all rooms, scenes, arguments and dtypes of the tensors and of the `dtype` argument; static and moving", "why_tests_cant": "Tests write positions with decimal points; the dtype of one tensor decides the dtype of the whole computation, and what happens with an integer one depends on whether any path of any pair arrives within the response.", "anchors": ["src/torchrir/sim/ism/prepare.py:_prepare_static_tensors", "src/torchrir/sim/ism/prepare.py:_prepare_dynamic_tensors", "src/torchrir/sim/ism/accumulate.py:_accumulate_rir_batch_impl", "src/torchrir/sim/ism/diffuse.py:_apply_diffuse_tail", "src/torchrir/util/acoustics.py:estimate_t60_from_beta"]}
{"id": "C110", "title": "What the diffuse tail contains", "statement": "From its first sample on, the diffuse tail is the noise of the configured seed with an amplitude that falls by 60 dB per reverberation time of the room (estimated from the walls by Sabine's formula, or the time the room was made for), and that continues the response at its level.", "quantifier": "all rooms, scenes, arguments, patterns, noise generators, tdiff and tmax values", "why_tests_cant": "The tail is random; a wrong time constant or a wrong level yields a signal that looks as plausible as the right one.", "anchors": ["src/torchrir/sim/ism/diffuse.py:_apply_diffuse_tail", "src/torchrir/util/acoustics.py:estimate_t60_from_beta", "src/torchrir/util/acoustics.py:estimate_beta_from_t60"]}
{"id": "C111", "title": "Timestamps out of order or out of range are refused", "statement": "A convolution in trajectory mode with explicit timestamps succeeds exactly when the first timestamp is 0, no step starts (in whole samples) before the previous one, and none starts after the end of the signal.", "quantifier": "all signals, responses, timestamps, sampling rates, devices", "why_tests_cant": "Nothing in the code checks the order: whether a bad list raises follows from the lengths of slices, for every combination of step lengths, response length and device.", "anchors": ["src/torchrir/signal/dynamic.py:_convolve_dynamic_rir_trajectory", "src/torchrir/signal/dynamic.py:_convolve_dynamic_rir_trajectory_batched"]}
{"id": "C112", "title": "An audio file carries its rate, format and subtype, and can be copied", "statement": "A saved file has the sampling rate, number of channels and frames that were given, the format of its name and the subtype that was asked for (as an argument, with AudioData or with the tensor, else that of the format); info_audio reports them; the wav functions write wav files only; a file that is loaded as AudioData and saved under a name of the same format is loaded again as it was; other files do not change.", "quantifier": "all audio, rates, names, formats, subtypes, disk contents, audio libraries", "why_tests_cant": "All names, formats and subtypes in combination; a copy looks right when its peak happens to be 1.", "anchors": ["src/torchrir/io/audio.py:_save_audio", "src/torchrir/io/audio.py:_load_audio_data", "src/torchrir/io/audio.py:save_audio_data", "src/torchrir/io/audio.py:info_audio", "src/torchrir/io/__init__.py:save_wav"]}
{"id": "C113", "title": "Simulations in several threads do not disturb each other", "statement": "Static and dynamic simulations may run at the same time in several threads of a process, which share the dictionaries of tables and compiled functions. Whatever the order in which the threads act, a call that has ended has the outcome it has when it is the only call in a fresh process, and no call waits for another.", "quantifier": "all numbers of threads, all calls in them (devices, dtypes, configurations, scenes), all interleavings of their accesses to the dictionaries", "why_tests_cant": "Interleavings are chosen by the scheduler; a test sees a few of them, mostly the same ones.", "anchors": ["src/torchrir/sim/ism/accumulate.py:_get_accumulate_fn", "src/torchrir/sim/ism/accumulate.py:_get_fdl_grid", "src/torchrir/sim/ism/accumulate.py:_get_sinc_lut", "src/torchrir/sim/ism/accumulate.py:_accumulate_rir_batch"]}
{"id": "C114", "title": "A dataset object may be shared by threads", "statement": "Threads that read items of the same dataset object get what each of them would get from an object of its own, whatever the order in which they act, and the sentences of an object are settled once an item has been read.", "quantifier": "all corpora, indices, numbers of threads, interleavings, changes of the files by others", "why_tests_cant": "The failure needs a thread to be overtaken between two lines and the files to change in between.", "anchors": ["src/torchrir/datasets/base.py:BaseDataset._get_sentences", "src/torchrir/datasets/base.py:BaseDataset.__getitem__"]}
{"id": "C115", "title": "Processes that download at the same time leave complete archives", "statement": "Several processes may download archives to the same disk at the same time. At every moment each archive is what it was before, missing, or complete; a process that returns has left a complete archive, one that raises has left none; other files are not touched and every process comes to an end.", "quantifier": "all numbers of processes, archives, answers of the servers, states of the disk, interleavings of the system calls", "why_tests_cant": "The result depends on which process acts between two system calls of another one.", "anchors": ["src/torchrir/datasets/cmu_arctic.py:_download", "src/torchrir/datasets/cmu_arctic.py:_stream_download", "src/torchrir/datasets/librispeech.py:_download", "src/torchrir/datasets/librispeech.py:_stream_download"]}
{"id": "C116", "title": "The metadata file can be read back", "statement": "The metadata of every accepted scene can be saved, every JSON reader can read the file, and reading it gives the room, the positions, orientations and trajectories, the directions, the timestamps and the additional entries with the values they had, tensors as nested lists. A failing attempt to save leaves an earlier file as it was.", "quantifier": "all scenes, additional entries (nested dictionaries, lists, tuples, tensors of any shape, paths, other objects), earlier files", "why_tests_cant": "The additional entries are arbitrary nested Python values; a test tries a few.", "anchors": ["src/torchrir/io/metadata.py:build_metadata", "src/torchrir/io/metadata.py:save_metadata_json", "src/torchrir/io/metadata.py:_to_serializable", "src/torchrir/io/outputs.py:save_scene_metadata"]}
{"id": "C117", "title": "Sampled positions are uniform and independent", "statement": "If the values of the random generator are independent and uniform on [0, 1], the positions of sample_positions, sample_positions_with_z_range and sample_positions_min_distance are independent, and each is uniform on the part of the room that the margin, the range of heights and the minimum distance leave. Rejected candidates and the limit on the attempts introduce no bias: sample_positions_min_distance returns with the probability that enough of max_attempts independent candidates are far enough, whatever the positions then are.", "quantifier": "all room sizes and dimensions, margins, ranges of heights, centres, distances, numbers of positions and attempts, and measurable sets of positions", "why_tests_cant": "It is about a distribution. A test sees finitely many samples and can only estimate it.", "anchors": ["src/torchrir/geometry/sampling.py:sample_positions", "src/torchrir/geometry/sampling.py:sample_positions_with_z_range", "src/torchrir/geometry/sampling.py:sample_positions_min_distance"]}
{"id": "C118", "title": "When opening a dataset fetches something", "statement": "Opening a dataset without download requests nothing, leaves the disk alone, and succeeds exactly if the dataset is known and its directories are there. With download, nothing is requested if everything is there, and what is there can be opened without a network. Scripts fetch only the speakers they use, and fetch nothing if they were not told to download.", "quantifier": "all disks, roots, networks, archive contents, speakers, subsets", "why_tests_cant": "Tests run against a few prepared directories; which combination of archive, directory and flag reaches the network depends on the whole state of the disk.", "anchors": ["src/torchrir/datasets/cmu_arctic.py:CmuArcticDataset.__init__", "src/torchrir/datasets/librispeech.py:LibriSpeechDataset.__init__", "examples/build_dynamic_dataset.py:_dataset_factory", "examples/static.py:main", "src/torchrir/datasets/utils.py:load_dataset_sources"]}
{"id": "C119", "title": "Command lines of the example scripts", "statement": "The settings of static.py, dynamic_src.py, dynamic_mic.py and build_dynamic_dataset.py are what the options on the command line, one after the other, make of the defaults; an option given again later wins. A command line is accepted exactly if each option is one of the script and has arguments of the right number and kind. An unknown option, log level or device ends the script before it writes a file. Otherwise the script loads and simulates with exactly these settings.", "quantifier": "all command lines, all readings of numbers, all devices, datasets, generators", "why_tests_cant": "Tests would start each script with a few options; how options interact when given in any order and number is not enumerable.", "anchors": ["examples/static.py:main", "examples/dynamic_src.py:main", "examples/dynamic_mic.py:main", "examples/build_dynamic_dataset.py:main", "src/torchrir/util/cli.py:add_output_args"]}
{"id": "C120", "title": "Datasets that share scenes", "statement": "A run of build_dynamic_dataset.py for more scenes begins with the files of the run for fewer scenes. Runs that differ only in microphones, order, response length or device have the same sources with the same utterances on the same paths. A scene depends only on the generator of the seed and on its own one. Runs with different seeds have different scenes.", "quantifier": "all arguments, generators, datasets, devices, scene numbers", "why_tests_cant": "Tests compare two runs at most; that all pairs of runs share what they should share, and nothing else, concerns all generators.", "anchors": ["examples/build_dynamic_dataset.py:main", "examples/build_dynamic_dataset.py:_build_source_trajectories"]}
{"id": "C121", "title": "Saving the videos of a scene", "statement": "save_scene_videos never raises. At every moment it has changed nothing but the wanted videos, their temporary files and directories on the way to the output directory. A video reported as saved is whole: the encoded frames of its view, silent or with the sound of the mixture; a warning is logged exactly if a wanted video is not reported. If drawing, encoding and muxing go well, every wanted video is there and no temporary file is left. A view that can be drawn and encoded is saved.", "quantifier": "all scenes, disks, encoders, decoders, ffmpeg runs, moments at which the process is killed", "why_tests_cant": "Tests run one ffmpeg that succeeds; failures in the middle of one of the two videos, with every disk around them, are not reachable by them.", "anchors": ["src/torchrir/viz/io.py:save_scene_videos", "src/torchrir/viz/animation.py:animate_scene_mp4", "src/torchrir/viz/animation.py:_add_stereo_audio_to_mp4"]}
{"id": "C122", "title": "A rigid wall is a mirror", "statement": "In a room whose low wall on one axis has the coefficient 1, simulate_rir returns the sum of two responses in the room that is twice as long on that axis and has the coefficient of the other wall at both ends: one for the source at the same distance from the middle, one for its mirror image. Both calls use the image counts that estimate_image_counts_from_tmax gives for their room.", "quantifier": "all room sizes, axes, coefficients of the other walls, sources and microphones in the room, rates, speeds of sound, durations and kernels of at least 3 taps (omnidirectional devices, high-pass filter off)", "why_tests_cant": "The identity compares infinitely many pairs of rooms with different image lattices; a test sees a few pairs, and a wrong parity or exponent in the lattice can cancel there.", "anchors": ["src/torchrir/sim/ism/images.py:_image_source_indices", "src/torchrir/sim/ism/api.py:simulate_rir", "src/torchrir/util/acoustics.py:estimate_image_counts_from_tmax"]}
{"id": "C123", "title": "Scaling the walls weights the reflection orders", "statement": "Multiplying all wall coefficients by t multiplies the contribution of the reflections of order j by t to the power j, for every max_order at once. In particular the response of a room with uniform coefficient b is determined by the responses of the same room with rigid walls: the difference of the rigid responses of max_order j and j-1 counts b to the power j.", "quantifier": "all rooms, coefficients, factors t of any sign, max_order, sources and microphones (omnidirectional devices, high-pass filter off)", "why_tests_cant": "A polynomial identity in a real parameter, of arbitrary degree; finitely many values of t and max_order do not establish it.", "anchors": ["src/torchrir/sim/ism/images.py:_image_source_indices", "src/torchrir/sim/ism/api.py:simulate_rir"]}
{"id": "C124", "title": "From some max_order on the response does not change", "statement": "With nsample = ceil(tmax fs), a kernel of at least 3 taps and max_order at least the sum of the counts of estimate_image_counts_from_tmax, a call of simulate_rir with max_order returns exactly what the call with nb_img set to these counts returns.", "quantifier": "all rooms, durations, max_order from the sum on, sources and microphones in the room, directivities, orientations, tails and filters", "why_tests_cant": "Concerns all larger orders at once; the number of images grows with the cube of the order, so tests stop at small ones.", "anchors": ["src/torchrir/sim/ism/images.py:_image_source_indices", "src/torchrir/sim/ism/api.py:simulate_rir", "src/torchrir/util/acoustics.py:estimate_image_counts_from_tmax"]}
{"id": "C125", "title": "How many images an order has, and what higher orders can contribute", "statement": "max_order = N selects 2N^2+2N+1 images in two dimensions and (4N^3+6N^2+8N+3)/3 in three. If no wall coefficient exceeds b in absolute value, raising max_order from N to N' changes every sample by at most the sum over the new orders j of the number of images of order j times b^j, divided by the distance of source and microphone. If b < 1 the responses converge for max_order to infinity, uniformly in the sample and in the length of the response.", "quantifier": "all orders, rooms, coefficients, sources and microphones in the room, rates, speeds of sound, kernels and lengths (omnidirectional devices, high-pass filter off)", "why_tests_cant": "A limit and a bound over infinitely many orders; the number of images grows with the cube of the order.", "anchors": ["src/torchrir/sim/ism/images.py:_image_source_indices", "src/torchrir/sim/ism/api.py:simulate_rir"]}
{"id": "C126", "title": "The convolvers in floating point", "statement": "On a machine whose additions have the relative error u and whose transforms and complex products have the relative error e, every sample of convolve_rir and of DynamicConvolver, in both modes and on every device, differs from the exact convolution with the responses in force by at most ((1+u)^n (1+e)^4 - 1) times the product of the magnitudes of signal and responses, where n is the number of additions; in the dynamic modes only the steps heard at that sample count. In trajectory mode every step begins at the integer part of a number within four roundings of its exact start, so the steps are the exact ones whenever no start is that close to an integer; in hop mode signals below 2^53 samples are cut into the right number of hops. A uniform start on an integer can be rounded below it: two samples and 98 responses let response 49 begin one sample early. Without rounding the model is that of C22 to C28, and the errors go to zero with the precision.", "quantifier": "all signals and responses of at least one sample, numbers of sources, microphones, steps, hops and samples, all devices, timestamps that do not pass the end of the signal by a sample in the rounded calculation, and sampling rates, all machines with the stated accuracy", "why_tests_cant": "A bound over all inputs and all orders of rounding; a test compares one library on a few signals with a tolerance.", "anchors": ["src/torchrir/signal/static.py:fft_convolve", "src/torchrir/signal/static.py:convolve_rir", "src/torchrir/signal/dynamic.py:_convolve_dynamic_rir_trajectory", "src/torchrir/signal/dynamic.py:_convolve_dynamic_rir_trajectory_batched", "src/torchrir/signal/dynamic.py:_convolve_dynamic_rir_hop"]}
{"id": "C127", "title": "Positions and trajectories in floating point", "statement": "With Python's double precision numbers and tensors of p significant bits: the positions of sample_positions, sample_positions_with_z_range and sample_positions_min_distance keep the margin up to one rounding of the tensor and three of Python's, the heights are in the usable height range up to the same roundings, positions keep the requested distance from the centre up to five roundings, and for p at most 50 every position is inside the room if its size is representable. clamp_positions gives the nearest point of a box inside the room whose sides are the margins up to two roundings, and clamping again changes nothing. linear_trajectory starts exactly at the start, is off the exact line by at most one rounding of the position and five of the displacement, and stays in the room if both ends keep a margin of ten roundings of the size. A sampled position can be nearer to the wall than the margin, the last position of a trajectory can miss the end by its whole size, and a trajectory between two walls can leave the room.", "quantifier": "all rooms, margins, height ranges, centres, distances, random streams, numbers of positions and steps, precisions, all machines with the stated accuracy", "why_tests_cant": "Rounding depends on every bit of the input and of the random stream; a test sees a few draws and compares with a tolerance.", "anchors": ["src/torchrir/geometry/sampling.py:sample_positions", "src/torchrir/geometry/sampling.py:sample_positions_with_z_range", "src/torchrir/geometry/sampling.py:sample_positions_min_distance", "src/torchrir/geometry/sampling.py:clamp_positions", "src/torchrir/geometry/trajectories.py:linear_trajectory"]}
{"id": "C128", "title": "The text of the metadata file", "statement": "The text that save_metadata_json writes, character by character, is read by a JSON reader as the value that was written and as nothing else: nested dictionaries, lists and tuples, integers, floats (NaN and infinities included), booleans, None and strings with any characters, quotes, control characters and characters outside the basic plane included. Writing raises exactly for the values that are not serializable. A file whose writing was interrupted after any number of characters, by the death of the process or by an exception, cannot be read, so that an incomplete metadata file is never taken for a complete one. The file is plain ASCII in lines. Only a bare number could be cut off to another number, and only a high surrogate before a low one would come back as another string.", "quantifier": "all Python values of the modelled types nested to any depth, all numbers of characters written, all strings, all readers that round decimal numbers to the float whose repr it is", "why_tests_cant": "The values are arbitrarily nested and the strings arbitrary; a test tries a few documents and does not interrupt the writer after each character.", "anchors": ["src/torchrir/io/metadata.py:save_metadata_json", "src/torchrir/datasets/dynamic_cmu_arctic.py"]}
{"id": "C129", "title": "Configuration files as text", "statement": "If a run of the command line program wrote its configuration to a JSON file, a run with --config-in on that file and no other option reads that text, runs the same scenario with the same settings, and changes no file, so it can be repeated for ever. Everything that can be set on the command line can be written. A JSON configuration that was not written to its end, because the process died after any of its characters or because a value is not serializable, is refused by every later run that names it, which then writes nothing and runs nothing. A JSON file is a configuration exactly if its text is one object, and of members with the same name the last one counts. A run changes no file but the one config_out names, and none if it is refused because of its arguments or its configuration. Without PyYAML no YAML configuration is read or written, and no file is created or emptied.", "quantifier": "all command lines, all disks and texts of configuration files, all settings, all numbers of characters written before an interruption", "why_tests_cant": "Settings, texts and points of interruption are unbounded; a test writes one configuration and reads it once.", "anchors": ["examples/cli.py:_load_config", "examples/cli.py:_dump_config", "examples/cli.py:_serialize_args", "examples/cli.py:main"]}
{"id": "C130", "title": "The command line as it is typed", "statement": "The programs find in the words of a command line exactly the options with arguments that the words mean, and refuse the command line if it means nothing. An option is named by its whole name or by a beginning of it that no other option shares; a whole name means that option although longer names begin with it, and a shared beginning is refused. Its argument follows as the next word or after =. A word is an argument if it does not begin with a dash, or is a single dash, or is a negative number or has a blank in it and could not be taken for an option; so --duration -5 is accepted and --duration -1e-3 is not, while --duration=-1e-3 is. An option with several arguments takes all the arguments that follow. A command line has at most one meaning, and every list of existing options with the right numbers of arguments can be typed. The command line program, which parses twice, and the other programs do with the words what they do with the options they mean; on words that mean nothing they end before they do anything.", "quantifier": "all command lines, all parsers whose options have names with two dashes, all conversions and configuration files", "why_tests_cant": "Command lines are unbounded; a test tries a few spellings of a few options.", "anchors": ["examples/cli.py:main", "examples/cli.py:_build_parser", "src/torchrir/util/cli.py:add_output_args", "src/torchrir/datasets/dynamic_cmu_arctic.py:_parse_args"]}
{"id": "C131", "title": "A dynamic dataset can be built again from its metadata", "statement": "The metadata of every scene of a dynamic dataset contains the arguments of the program, and they are what is read from the saved file. They tell everything the program was told, with the directory of the recordings as it was used; two calls have the same arguments in the metadata exactly if they have the same settings. Typed as a command line again, they are read as these settings, and the program writes the same files in the same order with the same outcome, and the same arguments in their metadata.", "quantifier": "all command lines of the script, all conversions of numbers, all ways to type numbers that are read as the same numbers, all worlds, generators and loaders, all other entries of the metadata that can be saved", "why_tests_cant": "The arguments are unbounded; a test rebuilds one dataset, and an argument that is left out of the metadata shows only when it is not at its default.", "anchors": ["examples/build_dynamic_dataset.py:_serialize_args", "examples/build_dynamic_dataset.py:main"]}
{"id": "C132", "title": "The benchmark from the command line", "statement": "The benchmark script takes from the words of its command line exactly the arguments that they mean: --repeats, --gpu, --dynamic and --log-level set them one after the other, the last one counts, and what is not given is five repetitions, the automatic device, standing sources and microphones, and the level INFO. A command line means at most one thing, and everything the script can be told can be typed. It then runs and reports what C107 says of these arguments; on a command line that means nothing it ends before any work.", "quantifier": "all command lines, all conversions of numbers, all environments (devices, clocks, noise)", "why_tests_cant": "Command lines are unbounded; a test tries a few.", "anchors": ["examples/benchmark_device.py:main"]}
{"id": "C133", "title": "The pictures of the example scripts", "statement": "With or without --plot, and whatever becomes of the pictures, the example scripts write the same files with the same contents in the same order and end in the same way. Without --plot, or if the scene is not placed, there are no pictures. With it, once the scene is placed, its pictures come before all audio of the scene, also if the simulation fails later: a still of the view from above, for moving scenes also the paths, the same in space if the room has three dimensions, then the animations. They show the very positions and trajectories that are simulated, the animation shows every step and lasts as long as the sound up to the rounding of its rate. No picture overwrites another file, and an exception while drawing takes no image back that was saved before.", "quantifier": "all scripts, all arguments, all random generators, all signals, all worlds (devices, filters), all scenes of a dataset", "why_tests_cant": "Drawing may fail at any point and for any scene; that it never changes the data has to hold for all of them.", "anchors": ["examples/static.py:main", "examples/dynamic_src.py:main", "examples/dynamic_mic.py:main", "examples/build_dynamic_dataset.py:main", "torchrir.viz.io.save_scene_plots", "torchrir.viz.io.save_scene_gifs"]}
{"id": "C134", "title": "Whole runs of the command line program", "statement": "A scenario of examples/cli.py writes the attribution file first, then, once the scene is placed, the pictures that were asked for, then the sound at the two ears and last the metadata; an exception leaves a beginning of that, and the metadata is there exactly if the run has finished. --plot, --gif and --gif-fps change no data. If sources are loaded and placed the run finishes: the signals are those of the listed utterances of the listed speakers, the sound is their mixture through the image method at the drawn positions, brought to a peak of 1, the metadata describes these positions and lists the settings, and the pictures show the same scene; the standing scenario has no animation even with --gif. The reported settings are enough to repeat the run: as a configuration they give the same scenario with the same files and pictures.", "quantifier": "all scenarios, all settings, all random streams in the unit interval, all datasets, all worlds (devices, filters), all configurations of the kinds the program writes", "why_tests_cant": "Whether a run can be repeated from its metadata depends on every setting surviving the way through the file, for all values; a test repeats one run.", "anchors": ["examples/cli.py:main", "examples/cli.py:_run_static", "examples/cli.py:_run_dynamic_src", "examples/cli.py:_run_dynamic_mic", "examples/cli.py:_plot_scene", "examples/cli.py:_plot_gif", "examples/cli.py:_serialize_args"]}
{"id": "C135", "title": "Whole runs of the dataset builder", "statement": "build_dynamic_cmu_arctic_dataset makes the scenes one after the other: the folder, one sound file per source, the mixture, the layouts that are asked for, metadata.json and source_info.json; an exception leaves a beginning of that, and the run finishes exactly if all of it is there. The layout options change no other file. A finished run returns the common sampling rate and six microphones, and its folders hold the scenes: the stems and the mixture of the scene at that rate, images and videos of its positions and trajectories, and metadata of shape and contents of the scene. If a run is interrupted, every scene whose source_info.json is there is complete: asking for only the scenes up to it gives the same files and no exception. The three lines beside a layout name the scene, the time of the motion and the speeds of the moving sources to half a hundredth, and the extra block of the metadata says the same as the records and the positions.", "quantifier": "all arguments, layout options, corpora, random streams, earlier contents of the folder and all outcomes of writing sound files", "why_tests_cant": "An interrupted run can stop at every file of every scene; a test interrupts at one of them.", "anchors": ["src/torchrir/datasets/dynamic_cmu_arctic.py:build_dynamic_cmu_arctic_dataset"]}
{"id": "C136", "title": "Whole run of the getting-started example", "statement": "examples/getting_started.py saves 16 files with different names in a fixed order. If an exception occurs, the files before it are there and none after it; all are there exactly if there is none. If a file cannot be saved, the run stops there with that exception, and the files before it are those of the undisturbed run. When two speakers are loaded the run finishes: the signals are ten seconds of two different speakers, each half saves the two signals and what the two microphones hear of them as audio and as curves in which sample k is above the time k/fs, layout_static.png shows the standing scene from above with numbered sources, and layout_dynamic.gif shows all 128 steps of the moving scene at 13 steps per second with the times from 0 to 10 seconds.", "quantifier": "all corpora, random streams, sampling rates above 20 Hz, filters, and all outcomes of saving files", "why_tests_cant": "The script downloads a corpus and draws pictures; nothing checks the pictures, and a run can stop at every file.", "anchors": ["examples/getting_started.py"]}
{"id": "C137", "title": "Axes, titles, colours and text boxes of plots", "statement": "A static plot shows everything it draws within its axes exactly if all sources and microphones are in the closed room. A plot with trajectories does so if all positions are in the room, and so does every frame of an animation. The title of a frame gives the time of its step rounded to hundredths of a second if the length of the scene is known and there is more than one step; otherwise there is no title. A text box shows exactly the lines that are not blank, in order and without surrounding white space, and is missing if there are none. In plots with trajectories all microphones have one colour, and two sources have the same colour exactly if their numbers are congruent modulo the number of colours. The titles of saved pictures tell the view and whether there are trajectories.", "quantifier": "all rooms, positions, trajectories, steps, durations, annotation lines, palettes", "why_tests_cant": "No test looks at axes, and the number of sources, colours and lines is unbounded.", "anchors": ["src/torchrir/viz/scene.py", "src/torchrir/viz/utils.py", "src/torchrir/viz/animation.py", "src/torchrir/viz/io.py"]}
{"id": "C138", "title": "First-order devices are mixtures of omnidirectional and figure-8 ones", "statement": "The responses of microphones with an omnidirectional, subcardioid, cardioid, hypercardioid or figure-8 pattern, each turned in any direction, are a times those of omnidirectional microphones plus 1-a times the sum over the coordinate axes of the figure-8 responses along the axis, weighted with the cosine of the angle between direction and axis, with a = 1, 3/4, 1/2, 1/4, 0. The same holds for sources, and for the sound that convolve_rir makes of the responses. Two microphones of the same pattern in opposite directions add up to 2a times an omnidirectional one.", "quantifier": "all rooms, wall coefficients, positions and directions, patterns of the other device, selections of images, lengths", "why_tests_cant": "An identity between several simulations, for continuous positions and directions.", "anchors": ["src/torchrir/sim/directivity.py:directivity_gain", "src/torchrir/sim/ism/api.py:simulate_rir", "src/torchrir/sim/ism/contributions.py"]}
{"id": "C139", "title": "Symmetries of moving scenes", "statement": "In moving scenes with omnidirectional devices: exchanging the trajectories of sources and microphones transposes the responses of every step, so that one source and one microphone that exchange their trajectories give the same sound; mirroring all trajectories together with the walls, and renaming the axes, change nothing; scaling room, trajectories and speed of sound by q divides every sample by q. For all devices and arguments, simulating any choice of steps in any order gives the responses of these steps, so a motion played backwards gives the responses backwards.", "quantifier": "all rooms, trajectories, numbers of steps, choices of steps, selections of images, signals, convolver settings", "why_tests_cant": "Identities between pairs of simulations over all trajectories.", "anchors": ["src/torchrir/sim/ism/api.py:simulate_dynamic_rir", "src/torchrir/signal/dynamic.py"]}
{"id": "C140", "title": "Convolution over time", "statement": "Static convolution works block by block (the result for two blocks is the sum of the results, the second one added where its block starts), commutes with delays, and its first n samples depend only on the first n samples of the signal, whatever follows and however long it is. The convolution with a sequence of responses is, on every device, the sum of the static convolutions of the pieces of the signal with the responses of their steps; its first n samples depend only on the first n signal samples and on the steps that have begun.", "quantifier": "all signals, block lengths, delays, responses, numbers of steps, timestamps, devices", "why_tests_cant": "Laws relating different calls over all signals and lengths.", "anchors": ["src/torchrir/signal/static.py:convolve_rir", "src/torchrir/signal/dynamic.py:DynamicConvolver.convolve"]}
{"id": "C141", "title": "Laws of the Sabine estimates", "statement": "The reverberation time estimated for a 2D room is the one of every 3D room over the same floor plan with a floor and a ceiling that absorb nothing, and the wall coefficients estimated for a 2D room are the limit of those for ever higher rooms. A room q times as large has a reverberation time q times as long with the same walls, and the same walls for a reverberation time q times as long. Exchanging axes with their walls, or opposite walls, changes nothing. Image counts depend only on the ratio of the distance tmax*c to the side lengths. Attenuation times are additive, and 60 dB take t60.", "quantifier": "all sizes, coefficients, times and factors", "why_tests_cant": "Identities and a limit over continuous parameters.", "anchors": ["src/torchrir/util/acoustics.py"]}
{"id": "C142", "title": "Warnings, deprecated names and experimental stubs", "statement": "Whatever Python's warning filters: each deprecated function of torchrir.io and torchrir issues exactly one DeprecationWarning and then does what its replacement does with the same arguments; if the warning is raised as an exception nothing is read or written. Loading a file with several channels warns once, with the caller and the number, and returns channel 0. A deprecated Scene warns once when built and once when simulated and gives the result of the corresponding static or dynamic scene; new scenes never warn. A GPU asked for by name that is missing gives the CPU and one warning; no other device request warns. The experimental simulators and dataset warn when built and never return a result.", "quantifier": "all warning filters (also depending on earlier warnings), registries of backends, arguments, files, scenes, devices", "why_tests_cant": "Quantifies over warning filters and registries; tests use one filter.", "anchors": ["src/torchrir/__init__.py", "src/torchrir/io/__init__.py", "src/torchrir/io/audio.py:_load_audio_data", "src/torchrir/models/scene.py:Scene", "src/torchrir/sim/simulators.py:_normalize_scene", "src/torchrir/util/device.py:resolve_device", "src/torchrir/experimental/simulators.py", "src/torchrir/experimental/datasets.py"]}
{"id": "C143", "title": "Symmetric rooms sound symmetric", "statement": "With omnidirectional devices: if two opposite walls are equal, mirroring sources and microphones between them changes nothing; if moreover all sources are half way between them, mirroring the microphones alone changes nothing, also for moving microphones; with equal opposite walls everywhere and the sources at the centre, microphones may be mirrored along any set of axes; if room, walls, image selection and sources are unchanged by a renaming of the axes (a source on the diagonal of a square room), so is what renamed microphones hear. With or without the high pass filter.", "quantifier": "all rooms with these symmetries, positions, image selections, lengths, configurations", "why_tests_cant": "Identities over continuous positions and all configurations.", "anchors": ["src/torchrir/sim/ism/api.py", "src/torchrir/sim/ism/images.py"]}
{"id": "C144", "title": "Levels of saved audio in floating point", "statement": "Also with every operation rounded to nearest: saving with a positive peak writes no sample above the (rounded) peak and the loudest sample exactly at it, keeps silence and the order of the sample values, and is off by at most six roundings per sample; saving again with the default peak changes nothing. The stems of a scene are the convolved sources times one common factor up to one rounding, never reach 1, and the mixture of S stems is their sum up to S - 1 roundings.", "quantifier": "all precisions (from 14 bits for the stems), all signals, shapes, peaks and numbers of sources", "why_tests_cant": "Rounding depends on every bit of every sample; tests compare with a tolerance.", "anchors": ["src/torchrir/io/audio.py:99-123", "src/torchrir/datasets/dynamic_cmu_arctic.py:407-414", "src/torchrir/datasets/dynamic_cmu_arctic.py:654"]}
{"id": "C145", "title": "Sabine estimates in floating point", "statement": "Also with every operation rounded to nearest: the coefficients estimated from a reverberation time lie above 0 and at most at 1, differ from the real ones by at most one rounding of the tensor and 33 * 16 roundings in double precision, and do not fall when the time grows; for a time so long that Sabine's absorption is below an eighth of the last bit they are exactly 1, and the time estimated from them is infinite. The time estimated from coefficients between 0 and 1 is Sabine's up to a relative error of five roundings and twice ten roundings of the surface over the absorption. The estimated image counts miss at most three roundings of the time: for all samples up to (1 - 2^-p)^3 tmax a larger image box gives the same tensor.", "quantifier": "all 2D and 3D rooms with positive sizes, all positive times, all coefficients in [0, 1], all tensor precisions up to double (up to 51 bits for the long times), every order of summation, every scene for the counts", "why_tests_cant": "Rounding depends on every bit of the sizes and times; tests compare a few rooms with a tolerance.", "anchors": ["src/torchrir/util/acoustics.py:16-55", "src/torchrir/util/acoustics.py:58-106", "src/torchrir/util/acoustics.py:128-146"]}
{"id": "C146", "title": "First-order devices with the high-pass filter, in motion and turning", "statement": "The mixtures of C138 also hold with the default high-pass filter and for simulate_dynamic_rir: in every step of a moving scene the responses of first-order microphones (or sources) that keep their directions are a times the omnidirectional responses plus 1-a times the figure-8 responses along the axes, weighted with the cosines of the direction; the same holds for what the trajectory-mode convolver makes of them. simulate_dynamic_rir takes one direction per device; the responses of microphones that turn while they move, simulated step by step, are mixtures of d + 1 dynamic calls in which only the weights depend on the step.", "quantifier": "all rooms, wall coefficients, trajectories, directions, patterns of the other device, selections of images, lengths, signals, time stamps", "why_tests_cant": "An identity between d + 2 calls for all directions and trajectories; tests look at single directions at rest.", "anchors": ["src/torchrir/sim/ism/api.py:136-238", "src/torchrir/sim/directivity.py", "src/torchrir/sim/ism/hpf.py"]}
{"id": "C147", "title": "Symmetries of scenes with directional devices", "statement": "For simulate_rir with directional devices, with or without the high-pass filter, and for simulate_dynamic_rir with devices that keep their directions: mirroring the walls, the positions and the directions along an axis changes nothing, and neither does renaming the axes. If two opposite walls are equal and all sources are half way between them and face along them, mirroring the positions and directions of the microphones alone changes nothing; and a figure-8 microphone half way between these walls that faces one of them hears exactly nothing, neither directly nor by any reflection.", "quantifier": "all rooms, wall coefficients, positions, trajectories, directions, patterns, selections of images, lengths, filter settings", "why_tests_cant": "Equalities between two calls, and a cancellation over all reflections, for all rooms and scenes; tests use few omnidirectional scenes.", "anchors": ["src/torchrir/sim/ism/api.py:40-238", "src/torchrir/sim/directivity.py", "src/torchrir/sim/ism/images.py"]}
{"id": "C148", "title": "The free field", "statement": "If nothing is reflected (all wall coefficients are 0, or max_order is 0), only distances matter for omnidirectional devices: two scenes with the same distances between sources and microphones have the same responses, with any filter settings, whatever the sizes and walls of the rooms, where the scenes are in them, how they are turned, and whether the rooms are 2D or 3D; the same holds for moving scenes whose distances agree in every step. The responses of directional devices are those of omnidirectional ones times the gain of the source towards the microphone and of the microphone towards the source. A microphone of any pattern that faces an omnidirectional source hears it as an omnidirectional microphone does; a cardioid that faces away and a figure-8 at a right angle hear exactly nothing.", "quantifier": "all rooms, positions, trajectories, directions, patterns, selections of images, lengths, filter settings", "why_tests_cant": "Equalities between calls with different rooms, dimensions and positions, for all of them; a test compares a few.", "anchors": ["src/torchrir/sim/ism/api.py:40-238", "src/torchrir/sim/ism/contributions.py", "src/torchrir/sim/directivity.py"]}
{"id": "C149", "title": "How loud the sound at a microphone can become", "statement": "If no sample of source s is above X_s, no sample of the static convolution at a microphone is above the sum over the sources of X_s times the sum of the magnitudes of its response, and for every response there are signals for which this is reached. With a sequence of responses, in trajectory and in hop mode, the same bound holds with an envelope of the responses of all steps; and the sum of the magnitudes at a microphone is at most the sum of the magnitudes of the signals times the largest sum of magnitudes of the responses. In a simulated room without filter the peak at a microphone is at most the sum over the sources of X_s times the kernel length times the sum over the images of wall gain over distance, with omnidirectional and with directional devices of any pattern and direction.", "quantifier": "all signals, responses, numbers of steps, time stamps, hops, devices, rooms, positions, directions, patterns", "why_tests_cant": "Bounds for all signals and rooms; a test checks single signals that rarely come near the worst case.", "anchors": ["src/torchrir/signal/dynamic.py", "src/torchrir/signal/static.py", "src/torchrir/sim/ism/api.py:40-134", "src/torchrir/sim/ism/accumulate.py"]}
{"id": "C150", "title": "What is printed when the package logs", "statement": "After setup_logging in a process where nobody else configures loggers of the package, a message to a logger that get_logger returned is printed exactly if its level is at least the configured one, and then once by the handler of the package, with the default format as LEVEL:name:message; without propagation nothing else is printed whatever the root logger is, with it every handler of the root logger prints it too. Without setup_logging the bare message is printed from WARNING on and nothing below.", "quantifier": "all names, levels, messages, formats, root loggers", "why_tests_cant": "All names and levels; tests log a few messages to one logger.", "anchors": ["src/torchrir/logging.py:42-75", "examples/cli.py:603-604"]}
