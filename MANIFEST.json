{
 "claims": [
  {
   "property": "C01",
   "status": "proved",
   "theorems": [
    "Torchrir.Props.C01_order_images_exact",
    "Torchrir.Props.C01_negative_order_rejected"
   ],
   "note": "imageSourceIndices is the list the simulations loop over (see C05)."
  },
  {
   "property": "C02",
   "status": "proved",
   "theorems": [
    "Torchrir.Props.C02_box_images_exact",
    "Torchrir.Props.C02_wrong_length_rejected"
   ],
   "note": "Box content, size and rejection of a wrong length."
  },
  {
   "property": "C03",
   "status": "proved",
   "theorems": [
    "Torchrir.Props.C03_images_are_mirror_images",
    "Torchrir.Props.C03_batched_images_are_mirror_images",
    "Torchrir.Props.C03_image_in_mirrored_room"
   ],
   "note": "Both functions that compute image positions; the cell [nL,(n+1)L] for sources in the room."
  },
  {
   "property": "C04",
   "status": "proved",
   "theorems": [
    "Torchrir.Props.C04_gain_is_product_over_crossed_walls",
    "Torchrir.Props.C04_number_of_crossings_is_order"
   ],
   "note": "Product over the crossed wall planes; number of crossings equals the order."
  },
  {
   "property": "C05",
   "status": "proved",
   "theorems": [
    "Torchrir.Props.C05_static_rir_formula_directional",
    "Torchrir.Props.C05_static_rir_formula"
   ],
   "note": "simulate_rir end to end, omni and directional; the image set and gains are those of C01-C04."
  },
  {
   "property": "C06",
   "status": "proved",
   "theorems": [
    "Torchrir.Props.C06_chunk_sizes_irrelevant_static",
    "Torchrir.Props.C06_chunk_sizes_irrelevant_dynamic"
   ],
   "note": "Static and dynamic, for arbitrary calls (directional, filtered, with tail)."
  },
  {
   "property": "C07",
   "status": "proved",
   "theorems": [
    "Torchrir.Props.C07_no_cross_talk"
   ],
   "note": "Any selection/reordering of sources and microphones; arbitrary directivity, filter on or off, no diffuse tail (the tail noise is drawn for the whole batch)."
  },
  {
   "property": "C08",
   "status": "proved",
   "theorems": [
    "Torchrir.Props.C08_prefix_static",
    "Torchrir.Props.C08_prefix_dynamic"
   ],
   "note": "Static and dynamic."
  },
  {
   "property": "C09",
   "status": "proved",
   "theorems": [
    "Torchrir.Props.C09_no_sound_before_direct_path",
    "Torchrir.Props.C09_no_tap_before_start"
   ],
   "note": "Arbitrary calls without filter and tail."
  },
  {
   "property": "C10",
   "status": "proved",
   "theorems": [
    "Torchrir.Props.C10_reciprocity"
   ],
   "note": "With or without high-pass filter."
  },
  {
   "property": "C11",
   "status": "partial",
   "theorems": [
    "Torchrir.Props.C11_parallel_reciprocity_partial",
    "Torchrir.Props.C11_exactly",
    "Torchrir.Props.C11_directional_reciprocity_partial",
    "Torchrir.Props.C11_directional_reciprocity_fails"
   ],
   "note": "False of the code for reflected paths: source axes are not mirrored (C11_directional_reciprocity_fails). Proved for the direct path, and for all reflections if the devices are parallel to the reflecting walls or omnidirectional (C11_parallel_reciprocity_partial); C11_exactly gives both responses for arbitrary axes."
  },
  {
   "property": "C12",
   "status": "proved",
   "theorems": [
    "Torchrir.Props.C12_mirror_directional",
    "Torchrir.Props.C12_mirror_symmetry"
   ],
   "note": "Any axis; omnidirectional with or without high-pass filter, directional devices with mirrored orientations without it."
  },
  {
   "property": "C13",
   "status": "proved",
   "theorems": [
    "Torchrir.Props.C13_dynamic_is_static_per_step"
   ],
   "note": "Equivalence including success and failure; stacked results."
  },
  {
   "property": "C14",
   "status": "proved",
   "theorems": [
    "Torchrir.Props.C14_image_counts_complete"
   ],
   "note": "For arbitrary calls: any componentwise larger box that succeeds gives the same RIR as the estimated box."
  },
  {
   "property": "C15",
   "status": "proved",
   "theorems": [
    "Torchrir.Props.C15_table_reads_in_bounds",
    "Torchrir.Props.C15_table_samples_the_right_argument"
   ],
   "note": "For every validated configuration; the interpolant is specified on the grid of step 1/granularity."
  },
  {
   "property": "C16",
   "status": "proved",
   "theorems": [
    "Torchrir.Props.C16_table_error_bounded",
    "Torchrir.Props.C16_table_error_bounded_directional",
    "Torchrir.Props.C16_error_vanishes"
   ],
   "note": "Bound pi^2/(24 g^2) times the sum of |gain|/distance, omni and directional; the limit statement for growing granularity."
  },
  {
   "property": "C17",
   "status": "proved",
   "theorems": [
    "Torchrir.Props.C17_gain_between_zero_and_one",
    "Torchrir.Props.C17_gain_monotone",
    "Torchrir.Props.C17_rigid_gain_one",
    "Torchrir.Props.C17_anechoic_is_direct_path"
   ],
   "note": "The wall gains are those of the C05 formula."
  },
  {
   "property": "C18",
   "status": "proved",
   "theorems": [
    "Torchrir.Props.C18_tail_only_touches_tail",
    "Torchrir.Props.C18_no_effect_without_limit",
    "Torchrir.Props.C18_no_effect_at_index_zero",
    "Torchrir.Props.C18_default_seed_is_zero",
    "Torchrir.Props.C18_only_the_seeded_stream_matters"
   ],
   "note": "randn and the seed are parameters of World: the result depends on the stream of the given seed only."
  },
  {
   "property": "C19",
   "status": "proved",
   "theorems": [
    "Torchrir.Props.C19_result_independent_of_history",
    "Torchrir.Props.C19_cached_call_is_the_plain_call"
   ],
   "note": "Caches are explicit state keyed as in the code; the tables of a device/dtype are arbitrary functions, so a missing key component would make the theorem false. torch.compile is taken to preserve meaning."
  },
  {
   "property": "C20",
   "status": "proved",
   "theorems": [
    "Torchrir.Props.C20_t60_room_is_beta_room",
    "Torchrir.Props.C20_default_room_is_rigid",
    "Torchrir.Props.C20_beta_wins"
   ],
   "note": "Equality of whole calls, including failures."
  },
  {
   "property": "C21",
   "status": "proved",
   "theorems": [
    "Torchrir.Props.C21_static_accepts_only_valid_arguments",
    "Torchrir.Props.C21_dynamic_accepts_only_valid_arguments",
    "Torchrir.Props.C21_missing_arguments_rejected"
   ],
   "note": "Success implies every listed condition, with the exact output shape."
  },
  {
   "property": "C22",
   "status": "proved",
   "theorems": [
    "Torchrir.Props.C22_fft_convolve_is_linear_convolution",
    "Torchrir.Props.C22_fft_size_is_least_power_of_two",
    "Torchrir.Props.C22_not_one_dimensional_rejected"
   ],
   "note": "The FFT is the literal half-spectrum DFT over the reals; the result length and every sample are proved. Empty inputs are outside the property."
  },
  {
   "property": "C23",
   "status": "proved",
   "theorems": [
    "Torchrir.Props.C23_convolve_rir_formula",
    "Torchrir.Props.C23_single_signal_is_shared",
    "Torchrir.Props.C23_source_mismatch_rejected",
    "Torchrir.Props.C23_success_means_matching_shapes",
    "Torchrir.Props.C23_linear_in_signal"
   ],
   "note": "Formula for matching sources, shared single signal, rejection, and the inverse: success on well-formed tensors implies one of these shapes."
  },
  {
   "property": "C24",
   "status": "proved",
   "theorems": [
    "Torchrir.Props.C24_trajectory_formula",
    "Torchrir.Props.C24_every_sample_has_one_step",
    "Torchrir.Props.C24_bad_timestamps_rejected"
   ],
   "note": "Both with uniform steps and with admissible timestamps, on every device; the current step of every sample exists and is unique. Inadmissible (decreasing or too late) timestamps are accepted by the code and not covered."
  },
  {
   "property": "C25",
   "status": "proved",
   "theorems": [
    "Torchrir.Props.C25_constant_rir_is_static"
   ],
   "note": "Any number of steps and any admissible timestamps."
  },
  {
   "property": "C26",
   "status": "proved",
   "theorems": [
    "Torchrir.Props.C26_any_chunk_size",
    "Torchrir.Props.C26_device_independent"
   ],
   "note": "Whole calls, including failing ones, and any chunk size for the batched code."
  },
  {
   "property": "C27",
   "status": "partial",
   "theorems": [
    "Torchrir.Props.C27_hop_formula_partial",
    "Torchrir.Props.C27_hop_uses_whole_signal_partial",
    "Torchrir.Props.C27_hop_loses_signal_fails",
    "Torchrir.Props.C27_negative_hop_is_silent_fails",
    "Torchrir.Props.C27_used_samples",
    "Torchrir.Props.C27_negative_hops_are_silent"
   ],
   "note": "Exact formula for every positive hop. The claim fails when N > T*H (samples are dropped) and negative hops are silently accepted; both proved by witnesses. C27_used_samples says which samples matter; C27_negative_hops_are_silent covers all negative hops."
  },
  {
   "property": "C28",
   "status": "partial",
   "theorems": [
    "Torchrir.Props.C28_trajectory_mismatch_raises_partial",
    "Torchrir.Props.C28_hop_too_few_signals_raises_partial",
    "Torchrir.Props.C28_three_dim_rirs_raise_partial",
    "Torchrir.Props.C28_hop_ignores_a_signal_fails",
    "Torchrir.Props.C28_single_signal_is_duplicated_fails",
    "Torchrir.Props.C28_modes",
    "Torchrir.Props.C28_trajectory_accepts_exactly",
    "Torchrir.Props.C28_hop_accepts_exactly"
   ],
   "note": "Fails: hop mode ignores surplus signals, trajectory mode duplicates a single one. The other mismatches are proved to raise. C28_trajectory_accepts_exactly and C28_hop_accepts_exactly are exact for all numbers of signals. C28_modes describes the dispatch on the mode."
  },
  {
   "property": "C29",
   "status": "proved",
   "theorems": [
    "Torchrir.Props.C29_linear",
    "Torchrir.Props.C29_causal"
   ],
   "note": "Both modes with a positive hop resp. admissible starts; rir_len >= 1."
  },
  {
   "property": "C30",
   "status": "proved",
   "theorems": [
    "Torchrir.Props.C30_round_trip",
    "Torchrir.Props.C30_round_trip_exact",
    "Torchrir.Props.C30_nonpositive_rejected"
   ],
   "note": "All real positive 2-D and 3-D sizes (integer size tensors are C36)."
  },
  {
   "property": "C31",
   "status": "proved",
   "theorems": [
    "Torchrir.Props.C31_beta_is_physical",
    "Torchrir.Props.C31_beta_monotone",
    "Torchrir.Props.C31_t60_formula",
    "Torchrir.Props.C31_wrong_count",
    "Torchrir.Props.C31_t60_monotone",
    "Torchrir.Props.C31_attenuation_time"
   ],
   "note": "Exact arithmetic; wall order and areas from an independent specification."
  },
  {
   "property": "C32",
   "status": "proved",
   "theorems": [
    "Torchrir.Props.C32_vectors_become_unit",
    "Torchrir.Props.C32_scaling_ignored",
    "Torchrir.Props.C32_circle_is_unit",
    "Torchrir.Props.C32_sphere_is_unit",
    "Torchrir.Props.C32_angles",
    "Torchrir.Props.C32_azimuth_elevation",
    "Torchrir.Props.C32_accepted_shapes"
   ],
   "note": "All batch shapes. A 1-D list of two numbers in 2-D is one vector (C32_vectors_become_unit with pre = [])."
  },
  {
   "property": "C33",
   "status": "proved",
   "theorems": [
    "Torchrir.Props.C33_accepted_names",
    "Torchrir.Props.C33_case_insensitive",
    "Torchrir.Props.C33_unit_on_axis",
    "Torchrir.Props.C33_gain_bounded",
    "Torchrir.Props.C33_nonnegative_iff",
    "Torchrir.Props.C33_device_gain",
    "Torchrir.Props.C33_pair_of_names"
   ],
   "note": "Gains in exact arithmetic; cosine of the angle is computed by the model exactly as the code does."
  },
  {
   "property": "C34",
   "status": "partial",
   "theorems": [
    "Torchrir.Props.C34_spellings_agree_partial",
    "Torchrir.Props.C34_dynamic_spellings_agree_partial",
    "Torchrir.Props.C34_other_spellings_fails",
    "Torchrir.Props.C34_exactly"
   ],
   "note": "Fails: only the literal \"omni\" works without orientations; with usable orientations all spellings agree, in static and moving scenes, also for coincident positions. C34_exactly: without orientations a simulation succeeds exactly if both patterns are the literal \"omni\"."
  },
  {
   "property": "C35",
   "status": "partial",
   "theorems": [
    "Torchrir.Props.C35_accepts_exactly",
    "Torchrir.Props.C35_accepts_iff_physical_partial",
    "Torchrir.Props.C35_built_rooms_physical_partial",
    "Torchrir.Props.C35_nan_fails",
    "Torchrir.Props.C35_integer_size_fails",
    "Torchrir.Props.C35_replace_fields"
   ],
   "note": "NaN sampling rate, sound speed or T60 is accepted (C35_nan_fails), and an integer-typed size truncates reflection coefficients before they are checked (C35_integer_size_fails). Proved for arguments free of NaN and infinities and a floating-point size. C35_accepts_exactly characterises acceptance for all arguments."
  },
  {
   "property": "C36",
   "status": "partial",
   "theorems": [
    "Torchrir.Props.C36_integer_size_exactly",
    "Torchrir.Props.C36_beta_kept_partial",
    "Torchrir.Props.C36_shoebox_dtype",
    "Torchrir.Props.C36_integer_size_fails"
   ],
   "note": "With an integer-typed size the stored coefficients are truncated (C36_integer_size_fails). Proved for floating-point sizes, also along any sequence of replace calls. C36_integer_size_exactly says what is stored for an integer size."
  },
  {
   "property": "C37",
   "status": "partial",
   "theorems": [
    "Torchrir.Props.C37_static_exactly",
    "Torchrir.Props.C37_entity_accepted_iff",
    "Torchrir.Props.C37_static_accepted_iff",
    "Torchrir.Props.C37_dynamic_accepted_iff",
    "Torchrir.Props.C37_old_scene",
    "Torchrir.Props.C37_static_simulates_partial",
    "Torchrir.Props.C37_dynamic_simulates_partial",
    "Torchrir.Props.C37_no_sources_fails"
   ],
   "note": "Acceptance conditions are characterised exactly. Accepted scenes simulate when there is at least one source and one microphone; empty lists are accepted but never simulate (C37_no_sources_fails). Directional dynamic scenes are C39. C37_static_exactly says exactly when the simulator runs an accepted static scene."
  },
  {
   "property": "C38",
   "status": "proved",
   "theorems": [
    "Torchrir.Props.C38_conflict_raises",
    "Torchrir.Props.C38_values_in_force",
    "Torchrir.Props.C38_default_config",
    "Torchrir.Props.C38_result_fields"
   ],
   "note": "The call in force is simulate_rir / simulate_dynamic_rir with the simulator's own values and a configuration stripped of max_order and tmax."
  },
  {
   "property": "C39",
   "status": "partial",
   "theorems": [
    "Torchrir.Props.C39_exactly",
    "Torchrir.Props.C39_directional_dynamic_fails",
    "Torchrir.Props.C39_direct_call_partial"
   ],
   "note": "False: ISMSimulator never forwards orientations for dynamic scenes, so every directional pattern raises (C39_directional_dynamic_fails). The direct call with explicit orientations works (C39_direct_call_partial). C39_exactly says exactly when the simulator runs an accepted dynamic scene."
  },
  {
   "property": "C40",
   "status": "partial",
   "theorems": [
    "Torchrir.Props.C40_validate_iff_partial",
    "Torchrir.Props.C40_nan_fails",
    "Torchrir.Props.C40_replaced_stays_accepted",
    "Torchrir.Props.C40_replaced_stays_acceptable_partial",
    "Torchrir.Props.C40_replace_iff_partial",
    "Torchrir.Props.C40_default_accepted",
    "Torchrir.Props.C40_models_agree",
    "Torchrir.Props.C40_accepts_exactly",
    "Torchrir.Props.C40_replace_exactly"
   ],
   "note": "NaN passes every check (C40_nan_fails). Exact acceptance and all replace histories are proved for NaN-free floats; C40_replaced_stays_accepted needs no such assumption. rir_hpf_kwargs['n'] is modelled as the integer int() returns. C40_accepts_exactly and C40_replace_exactly characterise acceptance for all arguments, NaN included. C40_replace_exactly also says that exactly the given fields change."
  },
  {
   "property": "C41",
   "status": "partial",
   "theorems": [
    "Torchrir.Props.C41_fallback_partial",
    "Torchrir.Props.C41_auto_first_available",
    "Torchrir.Props.C41_explicit_device",
    "Torchrir.Props.C41_never_unavailable_partial",
    "Torchrir.Props.C41_indexed_mps_fails",
    "Torchrir.Props.C41_inferred",
    "Torchrir.Props.C41_exactly"
   ],
   "note": "False for indexed MPS strings such as mps:0 (C41_indexed_mps_fails). Everything else holds for every availability combination; torch.device's parser is a parameter assumed to return the type named before the colon. C41_exactly says exactly which strings lead to an unavailable backend."
  },
  {
   "property": "C42",
   "status": "partial",
   "theorems": [
    "Torchrir.Props.C42_linear_direction",
    "Torchrir.Props.C42_linear_axis",
    "Torchrir.Props.C42_linear_accepts_iff",
    "Torchrir.Props.C42_binaural_partial",
    "Torchrir.Props.C42_integer_centre_fails",
    "Torchrir.Props.C42_binaural_exactly"
   ],
   "note": "linear_array is proved for all accepted inputs, with exact acceptance conditions. binaural_array is proved for float centres; for integer centres both microphones coincide (C42_integer_centre_fails). C42_binaural_exactly covers both number types."
  },
  {
   "property": "C43",
   "status": "partial",
   "theorems": [
    "Torchrir.Props.C43_planar",
    "Torchrir.Props.C43_named_plane",
    "Torchrir.Props.C43_normal_partial",
    "Torchrir.Props.C43_negative_x_fails",
    "Torchrir.Props.C43_integer_centre_fails",
    "Torchrir.Props.C43_accepts_iff"
   ],
   "note": "False for normals opposite to the first axis (NaN, C43_negative_x_fails) and for integer centres (C43_integer_centre_fails, torch's integer linspace is a parameter). Proved for all other normals, the named planes and 2-D centres, with exact acceptance conditions for float centres."
  },
  {
   "property": "C44",
   "status": "partial",
   "theorems": [
    "Torchrir.Props.C44_polyhedron_partial",
    "Torchrir.Props.C44_integer_centre_fails",
    "Torchrir.Props.C44_rejects",
    "Torchrir.Props.C44_spherical",
    "Torchrir.Props.C44_eigenmike",
    "Torchrir.Props.C44_offset"
   ],
   "note": "Proved for float centres and all five kinds; integer centres raise (C44_integer_centre_fails). Spherical arrays are proved for all angles and centres, the Eigenmikes with their angle tables."
  },
  {
   "property": "C45",
   "status": "partial",
   "theorems": [
    "Torchrir.Props.C45_clamp_exactly",
    "Torchrir.Props.C45_clamp_partial",
    "Torchrir.Props.C45_large_margin_fails",
    "Torchrir.Props.C45_integer_size_fails"
   ],
   "note": "False if the margin exceeds half the room (C45_large_margin_fails) or the room size is an integer tensor (C45_integer_size_fails); proved otherwise. C45_clamp_exactly describes the result for all margins and both number types."
  },
  {
   "property": "C46",
   "status": "partial",
   "theorems": [
    "Torchrir.Props.C46_positions_exactly",
    "Torchrir.Props.C46_positions_partial",
    "Torchrir.Props.C46_large_margin_fails",
    "Torchrir.Props.C46_heights_partial",
    "Torchrir.Props.C46_heights_planar",
    "Torchrir.Props.C46_heights_fails",
    "Torchrir.Props.C46_zero_positions_raises",
    "Torchrir.Props.C46_min_distance_outcome",
    "Torchrir.Props.C46_min_distance_partial",
    "Torchrir.Props.C46_min_distance_dimension"
   ],
   "note": "False for margins above half the room and for z ranges without an interval inside the margins (C46_large_margin_fails, C46_heights_fails); proved otherwise for every random stream with values in [0, 1]. The outcome of the rejection loop is characterised exactly. C46_positions_exactly covers all margins."
  },
  {
   "property": "C47",
   "status": "partial",
   "theorems": [
    "Torchrir.Props.C47_trajectory_partial",
    "Torchrir.Props.C47_few_steps_fails"
   ],
   "note": "False below two steps (C47_few_steps_fails); proved for all others."
  },
  {
   "property": "C48",
   "status": "partial",
   "theorems": [
    "Torchrir.Props.C48_rejected_untouched",
    "Torchrir.Props.C48_files_contained_partial",
    "Torchrir.Props.C48_contained_partial",
    "Torchrir.Props.C48_new_directory_fails",
    "Torchrir.Props.C48_outside_exactly"
   ],
   "note": "Proved for every archive, disk and crash point: a rejected archive changes nothing, and every file, link and byte written stays inside the target. False for directories: C48_new_directory_fails shows an accepted archive that creates an empty directory outside (a member name that leaves the root and comes back); C48_outside_exactly says which directories appear outside."
  },
  {
   "property": "C49",
   "status": "proved",
   "theorems": [
    "Torchrir.Props.C49_download",
    "Torchrir.Props.C49_restarts",
    "Torchrir.Props.C49_unannounced_truncation"
   ],
   "note": "Proved for every server and crash point when the server announces the length. C49_unannounced_truncation documents what happens when it does not: truncation goes unnoticed."
  },
  {
   "property": "C50",
   "status": "partial",
   "theorems": [
    "Torchrir.Props.C50_exactly",
    "Torchrir.Props.C50_repair_partial",
    "Torchrir.Props.C50_crash_during_extraction_fails"
   ],
   "note": "Proved for corrupt, truncated or missing archives and for every crash of the download. Missing: crashes during extraction, for which the property is false (C50_crash_during_extraction_fails): the half-extracted directory passes for complete. C50_exactly: the next construction completes the dataset exactly if its directory was missing or it was complete."
  },
  {
   "property": "C51",
   "status": "proved",
   "theorems": [
    "Torchrir.Props.C51_requests_per_download",
    "Torchrir.Props.C51_requests_per_construction",
    "Torchrir.Props.C51_outcome",
    "Torchrir.Props.C51_no_file_after_failure"
   ],
   "note": "Exact request counts and outcome for every network behaviour."
  },
  {
   "property": "C52",
   "status": "proved",
   "theorems": [
    "Torchrir.Props.C52_cmu_line",
    "Torchrir.Props.C52_libri_line",
    "Torchrir.Props.C52_cmu_file",
    "Torchrir.Props.C52_libri_file"
   ],
   "note": "The line parsers are characterised on all strings, the file parsers on all files."
  },
  {
   "property": "C53",
   "status": "partial",
   "theorems": [
    "Torchrir.Props.C53_negative_exactly",
    "Torchrir.Props.C53_succeeds",
    "Torchrir.Props.C53_sources_partial",
    "Torchrir.Props.C53_mixed_rates",
    "Torchrir.Props.C53_negative_duration_fails",
    "Torchrir.Props.C53_builder"
   ],
   "note": "Proved for all datasets, shuffles and non-negative durations; for the builder's loader for all positive lengths. Negative durations are accepted and give another length (C53_negative_duration_fails). C53_negative_exactly says what negative durations give. C53_succeeds gives conditions under which loading returns."
  },
  {
   "property": "C54",
   "status": "partial",
   "theorems": [
    "Torchrir.Props.C54_builder_exactly",
    "Torchrir.Props.C54_load_dataset_sources_exactly",
    "Torchrir.Props.C54_load_dataset_sources_partial",
    "Torchrir.Props.C54_builder_partial",
    "Torchrir.Props.C54_builder_fails",
    "Torchrir.Props.C54_load_dataset_sources_fails"
   ],
   "note": "Proved whenever each speaker has one non-empty utterance. False for datasets in which all utterances are empty files: both loops then never end (C54_*_fails). C54_builder_exactly and C54_load_dataset_sources_exactly give the exact condition for termination."
  },
  {
   "property": "C55",
   "status": "partial",
   "theorems": [
    "Torchrir.Props.C55_accepted",
    "Torchrir.Props.C55_batch_partial",
    "Torchrir.Props.C55_mixed_dtypes_fails",
    "Torchrir.Props.C55_exactly"
   ],
   "note": "Proved for batches whose audio tensors have one common element type. False otherwise: the batch takes the type of the first item, so an integer first item truncates the others and the padding (C55_mixed_dtypes_fails). C55_exactly describes the result for items of any element types."
  },
  {
   "property": "C56",
   "status": "partial",
   "theorems": [
    "Torchrir.Props.C56_snapshot_partial",
    "Torchrir.Props.C56_negative_index",
    "Torchrir.Props.C56_audio_fails"
   ],
   "note": "Proved for the number of items, their ids, texts, paths and order, and for all indices. Missing: the audio itself, which is read from the file at every access (C56_audio_fails)."
  },
  {
   "property": "C57",
   "status": "proved",
   "theorems": [
    "Torchrir.Props.C57_allowed_area"
   ],
   "note": "For every build that succeeds, every scene, source and trajectory step and all random values."
  },
  {
   "property": "C58",
   "status": "proved",
   "theorems": [
    "Torchrir.Props.C58_motion_profile"
   ],
   "note": "For every build that succeeds; speeds are arc length over time."
  },
  {
   "property": "C59",
   "status": "proved",
   "theorems": [
    "Torchrir.Props.C59_azimuths"
   ],
   "note": "For every build that succeeds."
  },
  {
   "property": "C60",
   "status": "partial",
   "theorems": [
    "Torchrir.Props.C60_feasible_partial",
    "Torchrir.Props.C60_height_margin_fails",
    "Torchrir.Props.C60_built",
    "Torchrir.Props.C60_feasible_exactly"
   ],
   "note": "Proved if the height margin is below half the height of the room. Without that condition placement fails although the centre was sampled (C60_height_margin_fails). C60_built: in every built scene all microphones are inside the room. C60_feasible_exactly: given a centre, placement succeeds exactly under that condition."
  },
  {
   "property": "C61",
   "status": "partial",
   "theorems": [
    "Torchrir.Props.C61_stems_partial",
    "Torchrir.Props.C61_own_response",
    "Torchrir.Props.C61_six_samples_fails",
    "Torchrir.Props.C61_one_sample_fails",
    "Torchrir.Props.C61_mixture_fails",
    "Torchrir.Props.C61_mixture_bound",
    "Torchrir.Props.C61_short_scenes_exactly"
   ],
   "note": "Proved: one common factor in (0,1], stems at most 0.99, mixture is the sum of the stems, for convolved sources of 6 channels and T samples, T not 1 or 6. False: the mixture may exceed full scale (C61_mixture_fails), and for T=6 or T=1 time and channels are confused. C61_mixture_bound limits the mixture to 0.99 times the number of sources; C61_short_scenes_exactly describes T=1 and T=6."
  },
  {
   "property": "C62",
   "status": "partial",
   "theorems": [
    "Torchrir.Props.C62_survives_iff_partial",
    "Torchrir.Props.C62_late_checks_fails"
   ],
   "note": "False for the arguments that are validated only after the old dataset was removed (C62_late_checks_fails). C62_survives_iff_partial says exactly when the old dataset survives."
  },
  {
   "property": "C63",
   "status": "proved",
   "theorems": [
    "Torchrir.Props.C63_normalized",
    "Torchrir.Props.C63_not_normalized",
    "Torchrir.Props.C63_bad_peak"
   ],
   "note": "For every tensor layout the library writes. A file is the frames handed to soundfile; what the format does to a sample is outside."
  },
  {
   "property": "C64",
   "status": "partial",
   "theorems": [
    "Torchrir.Props.C64_few_channels_partial",
    "Torchrir.Props.C64_many_channels_fails",
    "Torchrir.Props.C64_exactly"
   ],
   "note": "True up to eight channels (C64_few_channels_partial). From nine channels on channels and frames are exchanged (C64_many_channels_fails). C64_exactly: for all counts of at least one, exactly when it holds and what is written otherwise."
  },
  {
   "property": "C65",
   "status": "proved",
   "theorems": [
    "Torchrir.Props.C65_current_backend",
    "Torchrir.Props.C65_failing_call",
    "Torchrir.Props.C65_used_backend",
    "Torchrir.Props.C65_wav_only",
    "Torchrir.Props.C65_wav_files"
   ],
   "note": "Over all sequences of set_audio_backend calls; wav formats characterised for all format strings and file names."
  },
  {
   "property": "C66",
   "status": "partial",
   "theorems": [
    "Torchrir.Props.C66_directions_and_array",
    "Torchrir.Props.C66_fields",
    "Torchrir.Props.C66_step_mismatch",
    "Torchrir.Props.C66_timestamps_partial",
    "Torchrir.Props.C66_timestamps_fails",
    "Torchrir.Props.C66_integer_positions_fails"
   ],
   "note": "Proved for floating microphone positions except the timestamps: given ones are copied unchecked and without signal_len there are none (C66_timestamps_fails); integer microphone positions raise (C66_integer_positions_fails)."
  },
  {
   "property": "C67",
   "status": "partial",
   "theorems": [
    "Torchrir.Props.C67_agreement_iff_partial",
    "Torchrir.Props.C67_longer_signal_fails"
   ],
   "note": "False: C67_agreement_iff_partial gives the exact lengths for which it holds, C67_longer_signal_fails shows that it fails for every dynamic scene with more samples than steps."
  },
  {
   "property": "C68",
   "status": "proved",
   "theorems": [
    "Torchrir.Props.C68_missing_field",
    "Torchrir.Props.C68_contents",
    "Torchrir.Props.C68_no_subset"
   ],
   "note": "The file is text; the directory is assumed to be writable."
  },
  {
   "property": "C69",
   "status": "partial",
   "theorems": [
    "Torchrir.Props.C69_levels",
    "Torchrir.Props.C69_one_handler",
    "Torchrir.Props.C69_failing_call",
    "Torchrir.Props.C69_emitted_iff_partial",
    "Torchrir.Props.C69_raised_level_partial",
    "Torchrir.Props.C69_lowered_level_fails",
    "Torchrir.Props.C69_notset_fails"
   ],
   "note": "One handler: proved. The level of the last call is obeyed only if it is not below the first one (the handler keeps its level) and not 0 (C69_lowered_level_fails, C69_notset_fails); C69_emitted_iff_partial gives the exact condition."
  },
  {
   "property": "C70",
   "status": "partial",
   "theorems": [
    "Torchrir.Props.C70_below_package_partial",
    "Torchrir.Props.C70_idempotent",
    "Torchrir.Props.C70_similar_name_fails"
   ],
   "note": "Idempotent: proved. Names that only begin with the package name are returned unchanged (C70_similar_name_fails); C70_below_package_partial covers all other names."
  },
  {
   "property": "C71",
   "status": "partial",
   "theorems": [
    "Torchrir.Props.C71_frames_partial",
    "Torchrir.Props.C71_last_step_fails",
    "Torchrir.Props.C71_frame_rate",
    "Torchrir.Props.C71_other_steps"
   ],
   "note": "All but the last step: the final trajectory step is shown only if the stride divides the last index (C71_frames_partial, C71_last_step_fails)."
  },
  {
   "property": "C72",
   "status": "proved",
   "theorems": [
    "Torchrir.Props.C72_round_trip"
   ],
   "note": "For every tensor layout the library writes and every sample codec."
  },
  {
   "property": "C73",
   "status": "proved",
   "theorems": [
    "Torchrir.Props.C73_scale",
    "Torchrir.Props.C73_scale_directional",
    "Torchrir.Props.C73_rate"
   ],
   "note": "Exact, for paths not below the 1e-6 m floor the code puts on distances (hypothesis hfar)."
  },
  {
   "property": "C74",
   "status": "proved",
   "theorems": [
    "Torchrir.Props.C74_axes",
    "Torchrir.Props.C74_axes_directional"
   ],
   "note": "All permutations of the axes; omnidirectional also with the high-pass filter, directional devices without it."
  },
  {
   "property": "C75",
   "status": "proved",
   "theorems": [
    "Torchrir.Props.C75_order_adds",
    "Torchrir.Props.C75_early_samples_keep",
    "Torchrir.Props.C75_anechoic"
   ],
   "note": "Exact decomposition; early samples; anechoic rooms."
  },
  {
   "property": "C76",
   "status": "proved",
   "theorems": [
    "Torchrir.Props.C76_motionless"
   ],
   "note": "From any accepted static call with tdiff unset."
  },
  {
   "property": "C77",
   "status": "proved",
   "theorems": [
    "Torchrir.Props.C77_auralisation"
   ],
   "note": "End to end, omnidirectional, without the high-pass filter."
  },
  {
   "property": "C78",
   "status": "partial",
   "theorems": [
    "Torchrir.Props.C78_temporary_names",
    "Torchrir.Props.C78_stereo",
    "Torchrir.Props.C78_video_intact",
    "Torchrir.Props.C78_muxes",
    "Torchrir.Props.C78_skips",
    "Torchrir.Props.C78_leftover_fails"
   ],
   "note": "ffmpeg is assumed to write only its output file and to report success only after writing it. Temporary files are removed when saving the track and running ffmpeg do not raise; otherwise the beginning of the track stays (C78_leftover_fails)."
  },
  {
   "property": "C79",
   "status": "proved",
   "theorems": [
    "Torchrir.Props.C79_box",
    "Torchrir.Props.C79_static"
   ],
   "note": "Colours, limits and titles are not modelled."
  },
  {
   "property": "C80",
   "status": "partial",
   "theorems": [
    "Torchrir.Props.C80_dynamic",
    "Torchrir.Props.C80_static_partial",
    "Torchrir.Props.C80_static_fails",
    "Torchrir.Props.C80_last_point_exactly",
    "Torchrir.Props.C80_last_point_fails"
   ],
   "note": "Groups at rest have no path if they rest at their given positions (C80_static_partial); a group at rest elsewhere is drawn with a path (C80_static_fails). The last position is not reached if the step does not divide it (C80_last_point_fails). C80_last_point_exactly: where each path begins and ends."
  },
  {
   "property": "C81",
   "status": "proved",
   "theorems": [
    "Torchrir.Props.C81_static",
    "Torchrir.Props.C81_dynamic",
    "Torchrir.Props.C81_missing"
   ],
   "note": "Images are compared by name and by what is drawn on them."
  },
  {
   "property": "C82",
   "status": "proved",
   "theorems": [
    "Torchrir.Props.C82_frames",
    "Torchrir.Props.C82_missing",
    "Torchrir.Props.C82_rejects"
   ],
   "note": "Which steps are selected is C71. Colours, limits and titles are not modelled."
  },
  {
   "property": "C83",
   "status": "proved",
   "theorems": [
    "Torchrir.Props.C83_until_error",
    "Torchrir.Props.C83_layout",
    "Torchrir.Props.C83_gifs",
    "Torchrir.Props.C83_videos",
    "Torchrir.Props.C83_missing"
   ],
   "note": "Rendering by matplotlib is a parameter that succeeds or raises; muxing of sound is C78. C83_videos also fixes the frame rate (VideoRate): the given fps, else steps over duration, rounded and at least 1."
  },
  {
   "property": "C84",
   "status": "proved",
   "theorems": [
    "Torchrir.Props.C84_supported",
    "Torchrir.Props.C84_unsupported",
    "Torchrir.Props.C84_notes"
   ],
   "note": "The file is text; the directory is assumed to be writable."
  },
  {
   "property": "C85",
   "status": "proved",
   "theorems": [
    "Torchrir.Props.C85_filter_is_last",
    "Torchrir.Props.C85_filter_is_last_dynamic",
    "Torchrir.Props.C85_high_cutoff_rejected",
    "Torchrir.Props.C85_off_without_scipy",
    "Torchrir.Props.C85_filtered_formula"
   ],
   "note": "For an arbitrary filter; the closed form for an arbitrary linear filter and the default keywords."
  },
  {
   "property": "C86",
   "status": "partial",
   "theorems": [
    "Torchrir.Props.C86_linear_or_rejected",
    "Torchrir.Props.C86_constant",
    "Torchrir.Props.C86_short_response_rejected",
    "Torchrir.Props.C86_causal_and_prefix_fails"
   ],
   "note": "About a reference model of scipy.signal.sosfiltfilt, written from its documentation. Onset and independence of nsample are false with the filter on (C86_causal_and_prefix_fails)."
  },
  {
   "property": "C87",
   "status": "partial",
   "theorems": [
    "Torchrir.Props.C87_present_untouched",
    "Torchrir.Props.C87_archive_reused",
    "Torchrir.Props.C87_damaged_replaced_partial",
    "Torchrir.Props.C87_unsafe_refused",
    "Torchrir.Props.C87_other_error_fails"
   ],
   "note": "A damaged archive is replaced if reading it raises ReadError, EOFError or OSError; with any other exception, such as zlib.error, it stays for good (C87_other_error_fails)."
  },
  {
   "property": "C88",
   "status": "proved",
   "theorems": [
    "Torchrir.Props.C88_static_placement",
    "Torchrir.Props.C88_dynamic_src_placement",
    "Torchrir.Props.C88_dynamic_mic_placement",
    "Torchrir.Props.C88_unknown_mode",
    "Torchrir.Props.C88_placement_outcome",
    "Torchrir.Props.C88_low_room_fails",
    "Torchrir.Props.C88_distance_kept_fails",
    "Torchrir.Props.C88_static_audio",
    "Torchrir.Props.C88_dynamic_audio",
    "Torchrir.Props.C88_rejection"
   ],
   "note": "The audio theorems take a filter design that succeeds and acts as a linear map on the responses (as C85 does). Sides of at least 1 m are needed: in a lower room a talker can stand below the floor (C88_low_room_fails). The distance of 1.5 m holds for the start only; a moving talker can end between the ears (C88_distance_kept_fails)."
  },
  {
   "property": "C89",
   "status": "proved",
   "theorems": [
    "Torchrir.Props.C89_options",
    "Torchrir.Props.C89_settings",
    "Torchrir.Props.C89_accepted",
    "Torchrir.Props.C89_typed",
    "Torchrir.Props.C89_round_trip",
    "Torchrir.Props.C89_rejected",
    "Torchrir.Props.C89_not_ready",
    "Torchrir.Props.C89_runs",
    "Torchrir.Props.C89_repeat",
    "Torchrir.Props.C89_flags_stay_on",
    "Torchrir.Props.C89_mode_unchecked"
   ],
   "note": "A configuration file is its parsed document and the command line is already split into options with arguments; the text of JSON files is the subject of C129 and the words of the command line that of C130. The round trip needs a configuration (if any) whose directories are strings and whose room is a list, and C89_runs needs a mode that does not come from the configuration."
  },
  {
   "property": "C90",
   "status": "proved",
   "theorems": [
    "Torchrir.Props.C90_microphones",
    "Torchrir.Props.C90_even_line",
    "Torchrir.Props.C90_long_line_fails",
    "Torchrir.Props.C90_motion",
    "Torchrir.Props.C90_motion_outcome",
    "Torchrir.Props.C90_two_steps_fails",
    "Torchrir.Props.C90_audio",
    "Torchrir.Props.C90_files",
    "Torchrir.Props.C90_many_microphones_fails",
    "Torchrir.Props.C90_saved_references_fails",
    "Torchrir.Props.C90_file_names",
    "Torchrir.Props.C90_file_names_sorted",
    "Torchrir.Props.C90_dataset",
    "Torchrir.Props.C90_every_scene",
    "Torchrir.Props.C90_scene_outcome",
    "Torchrir.Props.C90_more_scenes",
    "Torchrir.Props.C90_scene_generators"
   ],
   "note": "Loading the signals is a parameter; plots, metadata, attribution and logging are not part of this model. Where the script does not work as intended: a zigzag of two steps raises (C90_two_steps_fails), a line of 14 or more microphones next to a wall has coinciding microphones (C90_long_line_fails), nine or more microphones are saved with frames and channels swapped (C90_many_microphones_fails), and the saved references do not add up to the saved mixture because each file is normalised on its own (C90_saved_references_fails)."
  },
  {
   "property": "C91",
   "status": "proved",
   "theorems": [
    "Torchrir.Props.C91_neighbour",
    "Torchrir.Props.C91_neighbours"
   ],
   "note": "Names are path components without slash, dot or dot-dot (Plain). The members of an archive are assumed to lie below the speaker's directory, respectively below LibriSpeech but not in the other subset's directory (Contents)."
  },
  {
   "property": "C92",
   "status": "proved",
   "theorems": [
    "Torchrir.Props.C92_auralisation",
    "Torchrir.Props.C92_moving",
    "Torchrir.Props.C92_scale",
    "Torchrir.Props.C92_rate",
    "Torchrir.Props.C92_order_adds"
   ],
   "note": "For omnidirectional devices and without diffuse tail. The filter is scipy's; it is assumed to act on rows of K samples as some linear map (Model/Scipy has a reference model for which C86 proves this). C92_rate needs no linearity."
  },
  {
   "property": "C93",
   "status": "proved",
   "theorems": [
    "Torchrir.Props.C93_refined",
    "Torchrir.Props.C93_repeated",
    "Torchrir.Props.C93_hop_is_trajectory",
    "Torchrir.Props.C93_hop_is_timestamps"
   ],
   "note": "Refinements are given by Spec.Refines: which fine steps belong to which coarse step, and that they begin together. Hop mode with timestamps requires that the last step begins within the signal, as the trajectory mode requires of timestamps; without covering steps hop mode drops samples (C27)."
  },
  {
   "property": "C94",
   "status": "proved",
   "theorems": [
    "Torchrir.Props.C94_whole_delays",
    "Torchrir.Props.C94_direct_sound",
    "Torchrir.Props.C94_movement",
    "Torchrir.Props.C94_continuous",
    "Torchrir.Props.C94_step"
   ],
   "note": "For the filter switched off and omnidirectional devices. The steps come from the window being indexed by the integer part of the delay."
  },
  {
   "property": "C95",
   "status": "proved",
   "theorems": [
    "Torchrir.Props.C95_static_placement",
    "Torchrir.Props.C95_src_placement",
    "Torchrir.Props.C95_mic_placement",
    "Torchrir.Props.C95_placement_outcome",
    "Torchrir.Props.C95_static_like_cli",
    "Torchrir.Props.C95_src_like_cli",
    "Torchrir.Props.C95_mic_like_cli",
    "Torchrir.Props.C95_audio_like_cli",
    "Torchrir.Props.C95_static_output",
    "Torchrir.Props.C95_dynamic_output",
    "Torchrir.Props.C95_many_microphones_fails",
    "Torchrir.Props.C95_file_names",
    "Torchrir.Props.C95_distance_kept_fails"
   ],
   "note": "The two _fails theorems show why the statement is limited: a walking source may come closer than 1.5 m, and nine or more microphones are saved as frames. Loading the signals, plots, metadata and attribution are outside this model."
  },
  {
   "property": "C96",
   "status": "partial",
   "theorems": [
    "Torchrir.Props.C96_call_partial",
    "Torchrir.Props.C96_defaults",
    "Torchrir.Props.C96_level_fails",
    "Torchrir.Props.C96_which_files",
    "Torchrir.Props.C96_files",
    "Torchrir.Props.C96_center_unused",
    "Torchrir.Props.C96_records"
   ],
   "note": "The call is as stated unless the level for the log is BASIC_FORMAT or _STYLES in any case (C96_call_partial); with these words the program ends with an error before it does anything (C96_level_fails). The command line is already split into options with their arguments; its words are the subject of C130. float() and int() of a string are parameters; expanduser().resolve() is a parameter."
  },
  {
   "property": "C97",
   "status": "partial",
   "theorems": [
    "Torchrir.Props.C97_static_scene",
    "Torchrir.Props.C97_dynamic_scene",
    "Torchrir.Props.C97_approach",
    "Torchrir.Props.C97_moves_toward_fails",
    "Torchrir.Props.C97_output",
    "Torchrir.Props.C97_file_names"
   ],
   "note": "C97_moves_toward_fails: source 2 passes source 1 at a distance of less than 10 cm at step 116 of 127 and then moves away again; C97_approach says for which steps the distance shrinks. Everything else is proved as stated."
  },
  {
   "property": "C98",
   "status": "partial",
   "theorems": [
    "Torchrir.Props.C98_static_exactly",
    "Torchrir.Props.C98_dynamic_exactly",
    "Torchrir.Props.C98_source_count",
    "Torchrir.Props.C98_mic_count_partial",
    "Torchrir.Props.C98_extra_directions_ignored",
    "Torchrir.Props.C98_single_microphone_fails"
   ],
   "note": "C98_static_exactly and C98_dynamic_exactly say for every orientation whether it is accepted. For sources the property holds (C98_source_count); for several microphones too (C98_mic_count_partial). C98_single_microphone_fails: a single microphone with several directions is accepted, and C98_extra_directions_ignored says that all but the first are ignored."
  },
  {
   "property": "C99",
   "status": "proved",
   "theorems": [
    "Torchrir.Props.C99_speakers",
    "Torchrir.Props.C99_libri_sentences",
    "Torchrir.Props.C99_transcript_directory",
    "Torchrir.Props.C99_one_speaker",
    "Torchrir.Props.C99_path_exactly",
    "Torchrir.Props.C99_libri_audio",
    "Torchrir.Props.C99_libri_items",
    "Torchrir.Props.C99_cmu_sentences",
    "Torchrir.Props.C99_cmu_audio",
    "Torchrir.Props.C99_cmu_items"
   ],
   "note": "The directory is an arbitrary list of paths; IsCorpus (Spec/Corpus.lean) is the LibriSpeech layout. C99_path_exactly says for every identifier which file load_audio opens. In CMU ARCTIC a file named just .wav counts as audio of the identifier .wav (C99_cmu_sentences)."
  },
  {
   "property": "C100",
   "status": "partial",
   "theorems": [
    "Torchrir.Props.C100_item_speaker_partial",
    "Torchrir.Props.C100_listed_speakers_open",
    "Torchrir.Props.C100_libri_open_exactly",
    "Torchrir.Props.C100_cmu_speakers",
    "Torchrir.Props.C100_cmu_open_exactly",
    "Torchrir.Props.C100_whole_subset_fails"
   ],
   "note": "Holds for datasets of one speaker and for opening LibriSpeech speakers. C100_whole_subset_fails: items of a whole LibriSpeech subset name no speaker, and CMU ARCTIC lists all speakers of the corpus whether or not they are on disk (C100_cmu_open_exactly says which can be opened)."
  },
  {
   "property": "C101",
   "status": "partial",
   "theorems": [
    "Torchrir.Props.C101_attribution_first",
    "Torchrir.Props.C101_names",
    "Torchrir.Props.C101_order",
    "Torchrir.Props.C101_static",
    "Torchrir.Props.C101_dynamic",
    "Torchrir.Props.C101_directory",
    "Torchrir.Props.C101_leftovers_fails"
   ],
   "note": "Composed from the models of loading, placement, simulation, convolution, saving and metadata; the theorems C101_static and C101_dynamic say that the run finishes whenever loading and placement succeed (C53_succeeds says when loading does). The last sentence is false: C101_leftovers_fails; C101_directory says exactly what the directory holds."
  },
  {
   "property": "C102",
   "status": "proved",
   "theorems": [
    "Torchrir.Props.C102_exact",
    "Torchrir.Props.C102_in_order_static",
    "Torchrir.Props.C102_in_order_dynamic",
    "Torchrir.Props.C102_static",
    "Torchrir.Props.C102_static_any",
    "Torchrir.Props.C102_dynamic",
    "Torchrir.Props.C102_two_runs",
    "Torchrir.Props.C102_factor",
    "Torchrir.Props.C102_bitwise_fails"
   ],
   "note": "C102_exact ties the model with an adder to the model of the other claims. The values added, and the high-pass filter, stay exact. C102_static and C102_dynamic are for omnidirectional calls, C102_static_any for every static call without filter and tail. C102_bitwise_fails shows the restriction to devices that add in order is needed (a commutative addition, a device that reverses every chunk)."
  },
  {
   "property": "C103",
   "status": "partial",
   "theorems": [
    "Torchrir.Props.C103_names",
    "Torchrir.Props.C103_attribution_first",
    "Torchrir.Props.C103_order",
    "Torchrir.Props.C103_directory",
    "Torchrir.Props.C103_scene",
    "Torchrir.Props.C103_outcome",
    "Torchrir.Props.C103_rate_fails"
   ],
   "note": "Composition of the models of loading, motion, simulation, convolution, audio, metadata and attribution. Each file is brought to a peak of 1 (SavedAs). The sampling rate is only the one of the audio if the recordings are at 16 kHz, as those of both datasets are: C103_rate_fails. The copy of the arguments in the metadata and the plots are left out."
  },
  {
   "property": "C104",
   "status": "proved",
   "theorems": [
    "Torchrir.Props.C104_static",
    "Torchrir.Props.C104_dynamic",
    "Torchrir.Props.C104_condition",
    "Torchrir.Props.C104_machine",
    "Torchrir.Props.C104_converges",
    "Torchrir.Props.C104_exact",
    "Torchrir.Props.C104_exact_dynamic",
    "Torchrir.Props.C104_whole_delay_fails"
   ],
   "note": "Underflow, overflow, fused multiply-add, the rounding of the given positions, sizes and coefficients, and the rounding of diffuse tail and high-pass filter are left out. Directional devices: C105. C104_whole_delay_fails: for delays of a whole number of samples more bits do not help, whatever the precision."
  },
  {
   "property": "C105",
   "status": "proved",
   "theorems": [
    "Torchrir.Props.C105_static",
    "Torchrir.Props.C105_dynamic",
    "Torchrir.Props.C105_omni",
    "Torchrir.Props.C105_condition",
    "Torchrir.Props.C105_converges",
    "Torchrir.Props.C105_half_omni_fails",
    "Torchrir.Props.C105_exact"
   ],
   "note": "Limits as for C104; the angles are taken as the numbers the dtype holds. The bounds are for one orientation per device; C105_exact covers everything else with exact arithmetic. C105_half_omni_fails: a half-omni device that sees the other one at a right angle may hear it at full strength, in every precision."
  },
  {
   "property": "C106",
   "status": "partial",
   "theorems": [
    "Torchrir.Props.C106_shared_partial",
    "Torchrir.Props.C106_per_microphone_partial",
    "Torchrir.Props.C106_rows_rejected_fails",
    "Torchrir.Props.C106_rows_fails"
   ],
   "note": "Holds with one direction, with none, and with directions of shape (n_mic, 1, dim). Fails for directions of shape (n_mic, dim), which the batched function takes: the rows are broadcast along the images, so the call raises (C106_rows_rejected_fails) or uses the wrong directions (C106_rows_fails)."
  },
  {
   "property": "C107",
   "status": "partial",
   "theorems": [
    "Torchrir.Props.C107_static_work",
    "Torchrir.Props.C107_dynamic_work",
    "Torchrir.Props.C107_report_partial",
    "Torchrir.Props.C107_zero_repeats_fails",
    "Torchrir.Props.C107_negative_repeats_fails",
    "Torchrir.Props.C107_unknown_device_fails",
    "Torchrir.Props.C107_bad_level",
    "Torchrir.Props.C107_shown"
   ],
   "note": "The workloads and the report are proved. The last sentence fails: no repetitions end in a division by zero after the warm-up, a negative number is accepted and gives a negative average, and an unknown device is found only after all the work on the CPU. An unknown log level is rejected first (C107_bad_level); C107_shown says which messages appear."
  },
  {
   "property": "C108",
   "status": "partial",
   "theorems": [
    "Torchrir.Props.C108_static_exactly",
    "Torchrir.Props.C108_dynamic_exactly",
    "Torchrir.Props.C108_coincident_partial",
    "Torchrir.Props.C108_coincident_fails"
   ],
   "note": "Fails for the four patterns that compute with the cosine: the angle of a zero vector is 0/0, and the response is NaN (an error in the model). Proved for omnidirectional and half-omnidirectional devices, the latter hearing nothing of such a path. C108_static_exactly and C108_dynamic_exactly say in every case whether there is a response, and which."
  },
  {
   "property": "C109",
   "status": "partial",
   "theorems": [
    "Torchrir.Props.C109_static_partial",
    "Torchrir.Props.C109_dynamic_partial",
    "Torchrir.Props.C109_integer_static_exactly",
    "Torchrir.Props.C109_integer_dynamic_exactly",
    "Torchrir.Props.C109_integer_silence",
    "Torchrir.Props.C109_integer_tail_exactly",
    "Torchrir.Props.C109_tail_exactly",
    "Torchrir.Props.C109_fails"
   ],
   "note": "Fails: integer sources raise as soon as a path arrives within the response, and give zeros otherwise (C109_integer_static_exactly, C109_integer_dynamic_exactly; C109_integer_silence for all arguments; C109_integer_tail_exactly for the diffuse tail). Proved for computations in floating point, except for the tail of a room with integer size and a reverberation time, which fades as if the walls absorbed everything (C109_tail_exactly)."
  },
  {
   "property": "C110",
   "status": "partial",
   "theorems": [
    "Torchrir.Props.C110_tail_exactly",
    "Torchrir.Props.C110_sixty_dB",
    "Torchrir.Props.C110_level_fails"
   ],
   "note": "The noise, its fading and the 60 dB are proved for all calls without the filter, which works on the result (C110_tail_exactly, C110_sixty_dB). The level fails: it is that of the single sample before the tail, so that a tail after the end of the early sound is inaudible (C110_level_fails)."
  },
  {
   "property": "C111",
   "status": "partial",
   "theorems": [
    "Torchrir.Props.C111_in_order",
    "Torchrir.Props.C111_cpu_partial",
    "Torchrir.Props.C111_gpu_fails",
    "Torchrir.Props.C111_cpu_refuses",
    "Torchrir.Props.C111_short_fails"
   ],
   "note": "Proved on the CPU for responses of at least three samples (C111_cpu_partial, both directions) and, in the direction of acceptance, for all devices and lengths with the value of the result (C111_in_order). Fails on a GPU (C111_gpu_fails, C111_cpu_refuses: the CPU refuses the same call) and for responses of one sample (C111_short_fails): a part of the signal is played twice."
  },
  {
   "property": "C112",
   "status": "partial",
   "theorems": [
    "Torchrir.Props.C112_saved",
    "Torchrir.Props.C112_sound",
    "Torchrir.Props.C112_copy",
    "Torchrir.Props.C112_info",
    "Torchrir.Props.C112_wav_partial",
    "Torchrir.Props.C112_format_fails",
    "Torchrir.Props.C112_copy_default_fails",
    "Torchrir.Props.C112_attribute_fails"
   ],
   "note": "Contents, report, copies without normalisation (of channel 0) and the wav functions without a format argument are proved (C112_saved, C112_sound, C112_info, C112_copy, C112_wav_partial). Fails: with a format argument save_wav writes whatever the name says (C112_format_fails); copies with the default arguments are scaled to a peak of 1 (C112_copy_default_fails); the subtype attribute of a tensor is lost before it is looked up (C112_attribute_fails)."
  },
  {
   "property": "C113",
   "status": "proved",
   "theorems": [
    "Torchrir.Props.C113_undisturbed",
    "Torchrir.Props.C113_ends",
    "Torchrir.Props.C113_plain"
   ],
   "note": "Look-ups and assignments in the dictionaries are the atomic actions."
  },
  {
   "property": "C114",
   "status": "partial",
   "theorems": [
    "Torchrir.Props.C114_items",
    "Torchrir.Props.C114_settled_partial",
    "Torchrir.Props.C114_snapshot_fails"
   ],
   "note": "While the files do not change every thread gets the right item (C114_items), and an object used before the threads start keeps its sentences (C114_settled_partial). Fails: a thread that was overtaken replaces the sentences after another one has used them (C114_snapshot_fails)."
  },
  {
   "property": "C115",
   "status": "partial",
   "theorems": [
    "Torchrir.Props.C115_always_partial",
    "Torchrir.Props.C115_end_partial",
    "Torchrir.Props.C115_finishes_partial",
    "Torchrir.Props.C115_others_partial",
    "Torchrir.Props.C115_same_archive_fails"
   ],
   "note": "Holds for processes that download different archives (C115_always_partial, C115_end_partial, C115_finishes_partial, C115_others_partial). Fails for the same archive, because the processes share the .part file: a process can return although the archive is incomplete, and another can remove it afterwards (C115_same_archive_fails)."
  },
  {
   "property": "C116",
   "status": "partial",
   "theorems": [
    "Torchrir.Props.C116_saved_exactly",
    "Torchrir.Props.C116_read_back_partial",
    "Torchrir.Props.C116_scene_partial",
    "Torchrir.Props.C116_standard_partial",
    "Torchrir.Props.C116_standard_fails",
    "Torchrir.Props.C116_keys_fails",
    "Torchrir.Props.C116_lost_fails"
   ],
   "note": "Saving succeeds exactly if nothing is of a foreign type (C116_saved_exactly); then, with strings as keys, the same data come back (C116_read_back_partial, C116_scene_partial), with finite numbers only if there is a microphone (C116_standard_partial). Fails: NaN is written without microphones (C116_standard_fails), other keys become strings (C116_keys_fails), a value of a foreign type destroys the earlier file (C116_lost_fails)."
  },
  {
   "property": "C117",
   "status": "proved",
   "theorems": [
    "Torchrir.Props.C117_uniform",
    "Torchrir.Props.C117_heights",
    "Torchrir.Props.C117_heights_ignored",
    "Torchrir.Props.C117_min_distance",
    "Torchrir.Props.C117_returns"
   ],
   "note": "In exact arithmetic, for margins that leave some room on every axis and a range of heights that overlaps it. A range that does not overlap is ignored (C117_heights_ignored)."
  },
  {
   "property": "C118",
   "status": "partial",
   "theorems": [
    "Torchrir.Props.C118_unknown_refused",
    "Torchrir.Props.C118_offline_exactly",
    "Torchrir.Props.C118_opened_present",
    "Torchrir.Props.C118_present_untouched",
    "Torchrir.Props.C118_cmu_construct",
    "Torchrir.Props.C118_no_archive_asks",
    "Torchrir.Props.C118_archive_deleted_fails",
    "Torchrir.Props.C118_factory_untouched",
    "Torchrir.Props.C118_flag_ignored_fails",
    "Torchrir.Props.C118_scripts_offline_exactly",
    "Torchrir.Props.C118_default_speaker_fails"
   ],
   "note": "Without download: C118_offline_exactly; unknown names: C118_unknown_refused; nothing requested if all is there: C118_present_untouched, C118_factory_untouched; the scripts: C118_scripts_offline_exactly. Fails: a deleted archive is fetched again although the dataset is there, so that it does not open without a network (C118_archive_deleted_fails, C118_no_archive_asks); build_dynamic_dataset.py downloads without --download (C118_flag_ignored_fails); the scripts need the speaker bdl whoever was chosen (C118_default_speaker_fails)."
  },
  {
   "property": "C119",
   "status": "proved",
   "theorems": [
    "Torchrir.Props.C119_settings_exactly",
    "Torchrir.Props.C119_accepted_exactly",
    "Torchrir.Props.C119_refused",
    "Torchrir.Props.C119_level_device",
    "Torchrir.Props.C119_script_run",
    "Torchrir.Props.C119_dataset_run",
    "Torchrir.Props.C119_negative_sources",
    "Torchrir.Props.C119_repeated"
   ],
   "note": "Settings: C119_settings_exactly; acceptance: C119_accepted_exactly; repetition: C119_repeated; refusal before any file: C119_refused, C119_level_device; the work: C119_script_run, C119_dataset_run, composed with C95, C101, C90 and C103, which describe scriptRun and datasetRun. A negative number of sources is found after the attribution was written: C119_negative_sources. The settings out_dir, plot and shown do not reach the modelled work."
  },
  {
   "property": "C120",
   "status": "partial",
   "theorems": [
    "Torchrir.Props.C120_paired",
    "Torchrir.Props.C120_seeds_fails",
    "Torchrir.Props.C120_more_scenes",
    "Torchrir.Props.C120_generators",
    "Torchrir.Props.C120_one_scene"
   ],
   "note": "C120_more_scenes, C120_paired, C120_generators, C120_one_scene. The last sentence fails: scene i of a run with the seed s + j has the speakers and utterances of scene i + j of the run with the seed s (C120_seeds_fails), because the generator of scene i is that of the seed s + i."
  },
  {
   "property": "C121",
   "status": "partial",
   "theorems": [
    "Torchrir.Props.C121_contained",
    "Torchrir.Props.C121_reported",
    "Torchrir.Props.C121_silent",
    "Torchrir.Props.C121_sound",
    "Torchrir.Props.C121_second_view_fails"
   ],
   "note": "C121_contained, C121_reported, C121_silent, C121_sound. The last sentence fails: if writing the track for the view from above breaks off, the view in three dimensions is never rendered and the complete silent video is not reported (C121_second_view_fails)."
  },
  {
   "property": "C122",
   "status": "proved",
   "theorems": [
    "Torchrir.Props.C122_rigid_wall_mirrors"
   ],
   "note": "C122_rigid_wall_mirrors, for omnidirectional devices without the high-pass filter; the wall may be on any axis (the high wall follows by C12)."
  },
  {
   "property": "C123",
   "status": "proved",
   "theorems": [
    "Torchrir.Props.C123_orders_scale",
    "Torchrir.Props.C123_uniform"
   ],
   "note": "C123_orders_scale for scaled coefficients, C123_uniform for the rigid room; omnidirectional devices without the filter."
  },
  {
   "property": "C124",
   "status": "proved",
   "theorems": [
    "Torchrir.Props.C124_order_saturates"
   ],
   "note": "C124_order_saturates, for any directivity, orientation, tail and filter; the call with max_order is assumed to succeed."
  },
  {
   "property": "C125",
   "status": "proved",
   "theorems": [
    "Torchrir.Props.C125_image_number",
    "Torchrir.Props.C125_higher_orders",
    "Torchrir.Props.C125_converges"
   ],
   "note": "C125_image_number, C125_higher_orders, C125_converges. The distance is at least a micrometre, as in the code."
  },
  {
   "property": "C126",
   "status": "proved",
   "theorems": [
    "Torchrir.Props.C126_static",
    "Torchrir.Props.C126_static_shared",
    "Torchrir.Props.C126_trajectory",
    "Torchrir.Props.C126_trajectory_steps",
    "Torchrir.Props.C126_hop",
    "Torchrir.Props.C126_exact",
    "Torchrir.Props.C126_machine",
    "Torchrir.Props.C126_converges",
    "Torchrir.Props.C126_early_step_fails"
   ],
   "note": "C126_static, C126_static_shared, C126_trajectory, C126_trajectory_steps, C126_hop; C126_exact and C126_machine tie the machine to the exact model and show that there is one; C126_early_step_fails is the early step. No overflow or underflow; signals and responses of at least one sample."
  },
  {
   "property": "C127",
   "status": "proved",
   "theorems": [
    "Torchrir.Props.C127_positions",
    "Torchrir.Props.C127_heights",
    "Torchrir.Props.C127_min_distance",
    "Torchrir.Props.C127_clamp",
    "Torchrir.Props.C127_trajectory",
    "Torchrir.Props.C127_trajectory_room",
    "Torchrir.Props.C127_exact",
    "Torchrir.Props.C127_machine",
    "Torchrir.Props.C127_margin_fails",
    "Torchrir.Props.C127_end_fails",
    "Torchrir.Props.C127_leaves_fails"
   ],
   "note": "C127_positions, C127_heights, C127_min_distance, C127_clamp, C127_trajectory, C127_trajectory_room; C127_exact and C127_machine tie the machine to the exact model and show that there is one, with either way of dividing; C127_margin_fails, C127_end_fails, C127_leaves_fails are the three negative sentences. No overflow or underflow; rooms of at most three dimensions for the distance; floating point tensors."
  },
  {
   "property": "C128",
   "status": "proved",
   "theorems": [
    "Torchrir.Props.C128_round_trip",
    "Torchrir.Props.C128_error",
    "Torchrir.Props.C128_interrupted",
    "Torchrir.Props.C128_scalar_fails",
    "Torchrir.Props.C128_refines",
    "Torchrir.Props.C128_text",
    "Torchrir.Props.C128_surrogates_fails",
    "Torchrir.Props.C128_ascii",
    "Torchrir.Props.C128_repr"
   ],
   "note": "C128_round_trip, C128_error, C128_interrupted, C128_refines (the document model of C116 against the text), C128_text and C128_ascii; C128_repr shows that floats can be written as assumed. C128_scalar_fails and C128_surrogates_fails are the last sentence. repr of a finite float is a parameter: a decimal number with a point or an exponent that is read as the same double (ReprFloat); overflow is left out and so is Python's limit of the depth of recursion. Strings in values are without lone surrogates (Lean's String), C128_text is about all strings."
  },
  {
   "property": "C129",
   "status": "proved",
   "theorems": [
    "Torchrir.Props.C129_repeat",
    "Torchrir.Props.C129_values",
    "Torchrir.Props.C129_interrupted",
    "Torchrir.Props.C129_members",
    "Torchrir.Props.C129_files",
    "Torchrir.Props.C129_no_yaml"
   ],
   "note": "C129_repeat, C129_values (what is written has values that JSON has), C129_interrupted, C129_members, C129_files and C129_no_yaml, on the program of C89 with files of text written by the writer and read by the reader of C128. YAML text is a parameter. repr of a finite float is a parameter that is read as the same float; the set of floats is arbitrary, because the built-in 0.4 is the exact number in the model. Mappings inside a configuration are opaque. Files can be opened and decoded, and what a scenario writes is left out."
  },
  {
   "property": "C130",
   "status": "proved",
   "theorems": [
    "Torchrir.Props.C130_exactly",
    "Torchrir.Props.C130_one_meaning",
    "Torchrir.Props.C130_typable",
    "Torchrir.Props.C130_whole_name",
    "Torchrir.Props.C130_words",
    "Torchrir.Props.C130_ambiguous",
    "Torchrir.Props.C130_options",
    "Torchrir.Props.C130_cli",
    "Torchrir.Props.C130_scripts"
   ],
   "note": "C130_exactly, C130_one_meaning, C130_typable, C130_whole_name, C130_words, C130_ambiguous for all parsers with GoodOptions; C130_options for the parsers of the programs; C130_cli and C130_scripts lead back to C89, C96 and C119. The model follows argparse of Python 3.11, which the project requires, for parsers without positional arguments. Digits in negative numbers are those of ASCII. Which of several errors is reported is left out, and asking for help is an error that ends the program."
  },
  {
   "property": "C131",
   "status": "proved",
   "theorems": [
    "Torchrir.Props.C131_args_exactly",
    "Torchrir.Props.C131_file",
    "Torchrir.Props.C131_rebuild"
   ],
   "note": "C131_file, C131_args_exactly, C131_rebuild. A number after --room must be a word that can stand as an argument; text such as -1e-05 is not (see C130). That repr of a number is read as the number is assumed in Typing. The plots of --plot are left out."
  },
  {
   "property": "C132",
   "status": "proved",
   "theorems": [
    "Torchrir.Props.C132_exactly",
    "Torchrir.Props.C132_one_meaning",
    "Torchrir.Props.C132_main",
    "Torchrir.Props.C132_typable"
   ],
   "note": "C132_exactly, C132_one_meaning, C132_main, C132_typable; they rest on C130 and lead to C107. The text of the messages is left out."
  },
  {
   "property": "C133",
   "status": "proved",
   "theorems": [
    "Torchrir.Props.C133_data",
    "Torchrir.Props.C133_dataset_data",
    "Torchrir.Props.C133_without_option",
    "Torchrir.Props.C133_not_placed",
    "Torchrir.Props.C133_static",
    "Torchrir.Props.C133_dynamic",
    "Torchrir.Props.C133_dataset_scene",
    "Torchrir.Props.C133_names",
    "Torchrir.Props.C133_saved",
    "Torchrir.Props.C133_kept"
   ],
   "note": "C133_data and C133_dataset_data (the data do not depend on the pictures), C133_without_option, C133_not_placed, C133_static, C133_dynamic, C133_dataset_scene (the pictures and when they are saved), C133_saved (the images saved are those returned), C133_kept (what was saved before an exception stays), C133_names. They lead to C101 and C103 for the data and to C79 to C83 for what is drawn. Without matplotlib every picture is a warning, which is the case plot = false."
  },
  {
   "property": "C134",
   "status": "proved",
   "theorems": [
    "Torchrir.Props.C134_data",
    "Torchrir.Props.C134_order",
    "Torchrir.Props.C134_attribution_first",
    "Torchrir.Props.C134_failed",
    "Torchrir.Props.C134_static",
    "Torchrir.Props.C134_dynamic",
    "Torchrir.Props.C134_names",
    "Torchrir.Props.C134_settings",
    "Torchrir.Props.C134_repeat"
   ],
   "note": "C134_order and C134_attribution_first (the files and their order), C134_failed (no pictures before the scene is placed), C134_data (the picture options change no data), C134_static and C134_dynamic (finished runs, leading to C53, C88, C63, C65 and C79 to C83), C134_names, C134_settings (the run is a function of the settings), C134_repeat (the metadata repeats the run, with C89). The loader is a parameter of C134_settings and C134_repeat: it is the same function of the call and the generator in both runs."
  },
  {
   "property": "C135",
   "status": "proved",
   "theorems": [
    "Torchrir.Props.C135_data",
    "Torchrir.Props.C135_order",
    "Torchrir.Props.C135_finished",
    "Torchrir.Props.C135_succeeds",
    "Torchrir.Props.C135_interrupted",
    "Torchrir.Props.C135_lines",
    "Torchrir.Props.C135_extra"
   ],
   "note": "C135_order (files, order, exceptions), C135_finished (contents of a finished run, with SceneOnDisk, leading to C58, C59, C79 to C83 and C93), C135_succeeds (with a working sound library the run finishes when the scenes can be made), C135_interrupted (complete scenes of an interrupted run), C135_data (layout options change no data), C135_lines (text beside the layouts), C135_extra (extra block of the metadata). Sound files are written by a parameter that may raise at any call; drawing and writing pictures is taken to work when its arguments are accepted, as in C133."
  },
  {
   "property": "C136",
   "status": "proved",
   "theorems": [
    "Torchrir.Props.C136_order",
    "Torchrir.Props.C136_broken_off",
    "Torchrir.Props.C136_contents"
   ],
   "note": "C136_order (names, order, exceptions), C136_broken_off (a file that cannot be saved: exact outcome), C136_contents (contents of all files, with the loader of C53, the scenes and the audio of C97, the plots of C79 and the frames of C82). Drawing, the spectrogram below each curve and writing are represented by a parameter that may raise for any file."
  },
  {
   "property": "C137",
   "status": "proved",
   "theorems": [
    "Torchrir.Props.C137_static",
    "Torchrir.Props.C137_dynamic",
    "Torchrir.Props.C137_frames",
    "Torchrir.Props.C137_box",
    "Torchrir.Props.C137_colours",
    "Torchrir.Props.C137_titles"
   ],
   "note": "C137_static, C137_dynamic, C137_frames (limits and times), C137_box, C137_colours, C137_titles, on top of C79, C80 and C82. Labels and scale of the axes, fonts, markers and legends are not modelled; colours are names."
  },
  {
   "property": "C138",
   "status": "proved",
   "theorems": [
    "Torchrir.Props.C138_microphones",
    "Torchrir.Props.C138_sources",
    "Torchrir.Props.C138_opposite",
    "Torchrir.Props.C138_heard"
   ],
   "note": "C138_microphones, C138_sources, C138_opposite, C138_heard, from C05_static_rir_formula_directional and C23. Real arithmetic, static scenes, filter off, no microphone at the place of an image."
  },
  {
   "property": "C139",
   "status": "proved",
   "theorems": [
    "Torchrir.Props.C139_reciprocity",
    "Torchrir.Props.C139_same_sound",
    "Torchrir.Props.C139_mirror",
    "Torchrir.Props.C139_axes",
    "Torchrir.Props.C139_scale",
    "Torchrir.Props.C139_steps",
    "Torchrir.Props.C139_backwards"
   ],
   "note": "C139_reciprocity, C139_same_sound, C139_mirror, C139_axes, C139_scale, C139_steps, C139_backwards. Real arithmetic; C139_mirror, C139_axes and C139_steps also with the filter (equal results or no result)."
  },
  {
   "property": "C140",
   "status": "proved",
   "theorems": [
    "Torchrir.Props.C140_blocks",
    "Torchrir.Props.C140_delay",
    "Torchrir.Props.C140_past",
    "Torchrir.Props.C140_pieces",
    "Torchrir.Props.C140_moving_past"
   ],
   "note": "C140_blocks, C140_delay, C140_past (static), C140_pieces, C140_moving_past (trajectory mode). Real arithmetic; hop mode follows through C93 where it coincides with trajectory mode."
  },
  {
   "property": "C141",
   "status": "proved",
   "theorems": [
    "Torchrir.Props.C141_flat",
    "Torchrir.Props.C141_scale_t60",
    "Torchrir.Props.C141_scale_beta",
    "Torchrir.Props.C141_axes",
    "Torchrir.Props.C141_tall",
    "Torchrir.Props.C141_counts",
    "Torchrir.Props.C141_attenuation"
   ],
   "note": "C141_flat, C141_tall, C141_scale_t60, C141_scale_beta, C141_axes, C141_counts, C141_attenuation. Real arithmetic."
  },
  {
   "property": "C142",
   "status": "proved",
   "theorems": [
    "Torchrir.Props.C142_deprecated",
    "Torchrir.Props.C142_channels",
    "Torchrir.Props.C142_same",
    "Torchrir.Props.C142_scenes",
    "Torchrir.Props.C142_strict_scenes",
    "Torchrir.Props.C142_device",
    "Torchrir.Props.C142_stubs"
   ],
   "note": "C142_deprecated (any backends), C142_same (the soundfile backend), C142_channels, C142_scenes, C142_strict_scenes, C142_device, C142_stubs. Stack levels are not modelled; the text of ValueErrors is shortened."
  },
  {
   "property": "C143",
   "status": "proved",
   "theorems": [
    "Torchrir.Props.C143_mirrored",
    "Torchrir.Props.C143_plane",
    "Torchrir.Props.C143_centre",
    "Torchrir.Props.C143_diagonal",
    "Torchrir.Props.C143_moving"
   ],
   "note": "C143_mirrored, C143_plane, C143_centre, C143_diagonal (equal outcomes, also errors), C143_moving (equal results). Real arithmetic."
  },
  {
   "property": "C144",
   "status": "proved",
   "theorems": [
    "Torchrir.Props.C144_saved",
    "Torchrir.Props.C144_again",
    "Torchrir.Props.C144_stems",
    "Torchrir.Props.C144_mixture",
    "Torchrir.Props.C144_exact"
   ],
   "note": "C144_saved, C144_again, C144_stems, C144_mixture; C144_exact relates the rounded functions to those of C61 and C63. Unbounded exponents: no overflow or underflow. The mixture adds the stems one after the other."
  },
  {
   "property": "C145",
   "status": "proved",
   "theorems": [
    "Torchrir.Props.C145_beta",
    "Torchrir.Props.C145_beta_monotone",
    "Torchrir.Props.C145_long_time",
    "Torchrir.Props.C145_t60",
    "Torchrir.Props.C145_counts",
    "Torchrir.Props.C145_exact"
   ],
   "note": "C145_beta, C145_beta_monotone, C145_long_time, C145_t60, C145_counts; C145_exact relates the rounded functions to those of C14 and C30. Unbounded exponents: no overflow or underflow. torch.sum is any sum with the error bound SumsUp; adding one by one satisfies it."
  },
  {
   "property": "C146",
   "status": "proved",
   "theorems": [
    "Torchrir.Props.C146_filtered",
    "Torchrir.Props.C146_moving_microphones",
    "Torchrir.Props.C146_moving_sources",
    "Torchrir.Props.C146_turning"
   ],
   "note": "C146_filtered, C146_moving_microphones, C146_moving_sources, C146_turning. Post: the filter is off or has its default settings, as in C92. As in C05, a path of length zero is excluded."
  },
  {
   "property": "C147",
   "status": "proved",
   "theorems": [
    "Torchrir.Props.C147_mirror",
    "Torchrir.Props.C147_axes",
    "Torchrir.Props.C147_moving",
    "Torchrir.Props.C147_plane",
    "Torchrir.Props.C147_null"
   ],
   "note": "C147_mirror, C147_axes (all filter settings that validate), C147_moving (equal results, as in C139), C147_plane, C147_null (Post: the filter is off or has its default settings, as in C92). As in C05, a path of length zero is excluded."
  },
  {
   "property": "C148",
   "status": "proved",
   "theorems": [
    "Torchrir.Props.C148_distances",
    "Torchrir.Props.C148_moving",
    "Torchrir.Props.C148_directional",
    "Torchrir.Props.C148_facing"
   ],
   "note": "C148_distances, C148_moving (equal results, as in C139), C148_directional and C148_facing (Post: the filter is off or has its default settings, as in C92). As in C05, a path of length zero is excluded for directional devices. C148_moving compares scenes of the same dimension."
  },
  {
   "property": "C149",
   "status": "proved",
   "theorems": [
    "Torchrir.Props.C149_peak",
    "Torchrir.Props.C149_peak_reached",
    "Torchrir.Props.C149_total",
    "Torchrir.Props.C149_scene"
   ],
   "note": "C149_peak (static and both modes), C149_peak_reached, C149_total, C149_scene. Usable: a positive hop, or admissible time stamps, as in C29. As in C05, a path of length zero is excluded for directional devices. Real arithmetic; C126 and C104 bound the rounding."
  },
  {
   "property": "C150",
   "status": "partial",
   "theorems": [
    "Torchrir.Props.C150_names",
    "Torchrir.Props.C150_after_setup_partial",
    "Torchrir.Props.C150_notset_fails",
    "Torchrir.Props.C150_default_line_partial",
    "Torchrir.Props.C150_format",
    "Torchrir.Props.C150_without_setup",
    "Torchrir.Props.C150_two_dots_fails"
   ],
   "note": "Proved for the package logger and all dotted names of non-empty words below it (C150_names: this is what get_logger returns for such names) and levels other than NOTSET (C150_notset_fails: with NOTSET the level of the root logger decides): C150_after_setup_partial, C150_default_line_partial; C150_without_setup for all names. False for get_logger('.x'): Python's search for ancestors skips the package for a name with two adjacent dots (C150_two_dots_fails); names like torchrirfoo: C70_similar_name_fails. Formats: C150_format for all formats made of text, %% and the fields levelname, name and message; other fields are not modelled."
  }
 ]
}