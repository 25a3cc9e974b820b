{"claims": [
  {"property": "C01", "status": "proved", "theorems": ["Verif.C01_recording"], "note": ""},
  {"property": "C02", "status": "proved", "theorems": ["Verif.C02_signals", "Verif.C02_recordings", "Verif.C02_exports", "Verif.C02_points", "Verif.C02_states", "Verif.C02_instants", "Verif.C02_powers", "Verif.C02_soundfield"], "note": "processor given by its view of the signals (reads only a bounded window behind the index, writes one block ahead); proved for signals, processor states and recording, power, soundfield, state and instant diagnostics; smoothed power ratios are the exception, see C24"},
  {"property": "C03", "status": "proved", "theorems": ["Verif.C03_interval_recording"], "note": ""},
  {"property": "C04", "status": "proved", "theorems": ["Verif.C04_export_content"], "note": ""},
  {"property": "C05", "status": "proved", "theorems": ["Verif.C05_intervals", "Verif.C05_recording_intervals", "Verif.C05_exports_happen", "Verif.C05_exports_every"], "note": ""},
  {"property": "C06", "status": "proved", "theorems": ["Verif.C06_calls", "Verif.C06_schedule", "Verif.C06_enough", "Verif.C06_prepared_calls", "Verif.C06_prepared_schedule", "Verif.C06_prepared_enough"], "note": ""},
  {"property": "C07", "status": "proved", "theorems": ["Verif.C07_tiling", "Verif.C07_fxlms", "Verif.C07_fast"], "note": ""},
  {"property": "C08", "status": "proved", "theorems": ["Verif.C08_block_fits", "Verif.C08_fxlms", "Verif.C08_fast"], "note": ""},
  {"property": "C09", "status": "proved", "theorems": ["Verif.C09_delay", "Verif.C09_log"], "note": ""},
  {"property": "C10", "status": "proved", "theorems": ["Verif.C10_convolution"], "note": "'recorded source sample' includes the history sample(s) written in preparation (SimCfg.Emitted)"},
  {"property": "C11", "status": "proved", "theorems": ["Verif.C11_each_contribution", "Verif.C11_contributions"], "note": ""},
  {"property": "C12", "status": "proved", "theorems": ["Verif.C12_source_order"], "note": ""},
  {"property": "C13", "status": "proved", "theorems": ["Verif.C13_prepared", "Verif.C13_causality"], "note": "the first run must have completed the steps compared; that the second gets as far is proved"},
  {"property": "C14", "status": "proved", "theorems": ["Verif.C14_moving_arrays", "Verif.C14_created", "Verif.C14_filtering"], "note": "FIR paths; the response generator is a parameter (any function of the two array geometries, the path type and a generator state); consistent collection, arrays of constant size"},
  {"property": "C15", "status": "partial", "theorems": ["Verif.C15_cold_history_partial", "Verif.C15_violated"], "note": "the microphone history is filled with the first sample (witness); proved: source histories are silent, microphone history is constant"},
  {"property": "C16", "status": "proved", "theorems": ["Verif.C16_warm_history"], "note": ""},
  {"property": "C17", "status": "partial", "theorems": ["Verif.C17_no_processor_partial", "Verif.C17_violated"], "note": "sim_buffer < 4 gives block size 0: samples lost and wrong (witness); proved for sim_buffer >= 4 and every positive chunk size"},
  {"property": "C18", "status": "proved", "theorems": ["Verif.C18_open_loop", "Verif.C18_linearity"], "note": "no processor; FIR paths; the two-source superposition and the scaling follow from the linear combination"},
  {"property": "C19", "status": "proved", "theorems": ["Verif.C19_state_schedule", "Verif.C19_calls", "Verif.C19_storage"], "note": "the property getter is a function of the processor state with values of the declared length"},
  {"property": "C20", "status": "partial", "theorems": ["Verif.C20_exports_partial", "Verif.C20_violated"], "note": "exports after the last save index never happen (witness); proved: exactly the requested indices up to (tot/f)*f"},
  {"property": "C21", "status": "partial", "theorems": ["Verif.C21_export_partial", "Verif.C21_selection_partial", "Verif.C21_violated"], "note": "an export index before the first saved time returns everything (witness); proved from the first save index on"},
  {"property": "C22", "status": "proved", "theorems": ["Verif.C22_instants", "Verif.C22_every"], "note": ""},
  {"property": "C23", "status": "proved", "theorems": ["Verif.C23_signal_power", "Verif.C23_power_export", "Verif.C23_soundfield_power"], "note": "powers as exact field values; channel selections must denote at least one channel"},
  {"property": "C24", "status": "partial", "theorems": ["Verif.C24_restart_partial", "Verif.C24_one_partial", "Verif.C24_export_partial", "Verif.C24_violated"], "note": "the moving average restarts with every saved piece (witness: result depends on the chunk size); proved: exact for smoothing 1, and what is computed in general"},
  {"property": "C25", "status": "partial", "theorems": ["Verif.C25_exchanged_partial", "Verif.C25_same_partial", "Verif.C25_violated"], "note": "arguments exchanged (witness); proved for equal frequencies"},
  {"property": "C26", "status": "partial", "theorems": ["Verif.C26_intervals_partial", "Verif.C26_violated"], "note": "include_zero with f | max gives one interval too many; proved otherwise"},
  {"property": "C27", "status": "proved", "theorems": ["Verif.C27_access_path"], "note": "objects with __getitem__/__getattr__ are a parameter; keys without quotes and brackets"},
  {"property": "C28", "status": "proved", "theorems": ["Verif.C28_keep_only_last", "Verif.C28_other_diagnostics", "Verif.C28_later_raises", "Verif.C28_series"], "note": "folder = list of file names; contents not modelled; the folder holds no later export of the diagnostic, otherwise ValueError (C28_later_raises)"},
  {"property": "C29", "status": "proved", "theorems": ["Verif.C29_export_names_injective"], "note": ""},
  {"property": "C30", "status": "proved", "theorems": ["Verif.C30_split_irrelevant", "Verif.C30_sequence_repeat", "Verif.C30_empty_audio_hangs"], "note": ""},
  {"property": "C31", "status": "partial", "theorems": ["Verif.C31_sequence_raise_partial", "Verif.C31_raises_at_end", "Verif.C31_last_sample_violated", "Verif.C31_amp_violated"], "note": "code violates: in raise mode the last sample is never delivered and amp_factor is ignored (witnesses); proved for the rest"},
  {"property": "C32", "status": "proved", "theorems": ["Verif.C32_white_noise"], "note": ""},
  {"property": "C33", "status": "partial", "theorems": ["Verif.C33_filtered_noise_partial", "Verif.C33_two_channels_violated"], "note": "violated with several channels: the noise is drawn channel by channel inside each request, so samples depend on the request sizes (witness); proved for one channel"},
  {"property": "C34", "status": "proved", "theorems": ["Verif.C34_sine", "Verif.C34_multisine", "Verif.C34_sine_bound"], "note": ""},
  {"property": "C35", "status": "proved", "theorems": ["Verif.C35_pulse_train"], "note": "rational frequencies/sample rate"},
  {"property": "C36", "status": "proved", "theorems": ["Verif.C36_counter", "Verif.C36_counter_init"], "note": ""},
  {"property": "C37", "status": "proved", "theorems": ["Verif.C37_gold", "Verif.C37_gold_power_period", "Verif.C37_gold_orders"], "note": ""},
  {"property": "C38", "status": "proved", "theorems": ["Verif.C38_calc_block_sizes", "Verif.C38_split_unique", "Verif.C38_zero_size_hangs"], "note": ""},
  {"property": "C39", "status": "partial", "theorems": ["Verif.C39_registration_partial", "Verif.C39_duplicates", "Verif.C39_violated"], "note": "an array that is neither microphone nor source stays registered although add_array raises (witness); proved for microphones and sources"},
  {"property": "C40", "status": "proved", "theorems": ["Verif.C40_user_paths", "Verif.C40_paths"], "note": "set_path is called set_prop_path in the code; arrays with at least one object"},
  {"property": "C41", "status": "proved", "theorems": ["Verif.C41_setup_shapes", "Verif.C41_setup_succeeds", "Verif.C41_empty_arrays"], "note": "image-source package, normal distribution and sosfiltfilt are parameters with a shape contract"},
  {"property": "C42", "status": "proved", "theorems": ["Verif.C42_update", "Verif.C42_between", "Verif.C42_positions"], "note": "response generator is a parameter; Regen lists the generator calls in order"},
  {"property": "C43", "status": "partial", "theorems": ["Verif.C43_update_partial", "Verif.C43_violated_mic", "Verif.C43_violated_path"], "note": "a moving microphone without source and a user path of a moving array make update fail (witnesses); proved otherwise"},
  {"property": "C44", "status": "proved", "theorems": ["Verif.C44_groups"], "note": ""},
  {"property": "C45", "status": "proved", "theorems": ["Verif.C45_complete", "Verif.C45_pointwise"], "note": "image-source package is a parameter with a shape contract"},
  {"property": "C46", "status": "partial", "theorems": ["Verif.C46_loaded_partial", "Verif.C46_violated_trajectory", "Verif.C46_violated_directivity", "Verif.C46_violated_updateFreq", "Verif.C46_violated_length", "Verif.C46_violated_tolerance", "Verif.C46_violated_constants", "Verif.C46_violated_broadcast", "Verif.C46_accepted"], "note": "trajectories, directivity, update frequency, exact positions, room parameters without image-source paths and global constants are not compared, and a path with one value matches stored paths that repeat it (witnesses); proved for sessions that agree in these"},
  {"property": "C47", "status": "partial", "theorems": ["Verif.C47_found_partial", "Verif.C47_violated_length", "Verif.C47_violated_random"], "note": "a stored user path of another length and the default type random make the search raise (witnesses); proved for comparable complete sessions"},
  {"property": "C48", "status": "partial", "theorems": ["Verif.C48_crash_partial", "Verif.C48_violated"], "note": "an interruption while saving breaks every later create_simulator (general violation theorem); proved for the remaining points"},
  {"property": "C49", "status": "partial", "theorems": ["Verif.C49_load_partial", "Verif.C49_violated", "Verif.C49_violated_random"], "note": "load_from_path fails with a figure folder and for default type random; proved otherwise"},
  {"property": "C50", "status": "partial", "theorems": ["Verif.C50_partial", "Verif.C50_static_partial", "Verif.C50_violated_config", "Verif.C50_violated_constants", "Verif.C50_setup", "Verif.C50_again"], "note": "the configuration object and the image-source constants are shared (two witnesses); proved without configuration changes and random responses, for arrays at rest when the configuration is restored, and that simulators do not change the setup"},
  {"property": "C51", "status": "proved", "theorems": ["Verif.C51_equal_audio", "Verif.C51_equivalence", "Verif.C51_bookkeeping"], "note": "numbers are elements of a field with exact equality"},
  {"property": "C52", "status": "partial", "theorems": ["Verif.C52_unique", "Verif.C52_first_partial", "Verif.C52_violated"], "note": "violated: a processor whose name is already unique can be renamed (witness); uniqueness of the final names proved"},
  {"property": "C53", "status": "proved", "theorems": ["Verif.C53_phase"], "note": ""},
  {"property": "C54", "status": "partial", "theorems": ["Verif.C54_phase_never_none_violated", "Verif.C54_infinite_last_partial"], "note": "code never returns None after the last finite phase (witness); proved when the last phase is infinite"},
  {"property": "C55", "status": "proved", "theorems": ["Verif.C55_events"], "note": ""},
  {"property": "C56", "status": "proved", "theorems": ["Verif.C56_cuboid", "Verif.C56_spacing", "Verif.C56_too_small", "Verif.C56_rect"], "note": "exact field arithmetic instead of floating point"},
  {"property": "C57", "status": "proved", "theorems": ["Verif.C57_cuboid", "Verif.C57_rect"], "note": "exact field arithmetic"},
  {"property": "C58", "status": "proved", "theorems": ["Verif.C58_disc", "Verif.C58_cylinder", "Verif.C58_ball"], "note": "real numbers instead of floating point"},
  {"property": "C59", "status": "proved", "theorems": ["Verif.C59_combined", "Verif.C59_cuboid", "Verif.C59_rect", "Verif.C59_disc", "Verif.C59_cylinder", "Verif.C59_ball", "Verif.C59_ball_returns"], "note": "draws are values of [0,1); Ball: whenever the loop returns, and it returns once enough candidates lie in the ball"},
  {"property": "C60", "status": "partial", "theorems": ["Verif.C60_reversed", "Verif.C60_symmetric_partial", "Verif.C60_violated"], "note": "the index is reversed (general violation theorem); proved for symmetric volumes"},
  {"property": "C61", "status": "partial", "theorems": ["Verif.C61_cuboid", "Verif.C61_rect_partial", "Verif.C61_violated", "Verif.C61_violated_combined", "Verif.C61_disc_partial", "Verif.C61_ball", "Verif.C61_cylinder"], "note": "3-D Rectangle/Disc answer a single False if any coordinate is off the plane; CombinedRegion.is_in_region always raises (violation theorems); proved otherwise, plane up to the numpy tolerance"},
  {"property": "C62", "status": "proved", "theorems": ["Verif.C62_polar", "Verif.C62_spherical", "Verif.C62_ranges", "Verif.C62_inverse"], "note": "real numbers; arctan2 is the argument of a complex number"},
  {"property": "C63", "status": "partial", "theorems": ["Verif.C63_polygon_partial", "Verif.C63_constant_speed_partial", "Verif.C63_refused", "Verif.C63_violated_tolerance"], "note": "exact real arithmetic; a last point close but not equal to the first is never visited (C63_violated_tolerance); proved for exactly closed polygons"},
  {"property": "C64", "status": "partial", "theorems": ["Verif.C64_equal_times_partial", "Verif.C64_violated"], "note": "violated for every polygon: the code divides the period by the number of points, not segments, and rests at the start for the last share; equal times proved"},
  {"property": "C65", "status": "proved", "theorems": ["Verif.C65_circular", "Verif.C65_distance", "Verif.C65_repeats", "Verif.C65_refused"], "note": "exact real arithmetic"},
  {"property": "C66", "status": "partial", "theorems": ["Verif.C66_equidistant_partial", "Verif.C66_on_perimeter_partial", "Verif.C66_refused", "Verif.C66_violated_offset", "Verif.C66_order_reversed"], "note": "offset = 1 loses a point (C66_violated_offset, all inputs); proved for offset in [0,1); the returned order of the lower side is reversed"},
  {"property": "C67", "status": "partial", "theorems": ["Verif.C67_circles_partial", "Verif.C67_violated_few", "Verif.C67_stacked", "Verif.C67_no_layers"], "note": "concentrical_circles raises for fewer points than circles (C67_violated_few); stacked rectangles proved for all inputs"},
  {"property": "C68", "status": "proved", "theorems": ["Verif.C68_circle", "Verif.C68_distance", "Verif.C68_empty"], "note": "draws are values of [0,1); a circle of 0 points raises"},
  {"property": "C69", "status": "proved", "theorems": ["Verif.C69_unique_folder"], "note": ""},
  {"property": "C70", "status": "partial", "theorems": ["Verif.C70_multiple_unique_partial", "Verif.C70_multiple_unique_violated"], "note": "later numbers of the series may already exist (witness)"},
  {"property": "C71", "status": "partial", "theorems": ["Verif.C71_highest_bound_partial", "Verif.C71_highest_exists_partial", "Verif.C71_zero_padding_violated", "Verif.C71_negative_partial", "Verif.C71_minus_zero_violated"], "note": "zero-padded numbers and the number -0 give a non-existing file (witnesses); proved for canonical numbers, and that negative numbers are never chosen"},
  {"property": "C72", "status": "proved", "theorems": ["Verif.C72_index_of_numbered", "Verif.C72_index_none", "Verif.C72_never_raises"], "note": ""},
  {"property": "C73", "status": "proved", "theorems": ["Verif.C73_earlier_files", "Verif.C73_future_raises"], "note": ""},
  {"property": "C74", "status": "proved", "theorems": ["Verif.C74_calc_block_sizes_with_buffer", "Verif.C74_find_first_index", "Verif.C74_block_process"], "note": ""},
  {"property": "C75", "status": "partial", "theorems": ["Verif.C75_mls_partial", "Verif.C75_violated_state"], "note": "violated: the start state given to the constructor is ignored (general); proved for the start with ones; one channel"},
  {"property": "C76", "status": "partial", "theorems": ["Verif.C76_plot_spectrum_collide_violated", "Verif.C76_distinct_kinds_partial"], "note": "plot/spectrum and plotIr/matshow share a file name (witness)"},
  {"property": "C77", "status": "proved", "theorems": ["Verif.C77_runs_through"], "note": "FIR paths; source contract IsStream; array collection and processor given by invariants; diagnostics of all modelled classes (Diag.Fits); scipy welch taken to raise nothing"},
  {"property": "C78", "status": "partial", "theorems": ["Verif.C78_create_partial", "Verif.C78_violated_length", "Verif.C78_violated_random"], "note": "same witnesses as C47; proved for comparable complete sessions"},
  {"property": "C79", "status": "partial", "theorems": ["Verif.C79_alternate_partial", "Verif.C79_violated"], "note": "violated when the number of points on the lower side is even; proved when it is odd or nothing is added there"},
  {"property": "C80", "status": "proved", "theorems": ["Verif.C80_collection"], "note": "members are functions of the time"},
  {"property": "C81", "status": "proved", "theorems": ["Verif.C81_image"], "note": "exact ordered field; rounding to pos_decimals as in np.round; grid coordinates at least two units of the last decimal apart"},
  {"property": "C82", "status": "partial", "theorems": ["Verif.C82_violated", "Verif.C82_flipped_partial"], "note": "violated: the rows of the signals are flipped, the rows of the positions are not; proved: they agree after flipping"},
  {"property": "C83", "status": "partial", "theorems": ["Verif.C83_legend_partial", "Verif.C83_complete", "Verif.C83_violated"], "note": "violated for labels with an underscore (general); proved for labels without, and completeness in general"},
  {"property": "C84", "status": "partial", "theorems": ["Verif.C84_audio_partial", "Verif.C84_short_partial", "Verif.C84_silent_violated", "Verif.C84_end_violated"], "note": "exact field arithmetic; silence becomes nan, and a fade of one sample does not fade out (violation theorems); proved for at least 20 samples and for recordings too short to fade"},
  {"property": "C85", "status": "partial", "theorems": ["Verif.C85_each_export_partial", "Verif.C85_lengths", "Verif.C85_single", "Verif.C85_default_violated", "Verif.C85_spectrum_violated"], "note": "violated: several functions with default keyword arguments are rejected, and the spectrum of signal diagnostics always raises; proved when all lists are given, and for a single function; lists of different lengths are rejected (C85_lengths)"},
  {"property": "C86", "status": "partial", "theorems": ["Verif.C86_grid_partial", "Verif.C86_one_partial", "Verif.C86_count_partial", "Verif.C86_violated"], "note": "violated: 100490 points are accepted and 100489 returned; proved for all squares, and the count below 100000"},
  {"property": "C87", "status": "partial", "theorems": ["Verif.C87_cells_partial", "Verif.C87_count_partial", "Verif.C87_violated"], "note": "violated as C86; proved for all k\u00b7k\u00b7m, and the count below 100000"},
  {"property": "C88", "status": "partial", "theorems": ["Verif.C88_lattice_partial", "Verif.C88_sparse", "Verif.C88_violated"], "note": "violated: the spacing is always larger than requested; the lattice that is returned is determined"},
  {"property": "C89", "status": "partial", "theorems": ["Verif.C89_radii", "Verif.C89_density", "Verif.C89_violated"], "note": "violated: offset_angle has no effect; radii and density proved"},
  {"property": "C90", "status": "partial", "theorems": ["Verif.C90_layers_partial", "Verif.C90_violated"], "note": "violated when 4 does not divide the number; layers proved for all inputs"},
  {"property": "C94", "status": "proved", "theorems": ["Verif.C94_smooth", "Verif.C94_constant", "Verif.C94_prefix", "Verif.C94_clip"], "note": "exact field arithmetic"},
  {"property": "C92", "status": "partial", "theorems": ["Verif.C92_spectrum", "Verif.C92_summary_partial", "Verif.C92_mean", "Verif.C92_violated"], "note": "welch and the summary function are arbitrary; violated for summary functions that do not add up over consecutive pieces (witness: the maximum); proved for all that do and for the spectrum"},
  {"property": "C93", "status": "proved", "theorems": ["Verif.C93_comparison", "Verif.C93_summary", "Verif.C93_eigenvalues", "Verif.C93_difference", "Verif.C93_eigenvalues_at"], "note": "functions and getters arbitrary, eigh is any function giving the ascending eigenvalues; exports from the first save on (before it, see C21)"},
  {"property": "C91", "status": "proved", "theorems": ["Verif.C91_outcome", "Verif.C91_shape", "Verif.C91_response", "Verif.C91_recover"], "note": "np.fft.rfft is written out as the discrete Fourier transform over \u2102; the tone is sent through the model of the FIR filter (the path cut to num_freqs taps)"},
  {"property": "C95", "status": "partial", "theorems": ["Verif.C95_error", "Verif.C95_value", "Verif.C95_silent", "Verif.C95_rt60_partial", "Verif.C95_violated"], "note": "image source package, logarithm and measure_rt60 are parameters; violated: with more than 500 microphones the RT60 statistics cover only the last batch; proved for the truncation error and value in general, and for the RT60 statistics up to 500 microphones"},
  {"property": "C96", "status": "partial", "theorems": ["Verif.C96_coefficients", "Verif.C96_recursion", "Verif.C96_violated"], "note": "solve_toeplitz is any function that solves the system, IIRFilter the standard recursion, sqrt arbitrary; violated: the source starts from silence and its first sample has less than the given power (general, for order 1); coefficients and recursion proved in general"},
  {"property": "C97", "status": "partial", "theorems": ["Verif.C97_arrays_partial", "Verif.C97_duplicate", "Verif.C97_violated_paths", "Verif.C97_violated_simulator"], "note": "violated: paths set by the user are not copied (general, two cases); arrays, types and rejection of duplicate names proved in general"},
  {"property": "C98", "status": "partial", "theorems": ["Verif.C98_series_partial", "Verif.C98_again", "Verif.C98_keep_all", "Verif.C98_violated_image", "Verif.C98_violated_overwrite", "Verif.C98_violated_dot"], "note": "violated for plots with images, existing PDF files of the same name and names with a dot; proved for all series of plots otherwise; permission errors not modelled"},
  {"property": "C99", "status": "partial", "theorems": ["Verif.C99_direct_partial", "Verif.C99_none_partial", "Verif.C99_random_partial", "Verif.C99_highpass", "Verif.C99_rejected", "Verif.C99_violated_highpass"], "note": "violated with a high-pass filter, which is applied to these paths, too (witness: a direct path at half the amplitude); proved without it; FIR filters as in Model/Fir.lean"},
  {"property": "C100", "status": "partial", "theorems": ["Verif.C100_cuboid", "Verif.C100_rect", "Verif.C100_disc", "Verif.C100_ball", "Verif.C100_cylinder", "Verif.C100_combined_partial", "Verif.C100_combined_refused", "Verif.C100_violated_combined"], "note": "violated for combined regions: the overlap check only tries grid points and 100 random points (witness: two boxes that overlap, volume 16 instead of 14); proved for the five shapes and for combined regions without overlap"},
  {"property": "C101", "status": "proved", "theorems": ["Verif.C101_cuboid", "Verif.C101_rect", "Verif.C101_disc", "Verif.C101_cylinder", "Verif.C101_ball"], "note": "the generator is any sequence of independent random variables, uniform on [0,1); real arithmetic; combined regions see C60"},
  {"property": "C102", "status": "proved", "theorems": ["Verif.C102_white", "Verif.C102_white_average", "Verif.C102_sine", "Verif.C102_sine_average", "Verif.C102_multisine", "Verif.C102_multisine_average"], "note": "the generator is any sequence of independent random variables, standard normal or uniform on [0,1); real arithmetic"},
  {"property": "C103", "status": "partial", "theorems": ["Verif.C103_own_partial", "Verif.C103_violated"], "note": "violated without a generator: every source uses the seed 123456 and delivers the same numbers (general); proved for generators of their own that are independent"},
  {"property": "C104", "status": "partial", "theorems": ["Verif.C104_white_partial", "Verif.C104_white_violated", "Verif.C104_gold_partial", "Verif.C104_gold_violated"], "note": "violated: a rejected array stays in effect and makes all later requests raise (white noise), arrays of the wrong length are accepted (Gold sequences); proved for valid powers"},
  {"property": "C105", "status": "partial", "theorems": ["Verif.C105_gold_partial", "Verif.C105_white_partial", "Verif.C105_sine_violated", "Verif.C105_band_violated"], "note": "violated by SineSource and BandlimitedNoiseSource: the array is matched with the time axis (general); proved for white noise and Gold sequences"},
  {"property": "C106", "status": "proved", "theorems": ["Verif.C106_path", "Verif.C106_run", "Verif.C106_walls", "Verif.C106_center"], "note": "the image-source package is an arbitrary function of shoe box, constants and offset coordinates; exact arithmetic"},
  {"property": "C107", "status": "proved", "theorems": ["Verif.C107_run"], "note": "for rooms whose parameters can be computed, with equal response length, cutoff and samplerate"},
  {"property": "C108", "status": "partial", "theorems": ["Verif.C108_partial", "Verif.C108_test_partial", "Verif.C108_late_partial", "Verif.C108_violated"], "note": "violated at the start: the initial filter state is the steady state for a constant input 1 and is not scaled, so a source of power 0 starts with minus the step response (general); proved: exact expected squares, transient plus power relative to the test signal, its limit, and independence of channels; the filter is any linear one, the draws of the test signal are fixed"},
  {"property": "C109", "status": "proved", "theorems": ["Verif.C109_fewer", "Verif.C109_together", "Verif.C109_prepared_fewer", "Verif.C109_prepared_together"], "note": "exceptions raised by a diagnostic abort the run and are not covered; the export functions are not modelled beyond their input"},
  {"property": "C110", "status": "proved", "theorems": ["Verif.C110_run", "Verif.C110_setup", "Verif.C110_random"], "note": "the image-source package is assumed to be deterministic; for random paths the exception is shown by a witness (C110_random)"},
  {"property": "C111", "status": "proved", "theorems": ["Verif.C111_run", "Verif.C111_setup", "Verif.C111_random"], "note": "exact arithmetic (floating-point sums over the sources may differ in the last digits); the image-source package is assumed to be deterministic; for random paths the exception is shown by a witness (C111_random)"},
  {"property": "C112", "status": "proved", "theorems": ["Verif.C112_recordings", "Verif.C112_sources", "Verif.C112_recorded"], "note": "for second runs that complete; the recorded values are those of the model's diagnostics, exports write no file again"},
  {"property": "C113", "status": "partial", "theorems": ["Verif.C113_violated_ism", "Verif.C113_accepted", "Verif.C113_violated_ignored", "Verif.C113_pointing_partial", "Verif.C113_violated_setup", "Verif.C113_violated_example"], "note": "violated: with image sources every accepted directivity other than omni raises NotImplementedError, so no simulator can be created (C113_violated_setup) and the shipped example raises (C113_violated_example); the other path types ignore it (all general); proved that the unused conversion of directions is right"},
  {"property": "C114", "status": "partial", "theorems": ["Verif.C114_front", "Verif.C114_null", "Verif.C114_strongest_partial", "Verif.C114_violated", "Verif.C114_constant", "Verif.C114_filtered", "Verif.C114_aligned"], "note": "violated between c/(4d) and c/(2d): some direction off the axis is amplified (general); proved: front, null, growth with the cosine up to c/(4d), 0 Hz, filter_below, alignment; time convention and filter design of aspcore are assumptions"},
  {"property": "C115", "status": "partial", "theorems": ["Verif.C115_same_rate_partial", "Verif.C115_lower_rate_partial", "Verif.C115_higher_rate", "Verif.C115_violated_default", "Verif.C115_violated_mono", "Verif.C115_violated_channels", "Verif.C115_violated_missing"], "note": "violated: the defaults of desired_sr and num_channels raise, files with one channel raise, too many channels are not noticed (general); proved for at least two channels and explicit arguments; resample_poly and simplify_ratio are parameters"},
  {"property": "C116", "status": "partial", "theorems": ["Verif.C116_added_partial", "Verif.C116_violated", "Verif.C116_processors", "Verif.C116_violated_names"], "note": "violated: a value JSON does not know destroys the file and makes all later additions raise; processors of the same name overwrite each other (general); proved for values that can be written and different names"},
  {"property": "C117", "status": "partial", "theorems": ["Verif.C117_joined_partial", "Verif.C117_channel", "Verif.C117_violated_use", "Verif.C117_accepted", "Verif.C117_violated_amplitude", "Verif.C117_violated_equal"], "note": "violated: a SourceArray has no num_channels and is refused by every array, the amplitude is taken as number of channels, and all sources draw the same numbers (general); proved: the channels of all sources as one stream"},
  {"property": "C118", "status": "partial", "theorems": ["Verif.C118_corners_partial", "Verif.C118_violated_end", "Verif.C118_violated_time", "Verif.C118_violated_circle", "Verif.C118_circle_partial", "Verif.C118_violated_shorter", "Verif.C118_all_partial"], "note": "violated: a circular trajectory with periods below 1000 samples makes create_simulator raise; circular ones are drawn in full however short the simulation is; linear ones end at the last corner passed, and with equal times nothing is drawn in the last part of the period; trajectories given by a function are not drawn (all general); proved: corners drawn are those passed, in order, and the points of longer circular trajectories"},
  {"property": "C119", "status": "partial", "theorems": ["Verif.C119_described_partial", "Verif.C119_violated_arrays", "Verif.C119_violated_changed", "Verif.C119_violated_pairs", "Verif.C119_power", "Verif.C119_one_channel", "Verif.C119_channels"], "note": "violated: sources with numpy arrays in their metadata (every MultiSineSource) make create_simulator raise; sources and groups set later are missing; names containing -> collide (witness); proved for the rest"},
  {"property": "C120", "status": "proved", "theorems": ["Verif.C120_signals", "Verif.C120_recordings", "Verif.C120_exports", "Verif.C120_prepared"], "note": "for lengths for which both runs complete; files and figures outside the diagnostics are not part of it"},
  {"property": "C121", "status": "proved", "theorems": ["Verif.C121_delay"], "note": "open loop: no processor, arrays that stand still; exact arithmetic. With a processor it fails through the cold start (C15)"},
  {"property": "C122", "status": "proved", "theorems": ["Verif.C122_same_place"], "note": "the image-source package is assumed to be a function of the two positions and the minimum delay 0; exact arithmetic; for random paths it does not hold"},
  {"property": "C123", "status": "proved", "theorems": ["Verif.C123_contributions"], "note": "for runs with contributions that complete; the diagnostics are those of the model"},
  {"property": "C124", "status": "proved", "theorems": ["Verif.C124_response_length"], "note": "no random paths and no high-pass filter (both depend on the length by design); exact arithmetic; contract of the filter package as in the trusted base"},
  {"property": "C125", "status": "proved", "theorems": ["Verif.C125_still", "Verif.C125_random"], "note": "the image-source package is assumed to be deterministic; for random paths the exception is shown by a witness (C125_random)"},
  {"property": "C126", "status": "proved", "theorems": ["Verif.C126_points", "Verif.C126_groups", "Verif.C126_accepted", "Verif.C126_given", "Verif.C126_refused", "Verif.C126_grouping", "Verif.C126_run"], "note": "groups are used by the figure and the metadata only; regions are seen through their grid, points, membership and volume"},
  {"property": "C127", "status": "proved", "theorems": ["Verif.C127_run", "Verif.C127_setup", "Verif.C127_sequence", "Verif.C127_noise", "Verif.C127_last"], "note": "image-source package assumed deterministic; exact arithmetic; contract of the filter package as in the trusted base. If no source is left, a moving microphone makes the run raise (C127_last)"},
  {"property": "C128", "status": "proved", "theorems": ["Verif.C128_given", "Verif.C128_moving"], "note": "image-source package assumed deterministic for the paths that are not given; no arrays without points; for moving arrays the exception is shown by a witness (C128_moving)"},
  {"property": "C129", "status": "partial", "theorems": ["Verif.C129_create_partial", "Verif.C129_run_partial", "Verif.C129_violated"], "note": "holds if nothing moves (C129_create_partial for the arrays, C129_run_partial for the run). With anything moving, every simulation created from loaded arrays raises AssertionError at its first sample (C129_violated), because all responses count as modified by the user. Figure folders and the default type random are excluded by C49"},
  {"property": "C130", "status": "proved", "theorems": ["Verif.C130_each", "Verif.C130_grouping"], "note": ""},
  {"property": "C131", "status": "proved", "theorems": ["Verif.C131_play", "Verif.C131_control", "Verif.C131_heard"], "note": "control filter of the external filter package through its contract; the abstract update_filter is taken to change nothing, so the adaptive algorithms are not covered; C131_heard is for standing arrays"},
  {"property": "C132", "status": "proved", "theorems": ["Verif.C132_closed_loop", "Verif.C132_silence"], "note": "over a field, i.e. in exact arithmetic; control filter of the external filter package through its contract, not adapted"},
  {"property": "C133", "status": "proved", "theorems": ["Verif.C133_transfer", "Verif.C133_cancel"], "note": "exact arithmetic over a field; standing arrays, start_sources_before_0 False (with it the control starts late and silence only holds after the transient); polynomials in the one-sample delay; control filter through its contract, not adapted"},
  {"property": "C134", "status": "proved", "theorems": ["Verif.C134_gradient"], "note": "exact arithmetic over a field; standing arrays, start_sources_before_0 False, no feedback to the reference microphones; both runs have a fixed filter, the update is computed from buffers that hold the signals of the first run; the filtering of the reference enters through its result (FxBuf)"},
  {"property": "C135", "status": "partial", "theorems": ["Verif.C135_sample_partial", "Verif.C135_plain", "Verif.C135_violated", "Verif.C135_violated_block"], "note": "C135_sample_partial: 'sample' with an update after every sample; C135_plain: no normalization. False for 'sample' with longer update blocks (C135_violated: a step uphill) and for 'block' (C135_violated_block, update block of one sample); the docstring warns of the latter only"},
  {"property": "C136", "status": "partial", "theorems": ["Verif.C136_violated", "Verif.C136_violated_base", "Verif.C136_power_partial", "Verif.C136_ratio_partial"], "note": "violated: no object can be constructed (C136_violated, every argument); the partial theorems are about the save methods and get_output alone"},
  {"property": "C137", "status": "partial", "theorems": ["Verif.C137_mean_partial", "Verif.C137_violated"], "note": "holds for time indices from 3000 on (C137_mean_partial); nan before, for recordings of at least 3000 samples (C137_violated)"},
  {"property": "C138", "status": "proved", "theorems": ["Verif.C138_summary"], "note": "the file is modelled as its dictionary; a damaged file is not modelled"},
  {"property": "C139", "status": "proved", "theorems": ["Verif.C139_four_rectangles"], "note": "exact arithmetic; points closer to each other than the tolerance of np.isclose are excluded by hypothesis, as in the claim; the pairs are in the returned order"},
  {"property": "C140", "status": "partial", "theorems": ["Verif.C140_round_trip_partial", "Verif.C140_violated", "Verif.C140_violated_session", "Verif.C140_repeat_partial", "Verif.C140_violated_compare", "Verif.C140_accepted", "Verif.C140_found", "Verif.C140_one_entry"], "note": "holds for valid configurations without tuples and numpy values (C140_round_trip_partial, C140_repeat_partial); violated for all others: the file cannot be read and blocks the session folder (C140_violated, C140_violated_session), and a room size that is a numpy array cannot be compared (C140_violated_compare); PyYAML on the level of nodes and tags is part of the trusted base"},
  {"property": "C141", "status": "proved", "theorems": ["Verif.C141_periodic"], "note": "exact arithmetic; simulations without processors; arrays stand still"},
  {"property": "C142", "status": "proved", "theorems": ["Verif.C142_pulses"], "note": "exact arithmetic; simulations without processors; moving arrays included"},
  {"property": "C143", "status": "partial", "theorems": ["Verif.C143_stored", "Verif.C143_adaptive_partial", "Verif.C143_violated"], "note": "C143_stored holds for all block sizes, with the filtered reference as the processor stores it; it is the one of the claim for blocks of one sample or if nothing reaches the reference microphones before the end of the first block (C143_adaptive_partial); for longer blocks the reference samples at the times 1 .. block_size-1 never pass the secondary path filter (C143_violated). Exact arithmetic over a field (a normalization by zero, possible with beta = 0 only, gives 0 in Lean and inf in Python); filters of the external package through their contract"},
  {"property": "C144", "status": "partial", "theorems": ["Verif.C144_chunk_partial", "Verif.C144_buffer_partial", "Verif.C144_violated"], "note": "holds for sim_chunk_size (C144_chunk_partial; also with start_sources_before_0) and, if nothing is at the reference microphones at time 0, for sim_buffer as well (C144_buffer_partial); violated for sim_buffer if the reference is not 0 at time 0 and the secondary path is long (C144_violated). The processor's own signal xf is written into the past and left out"},
  {"property": "C145", "status": "proved", "theorems": ["Verif.C145_turned", "Verif.C145_distribute", "Verif.C145_same"], "note": "exact real arithmetic; random draws are arbitrary numbers in [0,1)"},
  {"property": "C146", "status": "proved", "theorems": ["Verif.C146_centre", "Verif.C146_later", "Verif.C146_amplitude", "Verif.C146_between", "Verif.C146_impulse", "Verif.C146_pairs"], "note": ""},
  {"property": "C147", "status": "partial", "theorems": ["Verif.C147_partial", "Verif.C147_violated", "Verif.C147_violated_buffer"], "note": "holds if the secondary paths with the delay of a block are not longer than the control filter, sim_buffer is a multiple of the filter length and every update finds two filter lengths before it in the buffer (C147_partial); violated for longer paths (C147_violated: the tail is dropped) and for other buffer sizes (C147_violated_buffer: only whole blocks of the history are prepared). aspcore's FilterBroadcastFreq, correlate_sum_tt and block_process_idxs enter through their contracts"},
  {"property": "C148", "status": "proved", "theorems": ["Verif.C148_closed_loop"], "note": "exact arithmetic; the filtered reference is the one the processor stores (C143_stored), so this holds for every block size"},
  {"property": "C149", "status": "proved", "theorems": ["Verif.C149_step_size_zero", "Verif.C149_silence"], "note": "exact arithmetic"},
  {"property": "C150", "status": "proved", "theorems": ["Verif.C150_bounded"], "note": "exact arithmetic in any ordered field"},
  {"property": "C151", "status": "proved", "theorems": ["Verif.C151_recording", "Verif.C151_export", "Verif.C151_times", "Verif.C151_every", "Verif.C151_power", "Verif.C151_power_export", "Verif.C151_filter", "Verif.C151_state", "Verif.C151_loudspeaker"], "note": "exact arithmetic; the processor's own signal xf is left out"},
  {"property": "C152", "status": "proved", "theorems": ["Verif.C152_louder"], "note": "exact arithmetic over a field; the processor's own signal xf is left out"},
  {"property": "C153", "status": "partial", "theorems": ["Verif.C153_partial", "Verif.C153_few", "Verif.C153_violated_outside", "Verif.C153_violated_offset", "Verif.C153_violated_few"], "note": "proved for four points or more, not further apart than a side is long, and offset in (0,1] (C153_partial); violated on elongated rectangles (a point outside, C153_violated_outside), for offset 0 (ValueError, C153_violated_offset) and for fewer than four points (C153_few, C153_violated_few)"},
  {"property": "C154", "status": "partial", "theorems": ["Verif.C154_few", "Verif.C154_partial", "Verif.C154_violated_none", "Verif.C154_violated_draw", "Verif.C154_violated_outside", "Verif.C154_violated_two"], "note": "proved for one to three points (C154_few) and for four points or more that are not further apart than a side is long, unless 0 is drawn (C154_partial); violated for no points (ZeroDivisionError), if 0 is drawn (ValueError) and on elongated rectangles (a point outside); two points are always next to each other (C154_violated_two)"},
  {"property": "C155", "status": "proved", "theorems": ["Verif.C155_renumber", "Verif.C155_open", "Verif.C155_paths"], "note": ""},
  {"property": "C156", "status": "partial", "theorems": ["Verif.C156_partial", "Verif.C156_violated_block", "Verif.C156_violated_past"], "note": "Proved for a reference microphone that records nothing before time 0 and, with a block size above 1, nothing in the first block. Without this the code violates it (two witnesses): reference samples of the first block skip the secondary path filter (C143), and the first source sample fills the past of the microphones (C15)."},
  {"property": "C157", "status": "proved", "theorems": ["Verif.C157_adaptive_runs_through"], "note": "FIR paths; source contract IsStream; array collection given by an invariant; diagnostics that do not read the processor's own signal xf; exact arithmetic; the buffer condition (Holds) is met by the sizes of the shipped examples"},
  {"property": "C158", "status": "proved", "theorems": ["Verif.C158_path", "Verif.C158_metadata", "Verif.C158_empty"], "note": "the image-source package is a parameter; the statistics of the measured reverberation times are functions of the values measured; the earlier function has no entries for mean and median"},
  {"property": "C159", "status": "proved", "theorems": ["Verif.C159_same_exports", "Verif.C159_runs_through"], "note": "exact arithmetic; diagnostics that read the processor read its control filter; the package aspcore enters through its contract, as for C147"},
  {"property": "C160", "status": "partial", "theorems": ["Verif.C160_even_partial", "Verif.C160_violated"], "note": "proved for evenly spaced rows and columns (C160_even_partial); violated for uneven ones, as the pixels divide the image evenly; how matplotlib places the pixels of an image is taken from its documentation"},
  {"property": "C161", "status": "partial", "theorems": ["Verif.C161_violated", "Verif.C161_rows_partial"], "note": "no call as documented succeeds (C161_violated); what a call with a single field draws is C161_rows_partial; arrays with four and more axes and the size of the figure are not modelled"},
  {"property": "C162", "status": "proved", "theorems": ["Verif.C162_size"], "note": ""},
  {"property": "C163", "status": "proved", "theorems": ["Verif.C163_lines", "Verif.C163_flat"], "note": ""},
  {"property": "C164", "status": "proved", "theorems": ["Verif.C164_room_runs", "Verif.C164_room_set_up"], "note": "the image-source package, the random numbers and the high-pass filter are parameters with a contract on the shapes (RirCfg.Lawful); sizes of 'fitting' as for C77"},
  {"property": "C165", "status": "partial", "theorems": ["Verif.C165_when", "Verif.C165_raises", "Verif.C165_longer_partial", "Verif.C165_shorter", "Verif.C165_violated"], "note": "violated for the sizes of the shipped example (C165_violated: 150015 samples run through, 150016 and more raise); C165_when says exactly which simulations run through, C165_longer_partial that a simulation over a common multiple of update_block_size and sim_chunk_size decides it for all lengths, C157 that a buffer of update_block_size + filter length + block size - 2 suffices. Blocks not longer than a chunk; exact arithmetic"},
  {"property": "C166", "status": "proved", "theorems": ["Verif.C166_anc_runs", "Verif.C166_shipped"], "note": "exact arithmetic; the image-source package, random numbers and high-pass filter are parameters with a contract on shapes (RirCfg.Lawful); source contract IsStream; the division of the normalization is never by zero (as for positive beta over the reals)"},
  {"property": "C167", "status": "proved", "theorems": ["Verif.C167_reference"], "note": "proved for a simulation without high-pass filter (the default highpass_cutoff is 0); other parameters as for C166"},
  {"property": "C168", "status": "proved", "theorems": ["Verif.C168_error", "Verif.C168_shipped"], "note": "as C166, for a simulation that runs through; exact arithmetic"},
  {"property": "C169", "status": "proved", "theorems": ["Verif.C169_created"], "note": "sizes are natural numbers; what aspcore does with a filter of length 0 is not modelled"},
  {"property": "C170", "status": "proved", "theorems": ["Verif.C170_script_runs", "Verif.C170_script_recordings", "Verif.C170_pair"], "note": "the image-source package, random numbers and high-pass filter are parameters with a contract on shapes (RirCfg.Lawful); source contract IsStream; exact arithmetic; C170_script_recordings covers scripts without processor and recordings of one channel"},
  {"property": "C171", "status": "proved", "theorems": ["Verif.C171_direct", "Verif.C171_debug"], "note": "as C170; the npz file is modelled by what the export function is given"},
  {"property": "C172", "status": "proved", "theorems": ["Verif.C172_play"], "note": "as C170; the stream of the processor meets the source contract IsStream"},
  {"property": "C173", "status": "proved", "theorems": ["Verif.C173_long_paths"], "note": "as C159; aspcore's FilterBroadcastFreq, correlate_sum_tt and block_process_idxs enter through their contracts"},
  {"property": "C174", "status": "proved", "theorems": ["Verif.C174_runs_through", "Verif.C174_raises", "Verif.C174_when"], "note": "FIR paths; source contract IsStream; array collection given by an invariant; diagnostics that do not read the processor's own signal xf; exact arithmetic; aspcore as for C173; for the other direction blocks not longer than a chunk"},
  {"property": "C175", "status": "proved", "theorems": ["Verif.C175_transient", "Verif.C175_adaptive", "Verif.C175_closed_loop"], "note": "exact arithmetic; aspcore as for C173; the step is never divided by zero (as for positive beta over the reals)"},
  {"property": "C176", "status": "proved", "theorems": ["Verif.C176_runs", "Verif.C176_raises", "Verif.C176_shipped"], "note": "reading and resampling the measured responses is not modelled, they are arguments; the image-source package, random numbers and high-pass filter are parameters with a contract on shapes (RirCfg.Lawful); source contract IsStream; exact arithmetic; aspcore as for C173; the step is never divided by zero (as for positive beta over the reals)"},
  {"property": "C177", "status": "proved", "theorems": ["Verif.C177_loop", "Verif.C177_shipped"], "note": "as C176, for a simulation that runs through, without high-pass filter and with start_sources_before_0, as in the script"},
  {"property": "C178", "status": "partial", "theorems": ["Verif.C178_chunk_partial", "Verif.C178_buffer_partial", "Verif.C178_violated"], "note": "violated by the code: FastBlockFxLMS.prepare lays whole blocks over the history from its beginning, so a remainder of sim_buffer is left out (C178_violated); proved for chunk sizes in general, and for buffers at a cold start when both leave the same remainder divided by the filter length and hold two filter lengths, or when nothing is at the reference microphones at time 0; exact arithmetic; aspcore as for C173"},
  {"property": "C179", "status": "proved", "theorems": ["Verif.C179_step_size_zero", "Verif.C179_silence"], "note": "exact arithmetic; aspcore as for C173; the step is never divided by zero (as for positive beta over the reals)"},
  {"property": "C180", "status": "proved", "theorems": ["Verif.C180_louder"], "note": "exact arithmetic; aspcore as for C173; the step is never divided by zero (as for positive beta over the reals)"},
  {"property": "C181", "status": "partial", "theorems": ["Verif.C181_partial", "Verif.C181_violated_block", "Verif.C181_violated_past"], "note": "violated by the code, as C156: the filtered reference leaves out or changes what the reference microphones hear in the first block (C181_violated_block) or at time 0 (C181_violated_past); proved for reference microphones that hear nothing in the first block; exact arithmetic; aspcore as for C173"},
  {"property": "C182", "status": "proved", "theorems": ["Verif.C182_renumber"], "note": "exact arithmetic; aspcore as for C173; the step is never divided by zero (as for positive beta over the reals); that listing positions in another order renumbers the responses is C155_paths"},
  {"property": "C183", "status": "proved", "theorems": ["Verif.C183_recording", "Verif.C183_export", "Verif.C183_times", "Verif.C183_every", "Verif.C183_power", "Verif.C183_power_export", "Verif.C183_filter", "Verif.C183_state", "Verif.C183_loudspeaker"], "note": "exact arithmetic; aspcore as for C173; the processor's own signal xf is left out"},
  {"property": "C184", "status": "proved", "theorems": ["Verif.C184_fewer", "Verif.C184_together", "Verif.C184_contributions", "Verif.C184_contributions_fxlms", "Verif.C184_contributions_fast", "Verif.C184_microphones_fxlms", "Verif.C184_microphones_fast", "Verif.C184_eval", "Verif.C184_shipped"], "note": "exact arithmetic; aspcore as for C173; the image-source method is deterministic and paths to the other microphones are not of type \"random\" (all random responses come from one generator, as in C110)"},
  {"property": "C185", "status": "proved", "theorems": ["Verif.C185_fxlms", "Verif.C185_fast", "Verif.C185_setup", "Verif.C185_shipped"], "note": "exact arithmetic; aspcore as for C173; the image-source method is deterministic and no path is of type \"random\" (all random responses come from one generator, as in C111)"},
  {"property": "C186", "status": "proved", "theorems": ["Verif.C186_fxlms", "Verif.C186_fast"], "note": "exact arithmetic; aspcore as for C173; the image-source method is deterministic and paths of the other sources are not of type \"random\""},
  {"property": "C187", "status": "proved", "theorems": ["Verif.C187_fxlms", "Verif.C187_fast"], "note": "exact arithmetic; aspcore as for C173; the image-source method is deterministic and no path is of type \"random\""},
  {"property": "C188", "status": "partial", "theorems": ["Verif.C188_recordings_fxlms", "Verif.C188_sources_fxlms", "Verif.C188_filter_fxlms", "Verif.C188_completes_fxlms_partial", "Verif.C188_raises_fxlms", "Verif.C188_recordings_fast", "Verif.C188_sources_fast", "Verif.C188_filter_fast", "Verif.C188_completes_fast_partial", "Verif.C188_raises_fast", "Verif.C188_violated_fxlms", "Verif.C188_violated_fast"], "note": "recordings, sources and filter are proved; the last sentence fails: with the same buffer the first run completes and the second raises ValueError (C188_violated_fxlms, C188_violated_fast), as the update comes before the new buffer reaches back far enough. Partial theorem: a further run completes if the buffer is large enough wherever updates fall or at every update of this run, and otherwise raises ValueError. Diagnostics that read \"xf\" are left out; exact arithmetic; aspcore as for C173"},
  {"property": "C189", "status": "proved", "theorems": ["Verif.C189_fxlms", "Verif.C189_fast", "Verif.C189_shipped"], "note": "as C106; diagnostics that look at coordinates themselves are left out"},
  {"property": "C190", "status": "proved", "theorems": ["Verif.C190_fxlms", "Verif.C190_fast"], "note": "as C107; both rooms must be ones that can be set up, with the same max_room_ir_length, cutoff and samplerate"},
  {"property": "C191", "status": "proved", "theorems": ["Verif.C191_fxlms", "Verif.C191_fast", "Verif.C191_give", "Verif.C191_repeat_fxlms", "Verif.C191_repeat_fast"], "note": "image-source package assumed deterministic for the paths that are not given; diagnostics depend on the arrays only (as those of the examples do)"},
  {"property": "C192", "status": "proved", "theorems": ["Verif.C192_signals_fxlms", "Verif.C192_state_fxlms", "Verif.C192_recordings_fxlms", "Verif.C192_exports_fxlms", "Verif.C192_signals_fast", "Verif.C192_state_fast", "Verif.C192_recordings_fast", "Verif.C192_exports_fast"], "note": "for lengths for which both runs complete; recordings and exports of the processor's own signal xf are left out; exact arithmetic; aspcore as for C173"},
  {"property": "C193", "status": "proved", "theorems": ["Verif.C193_fast", "Verif.C193_fxlms"], "note": "no high-pass filter, no random paths; FxLMS: diagnostics that do not look at the secondary paths (leaving out others changes nothing, C184); exact arithmetic; aspcore as for C173"},
  {"property": "C194", "status": "proved", "theorems": ["Verif.C194_fxlms", "Verif.C194_fast"], "note": "image-source package as a function of the two positions; recordings of the whole run; exact arithmetic; aspcore as for C173"},
  {"property": "C195", "status": "partial", "theorems": ["Verif.C195_fxlms_partial", "Verif.C195_fast_partial", "Verif.C195_fxlms_violated", "Verif.C195_fast_violated"], "note": "partial: holds if nothing moves; if anything moves, every run that completes fails with AssertionError when loaded again (C195_fxlms_violated, C195_fast_violated); diagnostics must depend on the arrays only; aspcore as for C173"},
  {"property": "C196", "status": "proved", "theorems": ["Verif.C196_fxlms", "Verif.C196_fast", "Verif.C196_region_fxlms", "Verif.C196_region_fast"], "note": "diagnostics must not depend on the groups (shown for those of the examples); exact arithmetic; aspcore as for C173"},
  {"property": "C197", "status": "proved", "theorems": ["Verif.C197_recordings_fxlms", "Verif.C197_filter_fxlms", "Verif.C197_recordings_fast", "Verif.C197_filter_fast", "Verif.C197_fxlms", "Verif.C197_fast", "Verif.C197_all_fxlms", "Verif.C197_all_fast"], "note": "C197_recordings_*, C197_filter_*: any configuration with FxScene or FastScene; C197_fxlms, C197_fast: rooms; C197_all_*: complete outcomes; exact arithmetic; aspcore as for C173"},
  {"property": "C198", "status": "partial", "theorems": ["Verif.C198_violated_create", "Verif.C198_partial", "Verif.C198_even_partial", "Verif.C198_violated_requests", "Verif.C198_violated"], "note": "partial: no source can be constructed (C198_violated_create); what get_samples would do is proved for requests that fit the sweeps (C198_partial, C198_even_partial), the others end with zeros (C198_violated_requests, C198_violated)"},
  {"property": "C199", "status": "proved", "theorems": ["Verif.C199_power", "Verif.C199_amplitude", "Verif.C199_gain", "Verif.C199_order", "Verif.C199_natural", "Verif.C199_smoothed", "Verif.C199_clipped"], "note": "exact real arithmetic; smoothing of data with nan is left out"},
  {"property": "C200", "status": "proved", "theorems": ["Verif.C200_heard_fast", "Verif.C200_heard"], "note": "C200_heard: FxLMS; C200_heard_fast: FastBlockFxLMS; exact arithmetic; aspcore as for C173"},
  {"property": "C201", "status": "partial", "theorems": ["Verif.C201_violated_raises", "Verif.C201_violated", "Verif.C201_invalid_partial"], "note": "violated: the mode zeros raises NotImplementedError at the first request (C201_violated_raises, C201_violated); proved: other modes are rejected (C201_invalid_partial)"},
  {"property": "C202", "status": "proved", "theorems": ["Verif.C202_grouping", "Verif.C202_grouping_fast"], "note": "C202_grouping: FxLMS; C202_grouping_fast: FastBlockFxLMS; the reference and error arrays and the loudspeakers of the filter are not regrouped; exact arithmetic; image-source method as for C130"}
]}
