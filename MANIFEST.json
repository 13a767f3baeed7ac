{
 "claims": [
  {
   "property": "C01",
   "status": "proved",
   "theorems": [
    "QM.C01_timesteps_consecutive",
    "QM.C01_timesteps_cover",
    "QM.C01_bad_span_rejected",
    "QM.C01_empty_span_fails"
   ],
   "note": ""
  },
  {
   "property": "C02",
   "status": "proved",
   "theorems": [
    "QM.C02_one_row_and_block_per_timestep",
    "QM.C02_other_exception_stops_run"
   ],
   "note": ""
  },
  {
   "property": "C03",
   "status": "proved",
   "theorems": [
    "QM.C03_day_files_hold_each_sample_once",
    "QM.C03_stream_holds_one_day",
    "QM.C03_detect_appends_good",
    "QM.C03_detect_run_files"
   ],
   "note": "obspy trim (nearest sample), merge of contiguous blocks and file replacement are modelled; blocks that do not follow on are outside the model and shown not to occur in detect runs with a whole number of samples per timestep."
  },
  {
   "property": "C04",
   "status": "proved",
   "theorems": [
    "QM.C04_continuous_write_durable",
    "QM.C04_completed_days_durable",
    "QM.C04_modes_agree"
   ],
   "note": "Crash points are the boundaries between appends; a crash inside the write of a file is not modelled."
  },
  {
   "property": "C05",
   "status": "proved",
   "theorems": [
    "QM.C05_roundtrip_half_quantum",
    "QM.C05_coalescence_never_overflows",
    "QM.C05_order_preserved",
    "QM.C05_coordinates_roundtrip",
    "QM.C05_large_coordinate_wraps"
   ],
   "note": ""
  },
  {
   "property": "C06",
   "status": "partial",
   "theorems": [
    "QM.C06_read_returns_stored_partial",
    "QM.C06_violated_after_gap",
    "QM.C06_read_after_detect"
   ],
   "note": "False of the code when the stored samples of the window have a gap (C06_violated_after_gap: everything after the first gap is dropped, for every such history). Proved for contiguous data on the sample grid, and hence for every window after a detect run (C06_read_after_detect)."
  },
  {
   "property": "C07",
   "status": "proved",
   "theorems": [
    "QM.C07_batches_partition",
    "QM.C07_bad_span_rejected",
    "QM.C07_partition_unique"
   ],
   "note": ""
  },
  {
   "property": "C08",
   "status": "proved",
   "theorems": [
    "QM.C08_candidates_are_maximal_runs",
    "QM.C08_every_sample_in_one_run"
   ],
   "note": ""
  },
  {
   "property": "C09",
   "status": "proved",
   "theorems": [
    "QM.C09_candidate_windows"
   ],
   "note": ""
  },
  {
   "property": "C10",
   "status": "proved",
   "theorems": [
    "QM.C10_events_separated",
    "QM.C10_reported_events_separated"
   ],
   "note": ""
  },
  {
   "property": "C11",
   "status": "proved",
   "theorems": [
    "QM.C11_merge_partition",
    "QM.C11_groups_unique"
   ],
   "note": ""
  },
  {
   "property": "C12",
   "status": "proved",
   "theorems": [
    "QM.C12_filter_exact"
   ],
   "note": ""
  },
  {
   "property": "C13",
   "status": "proved",
   "theorems": [
    "QM.C13_no_event_twice",
    "QM.C13_no_event_lost_at_boundary"
   ],
   "note": ""
  },
  {
   "property": "C14",
   "status": "proved",
   "theorems": [
    "QM.C14_mad_threshold",
    "QM.C14_median_threshold",
    "QM.C14_static_threshold",
    "QM.C14_threshold_local",
    "QM.C14_short_window_triggers_everywhere"
   ],
   "note": ""
  },
  {
   "property": "C15",
   "status": "partial",
   "theorems": [
    "QM.C15_interval_invariant_partial",
    "QM.C15_setter_checks",
    "QM.C15_constructor",
    "QM.C15_violated_by_later_window"
   ],
   "note": "The claim for all histories is false of the code (C15_violated_by_later_window: raising marginal_window is not re-checked). Proved for all histories that never raise the marginal window; setter checks proved exactly."
  },
  {
   "property": "C16",
   "status": "proved",
   "theorems": [
    "QM.C16_id_is_17_digits",
    "QM.C16_same_id_iff_same_millisecond",
    "QM.C16_ids_sort_in_time_order",
    "QM.C16_ids_unique_in_batch"
   ],
   "note": "Uniqueness assumes either that samples are at least 1 ms apart (all scan rates up to 1 kHz) or that min_event_interval + marginal_window is at least 1 ms."
  },
  {
   "property": "C17",
   "status": "partial",
   "theorems": [
    "QM.C17_columns_after_history",
    "QM.C17_columns_first_use_partial",
    "QM.C17_violated"
   ],
   "note": "False of the code (C17_violated): the module-level column list is mutated. C17_columns_after_history is the exact behaviour for every history; the documented columns hold until the option is first used."
  },
  {
   "property": "C18",
   "status": "proved",
   "theorems": [
    "QM.C18_read_exact",
    "QM.C18_consecutive_periods",
    "QM.C18_boundary_event_twice",
    "QM.C18_trigger_writes_wf"
   ],
   "note": ""
  },
  {
   "property": "C19",
   "status": "proved",
   "theorems": [
    "QM.C19_only_in_window",
    "QM.C19_skip_harmless",
    "QM.C19_all_located"
   ],
   "note": "Event output means the .event file; with write_coalescence the full map is written before the window check. Stages after the trimming are parameters that succeed or raise."
  },
  {
   "property": "C20",
   "status": "partial",
   "theorems": [
    "QM.C20_violated",
    "QM.C20_slices_aligned_partial"
   ],
   "note": "False of the code for every event: the trimmed map has one time slice fewer than the trimmed table (C20_violated holds for all inputs). Proved: the slices that are kept belong to the rows in order."
  },
  {
   "property": "C21",
   "status": "proved",
   "theorems": [
    "QM.C21_trim_keeps",
    "QM.C21_full_window"
   ],
   "note": ""
  },
  {
   "property": "C22",
   "status": "partial",
   "theorems": [
    "QM.C22_detect_sample_count_partial",
    "QM.C22_locate_times_partial",
    "QM.C22_usual_rates",
    "QM.C22_violated"
   ],
   "note": "False of the code at rates above 500 Hz that do not divide 1000: C22_violated is 502 Hz, where the pre-pad rounded to milliseconds is half-way between two samples and one sample too many is migrated. The partial theorems hold for every rate and window with no such tie; C22_usual_rates shows there is none if the rate divides 1000 or is at most 500 Hz. The start (trigger) time is taken on the sample grid of the archive and timestep as a whole number of samples."
  },
  {
   "property": "C23",
   "status": "proved",
   "theorems": [
    "QM.C23_in_box",
    "QM.C23_in_grid",
    "QM.C23_variance",
    "QM.C23_covariance_psd",
    "QM.C23_scales",
    "QM.C23_applies"
   ],
   "note": "Rational arithmetic; the uncertainties written are the square roots of the diagonal of the covariance matrix modelled here. The Gaussian fit and the map projection are not modelled."
  },
  {
   "property": "C24",
   "status": "proved",
   "theorems": [
    "QM.C24_inside",
    "QM.C24_edge_gridded",
    "QM.C24_axes_consistent",
    "QM.C24_not_below_peak"
   ],
   "note": "The radial basis interpolator of scipy is a parameter; the claim about the peak assumes only that it reproduces its data. The projection is not modelled."
  },
  {
   "property": "C25",
   "status": "proved",
   "theorems": [
    "QM.C25_mask_window",
    "QM.C25_mask_in_grid"
   ],
   "note": ""
  },
  {
   "property": "C26",
   "status": "proved",
   "theorems": [
    "QM.C26_no_out_of_bounds",
    "QM.C26_reads_only_own_onset",
    "QM.C26_guard_needed",
    "QM.C26_size_limit_needed",
    "QM.C26_mismatch_rejected"
   ],
   "note": ""
  },
  {
   "property": "C27",
   "status": "proved",
   "theorems": [
    "QM.C27_largest_traveltime",
    "QM.C27_padding_covers_traveltimes",
    "QM.C27_scan_meets_migrate_precondition"
   ],
   "note": "Guard of the theorems: at most 2^31 onset elements, the largest index the C kernel can form; beyond that the kernel overflows an int. Onset names contain no underscore other than the phase separator."
  },
  {
   "property": "C28",
   "status": "proved",
   "theorems": [
    "QM.C28_geometric_mean"
   ],
   "note": ""
  },
  {
   "property": "C29",
   "status": "proved",
   "theorems": [
    "QM.C29_between_extremes",
    "QM.C29_monotone"
   ],
   "note": ""
  },
  {
   "property": "C30",
   "status": "proved",
   "theorems": [
    "QM.C30_migrate_schedule_independent",
    "QM.C30_find_max_schedule_independent"
   ],
   "note": "Both theorems hold for any arithmetic (the additions, exp and comparison are parameters), so the results are equal bit for bit in doubles, not only in exact arithmetic."
  },
  {
   "property": "C31",
   "status": "proved",
   "theorems": [
    "QM.C31_find_max",
    "QM.C31_normalised_bounds",
    "QM.C31_scale_invariant"
   ],
   "note": ""
  },
  {
   "property": "C32",
   "status": "proved",
   "theorems": [
    "QM.C32_rows_aligned",
    "QM.C32_nothing_available",
    "QM.C32_underscore_fails"
   ],
   "note": ""
  },
  {
   "property": "C33",
   "status": "proved",
   "theorems": [
    "QM.C33_classic_window_ratio",
    "QM.C33_short_signal_faults",
    "QM.C33_silent_window"
   ],
   "note": ""
  },
  {
   "property": "C34",
   "status": "proved",
   "theorems": [
    "QM.C34_centred_window_ratio",
    "QM.C34_short_signal_faults",
    "QM.C34_silent_window"
   ],
   "note": ""
  },
  {
   "property": "C35",
   "status": "partial",
   "theorems": [
    "QM.C35_classic_backends_agree_partial",
    "QM.C35_centred_backends_agree_partial",
    "QM.C35_classic_silence_violated",
    "QM.C35_centred_equal_windows_violated"
   ],
   "note": "Violated by the code in two corners, proved as witnesses (silent long-term window; equal windows in the centred position). The _partial theorems give the exact guard under which the backends agree."
  },
  {
   "property": "C36",
   "status": "partial",
   "theorems": [
    "QM.C36_recursive_not_centred",
    "QM.C36_recursive_formula_partial"
   ],
   "note": "The documented claim is false of the code; a witness is proved, and the exact formula of the recursive onset."
  },
  {
   "property": "C37",
   "status": "proved",
   "theorems": [
    "QM.C37_floor",
    "QM.C37_low_floor_refused",
    "QM.C37_between_components",
    "QM.C37_equal_components"
   ],
   "note": ""
  },
  {
   "property": "C38",
   "status": "proved",
   "theorems": [
    "QM.C38_gain_invariant"
   ],
   "note": ""
  },
  {
   "property": "C39",
   "status": "proved",
   "theorems": [
    "QM.C39_classic_local",
    "QM.C39_centred_local",
    "QM.C39_migrated_windows_full"
   ],
   "note": "C39_migrated_windows_full assumes a scan rate of at least 2 Hz."
  },
  {
   "property": "C40",
   "status": "proved",
   "theorems": [
    "QM.C40_taper_blanked",
    "QM.C40_taper_length"
   ],
   "note": ""
  },
  {
   "property": "C41",
   "status": "proved",
   "theorems": [
    "QM.C41_exact_in_doubles",
    "QM.C41_nearest",
    "QM.C41_exact",
    "QM.C41_monotone",
    "QM.C41_fractional_rate"
   ],
   "note": "C41_exact_in_doubles: exact on whole samples also in double precision."
  },
  {
   "property": "C42",
   "status": "partial",
   "theorems": [
    "QM.C42_violated",
    "QM.C42_whole_samples_partial",
    "QM.C42_within_millisecond_partial"
   ],
   "note": "False of the code for rates that do not divide 1000 (C42_violated, 30 Hz). Proved for rates dividing 1000; for all rates the loss is below a millisecond."
  },
  {
   "property": "C43",
   "status": "proved",
   "theorems": [
    "QM.C43_on_sample_untouched",
    "QM.C43_shifted_on_sample"
   ],
   "note": "Interpolated sample values are not modelled, only start time and length. obspy's microsecond attribute ignores the sub-microsecond part of a start time."
  },
  {
   "property": "C44",
   "status": "proved",
   "theorems": [
    "QM.C44_bad_upfactor_rejected",
    "QM.C44_rates"
   ],
   "note": "Filtering/decimation and interpolation act on the data through parameters; rates and the list of traces are modelled exactly. Rates are positive and upsampling does not go below one sample per second (1 <= rate * upfactor)."
  },
  {
   "property": "C45",
   "status": "partial",
   "theorems": [
    "QM.C45_originals_kept",
    "QM.C45_inserted_between",
    "QM.C45_pad_violated",
    "QM.C45_pads_partial",
    "QM.C45_window"
   ],
   "note": "Samples, interpolation, length and window are proved in full; the pads only for whole-number data, because the fill is truncated to an integer (C45_pad_violated)."
  },
  {
   "property": "C46",
   "status": "proved",
   "theorems": [
    "QM.C46_mad_equivariant",
    "QM.C46_median_is_median",
    "QM.C46_threshold_equivariant",
    "QM.C46_triggered_set_invariant"
   ],
   "note": ""
  },
  {
   "property": "C47",
   "status": "proved",
   "theorems": [
    "QM.C47_flat_to_ijk",
    "QM.C47_ijk_to_flat",
    "QM.C47_out_of_range",
    "QM.C47_map_order",
    "QM.C47_index_round_trip",
    "QM.C47_nearest_node",
    "QM.C47_inside",
    "QM.C47_listed_in_order"
   ],
   "note": "The map projection between geographic and grid coordinates is outside the model."
  },
  {
   "property": "C48",
   "status": "proved",
   "theorems": [
    "QM.C48_covers",
    "QM.C48_corners",
    "QM.C48_made",
    "QM.C48_refused"
   ],
   "note": "Corners are taken in grid coordinates (projection outside the model)."
  },
  {
   "property": "C49",
   "status": "partial",
   "theorems": [
    "QM.C49_shapes",
    "QM.C49_carries",
    "QM.C49_coordinate_offset",
    "QM.C49_coordinates_partial",
    "QM.C49_violated"
   ],
   "note": "Shapes proved. Coordinates are false of the code when two or more nodes are left over on an axis (C49_violated); C49_coordinate_offset is the exact error and C49_coordinates_partial the case where it is zero."
  },
  {
   "property": "C50",
   "status": "proved",
   "theorems": [
    "QM.C50_served",
    "QM.C50_served_all"
   ],
   "note": "The cast to int32 is exact below 2^31 samples, which is assumed."
  },
  {
   "property": "C51",
   "status": "partial",
   "theorems": [
    "QM.C51_equal_iff",
    "QM.C51_all_stations",
    "QM.C51_tables_partial",
    "QM.C51_second_wins",
    "QM.C51_mismatch_unchanged",
    "QM.C51_station_table_kept",
    "QM.C51_violated"
   ],
   "note": "False of the code for a station in both tables (C51_violated: the second wins, C51_second_wins) and for the station table (C51_station_table_kept). The rest is proved."
  },
  {
   "property": "C52",
   "status": "partial",
   "theorems": [
    "QM.C52_read_lut_restores",
    "QM.C52_load_restores",
    "QM.C52_constructor_partial",
    "QM.C52_violated"
   ],
   "note": "Proved for read_lut and load; false of the code for LUT(lut_file=...), which always empties the station information (C52_violated, for every file). Pickling is taken to be exact."
  },
  {
   "property": "C53",
   "status": "partial",
   "theorems": [
    "QM.C53_inside_between",
    "QM.C53_node_value",
    "QM.C53_bilinear_partial",
    "QM.C53_violated",
    "QM.C53_outside"
   ],
   "note": "Inside-the-table and between-neighbours proved for the table requested for each station. Exactness at nodes is false of the code unless the top of the table is a whole number of spacings (C53_violated; C53_node_value is the exact value). Six-decimal formatting of the table origin is not modelled."
  },
  {
   "property": "C54",
   "status": "proved",
   "theorems": [
    "QM.C54_channel_iff",
    "QM.C54_availability_iff",
    "QM.C54_no_data",
    "QM.C54_channel_number_required"
   ],
   "note": ""
  },
  {
   "property": "C55",
   "status": "proved",
   "theorems": [
    "QM.C55_days",
    "QM.C55_empty"
   ],
   "note": ""
  },
  {
   "property": "C56",
   "status": "partial",
   "theorems": [
    "QM.C56_accepted_iff",
    "QM.C56_violated",
    "QM.C56_latitude_partial",
    "QM.C56_velocity_model"
   ],
   "note": "False of the code (C56_violated): the check is `(\"Latitude\" or ...) in header`, so only a missing Latitude is reported; a missing Longitude passes and a missing Elevation or Name raises KeyError. C56_latitude_partial is the exact condition of the error."
  },
  {
   "property": "C57",
   "status": "proved",
   "theorems": [
    "QM.C57_windows_ordered",
    "QM.C57_windows_shrink",
    "QM.C57_in_locate"
   ],
   "note": "C57_in_locate shows that the hypotheses hold for the windows of a located event; that arrivals of a station come in order of phase (P before S) is a hypothesis on the traveltimes."
  },
  {
   "property": "C58",
   "status": "proved",
   "theorems": [
    "QM.C58_peak_iff",
    "QM.C58_no_peak_iff"
   ],
   "note": ""
  },
  {
   "property": "C59",
   "status": "partial",
   "theorems": [
    "QM.C59_strictly_inside",
    "QM.C59_violated",
    "QM.C59_no_abort_partial",
    "QM.C59_picking_completes_partial",
    "QM.C59_locate_windows"
   ],
   "note": "False of the code for a window that starts at the first sample of the onset function (C59_violated: ValueError). Picks reported are always strictly inside (C59_strictly_inside); picking completes when the windows start later (C59_no_abort_partial, C59_picking_completes_partial), which C59_locate_windows shows for events of locate with fraction_tt <= 1."
  },
  {
   "property": "C60",
   "status": "proved",
   "theorems": [
    "QM.C60_noise_samples",
    "QM.C60_non_interference"
   ],
   "note": ""
  },
  {
   "property": "C61",
   "status": "partial",
   "theorems": [
    "QM.C61_arrivals",
    "QM.C61_picked",
    "QM.C61_picks_own",
    "QM.C61_picks_determined",
    "QM.C61_windows_partial",
    "QM.C61_noise_window",
    "QM.C61_error_iff",
    "QM.C61_P_arrival_iff",
    "QM.C61_modelled_contained",
    "QM.C61_violated"
   ],
   "note": "False of the code (C61_violated): with close autopicks the P window can end before the P pick. C61_windows_partial, C61_error_iff and C61_modelled_contained give what holds."
  },
  {
   "property": "C62",
   "status": "proved",
   "theorems": [
    "QM.C62_half_swing",
    "QM.C62_failure_iff"
   ],
   "note": "The sample numbers of peaks and troughs are parameters here; C83 computes them with scipy's algorithm. The UnboundLocalError of a single peak and trough of equal height is part of C62_failure_iff; windowAmplitude_bound (used for C84) shows that find_peaks never gives such a pair."
  },
  {
   "property": "C63",
   "status": "partial",
   "theorems": [
    "QM.C63_between",
    "QM.C63_mean",
    "QM.C63_weighted_mean",
    "QM.C63_single",
    "QM.C63_order",
    "QM.C63_shift",
    "QM.C63_weighted_error_partial",
    "QM.C63_violated"
   ],
   "note": "The weighted error is false of the code (C63_violated): deviations are multiplied by the weight before squaring. Everything else is proved; C63_shift requires, with weights, that no error is 0 (infinite weight)."
  },
  {
   "property": "C64",
   "status": "partial",
   "theorems": [
    "QM.C64_used",
    "QM.C64_station_partial",
    "QM.C64_station_violated",
    "QM.C64_defined_partial",
    "QM.C64_violated_noise_filter",
    "QM.C64_violated_distance",
    "QM.C64_violated_weights"
   ],
   "note": "False of the code: location code equal to a listed station (C64_station_violated); magnitude NaN although observations are used (C64_violated_noise_filter, C64_violated_distance, C64_violated_weights). C64_used is exact; C64_station_partial and C64_defined_partial state what holds."
  },
  {
   "property": "C65",
   "status": "partial",
   "theorems": [
    "QM.C65_at_most_one",
    "QM.C65_one_iff_partial",
    "QM.C65_undefined_iff",
    "QM.C65_error_iff",
    "QM.C65_violated_nan",
    "QM.C65_violated_selection"
   ],
   "note": "False of the code: r2 = 1 when the network magnitude is NaN (C65_violated_nan); the result of the noise selection is discarded (C65_violated_selection). Pandas sums skip NaN."
  },
  {
   "property": "C66",
   "status": "partial",
   "theorems": [
    "QM.C66_inside_iff",
    "QM.C66_covered_partial",
    "QM.C66_clear_of_taper_partial",
    "QM.C66_violated"
   ],
   "note": "False of the code for autopicks outside the modelled windows (C66_violated). C66_covered_partial and C66_clear_of_taper_partial hold for windows from modelled arrivals; C66_inside_iff is the exact condition."
  },
  {
   "property": "C67",
   "status": "proved",
   "theorems": [
    "QM.C67_round_trip",
    "QM.C67_last_write_wins",
    "QM.C67_read_merges"
   ],
   "note": "The CSV text is taken to reproduce the table; column names as written by detect (station_phase, no further underscore)."
  },
  {
   "property": "C68",
   "status": "partial",
   "theorems": [
    "QM.C68_old_converted_partial",
    "QM.C68_new_unchanged_partial",
    "QM.C68_violated_underscore",
    "QM.C68_no_column_twice"
   ],
   "note": "False of the code for station names with an underscore (C68_violated_underscore). Proved for names without."
  },
  {
   "property": "C69",
   "status": "partial",
   "theorems": [
    "QM.C69_given_code",
    "QM.C69_first_code",
    "QM.C69_violated",
    "QM.C69_one_network_partial"
   ],
   "note": "False of the code for stations of two networks (C69_violated): the code of the first row is used for all (C69_first_code)."
  },
  {
   "property": "C70",
   "status": "proved",
   "theorems": [
    "QM.C70_picks",
    "QM.C70_no_file",
    "QM.C70_nlloc",
    "QM.C70_amplitudes"
   ],
   "note": ""
  },
  {
   "property": "C71",
   "status": "partial",
   "theorems": [
    "QM.C71_files_hold_this_run_partial",
    "QM.C71_violated_stale_file"
   ],
   "note": "False of the code for days without candidates (C71_violated_stale_file): nothing is written, so an earlier file survives. Proved for every day with a candidate."
  },
  {
   "property": "C72",
   "status": "partial",
   "theorems": [
    "QM.C72_runs_on_other_days_independent_partial",
    "QM.C72_violated_same_day"
   ],
   "note": "False of the code for two parts of one day (C72_violated_same_day): the file is replaced. Proved for disjoint sets of days."
  },
  {
   "property": "C73",
   "status": "partial",
   "theorems": [
    "QM.C73_small_offset_partial",
    "QM.C73_violated_last_sample",
    "QM.C73_violated_off_grid_start"
   ],
   "note": "False of the code twice over: C73_violated_off_grid_start is a run that loses a sample, C73_violated_last_sample is a run that fails as its first sample is the last of a day. The on-grid case is C03; C73_small_offset_partial covers every off-grid run with an offset below half a sample that does not start on the last sample of a day."
  },
  {
   "property": "C74",
   "status": "proved",
   "theorems": [
    "QM.C74_waveforms_cover"
   ],
   "note": ""
  },
  {
   "property": "C75",
   "status": "partial",
   "theorems": [
    "QM.C75_violated",
    "QM.C75_unchanged_partial"
   ],
   "note": "False of the code (C75_violated): windows are cut at the midpoint of the arrivals even when they do not overlap. Proved for windows that keep to their side of the midpoints."
  },
  {
   "property": "C76",
   "status": "proved",
   "theorems": [
    "QM.C76_rows"
   ],
   "note": ""
  },
  {
   "property": "C77",
   "status": "partial",
   "theorems": [
    "QM.C77_match_iff_partial",
    "QM.C77_own_files_found",
    "QM.C77_other_day_never",
    "QM.C77_violated",
    "QM.C77_files_read_partial"
   ],
   "note": "False of the code in three of the seven formats (C77_violated: A1 also reads files of A10 or XA1). Proved exactly for the four formats that delimit the station; for all formats own files are found and files of another day never read."
  },
  {
   "property": "C78",
   "status": "partial",
   "theorems": [
    "QM.C78_marker_time_iff",
    "QM.C78_violated",
    "QM.C78_marker_time_partial",
    "QM.C78_marker_channels_partial",
    "QM.C78_violated_channels"
   ],
   "note": "False of the code for sub-second parts below 0.1 s (C78_violated): microseconds are written without leading zeros. C78_marker_time_iff is the exact condition."
  },
  {
   "property": "C79",
   "status": "proved",
   "theorems": [
    "QM.C79_sac_arrivals"
   ],
   "note": ""
  },
  {
   "property": "C80",
   "status": "partial",
   "theorems": [
    "QM.C80_violated",
    "QM.C80_elevation_partial"
   ],
   "note": "False of the code (C80_violated): what is written is minus the elevation in kilometres."
  },
  {
   "property": "C81",
   "status": "partial",
   "theorems": [
    "QM.C81_accepted_partial",
    "QM.C81_violated",
    "QM.C81_accepted_iff"
   ],
   "note": "False of the code for the documented names Greenfield2018 and langston1998 (C81_violated)."
  },
  {
   "property": "C82",
   "status": "partial",
   "theorems": [
    "QM.C82_increasing_partial",
    "QM.C82_violated",
    "QM.C82_anchor"
   ],
   "note": "False of the code for Danakil2017 beyond about 2000 km (C82_violated)."
  },
  {
   "property": "C83",
   "status": "partial",
   "theorems": [
    "QM.C83_peaks_are_local_maxima",
    "QM.C83_prominence_filters",
    "QM.C83_default_measurement",
    "QM.C83_prominence_measurement_partial",
    "QM.C83_violated"
   ],
   "note": "Proved in full for the default multiplier 0, and for any multiplier if no two peaks and no two troughs kept are level. False otherwise: level peaks kept without the trough between them give \"Consecutive peaks/troughs!\" (C83_violated)."
  },
  {
   "property": "C84",
   "status": "partial",
   "theorems": [
    "QM.C84_rows_partial",
    "QM.C84_violated_sorted",
    "QM.C84_violated_filtered",
    "QM.C84_violated_repeated"
   ],
   "note": "Proved for station tables labelled 0, 1, 2, ... False for other labels, because the label of a row is used as a position in the traveltimes: other traveltimes (C84_violated_sorted), an IndexError (C84_violated_filtered), lost rows (C84_violated_repeated). Corrected data, average amplitude and filter gain are parameters."
  },
  {
   "property": "C85",
   "status": "partial",
   "theorems": [
    "QM.C85_refused_partial",
    "QM.C85_violated"
   ],
   "note": "False for the bandpass filter, whose frequencies are read with dict.get, which does not raise (C85_violated)."
  },
  {
   "property": "C86",
   "status": "proved",
   "theorems": [
    "QM.C86_raw_samples",
    "QM.C86_samples",
    "QM.C86_gap_is_gap",
    "QM.C86_no_duplicates"
   ],
   "note": "For channels of one sampling rate with records on-sample (shift_to_sample leaves those alone, C43) and, for the absence of duplicates, files that do not contradict one another and a station list without repetitions. obspy's trim, read and merge(method=-1) are modelled; its correction of misalignments below 1% of a sample is not."
  },
  {
   "property": "C87",
   "status": "proved",
   "theorems": [
    "QM.C87_channels_independent",
    "QM.C87_order_irrelevant"
   ],
   "note": "The merge can fail only by differing sampling rates in the model (obspy also checks data type and calibration)."
  },
  {
   "property": "C88",
   "status": "partial",
   "theorems": [
    "QM.C88_violated",
    "QM.C88_errors_partial"
   ],
   "note": "False: DataGapException is raised where DataAvailabilityException is documented (C88_violated). Proved: ArchiveEmptyException exactly if there are no files; never an empty result; a gap if the files hold no records."
  },
  {
   "property": "C89",
   "status": "proved",
   "theorems": [
    "QM.C89_columns",
    "QM.C89_values",
    "QM.C89_trigger_info"
   ],
   "note": "All results and spacings; floating point is taken as exact, pandas round and the g format as rounding half to even. C89_trigger_info covers rows of old trigger files."
  },
  {
   "property": "C90",
   "status": "partial",
   "theorems": [
    "QM.C90_violated",
    "QM.C90_written_iff_partial"
   ],
   "note": "False of the code (C90_violated): on a grid in metres with depth spacing of 100 m or more the depths and uncertainties are rounded to integers and a value that is not finite raises in astype(int). C90_written_iff_partial is the exact condition."
  },
  {
   "property": "C91",
   "status": "partial",
   "theorems": [
    "QM.C91_distinct_files_partial",
    "QM.C91_detect_shared",
    "QM.C91_trigger_ids",
    "QM.C91_violated_names",
    "QM.C91_violated_uids"
   ],
   "note": "Proved for run names, subnames and event identifiers without dots (trigger's identifiers are such: C91_trigger_ids). False otherwise: the runs a.b and a_b share their files (C91_violated_names), and identifiers ev.1 and ev.2 of a trigger file share theirs, because with_suffix replaces what follows the last dot (C91_violated_uids). Names are single path components."
  },
  {
   "property": "C92",
   "status": "proved",
   "theorems": [
    "QM.C92_magnitude",
    "QM.C92_rows",
    "QM.C92_error",
    "QM.C92_error_covers",
    "QM.C92_tenfold"
   ],
   "note": "Over the reals; the attenuation function is a parameter."
  },
  {
   "property": "C93",
   "status": "partial",
   "theorems": [
    "QM.C93_files_partial",
    "QM.C93_with_magnitudes",
    "QM.C93_no_inventory",
    "QM.C93_violated"
   ],
   "note": "Proved if no magnitudes are calculated or the waveforms are cut (C93_files_partial). Otherwise the code writes the cached waveforms of the amplitude stage (C93_with_magnitudes): displacement although velocity was asked for, and only the traces used for amplitudes (C93_violated). Trimming is assumed idempotent; response removal and Wood-Anderson simulation are parameters."
  },
  {
   "property": "C94",
   "status": "partial",
   "theorems": [
    "QM.C94_location",
    "QM.C94_uncertainty_partial",
    "QM.C94_uncertainty_principal_partial",
    "QM.C94_flat_grid",
    "QM.C94_violated"
   ],
   "note": "The location is proved exact (C94_location). The uncertainties reported are half of the principal standard deviations, in the order of the eigenvalue routine and not of the axes (C94_uncertainty_partial, C94_uncertainty_principal_partial; violation C94_violated). On a grid with one node on an axis the fit raises (C94_flat_grid). Floats are reals; pinv is assumed to satisfy the Moore-Penrose conditions, eig to list the eigenvalues."
  },
  {
   "property": "C95",
   "status": "partial",
   "theorems": [
    "QM.C95_at_node",
    "QM.C95_between",
    "QM.C95_exact_if_linear",
    "QM.C95_modelled_partial",
    "QM.C95_modelled_at_node",
    "QM.C95_modelled_error_partial",
    "QM.C95_violated"
   ],
   "note": "traveltime_to is proved exact at nodes, bounded by the surrounding nodes, and exact for linear tables. The callers round the hypocentre to the nearest node before asking (C95_violated); proved instead: the value used is that of a node within half a node along each axis, exact at nodes, and in a homogeneous medium wrong by at most half a cell diagonal over the velocity. Floats are reals."
  },
  {
   "property": "C96",
   "status": "proved",
   "theorems": [
    "QM.C96_homogeneous_tables",
    "QM.C96_refused",
    "QM.C96_model_methods",
    "QM.C96_physical"
   ],
   "note": "Floats are reals. The tables of 1dfmm and 1dnlloc are parameters."
  },
  {
   "property": "C97",
   "status": "proved",
   "theorems": [
    "QM.C97_fmm_profile",
    "QM.C97_nlloc_profile",
    "QM.C97_nlloc_blocks"
   ],
   "note": "Floats are rationals; numbers in the control file are exact (six decimals in reality). np.interp is written out; NonLinLoc's meaning of LAYER lines is part of the specification. Repeated depths (steps) are covered for fast marching only."
  },
  {
   "property": "C98",
   "status": "proved",
   "theorems": [
    "QM.C98_source_nearest",
    "QM.C98_fmm_tables"
   ],
   "note": "The eikonal solver is a parameter."
  },
  {
   "property": "C99",
   "status": "partial",
   "theorems": [
    "QM.C99_other_files_partial",
    "QM.C99_cleaned_up",
    "QM.C99_retained",
    "QM.C99_violated"
   ],
   "note": "Proved: files outside model are left alone whatever happens, except control.in and the time grids of the phases and stations of the run; all working files are gone after success; nothing is lost with retain_nll_grids. Violated for the directory model, which is removed with everything in it (C99_violated). Which files the programs write is an assumption (NamesFiles)."
  },
  {
   "property": "C100",
   "status": "partial",
   "theorems": [
    "QM.C100_events_partial",
    "QM.C100_refused",
    "QM.C100_violated"
   ],
   "note": "Proved: a period, or a file alone, selects exactly the events described; no arguments and reversed periods are refused. Violated (C100_violated): a lone start time never gives the documented RuntimeError, and a period given with a file is ignored. UTCDateTime(None) is a parameter. Times are rationals."
  },
  {
   "property": "C101",
   "status": "partial",
   "theorems": [
    "QM.C101_own_padding_partial",
    "QM.C101_violated",
    "QM.C101_new_onset"
   ],
   "note": "Proved for all histories before the construction and all later ones that leave the onset object alone. Violated (C101_violated): a second scan on the same onset object changes the padding of the first, after which migration reads outside its arrays; changing the onset's rate leaves a stale scan rate."
  },
  {
   "property": "C102",
   "status": "partial",
   "theorems": [
    "QM.C102_names_partial",
    "QM.C102_violated"
   ],
   "note": "Proved for timestep/time_step and threads/n_cores. Violated (C102_violated): sampling_rate raises AttributeError; assigning pre_pad has no effect; assigning post_pad does not set the value."
  },
  {
   "property": "C103",
   "status": "partial",
   "theorems": [
    "QM.C103_tables_partial",
    "QM.C103_refused",
    "QM.C103_violated"
   ],
   "note": "Proved: the values, grid, stations and phases, and the refusals of missing and short files and of missing projections. Violated (C103_violated): a later file with another grid is accepted. Decoding of four bytes to a float is a parameter; coordinate transformation is a parameter with the round trip assumed."
  },
  {
   "property": "C104",
   "status": "partial",
   "theorems": [
    "QM.C104_unknown_ellipsoid",
    "QM.C104_projection_partial",
    "QM.C104_violated"
   ],
   "note": "Proved for SIMPLE and LAMBERT. Violated (C104_violated): TRANS_MERC headers give an origin at (0, 0), and rotations are ignored. PROJ's meaning of parameter names is part of the specification."
  },
  {
   "property": "C105",
   "status": "partial",
   "theorems": [
    "QM.C105_events_partial",
    "QM.C105_units",
    "QM.C105_violated",
    "QM.C105_without_picks",
    "QM.C105_missing_number"
   ],
   "note": "Proved for all histories and crash points in which magnitudes were calculated in all calls, from the phase named, or in none. Violated (C105_violated): no event file at all raises UnboundLocalError; magnitudes left from an earlier run, or another phase, raise KeyError; missing magnitudes raise ValueError if ObsPy refuses NaN (a parameter). Writes of single files are atomic in the model."
  },
  {
   "property": "C106",
   "status": "partial",
   "theorems": [
    "QM.C106_one_run_partial",
    "QM.C106_violated",
    "QM.C106_contents"
   ],
   "note": "Proved if the last call to locate the event completed its files and calculated a magnitude or none was left from before. Violated (C106_violated) by a run stopped between the picks and the event file."
  },
  {
   "property": "C107",
   "status": "partial",
   "theorems": [
    "QM.C107_units_partial",
    "QM.C107_violated"
   ],
   "note": "Proved for units, depths and latitudes. Violated (C107_violated): uncertainties of longitude lack the cosine of the latitude, and the axes of the ellipsoid are always north, east, vertical."
  },
  {
   "property": "C108",
   "status": "proved",
   "theorems": [
    "QM.C108_amps",
    "QM.C108_picks",
    "QM.C108_stable"
   ],
   "note": "Floats are rationals; rounding is to nearest, ties to even."
  },
  {
   "property": "C109",
   "status": "proved",
   "theorems": [
    "QM.C109_distances"
   ],
   "note": "The geodesic distance is a parameter."
  },
  {
   "property": "C110",
   "status": "partial",
   "theorems": [
    "QM.C110_dynamic_partial",
    "QM.C110_dynamic_raw_partial",
    "QM.C110_static_partial",
    "QM.C110_violated",
    "QM.C110_violated_small_pad",
    "QM.C110_smoothed_partial"
   ],
   "note": "Proved for static thresholds and a pad of at least the minimum event interval without smoothing (C110_static_partial); with smoothing, for a record without gaps and a pad longer by the reach of the filter and the longest run above the threshold (C110_smoothed_partial); for thresholds that follow the data, with or without smoothing, if midnights, start and pad are whole numbers of threshold windows (C110_dynamic_partial, C110_dynamic_raw_partial). Violated for threshold windows that the days are not a multiple of (C110_violated) and for pads shorter than the minimum event interval (C110_violated_small_pad)."
  },
  {
   "property": "C111",
   "status": "partial",
   "theorems": [
    "QM.C111_one_call",
    "QM.C111_last_call_wins",
    "QM.C111_last_availability_wins",
    "QM.C111_refused",
    "QM.C111_split_at_midnights_partial",
    "QM.C111_violated",
    "QM.C111_violated_killed"
   ],
   "note": "Proved for periods cut at midnights, a whole number of timesteps apart, in any order. For all other histories it is proved what each day's files hold: those of the last call that touched the day, alone (C111_last_call_wins, C111_last_availability_wins). Violated for other cuts (C111_violated): the later call replaces the day's files. A killed call leaves scan data without availability (C111_violated_killed)."
  },
  {
   "property": "C112",
   "status": "partial",
   "theorems": [
    "QM.C112_dynamic_partial",
    "QM.C112_isolated_reported_once_partial",
    "QM.C112_violated_off_grid",
    "QM.C112_violated_small_pad"
   ],
   "note": "Proved for static thresholds, no smoothing, pads at least as long as the burst, and sampling times that include the midnights (C112_isolated_reported_once_partial); for any threshold method, with or without smoothing, on a record without gaps with midnights, start and pad whole numbers of threshold windows, and a longer pad (C112_dynamic_partial). Violated if midnight is not a sampling time: a burst just before it is not reported by either day (C112_violated_off_grid); and for shorter pads: reported twice (C112_violated_small_pad)."
  },
  {
   "property": "C113",
   "status": "partial",
   "theorems": [
    "QM.C113_dynamic_partial",
    "QM.C113_detect_then_trigger_partial",
    "QM.C113_violated_after_gap"
   ],
   "note": "Proved for one complete detect call into a new run, times and pad on the sampling grid: for a static threshold without smoothing (C113_detect_then_trigger_partial), and for any threshold method with or without smoothing if midnights, both starts and the pad are whole numbers of threshold windows (C113_dynamic_partial). Violated when the run also holds an incomplete earlier day within reach of the pad: everything after the gap is ignored without an error (C113_violated_after_gap)."
  },
  {
   "property": "C114",
   "status": "partial",
   "theorems": [
    "QM.C114_detect_value_partial",
    "QM.C114_locate_value_partial",
    "QM.C114_same_value_any_timestep_partial",
    "QM.C114_locate_repeats_detect_partial"
   ],
   "note": "Proved for a whole number of samples per timestep, runs starting on the sample grid and pre-pads not halfway between two samples (all usual rates, C22_usual_rates). Independence of the timestep assumes that the onset functions are the same functions of absolute time on the samples used (from the end of the pre-pad to the longest traveltime into the post-pad; the incomplete windows at the ends may differ) and the same pairs are available in both windows; filters and tapers make this approximate. The projection to longitude and latitude is left out."
  },
  {
   "property": "C115",
   "status": "partial",
   "theorems": [
    "QM.C115_locate_gets_what_trigger_reported",
    "QM.C115_burst_located_once_partial",
    "QM.C115_violated_normalised",
    "QM.C115_dynamic_partial"
   ],
   "note": "Violated when triggering on normalised coalescence (the default): the event of a clear burst is silently dropped by locate if the coalescence before normalisation is larger elsewhere in its window (C115_violated_normalised). Proved when the coalescence before normalisation is largest within two marginal windows at a sample less than a marginal window from the trigger time: for a static threshold without smoothing (C115_burst_located_once_partial) and for any threshold method with or without smoothing on the grid of threshold windows (C115_dynamic_partial); for data without gaps, no earlier triggered-events files for these days (C71), and locate recomputing the coalescence detect computed (C114)."
  },
  {
   "property": "C116",
   "status": "partial",
   "theorems": [
    "QM.C116_detect_finds_source_partial",
    "QM.C116_detect_smaller_elsewhere_partial",
    "QM.C116_locate_finds_source_partial",
    "QM.C116_violated_rounding"
   ],
   "note": "Proved with the restrictions of C114 (whole samples per timestep, start on the sample grid, no pre-pad halfway between two samples). Traveltimes are rounded to samples, so nodes whose traveltimes differ by less than a sample cannot be told apart and the first in grid order is reported (C116_violated_rounding)."
  },
  {
   "property": "C117",
   "status": "partial",
   "theorems": [
    "QM.C117_median_ratio_partial",
    "QM.C117_mad_partial",
    "QM.C117_earthquake_gives_one_event_partial"
   ],
   "note": "C117_earthquake_gives_one_event_partial (static threshold), C117_median_ratio_partial (a multiple of the median of each window) and C117_mad_partial (the MAD of each window). They compose C113, C114, C115, C116 and C144 with their restrictions: the same pairs are available in the timesteps around the earthquake and when it is located (elsewhere stations may come and go and timesteps may have no data, as in the case shown), smoothing off, times on samples, no pre-pad halfway between two samples, onset functions that are the same functions of absolute time in all windows on the samples used (not at the ends of a window), and doubles that are a monotone function of the real values with a bounded error. For both of the latter the background is between two bounds, so all timesteps have data; the earthquake takes less than half of a threshold window, and midnights, starts, pad and the length of the scan are whole numbers of windows. For the MAD the background is also spread out: whichever level is chosen, more than half of the samples of each window are at least d away from it, and d is large enough for the multiplier."
  },
  {
   "property": "C118",
   "status": "partial",
   "theorems": [
    "QM.C118_complete_used_partial",
    "QM.C118_incomplete_refused",
    "QM.C118_violated",
    "QM.C118_violated_run",
    "QM.C118_violated_locate"
   ],
   "note": "Violated by the defaults: with the default onset windows at 50 Hz and a timestep of 120 s, and a largest traveltime up to 22 s, every complete channel is refused for every start and every timestep (C118_violated); likewise for locate with the default marginal window and a largest traveltime of 3 to 5 s (C118_violated_locate). The number of samples asked for is a product of two doubles plus one and is compared without rounding. Proved: complete channels are used if the rate is a sum of two powers of two (100 Hz is not; 40, 20, 10, 160 are) or the length is a double; incomplete channels are always refused. C118_violated_run: with the defaults the whole detect run then gives zeros and availability 0, without an error."
  },
  {
   "property": "C119",
   "status": "partial",
   "theorems": [
    "QM.C119_within_millisecond_partial",
    "QM.C119_eighths_partial",
    "QM.C119_violated"
   ],
   "note": "Violated: trim2sample(4.06, 50) is 4.059; for windows of 0.1 and 0.75 s and a largest traveltime of 23 to 38 s no channel is used by locate. Proved: less than the pad or one sample more by at most a millisecond; exact for multiples of an eighth of a second."
  },
  {
   "property": "C120",
   "status": "partial",
   "theorems": [
    "QM.C120_timestamps_partial",
    "QM.C120_violated"
   ],
   "note": "Violated: a marginal window of 1.15 s at 50 Hz gives 230 timestamps for 231 samples, although the data are used; the DataFrame raises ValueError. Proved: the number is that of the samples or one less, and equal for rates that are sums of two powers of two and for windows that are doubles."
  },
  {
   "property": "C121",
   "status": "partial",
   "theorems": [
    "QM.C121_steps_tile",
    "QM.C121_whole_seconds_tile",
    "QM.C121_number_of_steps_partial",
    "QM.C121_violated"
   ],
   "note": "Steps: proved for timesteps of whole nanoseconds up to 13 days after the start and whole seconds up to 136 years. Number of steps: proved for whole seconds; violated for fractions (2.1 s in steps of 0.3 s gives 8)."
  },
  {
   "property": "C122",
   "status": "proved",
   "theorems": [
    "QM.C122_between",
    "QM.C122_constant",
    "QM.C122_local",
    "QM.C122_no_shift",
    "QM.C122_monotone",
    "QM.C122_gaussian",
    "QM.C122_gaussian_falls",
    "QM.C122_reach",
    "QM.C122_event_from_data"
   ],
   "note": "scipy's gaussian_filter1d (mode reflect) is written out in Model/Smooth.lean; the weights are those of the Gaussian over the reals, and any others that are symmetric, not negative and add up to 1."
  },
  {
   "property": "C123",
   "status": "partial",
   "theorems": [
    "QM.C123_range",
    "QM.C123_scale",
    "QM.C123_peak_partial",
    "QM.C123_violated",
    "QM.C123_mirror_partial"
   ],
   "note": "Range, normalisation and scale proved for every map that is not negative and not zero everywhere (C123_range, C123_scale). Single source stays the peak and mirroring: if each axis has an odd number of nodes, or the source is not at the upper end of an even axis (C123_peak_partial, C123_mirror_partial). Violated otherwise (C123_violated): on an axis with an even number of nodes, at least 4, the kernel has no centre node, and a source at the upper end is moved one node inwards, for any width. The FFT convolution of scipy is taken as the exact convolution."
  },
  {
   "property": "C124",
   "status": "partial",
   "theorems": [
    "QM.C124_classic_partial",
    "QM.C124_centred_partial",
    "QM.C124_counts",
    "QM.C124_violated_classic",
    "QM.C124_violated_centred",
    "QM.C124_violated_gap_classic",
    "QM.C124_violated_gap_centred"
   ],
   "note": "Proved: an error bound for every signal, window and sample whose long-term sum is at least 4*N*(n+2)*X/2^52 (N samples of the signal, n of the window, X largest value): C124_classic_partial, C124_centred_partial; no accumulation at all for whole numbers (C124_counts). Violated where the long-term sum is small compared to the largest value before: after one large glitch all later classic onsets of the timestep are NaN and centred onsets are 1 whatever arrives (C124_violated_classic, C124_violated_centred, for all windows); in a gap filled with tiny values the onset is the ratio of two rounding errors, 26 or 6 in the cases shown, for the whole gap (C124_violated_gap_classic, C124_violated_gap_centred; the documentation says gaps give an onset of about zero, exact arithmetic gives 1). No contraction of multiplications and additions, overflow or subnormal numbers in the model."
  },
  {
   "property": "C125",
   "status": "partial",
   "theorems": [
    "QM.C125_violated",
    "QM.C125_used_partial",
    "QM.C125_filled",
    "QM.C125_cut",
    "QM.C125_gap_onset_violated",
    "QM.C125_return_of_data"
   ],
   "note": "Violated: while full_timespan is left at its default (True), allow_gaps has no effect at all, for any data: channels with two or more traces are refused (C125_violated). Violated: where both windows lie in a gap the onset is 1, not about 0, for any fill value (C125_gap_onset_violated; in double precision it can be larger, see C124). Proved: with both options set a channel is used exactly if no trace is flat, none overlap and the rate is right (C125_used_partial); filling and padding put every sample at its own time (C125_filled; traces on the samples of the window, rates below 100 kHz); the classic onset after a gap is at most nlta/nsta, the centred one is the mean energy over the squared fill value (C125_return_of_data). The taper weights are a parameter."
  },
  {
   "property": "C126",
   "status": "partial",
   "theorems": [
    "QM.C126_outcome_partial",
    "QM.C126_violated",
    "QM.C126_violated_edge"
   ],
   "note": "Exact outcome for every stream and setting: C126_outcome_partial (rates up to the hypotheses of C44; corner frequencies positive and in order). Violated: a channel sampled at or below twice the low corner raises a ValueError in ObsPy, which detect does not catch, and the run ends (C126_violated, any other data, any timestep). Violated: for a high corner in the last millionth below Nyquist a high-pass filter is applied (C126_violated_edge). ObsPy's and SciPy's checks of corner frequencies are modelled from their documented behaviour."
  },
  {
   "property": "C127",
   "status": "partial",
   "theorems": [
    "QM.C127_filter_partial",
    "QM.C127_violated"
   ],
   "note": "C127_filter_partial: filter applied = filter whose gain is removed = the one documented, whenever no exception is raised. C127_violated: a ValueError (nothing catches it) exactly if the rate is at most twice the frequency of the high-pass filter or the low corner. The frequency response itself is not modelled."
  },
  {
   "property": "C128",
   "status": "proved",
   "theorems": [
    "QM.C128_detrend",
    "QM.C128_noise",
    "QM.C128_trend",
    "QM.C128_scale"
   ],
   "note": "Over the reals; least squares written out and proved optimal. The envelope is a parameter; its scaling is a hypothesis of C128_scale. Any other noise_measure raises NotImplementedError as soon as there are data (part of C128_noise); the constructor accepts it."
  },
  {
   "property": "C129",
   "status": "partial",
   "theorems": [
    "QM.C129_nodes",
    "QM.C129_old_partial",
    "QM.C129_new_partial",
    "QM.C129_violated",
    "QM.C129_violated_serve"
   ],
   "note": "Old tables: C129_old_partial (what is served is unchanged for every sampling rate and availability). New tables: C129_new_partial (nothing but phases and fraction changes). Violated for both: the phases become P and S and fraction_tt 0.1 whatever they were (C129_violated), and a table without S traveltimes for a station can then not be served as a whole (C129_violated_serve). The pickle file itself is not modelled."
  },
  {
   "property": "C130",
   "status": "partial",
   "theorems": [
    "QM.C130_constructed_partial",
    "QM.C130_others_partial",
    "QM.C130_violated",
    "QM.C130_violated_constructor",
    "QM.C130_violated_read"
   ],
   "note": "C130_constructed_partial and C130_others_partial: holds between objects that do not hold the same dictionary. Violated: objects constructed with the same dictionary share what is set under old names (C130_violated), the constructor changes the user's dictionary and earlier objects (C130_violated_constructor), and onset_centred read back is a text that is always true (C130_violated_read)."
  },
  {
   "property": "C131",
   "status": "partial",
   "theorems": [
    "QM.C131_files_partial",
    "QM.C131_violated",
    "QM.C131_violated_no_data",
    "QM.C131_violated_start"
   ],
   "note": "C131_files_partial: exact list of files and contents if each station with picks has channels ending in Z, N, E that begin together. Violated: channels named 1 and 2, which the default settings accept for S, or a missing component raise IndexError and end the export (C131_violated); so does a station with picks and no data at all (C131_violated_no_data); if the traces of a station do not begin together the arrivals are off by the difference (C131_violated_start). SAC reference times are idealised as the start of the trace (SAC keeps whole milliseconds and an offset)."
  },
  {
   "property": "C132",
   "status": "proved",
   "theorems": [
    "QM.C132_time",
    "QM.C132_error",
    "QM.C132_lines"
   ],
   "note": "Field by field; seconds are exact before rounding (a double in the code). Text layout is not modelled."
  },
  {
   "property": "C133",
   "status": "partial",
   "theorems": [
    "QM.C133_mad_partial",
    "QM.C133_percentile_partial",
    "QM.C133_refused_partial",
    "QM.C133_violated",
    "QM.C133_violated_unknown",
    "QM.C133_violated_zero"
   ],
   "note": "Proved if the method is not changed on the object (C133_mad_partial, C133_percentile_partial, C133_refused_partial). Violated: after changing threshold_method on the object every event ends with AttributeError (C133_violated); an unknown method is taken and ends with UnboundLocalError (C133_violated_unknown); pick_threshold=0 is ignored in silence (C133_violated_zero)."
  },
  {
   "property": "C134",
   "status": "partial",
   "theorems": [
    "QM.C134_round_trip",
    "QM.C134_extent_partial",
    "QM.C134_covered_partial",
    "QM.C134_stations",
    "QM.C134_max_partial",
    "QM.C134_violated_region",
    "QM.C134_violated_extent"
   ],
   "note": "Proved for projections that act on each axis alone and are increasing (C134_extent_partial, C134_covered_partial, C134_max_partial); C134_round_trip and C134_stations for any. Violated for a projection with converging meridians: a corner of the region in no cell (C134_violated_region), a node outside the reported extent (C134_violated_extent)."
  },
  {
   "property": "C135",
   "status": "partial",
   "theorems": [
    "QM.C135_components_shown_partial",
    "QM.C135_each_once_partial",
    "QM.C135_violated_unequal",
    "QM.C135_violated_no_commas",
    "QM.C135_violated_one_phase"
   ],
   "note": "Proved for comma lists with as many letters as numbers or one kind only (C135_components_shown_partial, C135_each_once_partial). Violated: with more letters than numbers the rest are on no panel (C135_violated_unequal); of a list without commas every second component is lost (C135_violated_no_commas); channel maps for the only phase in use raise KeyError (C135_violated_one_phase)."
  },
  {
   "property": "C136",
   "status": "proved",
   "theorems": [
    "QM.C136_geometric_mean",
    "QM.C136_ten_digits",
    "QM.C136_maximum",
    "QM.C136_scan"
   ],
   "note": "The rounding, log and exp are parameters with relative errors u and v (AccurateFpu); overflow, subnormal numbers, infinities and NaN are not modelled. A rounding to 53 bits is shown to meet the hypotheses."
  },
  {
   "property": "C137",
   "status": "proved",
   "theorems": [
    "QM.C137_batch",
    "QM.C137_run"
   ],
   "note": "For each batch and for the whole run, for any threshold method and smoothing. The search windows of the events change with the intervals, the rest of the event does not."
  },
  {
   "property": "C138",
   "status": "partial",
   "theorems": [
    "QM.C138_largest_partial",
    "QM.C138_within_partial",
    "QM.C138_violated_added",
    "QM.C138_violated_lost"
   ],
   "note": "C138_largest_partial: the sample with the largest value stays an event of its batch. C138_within_partial: an event found with the higher threshold lies in the window of an event at least as large found with the lower one (search windows of the raw coalescence, minimum event interval at least twice the marginal window, which the setters enforce). Violated: a higher threshold can give an event more, because one run above the threshold splits into two (C138_violated_added), and can lose an event that is well above it, because the split-off part of an earlier run merges with it (C138_violated_lost)."
  },
  {
   "property": "C139",
   "status": "proved",
   "theorems": [
    "QM.C139_order"
   ],
   "note": "In exact arithmetic; in doubles the values agree up to the rounding of C136. Sampling rates and windows as in C114 (no tie when the padding is rounded)."
  },
  {
   "property": "C140",
   "status": "proved",
   "theorems": [
    "QM.C140_constant"
   ],
   "note": "In exact arithmetic. Constant onset functions are clipped at 0.01 like all others."
  },
  {
   "property": "C141",
   "status": "proved",
   "theorems": [
    "QM.C141_detect_explains",
    "QM.C141_detect_explains_all",
    "QM.C141_locate_explains"
   ],
   "note": "In exact arithmetic. Timesteps of detect and windows of locate. Nodes are those of the grid and traveltimes are rounded to samples; a source off the grid or errors of the traveltimes are covered by the tolerance."
  },
  {
   "property": "C142",
   "status": "partial",
   "theorems": [
    "QM.C142_median_ratio_partial",
    "QM.C142_mad_partial",
    "QM.C142_noisy_earthquake_partial"
   ],
   "note": "C142_noisy_earthquake_partial (static threshold), C142_median_ratio_partial and C142_mad_partial. Missing, as for C117: the same stations and phases are available around the earthquake and when it is located; smoothing is off; times are on samples; rounding by one monotone function; with the MAD, a spread out background as for C117. That the coalescence forms one burst above the threshold is a hypothesis. The first case shown has arbitrary noise between 0 and 1."
  },
  {
   "property": "C143",
   "status": "proved",
   "theorems": [
    "QM.C143_completed",
    "QM.C143_again",
    "QM.C143_rest",
    "QM.C143_parts"
   ],
   "note": "C143_completed (any history of calls in which every event was completely written at least once leaves the directory of one complete call), with corollaries C143_again, C143_rest and C143_parts. Covers the event, picks and amplitude files. Crash points are between file writes, not inside one. If the settings changed between the calls the results differ and files of both can remain: C106_violated."
  },
  {
   "property": "C144",
   "status": "partial",
   "theorems": [
    "QM.C144_median",
    "QM.C144_mad",
    "QM.C144_mad_spread",
    "QM.C144_burst_partial",
    "QM.C144_one_event_partial",
    "QM.C144_one_event_mad_partial",
    "QM.C144_violated_last_window"
   ],
   "note": "C144_burst_partial (less than half of each window of the record, which for the last one can be much less than half the window length), C144_one_event_partial and C144_one_event_mad_partial (also: midnights, starts and pad whole numbers of windows), with the bounds C144_mad, C144_mad_spread and C144_median. The full claim is false for a burst in the last, shorter window: C144_violated_last_window."
  },
  {
   "property": "C145",
   "status": "partial",
   "theorems": [
    "QM.C145_static_partial",
    "QM.C145_dynamic_partial",
    "QM.C145_violated_window",
    "QM.C145_violated"
   ],
   "note": "C145_static_partial (static threshold, smoothing off), C145_dynamic_partial (other methods if every window is mostly positive). The full claim is false: a gap is stored as zeros; where a threshold window is mostly zero the MAD and median-ratio thresholds are zero (C145_violated_window, any multiplier), zeros reach them, and an event with coalescence zero at (0, 0, 0) is reported in the gap (C145_violated)."
  },
  {
   "property": "C146",
   "status": "partial",
   "theorems": [
    "QM.C146_numbers_partial",
    "QM.C146_violated",
    "QM.C146_stations",
    "QM.C146_violated_prefix"
   ],
   "note": "C146_numbers_partial (at most two phases, neither the start of the other's name), C146_stations. The full claim is false: with more than two phases the number of phases is taken after the list has been replaced by ['*'], so the panel shows the number of station-phase pairs (C146_violated); if one phase name starts with the other (P, Pn) drawing fails (C146_violated_prefix)."
  },
  {
   "property": "C147",
   "status": "partial",
   "theorems": [
    "QM.C147_km_partial",
    "QM.C147_metre_depth",
    "QM.C147_metre_uncertainty_partial",
    "QM.C147_violated"
   ],
   "note": "C147_km_partial (grids in km), C147_metre_depth; for grids in metres the uncertainty is converted to km and then rounded to the decimals meant for metres: correct only to five node spacings (C147_metre_uncertainty_partial), and shown as 0 km whenever it is below 500 m and the spacing at least 100 m (C147_violated)."
  },
  {
   "property": "C148",
   "status": "proved",
   "theorems": [
    "QM.C148_rows",
    "QM.C148_no_overlap"
   ],
   "note": "C148_rows for every permutation argsort may return, C148_no_overlap."
  },
  {
   "property": "C149",
   "status": "partial",
   "theorems": [
    "QM.C149_point",
    "QM.C149_figure",
    "QM.C149_curves",
    "QM.C149_bars",
    "QM.C149_visible_partial",
    "QM.C149_violated_visible"
   ],
   "note": "C149_point and C149_figure are complete; C149_visible_partial: used observations are inside the axes without weights, or for noise filters of at least 0.1. With weights and a lower noise filter a used observation (of weight 0, its magnitude not a number) can be below the axes (C149_violated_visible)."
  },
  {
   "property": "C150",
   "status": "partial",
   "theorems": [
    "QM.C150_labels_partial",
    "QM.C150_once_partial",
    "QM.C150_violated_single",
    "QM.C150_violated_twice"
   ],
   "note": "C150_labels_partial, C150_once_partial: stations whose observations are together and of which there are at least two. The full claim is false: an observation on its own gets no label (C150_violated_single), and a station listed last with one used observation is labelled twice if it has rejected ones (C150_violated_twice)."
  },
  {
   "property": "C151",
   "status": "partial",
   "theorems": [
    "QM.C151_raises_iff",
    "QM.C151_fine_partial",
    "QM.C151_ends_run",
    "QM.C151_violated"
   ],
   "note": "C151_raises_iff: with the figure on, calc_magnitude raises exactly if the network magnitude was computed and is NaN, because `mag is not np.nan` compares objects and the NaN reaches set_ylim. C151_ends_run: then neither this event nor any later one is written; C151_violated: a used observation at distance 0, with the default noise filter. C151_fine_partial: no failure for noise filters of at least 1, positive distances, noise not negative (positive with weights)."
  },
  {
   "property": "C152",
   "status": "partial",
   "theorems": [
    "QM.C152_axis",
    "QM.C152_fails_short",
    "QM.C152_drawn_partial",
    "QM.C152_visible",
    "QM.C152_panels_partial",
    "QM.C152_fails",
    "QM.C152_locate_partial",
    "QM.C152_violated",
    "QM.C152_ends_run",
    "QM.C152_fine",
    "QM.C152_violated_three",
    "QM.C152_violated_name"
   ],
   "note": "C152_visible is complete. C152_panels_partial: two phases, or one called P or S; false for three phases (C152_violated_three) and for a single phase of another name (C152_violated_name). C152_drawn_partial and C152_locate_partial: the figure is made if fraction_tt times the traveltime is at most twice the longest long-term window and the first pad is at least 11 samples. The full claim is false: a window that reaches the end of the data is cut to the number of samples, which is not an index (C152_fails); with default settings this happens at a traveltime of 150 s, at any rate above 1 Hz (C152_violated), and the event and all after it are not written (C152_ends_run, C152_fine)."
  },
  {
   "property": "C153",
   "status": "partial",
   "theorems": [
    "QM.C153_planes",
    "QM.C153_cells_partial",
    "QM.C153_ellipses_partial",
    "QM.C153_violated_ellipse",
    "QM.C153_violated_cells"
   ],
   "note": "C153_planes is complete. C153_cells_partial and C153_ellipses_partial: projections that are a straight line on every axis. False for others: a cell away from its node (C153_violated_cells), an ellipse without width although the uncertainty is positive, where meridians converge (C153_violated_ellipse)."
  },
  {
   "property": "C154",
   "status": "partial",
   "theorems": [
    "QM.C154_others",
    "QM.C154_made_partial",
    "QM.C154_violated_station",
    "QM.C154_violated_name",
    "QM.C154_violated_rate",
    "QM.C154_ends_run",
    "QM.C154_fine"
   ],
   "note": "C154_made_partial: the figure is made if the table has all stations shown with all phases, names have no underscore, the rate is above 10 Hz and the origin time is in the data. The full claim is false: a station of the archive that is not in the table (C154_violated_station), an underscore in the name of a station that is not used (C154_violated_name), a station at the event at 5 Hz (C154_violated_rate). C154_ends_run: then the event is written and no event after it; C154_fine: otherwise nothing changes."
  },
  {
   "property": "C155",
   "status": "partial",
   "theorems": [
    "QM.C155_longest_traveltime",
    "QM.C155_decimated_scan_partial",
    "QM.C155_location",
    "QM.C155_same_peak_partial",
    "QM.C155_violated"
   ],
   "note": "C155_decimated_scan_partial: values and the node that stands for the peak, for all factors (missing: a pre-pad halfway between two samples, as in C114). C155_location: the coordinates are off by the nodes skipped on each axis, zero exactly when at most one is left over; then C155_same_peak_partial. With more left over the location is wrong: C155_violated (three nodes decimated by three). C155_longest_traveltime is complete."
  },
  {
   "property": "C156",
   "status": "proved",
   "theorems": [
    "QM.C156_uses_settings",
    "QM.C156_report_determines_events",
    "QM.C156_states_settings",
    "QM.C156_legend_determines_threshold"
   ],
   "note": "For any printing function that prints different numbers differently, without newline or space. The region is an argument of the call and not in the text; the smoothing is a function of sigma and width."
  },
  {
   "property": "C157",
   "status": "partial",
   "theorems": [
    "QM.C157_printed_table_partial",
    "QM.C157_violated"
   ],
   "note": "C157_printed_table_partial: depths, unit, number of nodes, spacing, and that the corners shown are the first and the last. The latitude and longitude are exchanged: C157_violated, for every table whose corner has a latitude and longitude that print differently."
  },
  {
   "property": "C158",
   "status": "partial",
   "theorems": [
    "QM.C158_filter_used",
    "QM.C158_filters_used",
    "QM.C158_amplitude_report",
    "QM.C158_magnitude_report_partial",
    "QM.C158_violated_corrections",
    "QM.C158_picker_report"
   ],
   "note": "C158_picker_report and C158_amplitude_report are complete for objects as their constructors make them. C158_magnitude_report_partial: all settings but the corrections and r2_only_used. C158_violated_corrections: changing a station correction leaves the report unchanged and changes every magnitude of the trace by the difference."
  },
  {
   "property": "C159",
   "status": "proved",
   "theorems": [
    "QM.C159_same_events_on_another_day"
   ],
   "note": "Exact arithmetic; event identifiers are derived from the time (C16)."
  },
  {
   "property": "C160",
   "status": "proved",
   "theorems": [
    "QM.C160_scale_of_coalescence",
    "QM.C160_background",
    "QM.C160_static_scaled_along"
   ],
   "note": "MAD window of at least zero samples, median window of at least one sample; kernel weights summing to one are needed only for the added constant."
  },
  {
   "property": "C161",
   "status": "proved",
   "theorems": [
    "QM.C161_station_alone",
    "QM.C161_other_stations"
   ],
   "note": "STALTAOnset with the C backend and no timespan; ObsPy signal processing is a parameter that keeps trace ids; station and phase names must be free of the separator of the availability key."
  },
  {
   "property": "C162",
   "status": "partial",
   "theorems": [
    "QM.C162_units_partial",
    "QM.C162_violated"
   ],
   "note": "Proved with full_timespan on and allow_gaps off. Violated with gap filling: the fill value is a constant in the units of the data, and the centred onset at the return of data is 9 g^2/fill^2 in the witness (C162_violated)."
  },
  {
   "property": "C163",
   "status": "proved",
   "theorems": [
    "QM.C163_bad_channel_absent"
   ],
   "note": "For all_channels = False; with all_channels = True a failing channel makes the whole phase unavailable by design (C54)."
  },
  {
   "property": "C164",
   "status": "proved",
   "theorems": [
    "QM.C164_order_of_files"
   ],
   "note": "Pre-processed traces must have samples and a rate in (0, 500 kHz]; the order of the stored waveforms may differ."
  },
  {
   "property": "C165",
   "status": "proved",
   "theorems": [
    "QM.C165_which",
    "QM.C165_values",
    "QM.C165_values_gaps"
   ],
   "note": "C backend, no timespan, exact arithmetic; whole sampling rate; no silent long-term window (C33, C34 treat those); with gaps, traces on the samples of the window."
  },
  {
   "property": "C166",
   "status": "proved",
   "theorems": [
    "QM.C166_migrated_clear",
    "QM.C166_values_clear",
    "QM.C166_blanked_clear"
   ],
   "note": "At least 2 samples per second, at most 500 or a divisor of 1000, windows of at least one and two samples (17 to 500 Hz for the blanking). Number of samples of a window at most timespan x rate + 1, as C22 gives for detect and locate. Exact arithmetic. The taper is modelled by its extent, at most a twentieth of the samples at either end."
  },
  {
   "property": "C167",
   "status": "partial",
   "theorems": [
    "QM.C167_first_stage_partial",
    "QM.C167_screen_partial",
    "QM.C167_violated_second_stage",
    "QM.C167_violated_level",
    "QM.C167_violated_early",
    "QM.C167_log_place",
    "QM.C167_own_file"
   ],
   "note": "Violated: logging.basicConfig does nothing once the root logger has handlers, so a second stage of a process (as in a notebook) gets an empty log file, its messages go to the log of the first, and a level of more detail is ignored; the same happens if anything is logged before the first stage. Proved for the first stage of a process, the screen at the level of the first stage, and the file names."
  },
  {
   "property": "C168",
   "status": "partial",
   "theorems": [
    "QM.C168_violated_default_spacing",
    "QM.C168_violated_top",
    "QM.C168_dyadic_partial",
    "QM.C168_between_nodes_partial"
   ],
   "note": "Violated: the index is floor((z - z0)/dz) but the fraction is remainder(z, dz)/dz, and in doubles the first is exact and the second nearly one for every whole number of kilometres at the default spacing of 0.1 km, so these nodes get the traveltime 100 m deeper; and where the top of the grid is read back from the six decimals of the header as a larger number (e.g. a grid in metres with top at -1200.4 m), the top nodes mix in the deepest row of the table. Proved: exact for spacings 1, 1/2, ..., 1/64 km and multiples of them; close to the interpolation for nodes away from the lines of the table (the origin being close to a line). Assumed: NonLinLoc prints origins and spacings with six decimals. The violation for origins that are no multiple of the spacing is C53."
  },
  {
   "property": "C169",
   "status": "proved",
   "theorems": [
    "QM.C169_value"
   ],
   "note": "Composition of the models of calculate_onsets (C165), serve_traveltimes (C32), migrate and find_max_coa (C28, C29, C114) as one call. Asked: a whole sampling rate; with allow_gaps or without full_timespan (gaps filled, also covered) traces on the samples of the window and less than 100 kHz, records of one length, no silent long-term window, window at least as long as the pads. Signal processing of ObsPy (filters, decimation) is a parameter; arithmetic is real."
  },
  {
   "property": "C170",
   "status": "partial",
   "theorems": [
    "QM.C170_gain_partial",
    "QM.C170_order",
    "QM.C170_violated"
   ],
   "note": "Gain: proved with full_timespan and without allow_gaps for linear signal processing; with gaps filled by a constant it fails: the largest coalescence of the scan is then proportional to the square of the gain (C170_violated). Order: proved without these restrictions."
  },
  {
   "property": "C171",
   "status": "partial",
   "theorems": [
    "QM.C171_found_again",
    "QM.C171_covers",
    "QM.C171_exact",
    "QM.C171_violated"
   ],
   "note": "Violated in the number of nodes: from 0 to 6.9 with spacing 0.3 there are 25 nodes, not 24, the last a whole spacing beyond the corner. Proved: every node is found again from its coordinates, which are right to a sixteenth of a spacing, for up to 2^46 nodes and a corner within 2^46 spacings of the origin; the last node is never short of the corner nor more than a spacing beyond it, up to relative rounding 2^-50; number and places are exact for corners and spacing that are whole multiples of a common power of two. The corners are those in grid coordinates, after projection."
  },
  {
   "property": "C172",
   "status": "proved",
   "theorems": [
    "QM.C172_any_day",
    "QM.C172_shift_to_sample"
   ],
   "note": "The filters, decimation, upsampling, trimming and shift_to_sample of ObsPy are parameters that commute with a shift by days (assumption recorded as Spec.Dateless); shift_to_sample is proved to do so for times in nanoseconds (C172_shift_to_sample). Times are exact rationals; the archive is a function from day and station to files."
  },
  {
   "property": "C173",
   "status": "partial",
   "theorems": [
    "QM.C173_files_partial",
    "QM.C173_availability_partial"
   ],
   "note": "Proved for a sampling rate of whole samples per second, a timestep of whole samples of at most a day, a start on the sample grid, data on the samples of the window when gaps are filled, and data whose long-term windows are not silent. Arithmetic of the onsets and stack is exact; the pre-pad is not half way between samples. Windows whose data cannot be pre-processed are excluded (they raise)."
  },
  {
   "property": "C174",
   "status": "partial",
   "theorems": [
    "QM.C174_span",
    "QM.C174_located_partial"
   ],
   "note": "Proved for a whole number of samples per second and per marginal window, trigger times on the sample grid, data on the samples of the window when gaps are filled, data whose long-term windows are not silent, and later stages (location, picking, magnitudes, output) that raise nothing; events whose data cannot be pre-processed are excluded (they raise). Arithmetic of onsets and stack is exact, rounded once when the values are stored."
  },
  {
   "property": "C175",
   "status": "proved",
   "theorems": [
    "QM.C175_any_day"
   ],
   "note": "As C172: the filters, decimation, upsampling, trimming and shift_to_sample of ObsPy are parameters that commute with a shift by days (Spec.Dateless). Times are exact rationals. Later stages are taken to fail for the same events."
  },
  {
   "property": "C176",
   "status": "proved",
   "theorems": [
    "QM.C176_exact",
    "QM.C176_samples_alone",
    "QM.C176_split_matters"
   ],
   "note": "C176_split_matters shows that the requirement on records starting just after a window that ends between two samples is needed: ObsPy's trim keeps the next sample if it is in a record that started before, and drops it if a record starts there. shift_to_sample is a parameter that leaves on-sample traces alone (C43)."
  },
  {
   "property": "C177",
   "status": "proved",
   "theorems": [
    "QM.C177_detect",
    "QM.C177_locate"
   ],
   "note": "Filters, decimation, upsampling and trimming are parameters assumed not to empty a trace; rates of channels and of the scan are positive and at most 500 kHz. Same schedule of threads for both (results do not depend on it, C30)."
  },
  {
   "property": "C178",
   "status": "partial",
   "theorems": [
    "QM.C178_detected_partial",
    "QM.C178_located_partial"
   ],
   "note": "Partial: static threshold, no smoothing, times on samples, data on the samples of the window when gaps are filled, no silent long-term window, doubles as one monotone rounding function. The coalescence of the detect windows and of the event's window are computed from the data of each, so that effects of filters at the ends of windows are allowed. Example: a pulse at one station, scanned, triggered and located."
  },
  {
   "property": "C179",
   "status": "partial",
   "theorems": [
    "QM.C179_detect_partial",
    "QM.C179_locate_partial",
    "QM.C179_run_partial",
    "QM.C179_violated"
   ],
   "note": "Violated with gaps filled (C179_violated): where data return after a gap, the value that detect stores is proportional to the square of the gain, because the constant the gap is filled with is not scaled. Proved without gap filling (allow_gaps False, full_timespan True), in real arithmetic, for signal processing of ObsPy that is linear and keeps channel names."
  },
  {
   "property": "C180",
   "status": "proved",
   "theorems": [
    "QM.C180_detect",
    "QM.C180_locate",
    "QM.C180_violated"
   ],
   "note": "C180_violated shows that the condition on the corner frequencies is needed: with a corner frequency above the Nyquist frequency, detect runs to its end on an archive without files, while a channel that no phase uses makes it stop with an exception. Asked of the data read for used channels: samples, and rates up to 500 kHz."
  },
  {
   "property": "C181",
   "status": "proved",
   "theorems": [
    "QM.C181_detect",
    "QM.C181_locate",
    "QM.C181_underscore",
    "QM.C181_violated"
   ],
   "note": "C181_underscore and C181_violated show that the condition on the names is needed: serve_traveltimes splits the key before it looks whether the station is available."
  },
  {
   "property": "C182",
   "status": "proved",
   "theorems": [
    "QM.C182_detect",
    "QM.C182_locate"
   ],
   "note": "Exact arithmetic: in floating point the sum over the rows is rounded in another order. Scan and data as in C173 and C174 (GoodScan, GoodWindow); the files of a station hold records of that station only (OwnFiles)."
  },
  {
   "property": "C183",
   "status": "proved",
   "theorems": [
    "QM.C183_detect",
    "QM.C183_locate",
    "QM.C183_detect_without",
    "QM.C183_locate_without"
   ],
   "note": "With all_channels on, a failing channel makes its station unavailable by design. The filters must be applicable to the failing channels (BadFail, UsableRead); a channel on which they raise stops the run (C126)."
  },
  {
   "property": "C184",
   "status": "partial",
   "theorems": [
    "QM.C184_stored_numbers",
    "QM.C184_read_rounds",
    "QM.C184_static",
    "QM.C184_static_batch",
    "QM.C184_dynamic_partial",
    "QM.C184_threshold_error",
    "QM.C184_violated_equal",
    "QM.C184_violated_window"
   ],
   "note": "Proved for static thresholds (C184_static, C184_static_batch), for whatever numbers a file can hold (C184_stored_numbers, C184_read_rounds). For MAD and median-ratio thresholds proved when no value is within 1e-7 (1 + multiplier) of its threshold and the window length and its number of samples are doubles (C184_dynamic_partial); otherwise false: 0.3 is below 0.1 * 3 in doubles (C184_violated_equal), and int(0.29 * 100) is 28 (C184_violated_window). Smoothing is not modelled in doubles."
  },
  {
   "property": "C185",
   "status": "partial",
   "theorems": [
    "QM.C185_coalescence",
    "QM.C185_coordinates",
    "QM.C185_order",
    "QM.C185_stored_again",
    "QM.C185_violated_half"
   ],
   "note": "Half a quantum cannot be kept to the letter: the double 0.000005 is stored as 0 (C185_violated_half). Proved: half a quantum plus 1e-10 for the coalescence and 1e-11 for X and Y (C185_coalescence, C185_coordinates), order (C185_order), storing again (C185_stored_again)."
  },
  {
   "property": "C186",
   "status": "proved",
   "theorems": [
    "QM.C186_any_cut",
    "QM.C186_midnights",
    "QM.C186_ends_early"
   ],
   "note": "Any cut: C186_any_cut; any number of cuts at midnights: C186_midnights; calls that end early: C186_ends_early. Events are assumed to be in the file of their own day, as trigger writes them (C18_trigger_writes_wf)."
  },
  {
   "property": "C187",
   "status": "proved",
   "theorems": [
    "QM.C187_louder",
    "QM.C187_multiplier",
    "QM.C187_corrections"
   ],
   "note": "C187_louder, C187_multiplier, C187_corrections; amplitudes of 0, for which the logarithm is not defined, are excluded, and with weights errors of 0, which make the weighted mean NaN (C64_violated_weights)."
  },
  {
   "property": "C188",
   "status": "partial",
   "theorems": [
    "QM.C188_gain_and_clock",
    "QM.C188_polarity",
    "QM.C188_polarity_partial",
    "QM.C188_violated_polarity"
   ],
   "note": "Proved for gain and clock (C188_gain_and_clock) and, for the polarity, for the amplitude and the errors (C188_polarity). Frequency and time: proved for equal numbers of peaks and troughs (C188_polarity) or without level swings (C188_polarity_partial); violated when the first and the last swing are equally large (C188_violated_polarity): the pairs that begin with a peak are preferred if there are more peaks, those that end with one if there are more troughs."
  },
  {
   "property": "C189",
   "status": "proved",
   "theorems": [
    "QM.C189_later",
    "QM.C189_own_rows",
    "QM.C189_fails"
   ],
   "note": "C189_later, C189_own_rows, C189_fails; the curve fit of scipy is any function of its arguments, times are exact."
  },
  {
   "property": "C190",
   "status": "partial",
   "theorems": [
    "QM.C190_same_files_partial",
    "QM.C190_own_events",
    "QM.C190_violated_dots",
    "QM.C190_violated_formats"
   ],
   "note": "C190_same_files_partial, C190_own_events for names without dots and MiniSEED; violated otherwise: C190_violated_dots (Run replaces dots in the names, the exporter does not), C190_violated_formats (the extension .m is fixed in the exporter)."
  },
  {
   "property": "C191",
   "status": "partial",
   "theorems": [
    "QM.C191_report_determines",
    "QM.C191_report_determines_onsets_partial",
    "QM.C191_states_settings",
    "QM.C191_violated"
   ],
   "note": "C191_report_determines, C191_states_settings, C191_report_determines_onsets_partial; violated: C191_violated (min_onset_value is not in the report, nor are the signal transform, the channel maps and counts and the data checks)."
  },
  {
   "property": "C192",
   "status": "partial",
   "theorems": [
    "QM.C192_lines_partial",
    "QM.C192_violated"
   ],
   "note": "C192_lines_partial; violated: C192_violated (read_stations changes the sign of the elevation, snuffler_stations does not change it back)."
  },
  {
   "property": "C193",
   "status": "proved",
   "theorems": [
    "QM.C193_seismometer",
    "QM.C193_velocity",
    "QM.C193_real_stable",
    "QM.C193_magnification"
   ],
   "note": "C193_seismometer, C193_velocity, C193_real_stable, C193_magnification. The response that poles and zeros stand for is ObsPy's; its tapers, pre-filter and water level are not modelled."
  },
  {
   "property": "C194",
   "status": "partial",
   "theorems": [
    "QM.C194_frame",
    "QM.C194_distances_partial",
    "QM.C194_violated"
   ],
   "note": "C194_frame (all projections), C194_distances_partial (straight projections); violated for curved ones, as the axes are longitude and latitude: C194_violated. The printing of the label to three digits is not modelled."
  },
  {
   "property": "C195",
   "status": "proved",
   "theorems": [
    "QM.C195_swing",
    "QM.C195_harmonic",
    "QM.C195_seismograph"
   ],
   "note": "C195_swing, C195_harmonic, C195_seismograph. The default prominence_multiplier of 0; the steady trace of the seismograph, without the tapers, pre-filter and water level of ObsPy."
  },
  {
   "property": "C196",
   "status": "partial",
   "theorems": [
    "QM.C196_response_determined",
    "QM.C196_report_determines_partial",
    "QM.C196_violated"
   ],
   "note": "C196_response_determined, C196_report_determines_partial; violated: C196_violated (read_all_stations is not in the report; nor is interpolate, nor an upsampling factor of 0)."
  },
  {
   "property": "C197",
   "status": "proved",
   "theorems": [
    "QM.C197_label",
    "QM.C197_same_label"
   ],
   "note": "C197_label, C197_same_label; the conversion of the axis number to a date by matplotlib is outside the model, and so is the illegal date 0."
  }
 ]
}