{
 "claims": [
  {
   "property": "C01",
   "status": "proved",
   "theorems": [
    "Rfsed.Props.c01_getamp_reads_nearest",
    "Rfsed.Props.c01_getamp_errors",
    "Rfsed.Props.c01_getamp_copies_agree",
    "Rfsed.Props.c01_getamp_reads_nearest_real"
   ],
   "note": ""
  },
  {
   "property": "C02",
   "status": "proved",
   "theorems": [
    "Rfsed.Props.c02_within_half_sample",
    "Rfsed.Props.c02_before_record",
    "Rfsed.Props.c02_after_record",
    "Rfsed.Props.c02_on_sample"
   ],
   "note": ""
  },
  {
   "property": "C03",
   "status": "proved",
   "theorems": [
    "Rfsed.Props.c03_table_shape",
    "Rfsed.Props.c03_succeeds",
    "Rfsed.Props.c03_empty_grid",
    "Rfsed.Props.c03_empty_stream"
   ],
   "note": ""
  },
  {
   "property": "C04",
   "status": "proved",
   "theorems": [
    "Rfsed.Props.c04_stack_value"
   ],
   "note": ""
  },
  {
   "property": "C05",
   "status": "proved",
   "theorems": [
    "Rfsed.Props.c05_bestmodel_first_max",
    "Rfsed.Props.c05_bestmodel_nan"
   ],
   "note": ""
  },
  {
   "property": "C06",
   "status": "proved",
   "theorems": [
    "Rfsed.Props.c06_stack_true",
    "Rfsed.Props.c06_stack_value"
   ],
   "note": ""
  },
  {
   "property": "C07",
   "status": "proved",
   "theorems": [
    "Rfsed.Props.c07_order_irrelevant",
    "Rfsed.Props.c07_needs_shared_axis"
   ],
   "note": ""
  },
  {
   "property": "C08",
   "status": "proved",
   "theorems": [
    "Rfsed.Props.c08_ordered_additive",
    "Rfsed.Props.c08_strictMono_H",
    "Rfsed.Props.c08_strictMono_K"
   ],
   "note": ""
  },
  {
   "property": "C09",
   "status": "proved",
   "theorems": [
    "Rfsed.Props.c09_recover",
    "Rfsed.Props.c09_unique",
    "Rfsed.Props.c09_ps_alone_ambiguous"
   ],
   "note": ""
  },
  {
   "property": "C10",
   "status": "proved",
   "theorems": [
    "Rfsed.Props.c10_bounded",
    "Rfsed.Props.c10_ideal"
   ],
   "note": ""
  },
  {
   "property": "C11",
   "status": "proved",
   "theorems": [
    "Rfsed.Props.c11_scaling"
   ],
   "note": ""
  },
  {
   "property": "C12",
   "status": "proved",
   "theorems": [
    "Rfsed.Props.c12_hk_defaults",
    "Rfsed.Props.c12_hkSynth_defaults"
   ],
   "note": ""
  },
  {
   "property": "C13",
   "status": "proved",
   "theorems": [
    "Rfsed.Props.c13_velocity_defaults",
    "Rfsed.Props.c13_none_weight_fails",
    "Rfsed.Props.c13_none_weight_typeError"
   ],
   "note": ""
  },
  {
   "property": "C14",
   "status": "proved",
   "theorems": [
    "Rfsed.Props.c14_hk_no_nan",
    "Rfsed.Props.c14_hkSynth_no_nan",
    "Rfsed.Props.c14_hk_S_postcritical",
    "Rfsed.Props.c14_hkSynth_S_postcritical",
    "Rfsed.Props.c14_hkSynth_P_postcritical",
    "Rfsed.Props.c14_hk_P_postcritical",
    "Rfsed.Props.c14_hkYu_S_postcritical",
    "Rfsed.Props.c14_hkYu_no_nan",
    "Rfsed.Props.c14_hkYu_P_postcritical"
   ],
   "note": ""
  },
  {
   "property": "C15",
   "status": "proved",
   "theorems": [
    "Rfsed.Props.c15_tail_never_read",
    "Rfsed.Props.c15_indexError_iff"
   ],
   "note": ""
  },
  {
   "property": "C16",
   "status": "proved",
   "theorems": [
    "Rfsed.Props.c16_plothk",
    "Rfsed.Props.c16_plothkYu",
    "Rfsed.Props.c16_plothkSynth",
    "Rfsed.Props.c16_plothkSeqSynth",
    "Rfsed.Props.c16_plotSeqhk",
    "Rfsed.Props.c16_bestmodel"
   ],
   "note": ""
  },
  {
   "property": "C17",
   "status": "proved",
   "theorems": [
    "Rfsed.Props.c17_unstacked",
    "Rfsed.Props.c17_stacked"
   ],
   "note": ""
  },
  {
   "property": "C18",
   "status": "proved",
   "theorems": [
    "Rfsed.Props.c18_hkSynth_accepts_any",
    "Rfsed.Props.c18_plothkSynth",
    "Rfsed.Props.c18_hk_accepts_any",
    "Rfsed.Props.c18_only_known_layers",
    "Rfsed.Props.c18_unknown_layer"
   ],
   "note": ""
  },
  {
   "property": "C19",
   "status": "proved",
   "theorems": [
    "Rfsed.Props.c19_sed_last_trace",
    "Rfsed.Props.c19_sed_stacked",
    "Rfsed.Props.c19_only_last_traces_count",
    "Rfsed.Props.c19_not_the_sum"
   ],
   "note": ""
  },
  {
   "property": "C20",
   "status": "proved",
   "theorems": [
    "Rfsed.Props.c20_times",
    "Rfsed.Props.c20_hkSeq_moho",
    "Rfsed.Props.c20_hkSeq_moho_stacked",
    "Rfsed.Props.c20_hkSeqSynth_moho",
    "Rfsed.Props.c20_hkSeqSynth_sed"
   ],
   "note": ""
  },
  {
   "property": "C21",
   "status": "proved",
   "theorems": [
    "Rfsed.Props.c21_hkSeq",
    "Rfsed.Props.c21_hkSeqSynth",
    "Rfsed.Props.c21_raw_unstacked",
    "Rfsed.Props.c21_raw_stacked",
    "Rfsed.Props.c21_raw_synth"
   ],
   "note": ""
  },
  {
   "property": "C22",
   "status": "proved",
   "theorems": [
    "Rfsed.Props.c22_axis_and_mean",
    "Rfsed.Props.c22_wrong_sample",
    "Rfsed.Props.c22_common_axis"
   ],
   "note": ""
  },
  {
   "property": "C23",
   "status": "proved",
   "theorems": [
    "Rfsed.Props.c23_thickness_delay",
    "Rfsed.Props.c23_stack_value",
    "Rfsed.Props.c23_adjusted_times"
   ],
   "note": ""
  },
  {
   "property": "C24",
   "status": "proved",
   "theorems": [
    "Rfsed.Props.c24_no_reverberation"
   ],
   "note": ""
  },
  {
   "property": "C25",
   "status": "proved",
   "theorems": [
    "Rfsed.Props.c25_hkSeq_succeeds",
    "Rfsed.Props.c25_hkSeq_moho_parameters_required",
    "Rfsed.Props.c25_hkSynth_grid",
    "Rfsed.Props.c25_hkSynth_best",
    "Rfsed.Props.c25_hkYu_grid",
    "Rfsed.Props.c25_hkYu_best",
    "Rfsed.Props.c25_hkSeqSynth_grid",
    "Rfsed.Props.c25_hkSeqSynth_best",
    "Rfsed.Props.c25_hkSeq_grid",
    "Rfsed.Props.c25_hkSeq_best",
    "Rfsed.Props.c25_hkSynth_succeeds",
    "Rfsed.Props.c25_hkYu_succeeds",
    "Rfsed.Props.c25_hkSeqSynth_succeeds"
   ],
   "note": ""
  },
  {
   "property": "C26",
   "status": "proved",
   "theorems": [
    "Rfsed.Props.c26_single_trace"
   ],
   "note": ""
  },
  {
   "property": "C27",
   "status": "proved",
   "theorems": [
    "Rfsed.Props.c27_single_traces"
   ],
   "note": ""
  },
  {
   "property": "C28",
   "status": "proved",
   "theorems": [
    "Rfsed.Props.c28_one_coefficient_per_sample",
    "Rfsed.Props.c28_succeeds",
    "Rfsed.Props.c28_succeeds_synth"
   ],
   "note": ""
  },
  {
   "property": "C29",
   "status": "proved",
   "theorems": [
    "Rfsed.Props.c29_delayed_copy",
    "Rfsed.Props.c29_wraps_around"
   ],
   "note": ""
  },
  {
   "property": "C30",
   "status": "proved",
   "theorems": [
    "Rfsed.Props.c30_autoc",
    "Rfsed.Props.c30_autoc_bounds",
    "Rfsed.Props.c30_ranges"
   ],
   "note": ""
  },
  {
   "property": "C31",
   "status": "proved",
   "theorems": [
    "Rfsed.Props.c31_no_trough"
   ],
   "note": ""
  },
  {
   "property": "C32",
   "status": "proved",
   "theorems": [
    "Rfsed.Props.c32_cancels_reverberation",
    "Rfsed.Props.c32_filter_loses_nothing"
   ],
   "note": ""
  },
  {
   "property": "C33",
   "status": "proved",
   "theorems": [
    "Rfsed.Props.c33_trend_invariance",
    "Rfsed.Props.c33_zero_mean"
   ],
   "note": ""
  },
  {
   "property": "C34",
   "status": "proved",
   "theorems": [
    "Rfsed.Props.c34_versions_agree",
    "Rfsed.Props.c34_short_time_axis"
   ],
   "note": ""
  },
  {
   "property": "C35",
   "status": "proved",
   "theorems": [
    "Rfsed.Props.c35_first_trough",
    "Rfsed.Props.c35_first_exists"
   ],
   "note": ""
  },
  {
   "property": "C36",
   "status": "proved",
   "theorems": [
    "Rfsed.Props.c36_serial_window",
    "Rfsed.Props.c36_parallel_window",
    "Rfsed.Props.c36_index_error",
    "Rfsed.Props.c36_window_divides"
   ],
   "note": ""
  },
  {
   "property": "C37",
   "status": "proved",
   "theorems": [
    "Rfsed.Props.c37_rounded",
    "Rfsed.Props.c37_same_criteria",
    "Rfsed.Props.c37_converse",
    "Rfsed.Props.c37_same_best"
   ],
   "note": ""
  },
  {
   "property": "C38",
   "status": "proved",
   "theorems": [
    "Rfsed.Props.c38_gof_le_one",
    "Rfsed.Props.c38_gof_eq_one"
   ],
   "note": ""
  },
  {
   "property": "C39",
   "status": "proved",
   "theorems": [
    "Rfsed.Props.c39_only_corr",
    "Rfsed.Props.c39_only_rmse",
    "Rfsed.Props.c39_only_pg"
   ],
   "note": ""
  },
  {
   "property": "C40",
   "status": "proved",
   "theorems": [
    "Rfsed.Props.c40_monotone",
    "Rfsed.Props.c40_inverted"
   ],
   "note": ""
  },
  {
   "property": "C41",
   "status": "proved",
   "theorems": [
    "Rfsed.Props.c41_weights_ignored",
    "Rfsed.Props.c41_figures",
    "Rfsed.Props.c41_refuted"
   ],
   "note": ""
  },
  {
   "property": "C42",
   "status": "proved",
   "theorems": [
    "Rfsed.Props.c42_exact",
    "Rfsed.Props.c42_too_many",
    "Rfsed.Props.c42_too_few",
    "Rfsed.Props.c42_empty",
    "Rfsed.Props.c42_spurious_best"
   ],
   "note": ""
  },
  {
   "property": "C43",
   "status": "proved",
   "theorems": [
    "Rfsed.Props.c43_values",
    "Rfsed.Props.c43_rescaling"
   ],
   "note": ""
  },
  {
   "property": "C44",
   "status": "proved",
   "theorems": [
    "Rfsed.Props.c44_rms_zero",
    "Rfsed.Props.c44_rms_symm",
    "Rfsed.Props.c44_rms_triangle",
    "Rfsed.Props.c44_corr_affine",
    "Rfsed.Props.c44_rows"
   ],
   "note": ""
  },
  {
   "property": "C45",
   "status": "proved",
   "theorems": [
    "Rfsed.Props.c45_running_sums",
    "Rfsed.Props.c45_nonneg",
    "Rfsed.Props.c45_injective",
    "Rfsed.Props.c45_waveform_model"
   ],
   "note": ""
  },
  {
   "property": "C46",
   "status": "proved",
   "theorems": [
    "Rfsed.Props.c46_results_in_order",
    "Rfsed.Props.c46_raises",
    "Rfsed.Props.c46_no_workers",
    "Rfsed.Props.c46_terminates",
    "Rfsed.Props.c46_has_outcome"
   ],
   "note": ""
  },
  {
   "property": "C47",
   "status": "proved",
   "theorems": [
    "Rfsed.Props.c47_eq_times",
    "Rfsed.Props.c47_contains_onset",
    "Rfsed.Props.c47_sign_irrelevant",
    "Rfsed.Props.c47_no_arrival"
   ],
   "note": ""
  },
  {
   "property": "C48",
   "status": "proved",
   "theorems": [
    "Rfsed.Props.c48_windows",
    "Rfsed.Props.c48_serial_raises"
   ],
   "note": ""
  },
  {
   "property": "C49",
   "status": "proved",
   "theorems": [
    "Rfsed.Props.c49_writes",
    "Rfsed.Props.c49_nothing_else",
    "Rfsed.Props.c49_empty",
    "Rfsed.Props.c49_members"
   ],
   "note": ""
  },
  {
   "property": "C50",
   "status": "proved",
   "theorems": [
    "Rfsed.Props.c50_parallel_stream",
    "Rfsed.Props.c50_serial_within_parallel",
    "Rfsed.Props.c50_equal_iff",
    "Rfsed.Props.c50_unreadable",
    "Rfsed.Props.c50_pipeline",
    "Rfsed.Props.c50_differ"
   ],
   "note": ""
  },
  {
   "property": "C51",
   "status": "proved",
   "theorems": [
    "Rfsed.Props.c51_constructor",
    "Rfsed.Props.c51_one_trace_per_slowness",
    "Rfsed.Props.c51_run_fwd_outcome"
   ],
   "note": ""
  },
  {
   "property": "C52",
   "status": "proved",
   "theorems": [
    "Rfsed.Props.c52_run_fwd_forgets",
    "Rfsed.Props.c52_last_run_fwd",
    "Rfsed.Props.c52_before_run_fwd",
    "Rfsed.Props.c52_attribute_error",
    "Rfsed.Props.c52_passes_accumulate",
    "Rfsed.Props.c52_deconvolution",
    "Rfsed.Props.c52_no_prefilter_repeatable",
    "Rfsed.Props.c52_failing_filter",
    "Rfsed.Props.c52_not_repeatable"
   ],
   "note": ""
  },
  {
   "property": "C53",
   "status": "proved",
   "theorems": [
    "Rfsed.Props.c53_fft_length",
    "Rfsed.Props.c53_length_mismatch",
    "Rfsed.Props.c53_wrong_nt",
    "Rfsed.Props.c53_degenerate",
    "Rfsed.Props.c53_total",
    "Rfsed.Props.c53_work",
    "Rfsed.Props.c53_progress",
    "Rfsed.Props.c53_iteration_bound",
    "Rfsed.Props.c53_dead_numerator",
    "Rfsed.Props.c53_dead_denominator"
   ],
   "note": ""
  },
  {
   "property": "C54",
   "status": "proved",
   "theorems": [
    "Rfsed.Props.c54_greedy",
    "Rfsed.Props.c54_misfit_decreases",
    "Rfsed.Props.c54_delayed_copy",
    "Rfsed.Props.c54_self",
    "Rfsed.Props.c54_scaled"
   ],
   "note": ""
  },
  {
   "property": "C55",
   "status": "proved",
   "theorems": [
    "Rfsed.Props.c55_causal"
   ],
   "note": ""
  },
  {
   "property": "C56",
   "status": "proved",
   "theorems": [
    "Rfsed.Props.c56_circular_shift",
    "Rfsed.Props.c56_excluded",
    "Rfsed.Props.c56_samples"
   ],
   "note": ""
  },
  {
   "property": "C57",
   "status": "proved",
   "theorems": [
    "Rfsed.Props.c57_gauss",
    "Rfsed.Props.c57_errors",
    "Rfsed.Props.c57_filter"
   ],
   "note": ""
  },
  {
   "property": "C58",
   "status": "proved",
   "theorems": [
    "Rfsed.Props.c58_errors",
    "Rfsed.Props.c58_total",
    "Rfsed.Props.c58_formula",
    "Rfsed.Props.c58_stable",
    "Rfsed.Props.c58_exact",
    "Rfsed.Props.c58_self"
   ],
   "note": ""
  },
  {
   "property": "C59",
   "status": "proved",
   "theorems": [
    "Rfsed.Props.c59_dispatch",
    "Rfsed.Props.c59_kwargs",
    "Rfsed.Props.c59_trace",
    "Rfsed.Props.c59_names"
   ],
   "note": ""
  },
  {
   "property": "C60",
   "status": "proved",
   "theorems": [
    "Rfsed.Props.c60_split",
    "Rfsed.Props.c60_split_seismograms",
    "Rfsed.Props.c60_zero_layer"
   ],
   "note": ""
  },
  {
   "property": "C61",
   "status": "proved",
   "theorems": [
    "Rfsed.Props.c61_unique_solution",
    "Rfsed.Props.c61_seismograms",
    "Rfsed.Props.c61_exists"
   ],
   "note": ""
  },
  {
   "property": "C62",
   "status": "proved",
   "theorems": [
    "Rfsed.Props.c62_shape",
    "Rfsed.Props.c62_no_offset"
   ],
   "note": ""
  },
  {
   "property": "C63",
   "status": "proved",
   "theorems": [
    "Rfsed.Props.c63_save_dir",
    "Rfsed.Props.c63_save_twice",
    "Rfsed.Props.c63_six_directories",
    "Rfsed.Props.c63_concurrent",
    "Rfsed.Props.c63_race",
    "Rfsed.Props.c63_install",
    "Rfsed.Props.c63_install_twice",
    "Rfsed.Props.c63_install_tests",
    "Rfsed.Props.c63_removed"
   ],
   "note": ""
  },
  {
   "property": "C64",
   "status": "proved",
   "theorems": [
    "Rfsed.Props.c64_always_detects",
    "Rfsed.Props.c64_straight_line"
   ],
   "note": ""
  },
  {
   "property": "C65",
   "status": "proved",
   "theorems": [
    "Rfsed.Props.c65_energy"
   ],
   "note": ""
  },
  {
   "property": "C66",
   "status": "proved",
   "theorems": [
    "Rfsed.Props.c66_amplitude_scaling"
   ],
   "note": ""
  },
  {
   "property": "C67",
   "status": "proved",
   "theorems": [
    "Rfsed.Props.c67_three_figures",
    "Rfsed.Props.c67_lag_axis_shifted",
    "Rfsed.Props.c67_length_mismatch"
   ],
   "note": ""
  },
  {
   "property": "C68",
   "status": "proved",
   "theorems": [
    "Rfsed.Props.c68_sediment_always_found",
    "Rfsed.Props.c68_pipeline_runs"
   ],
   "note": ""
  },
  {
   "property": "C69",
   "status": "proved",
   "theorems": [
    "Rfsed.Props.c69_first_nan",
    "Rfsed.Props.c69_later_nan",
    "Rfsed.Props.c69_dead_station"
   ],
   "note": ""
  },
  {
   "property": "C70",
   "status": "proved",
   "theorems": [
    "Rfsed.Props.c70_parallel",
    "Rfsed.Props.c70_serial"
   ],
   "note": ""
  },
  {
   "property": "C71",
   "status": "proved",
   "theorems": [
    "Rfsed.Props.c71_grid",
    "Rfsed.Props.c71_best"
   ],
   "note": ""
  },
  {
   "property": "C72",
   "status": "proved",
   "theorems": [
    "Rfsed.Props.c72_propagator",
    "Rfsed.Props.c72_amplitudes"
   ],
   "note": ""
  },
  {
   "property": "C73",
   "status": "proved",
   "theorems": [
    "Rfsed.Props.c73_finite_iff_subcritical"
   ],
   "note": ""
  },
  {
   "property": "C74",
   "status": "proved",
   "theorems": [
    "Rfsed.Props.c74_energy"
   ],
   "note": ""
  },
  {
   "property": "C75",
   "status": "proved",
   "theorems": [
    "Rfsed.Props.c75_last_thickness",
    "Rfsed.Props.c75_time_shift"
   ],
   "note": ""
  },
  {
   "property": "C76",
   "status": "proved",
   "theorems": [
    "Rfsed.Props.c76_reverse_slowness",
    "Rfsed.Props.c76_vertical_incidence"
   ],
   "note": ""
  },
  {
   "property": "C77",
   "status": "proved",
   "theorems": [
    "Rfsed.Props.c77_units"
   ],
   "note": ""
  },
  {
   "property": "C78",
   "status": "proved",
   "theorems": [
    "Rfsed.Props.c78_halfspace",
    "Rfsed.Props.c78_homogeneous"
   ],
   "note": ""
  },
  {
   "property": "C79",
   "status": "proved",
   "theorems": [
    "Rfsed.Props.c79_postcritical_zero",
    "Rfsed.Props.c79_postcritical_water",
    "Rfsed.Props.c79_vertical_zero"
   ],
   "note": ""
  },
  {
   "property": "C80",
   "status": "proved",
   "theorems": [
    "Rfsed.Props.c80_plothk_unstacked",
    "Rfsed.Props.c80_plothk_stacked",
    "Rfsed.Props.c80_plothkYu",
    "Rfsed.Props.c80_plothkSynth",
    "Rfsed.Props.c80_plothkSeqSynth",
    "Rfsed.Props.c80_seqSynth_first_figure",
    "Rfsed.Props.c80_plotSeqhk_unstacked",
    "Rfsed.Props.c80_plotSeqhk_stacked",
    "Rfsed.Props.c80_stream_figure_exists",
    "Rfsed.Props.c80_single_figure_exists"
   ],
   "note": ""
  },
  {
   "property": "C81",
   "status": "proved",
   "theorems": [
    "Rfsed.Props.c81_serial",
    "Rfsed.Props.c81_parallel"
   ],
   "note": ""
  },
  {
   "property": "C82",
   "status": "proved",
   "theorems": [
    "Rfsed.Props.c82_rerun",
    "Rfsed.Props.c82_self_feeding"
   ],
   "note": ""
  },
  {
   "property": "C83",
   "status": "proved",
   "theorems": [
    "Rfsed.Props.c83_listing_order"
   ],
   "note": ""
  },
  {
   "property": "C84",
   "status": "proved",
   "theorems": [
    "Rfsed.Props.c84_end_to_end"
   ],
   "note": ""
  },
  {
   "property": "C85",
   "status": "proved",
   "theorems": [
    "Rfsed.Props.c85_receiver_function",
    "Rfsed.Props.c85_halfspace"
   ],
   "note": ""
  },
  {
   "property": "C86",
   "status": "proved",
   "theorems": [
    "Rfsed.Props.c86_recovers",
    "Rfsed.Props.c86_overall",
    "Rfsed.Props.c86_parallel",
    "Rfsed.Props.c86_parallel_overall"
   ],
   "note": ""
  },
  {
   "property": "C87",
   "status": "proved",
   "theorems": [
    "Rfsed.Props.c87_parallel",
    "Rfsed.Props.c87_synthetic",
    "Rfsed.Props.c87_postcritical"
   ],
   "note": ""
  },
  {
   "property": "C88",
   "status": "proved",
   "theorems": [
    "Rfsed.Props.c88_saves_harmless",
    "Rfsed.Props.c88_round_trip",
    "Rfsed.Props.c88_reads"
   ],
   "note": ""
  },
  {
   "property": "C89",
   "status": "proved",
   "theorems": [
    "Rfsed.Props.c89_arrivals",
    "Rfsed.Props.c89_ratio",
    "Rfsed.Props.c89_seismograms",
    "Rfsed.Props.c89_one_layer",
    "Rfsed.Props.c89_two_layers",
    "Rfsed.Props.c89_direct_first"
   ],
   "note": ""
  },
  {
   "property": "C90",
   "status": "proved",
   "theorems": [
    "Rfsed.Props.c90_iterative",
    "Rfsed.Props.c90_waterlevel",
    "Rfsed.Props.c90_gain",
    "Rfsed.Props.c90_common_gain"
   ],
   "note": ""
  },
  {
   "property": "C91",
   "status": "proved",
   "theorems": [
    "Rfsed.Props.c91_hk",
    "Rfsed.Props.c91_hk_coarser",
    "Rfsed.Props.c91_hkSynth",
    "Rfsed.Props.c91_hkYu",
    "Rfsed.Props.c91_hkSeqSynth",
    "Rfsed.Props.c91_hkSeq"
   ],
   "note": ""
  },
  {
   "property": "C92",
   "status": "proved",
   "theorems": [
    "Rfsed.Props.c92_union",
    "Rfsed.Props.c92_repeat",
    "Rfsed.Props.c92_hkSynth"
   ],
   "note": ""
  },
  {
   "property": "C93",
   "status": "proved",
   "theorems": [
    "Rfsed.Props.c93_hk",
    "Rfsed.Props.c93_hk_factor",
    "Rfsed.Props.c93_hkSynth",
    "Rfsed.Props.c93_hkYu",
    "Rfsed.Props.c93_hkSeqSynth_moho",
    "Rfsed.Props.c93_hkSeqSynth_sed",
    "Rfsed.Props.c93_hkSeq_moho",
    "Rfsed.Props.c93_hkSeq_sed",
    "Rfsed.Props.c93_hkSynth_factor",
    "Rfsed.Props.c93_hkYu_factor",
    "Rfsed.Props.c93_hkSeqSynth_moho_factor",
    "Rfsed.Props.c93_hkSeq_moho_factor",
    "Rfsed.Props.c93_hkSeqSynth_sed_factor",
    "Rfsed.Props.c93_hkSeq_sed_factor",
    "Rfsed.Props.c93_hkSeqSynth_any",
    "Rfsed.Props.c93_hkSeq_any"
   ],
   "note": ""
  },
  {
   "property": "C94",
   "status": "proved",
   "theorems": [
    "Rfsed.Props.c94_hk",
    "Rfsed.Props.c94_hkSynth",
    "Rfsed.Props.c94_padding",
    "Rfsed.Props.c94_hkYu",
    "Rfsed.Props.c94_hkSeqSynth",
    "Rfsed.Props.c94_hkSeq"
   ],
   "note": ""
  },
  {
   "property": "C95",
   "status": "proved",
   "theorems": [
    "Rfsed.Props.c95_hk",
    "Rfsed.Props.c95_hkSynth",
    "Rfsed.Props.c95_hkYu",
    "Rfsed.Props.c95_hkSeqSynth",
    "Rfsed.Props.c95_hkSeq",
    "Rfsed.Props.c95_hk_stacked",
    "Rfsed.Props.c95_hkSeq_stacked"
   ],
   "note": ""
  },
  {
   "property": "C96",
   "status": "proved",
   "theorems": [
    "Rfsed.Props.c96_hk",
    "Rfsed.Props.c96_hkSynth",
    "Rfsed.Props.c96_hkYu",
    "Rfsed.Props.c96_hkSeqSynth",
    "Rfsed.Props.c96_hkSeq"
   ],
   "note": ""
  },
  {
   "property": "C97",
   "status": "proved",
   "theorems": [
    "Rfsed.Props.c97_time_unit",
    "Rfsed.Props.c97_time_unit_synth",
    "Rfsed.Props.c97_pipeline"
   ],
   "note": ""
  },
  {
   "property": "C98",
   "status": "proved",
   "theorems": [
    "Rfsed.Props.c98_only_autocorrelation",
    "Rfsed.Props.c98_reversed"
   ],
   "note": ""
  },
  {
   "property": "C99",
   "status": "proved",
   "theorems": [
    "Rfsed.Props.c99_window",
    "Rfsed.Props.c99_window_parallel",
    "Rfsed.Props.c99_gain",
    "Rfsed.Props.c99_gain_best",
    "Rfsed.Props.c99_phase_best"
   ],
   "note": ""
  },
  {
   "property": "C100",
   "status": "proved",
   "theorems": [
    "Rfsed.Props.c100_parallel",
    "Rfsed.Props.c100_parallel_plotted",
    "Rfsed.Props.c100_plotted",
    "Rfsed.Props.c100_succeeds_iff"
   ],
   "note": ""
  },
  {
   "property": "C101",
   "status": "proved",
   "theorems": [
    "Rfsed.Props.c101_parallel_values",
    "Rfsed.Props.c101_parallel_best",
    "Rfsed.Props.c101_parallel_gof",
    "Rfsed.Props.c101_same_values",
    "Rfsed.Props.c101_best_no_worse",
    "Rfsed.Props.c101_same_gof",
    "Rfsed.Props.c101_rank_reversal"
   ],
   "note": ""
  },
  {
   "property": "C102",
   "status": "proved",
   "theorems": [
    "Rfsed.Props.c102_more_events",
    "Rfsed.Props.c102_split",
    "Rfsed.Props.c102_more_files",
    "Rfsed.Props.c102_longer_window",
    "Rfsed.Props.c102_parallel"
   ],
   "note": ""
  },
  {
   "property": "C103",
   "status": "proved",
   "theorems": [
    "Rfsed.Props.c103_iterative",
    "Rfsed.Props.c103_waterlevel",
    "Rfsed.Props.c103_waterlevel_misfit",
    "Rfsed.Props.c103_waterlevel_delay",
    "Rfsed.Props.c103_trace"
   ],
   "note": ""
  },
  {
   "property": "C104",
   "status": "proved",
   "theorems": [
    "Rfsed.Props.c104_hk",
    "Rfsed.Props.c104_hkSynth",
    "Rfsed.Props.c104_hkYu",
    "Rfsed.Props.c104_hkSeqSynth",
    "Rfsed.Props.c104_hkSeq"
   ],
   "note": ""
  },
  {
   "property": "C105",
   "status": "proved",
   "theorems": [
    "Rfsed.Props.c105_hk",
    "Rfsed.Props.c105_hk_exact",
    "Rfsed.Props.c105_hkSynth",
    "Rfsed.Props.c105_hkSynth_exact",
    "Rfsed.Props.c105_hk_stacked",
    "Rfsed.Props.c105_hk_stacked_exact"
   ],
   "note": ""
  },
  {
   "property": "C106",
   "status": "proved",
   "theorems": [
    "Rfsed.Props.c106_hk",
    "Rfsed.Props.c106_hkSynth",
    "Rfsed.Props.c106_hkYu",
    "Rfsed.Props.c106_hkSeqSynth",
    "Rfsed.Props.c106_hkSeq",
    "Rfsed.Props.c106_exact",
    "Rfsed.Props.c106_binary"
   ],
   "note": ""
  },
  {
   "property": "C107",
   "status": "proved",
   "theorems": [
    "Rfsed.Props.c107_plothk_frame",
    "Rfsed.Props.c107_plothkYu_frame",
    "Rfsed.Props.c107_plothkSynth_frame",
    "Rfsed.Props.c107_plotSeqhk_frame",
    "Rfsed.Props.c107_plothkSeqSynth_frame",
    "Rfsed.Props.c107_plothk_shading",
    "Rfsed.Props.c107_plotSeqhk_shading",
    "Rfsed.Props.c107_shading_misses"
   ],
   "note": ""
  },
  {
   "property": "C108",
   "status": "proved",
   "theorems": [
    "Rfsed.Props.c108_inputs",
    "Rfsed.Props.c108_crash",
    "Rfsed.Props.c108_ends",
    "Rfsed.Props.c108_recovery",
    "Rfsed.Props.c108_commute",
    "Rfsed.Props.c108_parallel_crash",
    "Rfsed.Props.c108_parallel_recovery",
    "Rfsed.Props.c108_stuck"
   ],
   "note": ""
  },
  {
   "property": "C109",
   "status": "proved",
   "theorems": [
    "Rfsed.Props.c109_never_returns",
    "Rfsed.Props.c109_waits",
    "Rfsed.Props.c109_returned"
   ],
   "note": ""
  },
  {
   "property": "C110",
   "status": "proved",
   "theorems": [
    "Rfsed.Props.c110_factor",
    "Rfsed.Props.c110_misfits",
    "Rfsed.Props.c110_recovers",
    "Rfsed.Props.c110_stopped",
    "Rfsed.Props.c110_limit",
    "Rfsed.Props.c110_power"
   ],
   "note": ""
  },
  {
   "property": "C111",
   "status": "proved",
   "theorems": [
    "Rfsed.Props.c111_tests",
    "Rfsed.Props.c111_not_directory",
    "Rfsed.Props.c111_directory_for_file",
    "Rfsed.Props.c111_keeps",
    "Rfsed.Props.c111_examples"
   ],
   "note": ""
  },
  {
   "property": "C112",
   "status": "proved",
   "theorems": [
    "Rfsed.Props.c112_one_sample",
    "Rfsed.Props.c112_iterative",
    "Rfsed.Props.c112_waterlevel",
    "Rfsed.Props.c112_resonance",
    "Rfsed.Props.c112_resonance_synth",
    "Rfsed.Props.c112_figures"
   ],
   "note": ""
  },
  {
   "property": "C113",
   "status": "proved",
   "theorems": [
    "Rfsed.Props.c113_factor",
    "Rfsed.Props.c113_misfits",
    "Rfsed.Props.c113_posterior",
    "Rfsed.Props.c113_recovers",
    "Rfsed.Props.c113_stopped",
    "Rfsed.Props.c113_limit",
    "Rfsed.Props.c113_water_linear",
    "Rfsed.Props.c113_water_noise",
    "Rfsed.Props.c113_water_recovers",
    "Rfsed.Props.c113_water_exact"
   ],
   "note": ""
  },
  {
   "property": "C114",
   "status": "proved",
   "theorems": [
    "Rfsed.Props.c114_rmse",
    "Rfsed.Props.c114_corr",
    "Rfsed.Props.c114_phase",
    "Rfsed.Props.c114_gof",
    "Rfsed.Props.c114_truth",
    "Rfsed.Props.c114_truth_parallel"
   ],
   "note": ""
  },
  {
   "property": "C115",
   "status": "proved",
   "theorems": [
    "Rfsed.Props.c115_autoc",
    "Rfsed.Props.c115_filter",
    "Rfsed.Props.c115_pipeline"
   ],
   "note": ""
  },
  {
   "property": "C116",
   "status": "proved",
   "theorems": [
    "Rfsed.Props.c116_hkYu",
    "Rfsed.Props.c116_hkYu_exact",
    "Rfsed.Props.c116_hkSeqSynth",
    "Rfsed.Props.c116_hkSeqSynth_exact",
    "Rfsed.Props.c116_hkSeq",
    "Rfsed.Props.c116_hkSeq_exact",
    "Rfsed.Props.c116_hkSeq_stacked",
    "Rfsed.Props.c116_hkSeq_stacked_exact"
   ],
   "note": ""
  },
  {
   "property": "C117",
   "status": "proved",
   "theorems": [
    "Rfsed.Props.c117_hk",
    "Rfsed.Props.c117_hk_best",
    "Rfsed.Props.c117_hkSynth",
    "Rfsed.Props.c117_hkSynth_best",
    "Rfsed.Props.c117_hkYu",
    "Rfsed.Props.c117_hkYu_best",
    "Rfsed.Props.c117_hkSeqSynth_sed",
    "Rfsed.Props.c117_hkSeqSynth_moho",
    "Rfsed.Props.c117_hkSeqSynth_best",
    "Rfsed.Props.c117_hkSeq_sed",
    "Rfsed.Props.c117_hkSeq_moho",
    "Rfsed.Props.c117_hkSeq_best"
   ],
   "note": ""
  },
  {
   "property": "C118",
   "status": "proved",
   "theorems": [
    "Rfsed.Props.c118_times",
    "Rfsed.Props.c118_unique",
    "Rfsed.Props.c118_bias",
    "Rfsed.Props.c118_vertical",
    "Rfsed.Props.c118_hkSynth",
    "Rfsed.Props.c118_hk",
    "Rfsed.Props.c118_hkYu",
    "Rfsed.Props.c118_hkSeqSynth",
    "Rfsed.Props.c118_same",
    "Rfsed.Props.c118_hkSeq"
   ],
   "note": ""
  },
  {
   "property": "C119",
   "status": "proved",
   "theorems": [
    "Rfsed.Props.c119_one_ray",
    "Rfsed.Props.c119_two_rays",
    "Rfsed.Props.c119_hk",
    "Rfsed.Props.c119_hk_stack"
   ],
   "note": ""
  },
  {
   "property": "C120",
   "status": "proved",
   "theorems": [
    "Rfsed.Props.c120_ratio",
    "Rfsed.Props.c120_hk",
    "Rfsed.Props.c120_hkSynth",
    "Rfsed.Props.c120_hk_stack",
    "Rfsed.Props.c120_hkYu",
    "Rfsed.Props.c120_propagation",
    "Rfsed.Props.c120_hkSeqSynth",
    "Rfsed.Props.c120_hkSeq_stack",
    "Rfsed.Props.c120_hkSeq_last"
   ],
   "note": ""
  },
  {
   "property": "C121",
   "status": "proved",
   "theorems": [
    "Rfsed.Props.c121_times",
    "Rfsed.Props.c121_third",
    "Rfsed.Props.c121_thickness",
    "Rfsed.Props.c121_exists",
    "Rfsed.Props.c121_unique",
    "Rfsed.Props.c121_bias",
    "Rfsed.Props.c121_hkSeqSynth",
    "Rfsed.Props.c121_hkSeq",
    "Rfsed.Props.c121_hkYu",
    "Rfsed.Props.c121_hkYu_bias",
    "Rfsed.Props.c121_hkYu_ratio"
   ],
   "note": ""
  },
  {
   "property": "C122",
   "status": "proved",
   "theorems": [
    "Rfsed.Props.c122_product",
    "Rfsed.Props.c122_only",
    "Rfsed.Props.c122_quotient",
    "Rfsed.Props.c122_onset",
    "Rfsed.Props.c122_window",
    "Rfsed.Props.c122_judged",
    "Rfsed.Props.c122_succeeds",
    "Rfsed.Props.c122_usual_rates",
    "Rfsed.Props.c122_shift_unlucky",
    "Rfsed.Props.c122_unlucky"
   ],
   "note": ""
  },
  {
   "property": "C123",
   "status": "proved",
   "theorems": [
    "Rfsed.Props.c123_times",
    "Rfsed.Props.c123_unique",
    "Rfsed.Props.c123_bias",
    "Rfsed.Props.c123_hkSynth",
    "Rfsed.Props.c123_hkYu",
    "Rfsed.Props.c123_hkSeqSynth",
    "Rfsed.Props.c123_mean",
    "Rfsed.Props.c123_hk_stack",
    "Rfsed.Props.c123_hk_same"
   ],
   "note": ""
  },
  {
   "property": "C124",
   "status": "proved",
   "theorems": [
    "Rfsed.Props.c124_yu_correction",
    "Rfsed.Props.c124_obliquity",
    "Rfsed.Props.c124_same_samples",
    "Rfsed.Props.c124_vertical",
    "Rfsed.Props.c124_no_sediment"
   ],
   "note": ""
  },
  {
   "property": "C125",
   "status": "proved",
   "theorems": [
    "Rfsed.Props.c125_hk_station",
    "Rfsed.Props.c125_hk_seq",
    "Rfsed.Props.c125_hk_seq_sediment",
    "Rfsed.Props.c125_yu",
    "Rfsed.Props.c125_synth",
    "Rfsed.Props.c125_seqSynth",
    "Rfsed.Props.c125_resonance",
    "Rfsed.Props.c125_waveform"
   ],
   "note": ""
  },
  {
   "property": "C126",
   "status": "proved",
   "theorems": [
    "Rfsed.Props.c126_criteria",
    "Rfsed.Props.c126_gof",
    "Rfsed.Props.c126_any_order"
   ],
   "note": ""
  },
  {
   "property": "C127",
   "status": "proved",
   "theorems": [
    "Rfsed.Props.c127_hk",
    "Rfsed.Props.c127_hk_count",
    "Rfsed.Props.c127_hk_stack",
    "Rfsed.Props.c127_hkSynth",
    "Rfsed.Props.c127_hkYu",
    "Rfsed.Props.c127_hkSeq",
    "Rfsed.Props.c127_hkSeqSynth",
    "Rfsed.Props.c127_step",
    "Rfsed.Props.c127_hkSeq_stack"
   ],
   "note": ""
  },
  {
   "property": "C128",
   "status": "proved",
   "theorems": [
    "Rfsed.Props.c128_seismograms"
   ],
   "note": ""
  },
  {
   "property": "C129",
   "status": "proved",
   "theorems": [
    "Rfsed.Props.c129_noise",
    "Rfsed.Props.c129_small_noise",
    "Rfsed.Props.c129_radial"
   ],
   "note": ""
  },
  {
   "property": "C130",
   "status": "proved",
   "theorems": [
    "Rfsed.Props.c130_receiver_functions"
   ],
   "note": ""
  },
  {
   "property": "C131",
   "status": "proved",
   "theorems": [
    "Rfsed.Props.c131_exact",
    "Rfsed.Props.c131_rounding",
    "Rfsed.Props.c131_normalized",
    "Rfsed.Props.c131_inexact_run"
   ],
   "note": ""
  },
  {
   "property": "C132",
   "status": "proved",
   "theorems": [
    "Rfsed.Props.c132_misfits",
    "Rfsed.Props.c132_no_worse",
    "Rfsed.Props.c132_best_spike",
    "Rfsed.Props.c132_passes",
    "Rfsed.Props.c132_exact"
   ],
   "note": ""
  },
  {
   "property": "C133",
   "status": "proved",
   "theorems": [
    "Rfsed.Props.c133_inexact_run",
    "Rfsed.Props.c133_exact",
    "Rfsed.Props.c133_autoc",
    "Rfsed.Props.c133_filter"
   ],
   "note": ""
  },
  {
   "property": "C134",
   "status": "proved",
   "theorems": [
    "Rfsed.Props.c134_rate",
    "Rfsed.Props.c134_rounding",
    "Rfsed.Props.c134_runs"
   ],
   "note": ""
  },
  {
   "property": "C135",
   "status": "proved",
   "theorems": [
    "Rfsed.Props.c135_rate",
    "Rfsed.Props.c135_session",
    "Rfsed.Props.c135_exact"
   ],
   "note": ""
  },
  {
   "property": "C136",
   "status": "proved",
   "theorems": [
    "Rfsed.Props.c136_differentiable",
    "Rfsed.Props.c136_sensitivity",
    "Rfsed.Props.c136_receiver_functions"
   ],
   "note": ""
  },
  {
   "property": "C137",
   "status": "proved",
   "theorems": [
    "Rfsed.Props.c137_differentiable",
    "Rfsed.Props.c137_noisy_copy",
    "Rfsed.Props.c137_jump",
    "Rfsed.Props.c137_receiver_functions",
    "Rfsed.Props.c137_proportional"
   ],
   "note": ""
  },
  {
   "property": "C138",
   "status": "proved",
   "theorems": [
    "Rfsed.Props.c138_synthetic",
    "Rfsed.Props.c138_off_grid"
   ],
   "note": ""
  },
  {
   "property": "C139",
   "status": "proved",
   "theorems": [
    "Rfsed.Props.c139_deconvolution",
    "Rfsed.Props.c139_rounding",
    "Rfsed.Props.c139_exact",
    "Rfsed.Props.c139_session",
    "Rfsed.Props.c139_session_exact"
   ],
   "note": ""
  },
  {
   "property": "C140",
   "status": "proved",
   "theorems": [
    "Rfsed.Props.c140_hkSynth",
    "Rfsed.Props.c140_hk",
    "Rfsed.Props.c140_hk_stacked",
    "Rfsed.Props.c140_hkSeq",
    "Rfsed.Props.c140_hkSeq_stacked",
    "Rfsed.Props.c140_search",
    "Rfsed.Props.c140_experiment",
    "Rfsed.Props.c140_water",
    "Rfsed.Props.c140_resonance",
    "Rfsed.Props.c140_sediment",
    "Rfsed.Props.c140_hkSeqSynth",
    "Rfsed.Props.c140_hkYu"
   ],
   "note": ""
  },
  {
   "property": "C141",
   "status": "proved",
   "theorems": [
    "Rfsed.Props.c141_hkSeq_no_nan",
    "Rfsed.Props.c141_hkSeqSynth_no_nan",
    "Rfsed.Props.c141_hkSeqSynth_S_postcritical",
    "Rfsed.Props.c141_hkSeq_S_postcritical",
    "Rfsed.Props.c141_hkSeqSynth_P_postcritical",
    "Rfsed.Props.c141_hkSeq_P_postcritical"
   ],
   "note": ""
  },
  {
   "property": "C142",
   "status": "proved",
   "theorems": [
    "Rfsed.Props.c142_waveform",
    "Rfsed.Props.c142_parallel"
   ],
   "note": ""
  },
  {
   "property": "C143",
   "status": "proved",
   "theorems": [
    "Rfsed.Props.c143_receiver_function",
    "Rfsed.Props.c143_hk",
    "Rfsed.Props.c143_noise",
    "Rfsed.Props.c143_hkSynth",
    "Rfsed.Props.c143_hkYu",
    "Rfsed.Props.c143_hkSeq",
    "Rfsed.Props.c143_hkSeqSynth"
   ],
   "note": ""
  },
  {
   "property": "C144",
   "status": "proved",
   "theorems": [
    "Rfsed.Props.c144_hk",
    "Rfsed.Props.c144_hkSeq"
   ],
   "note": ""
  },
  {
   "property": "C145",
   "status": "proved",
   "theorems": [
    "Rfsed.Props.c145_exact",
    "Rfsed.Props.c145_waveform",
    "Rfsed.Props.c145_parallel"
   ],
   "note": ""
  },
  {
   "property": "C146",
   "status": "proved",
   "theorems": [
    "Rfsed.Props.c146_hkYu"
   ],
   "note": ""
  },
  {
   "property": "C147",
   "status": "proved",
   "theorems": [
    "Rfsed.Props.c147_more_iterations",
    "Rfsed.Props.c147_stop_early",
    "Rfsed.Props.c147_never_worse"
   ],
   "note": ""
  },
  {
   "property": "C148",
   "status": "proved",
   "theorems": [
    "Rfsed.Props.c148_water_level",
    "Rfsed.Props.c148_high_level"
   ],
   "note": ""
  },
  {
   "property": "C149",
   "status": "proved",
   "theorems": [
    "Rfsed.Props.c149_filter",
    "Rfsed.Props.c149_water"
   ],
   "note": ""
  },
  {
   "property": "C150",
   "status": "proved",
   "theorems": [
    "Rfsed.Props.c150_hk",
    "Rfsed.Props.c150_hk_Ps",
    "Rfsed.Props.c150_hkSynth",
    "Rfsed.Props.c150_hkYu",
    "Rfsed.Props.c150_hkSeqSynth_moho",
    "Rfsed.Props.c150_hkSeq_moho"
   ],
   "note": ""
  },
  {
   "property": "C151",
   "status": "proved",
   "theorems": [
    "Rfsed.Props.c151_hk",
    "Rfsed.Props.c151_hkSynth",
    "Rfsed.Props.c151_hkYu",
    "Rfsed.Props.c151_hkSeqSynth_moho",
    "Rfsed.Props.c151_hkSeq_moho",
    "Rfsed.Props.c151_waveform"
   ],
   "note": ""
  },
  {
   "property": "C152",
   "status": "proved",
   "theorems": [
    "Rfsed.Props.c152_waveform",
    "Rfsed.Props.c152_corr",
    "Rfsed.Props.c152_rmse",
    "Rfsed.Props.c152_pg",
    "Rfsed.Props.c152_plotbestmodel"
   ],
   "note": ""
  },
  {
   "property": "C153",
   "status": "proved",
   "theorems": [
    "Rfsed.Props.c153_hk",
    "Rfsed.Props.c153_hkSynth",
    "Rfsed.Props.c153_hkYu",
    "Rfsed.Props.c153_hkSeqSynth",
    "Rfsed.Props.c153_hkSeq"
   ],
   "note": ""
  },
  {
   "property": "C154",
   "status": "proved",
   "theorems": [
    "Rfsed.Props.c154_waveform",
    "Rfsed.Props.c154_plotbestmodel"
   ],
   "note": ""
  },
  {
   "property": "C155",
   "status": "proved",
   "theorems": [
    "Rfsed.Props.c155_hk",
    "Rfsed.Props.c155_hkSynth",
    "Rfsed.Props.c155_hkYu",
    "Rfsed.Props.c155_hkSeqSynth_moho",
    "Rfsed.Props.c155_hkSeq_moho",
    "Rfsed.Props.c155_waveform",
    "Rfsed.Props.c155_plotbestmodel"
   ],
   "note": ""
  },
  {
   "property": "C156",
   "status": "proved",
   "theorems": [
    "Rfsed.Props.c156_hk_added",
    "Rfsed.Props.c156_hk_replaced"
   ],
   "note": ""
  }
 ]
}