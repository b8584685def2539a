Csu.Misc.C01_insect_filter_exact: [propext, Classical.choice, Quot.sound]
Csu.Misc.C01_insect_filter_index_error: [propext, Quot.sound]
Csu.Misc.C01_surplus_ranges_ignored: [propext, Quot.sound]
Csu.Misc.C02_default_insect_exact: [propext, Classical.choice, Quot.sound]
Csu.Misc.C02_threshold_monotone: [propext, Classical.choice, Quot.sound]
Csu.Misc.C02_mask_contained: [propext, Classical.choice, Quot.sound]
Csu.Misc.C03_second_trip_exact: [propext]
Csu.Misc.C03_phase_exact: [propext]
Csu.Misc.C03_phase_array_exact: [propext, Quot.sound]
Csu.Misc.C03_nan_passes: [propext, Classical.choice, Quot.sound]
Csu.Misc.C04_despeckle_ray: [propext, Classical.choice, Quot.sound]
Csu.Misc.C04_despeckle_2d: [propext, Classical.choice, Quot.sound]
Csu.Misc.C04_despeckle_dispatch: [propext, Classical.choice, Quot.sound]
Csu.Misc.C05_idempotent: [propext, Classical.choice, Quot.sound]
Csu.Misc.C05_monotone: [propext, Classical.choice, Quot.sound]
Csu.Misc.C05_reverse: [propext, Classical.choice, Quot.sound]
Csu.Misc.C05_bad_flagged: [propext, Classical.choice, Quot.sound]
Csu.Misc.C06_documented_run_length_false: [propext, Classical.choice, Quot.sound]
Csu.Misc.C06_run_length_partial: [propext, Classical.choice, Quot.sound]
Csu.Kdp.C07_full_false: [propext, Classical.choice, Quot.sound]
Csu.Kdp.C07_no_escape_partial: [propext, Classical.choice, Quot.sound]
Csu.Kdp.C07_filtering_escapes: [propext, Classical.choice, Quot.sound]
Csu.Kdp.C07_work_buffers_overflow: [propext, Classical.choice, Quot.sound]
Csu.Kdp.C08_full_false: [propext, Classical.choice, Quot.sound]
Csu.Kdp.C08_full_false_uninitialised: [propext, Classical.choice, Quot.sound]
Csu.Kdp.C08_deterministic_partial: [propext, Classical.choice, Quot.sound]
Csu.Kdp.C09_population_std: [propext, Classical.choice, Quot.sound]
Csu.Kdp.C09_nan_phase: [propext, Classical.choice, Quot.sound]
Csu.Kdp.C10_least_squares: [propext, Classical.choice, Quot.sound]
Csu.Kdp.C10_collinear: [propext, Classical.choice, Quot.sound]
Csu.Kdp.C10_order_irrelevant: [propext, Classical.choice, Quot.sound]
Csu.Kdp.C10_zero_division: [propext, Classical.choice, Quot.sound]
Csu.Kdp.C10_fortran_degenerate: [propext, Classical.choice, Quot.sound]
Csu.Kdp.C11_no_passes: [propext, Classical.choice, Quot.sound]
Csu.Kdp.C11_bad_outside: [propext, Classical.choice, Quot.sound]
Csu.Kdp.C11_filter_sum: [propext, Classical.choice, Quot.sound]
Csu.Kdp.C11_linear_phase_fortran: [propext, Classical.choice, Quot.sound]
Csu.Kdp.C11_constant_phase_cython: [propext, Classical.choice, Quot.sound]
Csu.Kdp.C12_window_slope: [propext, Classical.choice, Quot.sound]
Csu.Kdp.C12_bad_reflectivity: [propext, Classical.choice, Quot.sound]
Csu.Kdp.C12_linear_phase: [propext, Classical.choice, Quot.sound]
Csu.Kdp.C13_own_reflectivity: [propext, Classical.choice, Quot.sound]
Csu.Kdp.C14_rays_independent: [propext, Classical.choice, Quot.sound]
Csu.Kdp.C14_all_rays: [propext, Classical.choice, Quot.sound]
Csu.Kdp.C14_selection: [propext, Classical.choice, Quot.sound]
Csu.Kdp.C15_missing: [propext, Classical.choice, Quot.sound]
Csu.Kdp.C15_ndim_mismatch: [propext, Classical.choice, Quot.sound]
Csu.Kdp.C15_other_ndim: [propext, Classical.choice, Quot.sound]
Csu.Kdp.C15_odd_order: [propext, Classical.choice, Quot.sound]
Csu.Kdp.C15_std_gate: [propext, Classical.choice, Quot.sound]
Csu.Kdp.C15_thresholds_1d: [propext, Classical.choice, Quot.sound]
Csu.Kdp.C16_order: [propext, Classical.choice, Quot.sound]
Csu.Kdp.C16_succeeds_iff: [propext, Classical.choice, Quot.sound]
Csu.Kdp.C17_full_false: [propext, Classical.choice, Quot.sound]
Csu.Kdp.C17_std_and_phase_partial: [propext, Classical.choice, Quot.sound]
Csu.Kdp.C17_linear_phase_partial: [propext, Classical.choice, Quot.sound]
Csu.Kdp.C17_rounding_full_false: [propext, Classical.choice, Quot.sound]
Csu.Fhc.C18_float_unit: [propext, Classical.choice, Quot.sound]
Csu.Fhc.C18_float_centre: [propext, Classical.choice, Quot.sound]
Csu.Fhc.C18_bell: [propext, Classical.choice, Quot.sound]
Csu.Fhc.C18_zero_width: [propext, Classical.choice, Quot.sound]
Csu.Fhc.C19_summer: [propext, Quot.sound]
Csu.Fhc.C19_ml: [propext, Quot.sound]
Csu.Fhc.C19_winter: [propext, Quot.sound]
Csu.Fhc.C19_winter_nan: [propext, Quot.sound]
Csu.Fhc.C19_bands: [propext, Classical.choice, Quot.sound]
Csu.Fhc.C20_scores_in_unit_interval: [propext, Classical.choice, Quot.sound]
Csu.Fhc.C20_float: [propext, Classical.choice, Quot.sound]
Csu.Fhc.C20_float_default: [propext, Classical.choice, Quot.sound]
Csu.Fhc.C21_category_range: [propext, Classical.choice, Quot.sound]
Csu.Fhc.C21_scores_shape: [propext, Classical.choice, Quot.sound]
Csu.Fhc.C21_first_best: [propext, Classical.choice, Quot.sound]
Csu.Fhc.C21_first_best_finite: [propext, Classical.choice, Quot.sound]
Csu.Fhc.C21_float_first_best: [propext, Classical.choice, Quot.sound]
Csu.Fhc.C21_float_finite: [propext, Classical.choice, Quot.sound]
Csu.Fhc.C22_gatewise: [propext, Classical.choice, Quot.sound]
Csu.Fhc.C22_concat: [propext, Classical.choice, Quot.sound]
Csu.Fhc.C22_concat_scores: [propext, Classical.choice, Quot.sound]
Csu.Fhc.C23_prototypes: [propext, Classical.choice, Quot.sound]
Csu.Fhc.C23_prototypes_general: [propext, Classical.choice, Quot.sound]
Csu.Fhc.C24_weight_ratio: [propext, Classical.choice, Quot.sound]
Csu.Fhc.C25_no_dz: [propext, Classical.choice, Quot.sound]
Csu.Fhc.C25_method_selection: [propext, Classical.choice, Quot.sound]
Csu.Fhc.C25_bad_method: [propext, Classical.choice, Quot.sound]
Csu.Fhc.C25_bad_band: [propext, Classical.choice, Quot.sound]
Csu.Fhc.C25_bad_n_types: [propext, Classical.choice, Quot.sound]
Csu.Fhc.C25_hybrid: [propext, Classical.choice, Quot.sound]
Csu.Fhc.C26_hybrid_no_effect: [propext, Classical.choice, Quot.sound]
Csu.Fhc.C27_scores_partial: [propext, Classical.choice, Quot.sound]
Csu.Fhc.C27_centre_moves: [propext, Classical.choice, Quot.sound]
Csu.Fhc.C27_full_false: [propext, Classical.choice, Quot.sound]
Csu.Fhc.C28_nan_is_drizzle_partial: [propext, Classical.choice, Quot.sound]
Csu.Fhc.C28_scores_are_nan_partial: [propext, Classical.choice, Quot.sound]
Csu.Fhc.C28_full_false: [propext, Classical.choice, Quot.sound]
Csu.Traps.C29_values: [propext, Classical.choice, Quot.sound]
Csu.Traps.C29_bounded: [propext, Classical.choice, Quot.sound]
Csu.Traps.C29_hail_bounded: [propext, Classical.choice, Quot.sound]
Csu.Traps.C29_out_of_range: [propext, Classical.choice, Quot.sound]
Csu.Traps.C29_vertical_ice: [propext, Classical.choice, Quot.sound]
Csu.Traps.C29_liquid_monotone: [propext, Classical.choice, Quot.sound]
Csu.Traps.C29_ice_antitone: [propext, Classical.choice, Quot.sound]
Csu.Traps.C30_continuous_iff_partial: [propext, Classical.choice, Quot.sound]
Csu.Traps.C30_all_continuous_false: [propext, Classical.choice, Quot.sound]
Csu.Traps.C30_rain_jumps: [propext, Classical.choice, Quot.sound]
Csu.Fhc.C31_float: [propext, Classical.choice, Quot.sound]
Csu.Fhc.C31_float_default: [propext, Classical.choice, Quot.sound]
Csu.Fhc.C31_row_count: [propext, Classical.choice, Quot.sound]
Csu.Fhc.C31_scores_in_unit_interval: [propext, Classical.choice, Quot.sound]
Csu.Fhc.C31_default: [propext, Classical.choice, Quot.sound]
Csu.Fhc.C31_needs_pol: [propext, Classical.choice, Quot.sound]
Csu.Fhc.C32_nan_partial: [propext, Classical.choice, Quot.sound]
Csu.Fhc.C32_full_false: [propext, Classical.choice, Quot.sound]
Csu.Fhc.C33_rule: [propext, Classical.choice, Quot.sound]
Csu.Fhc.C33_contract: [propext, Classical.choice, Quot.sound]
Csu.Fhc.C33_wet_snow: [propext, Classical.choice, Quot.sound]
Csu.Fhc.C33_finite_sweep: [propext, Classical.choice, Quot.sound]
Csu.Fhc.C33_no_azimuths: [propext, Classical.choice, Quot.sound]
Csu.Fhc.C33_finite_volume: [propext, Classical.choice, Quot.sound]
Csu.Fhc.C34_band_ignored_partial: [propext, Classical.choice, Quot.sound]
Csu.Fhc.C34_tables_used_partial: [propext, Classical.choice, Quot.sound]
Csu.Fhc.C34_full_false: [propext, Classical.choice, Quot.sound]
Csu.Fhc.C35_codes: [propext, Classical.choice, Quot.sound]
Csu.Fhc.C35_range: [propext, Classical.choice, Quot.sound]
Csu.Fhc.C35_no_heights: [propext, Classical.choice, Quot.sound]
Csu.Fhc.C35_needs_masked_rho: [propext, Classical.choice, Quot.sound]
Csu.Fhc.C35_no_heights_run_winter: [propext, Classical.choice, Quot.sound]
Csu.Fhc.C35_finite_sweep: [propext, Classical.choice, Quot.sound]
Csu.Fhc.C35_finite_volume: [propext, Classical.choice, Quot.sound]
Csu.Fhc.C36_split: [propext, Classical.choice, Quot.sound]
Csu.Fhc.C36_rhi: [propext, Classical.choice, Quot.sound]
Csu.Fhc.C36_verbose_raises: [propext, Classical.choice, Quot.sound]
Csu.Fhc.C36_no_expected: [propext, Classical.choice, Quot.sound]
Csu.Fhc.C36_rhi_no_expected: [propext, Classical.choice, Quot.sound]
Csu.Fhc.C36_nonfinite_raises: [propext, Classical.choice, Quot.sound]
Csu.Fhc.C36_nonfinite_ignored: [propext, Classical.choice, Quot.sound]
Csu.Fhc.C37_ppi_partial: [propext, Classical.choice, Quot.sound]
Csu.Fhc.C37_uncovered_partial: [propext, Classical.choice, Quot.sound]
Csu.Fhc.C37_full_false: [propext, Classical.choice, Quot.sound]
Csu.Fhc.C37_dry_gate_cold_partial: [propext, Classical.choice, Quot.sound]
Csu.Fhc.C37_no_azimuths: [propext, Classical.choice, Quot.sound]
Csu.Fhc.C37_run_winter_uncovered_partial: [propext, Classical.choice, Quot.sound]
Csu.Rain.C38_blended_S_exact: [propext, Classical.choice, Quot.sound]
Csu.Rain.C38_method_range: [propext, Classical.choice, Quot.sound]
Csu.Rain.C38_fit_a_without_fit_b: [propext, Classical.choice, Quot.sound]
Csu.Rain.C39_blended_other_exact: [propext, Classical.choice, Quot.sound]
Csu.Rain.C39_zdr_irrelevant: [propext, Classical.choice, Quot.sound]
Csu.Rain.C40_rain_finite_nonneg: [propext, Classical.choice, Quot.sound]
Csu.Rain.C40_defaults_sane: [propext, Classical.choice, Quot.sound]
Csu.Rain.C40_float: [propext, Classical.choice, Quot.sound]
Csu.Rain.C40_float_defaults: [propext, Classical.choice, Quot.sound]
Csu.Rain.C40_float_default_call: [propext, Classical.choice, Quot.sound]
Csu.Rain.C41_nexrad_cap: [propext, Classical.choice, Quot.sound]
Csu.Rain.C41_methods_capped: [propext, Classical.choice, Quot.sound]
Csu.Rain.C41_nexrad_scalar_raises: [propext, Classical.choice, Quot.sound]
Csu.Rain.C42_blended_gatewise: [propext, Classical.choice, Quot.sound]
Csu.Rain.C42_hidro_gatewise: [propext, Classical.choice, Quot.sound]
Csu.Rain.C42_scalar: [propext, Classical.choice, Quot.sound]
Csu.Rain.C42_none: [propext, Classical.choice, Quot.sound]
Csu.Rain.C43_dtype_independent_false: [propext, Classical.choice, Quot.sound]
Csu.Rain.C43_dtype_partial: [propext, Classical.choice, Quot.sound]
Csu.Rain.C44_hidro_S_exact: [propext, Classical.choice, Quot.sound]
Csu.Rain.C44_hidro_other_exact: [propext, Classical.choice, Quot.sound]
Csu.Rain.C44_code_range: [propext, Classical.choice, Quot.sound]
Csu.Rain.C45_thresh_nexrad_ignored: [propext, Quot.sound]
Csu.Rain.C45_cap_honoured_false: [propext, Classical.choice, Quot.sound]
Csu.Rain.C45_fixed_cap_partial: [propext, Classical.choice, Quot.sound]
Csu.Rain.C46_tropical_exact: [propext, Classical.choice, Quot.sound]
Csu.Rain.C46_code_range: [propext, Quot.sound]
Csu.Rain.C46_call_exact: [propext, Classical.choice, Quot.sound]
Csu.Rain.C47_ice_unclassified_false: [propext, Classical.choice, Quot.sound]
Csu.Rain.C47_ice_rain_partial: [propext, Classical.choice, Quot.sound]
Csu.Rain.C47_call_partial: [propext, Classical.choice, Quot.sound]
Csu.Rain.C48_tropical_scalar_returns_array: [propext, Classical.choice, Quot.sound]
Csu.Rain.C48_scalar_for_scalar_false: [propext, Classical.choice, Quot.sound]
Csu.Units.C49_dbz_z_inverse: [propext, Classical.choice, Quot.sound]
Csu.Units.C49_speed_inverse: [propext, Classical.choice, Quot.sound]
Csu.Units.C49_strictly_increasing: [propext, Classical.choice, Quot.sound]
Csu.Units.C49_factors: [propext, Classical.choice, Quot.sound]
Csu.Units.C50_knots_false: [propext, Classical.choice, Quot.sound]
Csu.Units.C50_knots_partial: [propext, Classical.choice, Quot.sound]
Csu.Dsd.C51_sband2013_physical: [propext, Classical.choice, Quot.sound]
Csu.Dsd.C52_low_zdr_infinite: [propext, Classical.choice, Quot.sound]
Csu.Dsd.C52_cband_physical_false: [propext, Classical.choice, Quot.sound]
Csu.Dsd.C52_cband_physical_partial: [propext, Classical.choice, Quot.sound]
Csu.Dsd.C53_method_iff: [propext, Classical.choice, Quot.sound]
Csu.Dsd.C53_mutually_exclusive: [propext, Classical.choice, Quot.sound]
Csu.Dsd.C53_from_selected_method: [propext, Classical.choice, Quot.sound]
Csu.Dsd.C53_uncovered_zero: [propext, Classical.choice, Quot.sound]
Csu.Dsd.C53_applicable_physical: [propext, Classical.choice, Quot.sound]
Csu.Dsd.C53_call: [propext, Classical.choice, Quot.sound]
Csu.Dsd.C54_blend_partial: [propext, Classical.choice, Quot.sound]
Csu.Dsd.C54_jump_at_0_2: [propext, Classical.choice, Quot.sound]
Csu.Dsd.C54_weighted_mean_false: [propext, Classical.choice, Quot.sound]
Csu.Dsd.C54_call_partial: [propext, Classical.choice, Quot.sound]
Csu.Dsd.C54_full_false: [propext, Classical.choice, Quot.sound]
Csu.Dsd.C55_arrays_gatewise: [propext, Classical.choice, Quot.sound]
Csu.Dsd.C55_scalar: [propext, Classical.choice, Quot.sound]
Csu.Dsd.C55_other_band: [propext, Classical.choice, Quot.sound]
Csu.LiquidIce.C56_masses: [propext, Classical.choice, Quot.sound]
Csu.LiquidIce.C56_scalar: [propext, Classical.choice, Quot.sound]
Csu.LiquidIce.C57_method_ignored: [propext, Classical.choice, Quot.sound]
Csu.LiquidIce.C57_always_cifelli_partial: [propext, Classical.choice, Quot.sound]
Csu.LiquidIce.C57_honours_method_false: [propext, Classical.choice, Quot.sound]
Csu.LiquidIce.C58_exact_zero: [propext, Classical.choice, Quot.sound]
Csu.LiquidIce.C58_within_range: [propext, Classical.choice, Quot.sound]
Csu.LiquidIce.C58_single_crossing: [propext, Classical.choice, Quot.sound]
Csu.LiquidIce.C58_one_sign: [propext, Classical.choice, Quot.sound]
Csu.LiquidIce.C59_threshold_values: [propext, Classical.choice, Quot.sound]
Csu.LiquidIce.C59_threshold_nonincreasing: [propext, Classical.choice, Quot.sound]
Csu.LiquidIce.C59_freezing_level: [propext, Classical.choice, Quot.sound]
Csu.LiquidIce.C59_hfrz_overrides_T: [propext, Classical.choice, Quot.sound]
Csu.Fund.C60_frequency_wavelength: [propext, Classical.choice, Quot.sound]
Csu.Fund.C60_pulse: [propext, Classical.choice, Quot.sound]
Csu.Fund.C61_dilemma: [propext, Classical.choice, Quot.sound]
Csu.Fund.C61_involution: [propext, Classical.choice, Quot.sound]
Csu.Fund.C61_aliases: [propext, Classical.choice, Quot.sound]
Csu.Fund.C61_radial_velocity: [propext, Classical.choice, Quot.sound]
Csu.Fund.C62_blocked_area: [propext, Classical.choice, Quot.sound]
Csu.Fund.C62_fraction: [propext, Classical.choice, Quot.sound]
Csu.Fund.C62_monotone: [propext, Classical.choice, Quot.sound]
Csu.Fund.C62_antisymmetric: [propext, Classical.choice, Quot.sound]
Csu.Fund.C62_outside: [propext, Classical.choice, Quot.sound]
Csu.Fund.C63_piecewise: [propext, Classical.choice, Quot.sound]
Csu.Fund.C63_nan: [propext, Classical.choice, Quot.sound]
Csu.Fund.C63_range: [propext, Classical.choice, Quot.sound]
Csu.Fund.C64_float: [propext, Classical.choice, Quot.sound]
Csu.Fund.C64_lengths: [propext, Quot.sound]
Csu.Fund.C65_full_false: [propext, Classical.choice, Quot.sound]
Csu.Fund.C65_vel_shift_partial: [propext, Classical.choice, Quot.sound]
Csu.Fund.C66_extinction: [propext, Classical.choice, Quot.sound]
Csu.Fund.C66_defined: [propext, Classical.choice, Quot.sound]
Csu.Fund.C66_scaling: [propext, Classical.choice, Quot.sound]
Csu.Fund.C66_absorption_sign: [propext, Classical.choice, Quot.sound]
Csu.Fund.C66_vacuum: [propext, Classical.choice, Quot.sound]
Csu.Fund.C67_ray_height_ends: [propext, Classical.choice, Quot.sound]
Csu.Fund.C67_ray_height_bounds: [propext, Classical.choice, Quot.sound]
Csu.Fund.C67_sample_volumes: [propext, Classical.choice, Quot.sound]
Csu.Fund.C67_half_power_radius: [propext, Classical.choice, Quot.sound]
Csu.Fund.C67_effective_radius: [propext, Classical.choice, Quot.sound]
Csu.Fund.C67_default_radius: [propext, Classical.choice, Quot.sound]
Csu.Fhc.C68_twice_partial: [propext, Classical.choice, Quot.sound]
Csu.Fhc.C68_full_false: [propext, Classical.choice, Quot.sound]
Csu.Fhc.C69_ppi_two_levels: [propext, Classical.choice, Quot.sound]
Csu.Fhc.C70_old_scipy_partial: [propext, Classical.choice, Quot.sound]
Csu.Fhc.C70_ppi_partial: [propext, Classical.choice, Quot.sound]
Csu.Fhc.C70_verbose_only_raises_partial: [propext, Classical.choice, Quot.sound]
Csu.Fhc.C70_full_false: [propext, Classical.choice, Quot.sound]
Csu.Kdp.C71_fortran_returns: [propext, Classical.choice, Quot.sound]
Csu.Kdp.C71_cython_returns: [propext, Classical.choice, Quot.sound]
Csu.Kdp.C71_equal_ranges_raise: [propext, Classical.choice, Quot.sound]
Csu.Kdp.C72_filter_design: [propext, Classical.choice, Quot.sound]
Csu.Fund.C73_radar_equation: [propext, Classical.choice, Quot.sound]
Csu.Fund.C73_fourth_power: [propext, Classical.choice, Quot.sound]
Csu.Fund.C74_same: [propext, Quot.sound]
Csu.Fund.C74_decibels: [propext, Classical.choice, Quot.sound]
Csu.Fund.C74_limits: [propext, Classical.choice, Quot.sound]
Csu.Fund.C75_thermal_noise: [propext, Classical.choice, Quot.sound]
Csu.Fund.C76_dual_prf: [propext, Classical.choice, Quot.sound]
Csu.Fund.C76_raises: [propext, Classical.choice, Quot.sound]
Csu.Fund.C77_rayleigh: [propext, Classical.choice, Quot.sound]
Csu.Fund.C78_integer_zdp: [propext, Classical.choice, Quot.sound]
Csu.Fund.C78_full_false: [propext, Classical.choice, Quot.sound]
Csu.Kdp.C79_thresholds_2d_raise: [propext, Classical.choice, Quot.sound]
Csu.Kdp.C79_full_false: [propext, Classical.choice, Quot.sound]
Csu.Fhc.C80_linear_no_pol: [propext, Classical.choice, Quot.sound]
Csu.Fhc.C80_linear_temp_off: [propext, Classical.choice, Quot.sound]
Csu.Fhc.C80_linear_partial: [propext, Classical.choice, Quot.sound]
Csu.Fhc.C80_full_false: [propext, Classical.choice, Quot.sound]
Csu.Fhc.C81_linear_scores_partial: [propext, Classical.choice, Quot.sound]
Csu.Fhc.C81_bounded_partial: [propext, Classical.choice, Quot.sound]
Csu.Fhc.C81_bounded_false: [propext, Classical.choice, Quot.sound]
Csu.Fhc.C81_temp_off_false: [propext, Classical.choice, Quot.sound]
Csu.Dsd.C82_missing_raises: [propext, Classical.choice, Quot.sound]
Csu.Dsd.C82_missing_gives_none_false: [propext, Classical.choice, Quot.sound]
Csu.LiquidIce.C83_highest_crossing_false: [propext, Classical.choice, Quot.sound]
Csu.LiquidIce.C83_exact_partial: [propext, Classical.choice, Quot.sound]
Csu.Fund.C84_integer_range_partial: [propext, Classical.choice, Quot.sound]
Csu.Fund.C84_integer_range_false: [propext, Classical.choice, Quot.sound]
Csu.Kdp.C85_small_odd_width: [propext, Classical.choice, Quot.sound]
Csu.Kdp.C85_full_false: [propext, Classical.choice, Quot.sound]
Csu.Kdp.C86_full_false: [propext, Classical.choice, Quot.sound]
Csu.Kdp.C86_nan_as_previous_partial: [propext, Classical.choice, Quot.sound]
Csu.Kdp.C86_nan_uses_junk_partial: [propext, Classical.choice, Quot.sound]
Csu.Kdp.C87_fortran_no_escape: [propext, Classical.choice, Quot.sound]
Csu.Kdp.C87_fortran_deterministic: [propext, Classical.choice, Quot.sound]
Csu.Kdp.C88_linear_ray_fortran: [propext, Classical.choice, Quot.sound]
Csu.Kdp.C89_clean_linear_ray_fortran: [propext, Classical.choice, Quot.sound]
Csu.Kdp.C90_exact_factor_partial: [propext, Classical.choice, Quot.sound]
Csu.Kdp.C90_full_false: [propext, Classical.choice, Quot.sound]
Csu.KdpPy.C91_ten_gates_partial: [propext, Classical.choice, Quot.sound]
Csu.KdpPy.C91_full_false: [propext, Classical.choice, Quot.sound]
Csu.KdpPy.C92_gates_independent: [propext, Classical.choice, Quot.sound]
Csu.KdpPy.C92_any_order: [propext, Classical.choice, Quot.sound]
Csu.KdpPy.C93_window_slope: [propext, Classical.choice, Quot.sound]
Csu.KdpPy.C94_linear_ray: [propext, Classical.choice, Quot.sound]
Csu.KdpPy.C94_clean_ray: [propext, Classical.choice, Quot.sound]
Csu.KdpPy.C95_returns: [propext, Classical.choice, Quot.sound]
Csu.KdpPy.C96_full_false: [propext, Classical.choice, Quot.sound]
Csu.KdpPy.C96_bad_is_weak_echo_partial: [propext, Classical.choice, Quot.sound]
Csu.KdpPy.C97_full_false: [propext, Classical.choice, Quot.sound]
Csu.KdpPy.C97_clean_ray_partial: [propext, Classical.choice, Quot.sound]
Csu.Rain.C98_published_rates: [propext, Classical.choice, Quot.sound]
Csu.Rain.C99_tropical_finite_nonneg: [propext, Classical.choice, Quot.sound]
Csu.Rain.C99_published_sane: [propext, Classical.choice, Quot.sound]
Csu.Rain.C99_float: [propext, Classical.choice, Quot.sound]
Csu.Rain.C99_float_published: [propext, Classical.choice, Quot.sound]
Csu.Rain.C99_float_defaults: [propext, Classical.choice, Quot.sound]
Csu.Fhc.C100_axes: [propext, Classical.choice, Quot.sound]
Csu.Fhc.C100_plotted_curves: [propext, Classical.choice, Quot.sound]
Csu.Fhc.C100_number_of_species: [propext, Classical.choice, Quot.sound]
Csu.Fhc.C101_summer_partial: [propext, Classical.choice, Quot.sound]
Csu.Fhc.C101_winter_partial: [propext, Classical.choice, Quot.sound]
Csu.Fhc.C101_ml_partial: [propext, Classical.choice, Quot.sound]
Csu.Fhc.C101_no_temperature_raises: [propext, Classical.choice, Quot.sound]
Csu.Fhc.C101_winter_default_raises: [propext, Classical.choice, Quot.sound]
Csu.Fhc.C101_full_false: [propext, Classical.choice, Quot.sound]
Csu.Fhc.C102_verbose_partial: [propext, Classical.choice, Quot.sound]
Csu.Fhc.C102_full_false: [propext, Classical.choice, Quot.sound]
Csu.Fhc.C103_hid_beta: [propext, Classical.choice, Quot.sound]
Csu.Fhc.C104_returned_classes: [propext, Classical.choice, Quot.sound]
Csu.Kdp.C105_scalar_is_constant: [propext, Classical.choice, Quot.sound]
Csu.Kdp.C105_rejected_1d: [propext, Classical.choice, Quot.sound]
Csu.Kdp.C105_rejected_2d: [propext, Classical.choice, Quot.sound]
Csu.Fhc.C106_ml_scores: [propext, Classical.choice, Quot.sound]
Csu.Fhc.C106_ml_default: [propext, Classical.choice, Quot.sound]
Csu.Rain.C107_hidro_finite_nonneg: [propext, Classical.choice, Quot.sound]
Csu.Heap.C108_insect_filter: [propext, Quot.sound]
Csu.Heap.C108_despeckle: [propext, Quot.sound]
Csu.Heap.C108_second_trip: [propext, Quot.sound]
Csu.Heap.C108_diff_phase: [propext, Quot.sound]
Csu.Heap.C108_liquid_ice: [propext, Classical.choice, Quot.sound]
Csu.Heap.C108_blended: [propext, Classical.choice, Quot.sound]
Csu.Heap.C108_hidro: [propext, Quot.sound]
Csu.Heap.C108_tropical: [propext, Classical.choice, Quot.sound]
Csu.Heap.C108_dsd: [propext, Classical.choice, Quot.sound]
Csu.Heap.C108_zdp: [propext, Quot.sound]
Csu.Heap.C108_hdr: [propext, Classical.choice, Quot.sound]
Csu.Heap.C108_traps: [propext, Classical.choice, Quot.sound]
Csu.Heap.C109_insect_filter: [propext, Quot.sound]
Csu.Heap.C109_second_trip: [propext, Quot.sound]
Csu.Heap.C109_diff_phase: [propext, Quot.sound]
Csu.Heap.C109_despeckle: [propext, Classical.choice, Quot.sound]
Csu.Heap.C109_blended: [propext, Classical.choice, Quot.sound]
Csu.Heap.C109_hidro: [propext, Quot.sound]
Csu.Heap.C109_tropical: [propext, Classical.choice, Quot.sound]
Csu.Heap.C109_dsd: [propext, Classical.choice, Quot.sound]
Csu.Heap.C109_zdp: [propext, Quot.sound]
Csu.Heap.C109_hdr: [propext, Classical.choice, Quot.sound]
Csu.Heap.C109_traps: [propext, Classical.choice, Quot.sound]
Csu.Heap.C109_liquid_ice: [propext, Classical.choice, Quot.sound]
Csu.Rain.C110_blended_S: [propext, Classical.choice, Quot.sound]
Csu.Rain.C110_blended_other: [propext, Classical.choice, Quot.sound]
Csu.Rain.C110_hidro_S: [propext, Classical.choice, Quot.sound]
Csu.Rain.C110_hidro_other: [propext, Classical.choice, Quot.sound]
Csu.Rain.C110_tropical: [propext, Classical.choice, Quot.sound]
Csu.Rain.C110_tropical_predef_irrelevant: [propext, Classical.choice, Quot.sound]
Csu.Csv.C111_tables: [propext, Classical.choice, Quot.sound]
Csu.Csv.C111_summer: [propext, Classical.choice, Quot.sound]
Csu.Csv.C111_winter: [propext, Classical.choice, Quot.sound]
Csu.Csv.C111_ml: [propext, Classical.choice, Quot.sound]
Csu.Csv.C111_melting_layer: [propext, Classical.choice, Quot.sound]
Csu.Csv.C111_run_winter: [propext, Classical.choice, Quot.sound]
Csu.Csv.C112_sets_congr: [propext, Classical.choice, Quot.sound]
Csu.Csv.C112_summer_congr: [propext, Classical.choice, Quot.sound]
Csu.Csv.C112_winter_congr: [propext, Classical.choice, Quot.sound]
Csu.Csv.C112_ml_congr: [propext, Classical.choice, Quot.sound]
Csu.Csv.C112_run_winter_congr: [propext, Classical.choice, Quot.sound]
Csu.Csv.C112_missing: [propext, Classical.choice, Quot.sound]
Csu.Csv.C113_sets: [propext, Classical.choice, Quot.sound]
Csu.Csv.C113_summer: [propext, Classical.choice, Quot.sound]
Csu.Csv.C113_winter: [propext, Classical.choice, Quot.sound]
Csu.Csv.C113_ml: [propext, Classical.choice, Quot.sound]
Csu.Csv.C114_no_separator_partial: [propext, Classical.choice, Quot.sound]
Csu.Csv.C114_no_separator_winter_partial: [propext, Classical.choice, Quot.sound]
Csu.Csv.C114_no_separator_ml_partial: [propext, Classical.choice, Quot.sound]
Csu.Csv.C114_full_false: [propext, Classical.choice, Quot.sound]
Csu.Csv.C115_summer: [propext, Classical.choice, Quot.sound]
Csu.Csv.C115_winter: [propext, Classical.choice, Quot.sound]
Csu.Csv.C115_ml: [propext, Classical.choice, Quot.sound]
Csu.Csv.C115_unit: [propext, Classical.choice, Quot.sound]
Csu.Csv.C116_count: [propext, Classical.choice, Quot.sound]
Csu.LiquidIce.C117_masses: [propext, Classical.choice, Quot.sound]
Csu.LiquidIce.C117_scalar: [propext, Classical.choice, Quot.sound]
Csu.LiquidIce.C117_parts: [propext, Classical.choice, Quot.sound]
Csu.Fhc.C118_count_partial: [propext, Classical.choice, Quot.sound]
Csu.Fhc.C118_sectors_partial: [propext, Classical.choice, Quot.sound]
Csu.Fhc.C118_default_partial: [propext, Classical.choice, Quot.sound]
Csu.Fhc.C118_full_false: [propext, Classical.choice, Quot.sound]
Csu.Csv.C119_summer: [propext, Classical.choice, Quot.sound]
Csu.Csv.C119_winter: [propext, Classical.choice, Quot.sound]
Csu.Csv.C119_ml: [propext, Classical.choice, Quot.sound]
Csu.Fhc.C120_winter_scores: [propext, Classical.choice, Quot.sound]
Csu.Fhc.C120_ml_scores: [propext, Classical.choice, Quot.sound]
Csu.Fhc.C120_winter_gatewise: [propext, Classical.choice, Quot.sound]
Csu.Fhc.C120_ml_gatewise: [propext, Classical.choice, Quot.sound]
Csu.Fhc.C120_concat: [propext, Classical.choice, Quot.sound]
Csu.Fhc.C121_weight_ratio: [propext, Classical.choice, Quot.sound]
Csu.Fhc.C122_no_dz: [propext, Classical.choice, Quot.sound]
Csu.Fhc.C122_bad_band: [propext, Classical.choice, Quot.sound]
Csu.Fhc.C122_bad_n_types: [propext, Classical.choice, Quot.sound]
Csu.Fhc.C122_linear_no_pol: [propext, Classical.choice, Quot.sound]
Csu.Fhc.C122_hybrid: [propext, Classical.choice, Quot.sound]
Csu.Fhc.C123_summer_partial: [propext, Classical.choice, Quot.sound]
Csu.Fhc.C123_winter_partial: [propext, Classical.choice, Quot.sound]
Csu.Fhc.C123_ml_partial: [propext, Classical.choice, Quot.sound]
Csu.Fhc.C123_run_winter_partial: [propext, Classical.choice, Quot.sound]
Csu.Fhc.C123_full_false: [propext, Classical.choice, Quot.sound]
Csu.Fhc.C123_run_winter_full_false: [propext, Classical.choice, Quot.sound]
Csu.Kdp.C124_change_of_units: [propext, Classical.choice, Quot.sound]
Csu.Kdp.C124_range_units: [propext, Classical.choice, Quot.sound]
Csu.Kdp.C125_phase_offset_partial: [propext, Classical.choice, Quot.sound]
Csu.Kdp.C125_collision_full_false: [propext, Classical.choice, Quot.sound]
Csu.Kdp.C125_two_passes_full_false: [propext, Classical.choice, Quot.sound]
Csu.Kdp.C126_prefix_partial: [propext, Classical.choice, Quot.sound]
Csu.Kdp.C126_clean_window_partial: [propext, Classical.choice, Quot.sound]
Csu.Kdp.C126_full_false: [propext, Classical.choice, Quot.sound]
Csu.Kdp.C126_fortran_full_false: [propext, Classical.choice, Quot.sound]
Csu.Fhc.C127_surplus_ignored_partial: [propext, Classical.choice, Quot.sound]
Csu.Fhc.C127_short_partial: [propext, Classical.choice, Quot.sound]
Csu.Fhc.C127_trapezoid_partial: [propext, Classical.choice, Quot.sound]
Csu.Fhc.C127_full_false: [propext, Classical.choice, Quot.sound]
Csu.Kdp.C128_between_slopes_partial: [propext, Classical.choice, Quot.sound]
Csu.Kdp.C128_nondecreasing_partial: [propext, Classical.choice, Quot.sound]
Csu.Kdp.C128_full_false: [propext, Classical.choice, Quot.sound]
Csu.Kdp.C128_fortran_full_false: [propext, Classical.choice, Quot.sound]
Csu.Kdp.C129_no_overshoot_partial: [propext, Classical.choice, Quot.sound]
Csu.Kdp.C129_full_false: [propext, Classical.choice, Quot.sound]
Csu.Kdp.C129_fortran_full_false: [propext, Classical.choice, Quot.sound]
Csu.Rain.C130_ice_fraction_partial: [propext, Classical.choice, Quot.sound]
Csu.Rain.C130_zdr_not_positive_partial: [propext, Classical.choice, Quot.sound]
Csu.Rain.C130_full_false: [propext, Classical.choice, Quot.sound]
Csu.Rain.C131_same_method_partial: [propext, Classical.choice, Quot.sound]
Csu.Rain.C131_full_false: [propext, Classical.choice, Quot.sound]
Csu.Fhc.C132_melting_layer: [propext, Classical.choice, Quot.sound]
Csu.Fhc.C132_run_winter: [propext, Classical.choice, Quot.sound]
Csu.Fhc.C132_run_winter_sweep: [propext, Classical.choice, Quot.sound]
Csu.Fhc.C132_no_pol: [propext, Classical.choice, Quot.sound]
Csu.Rain.C133_classified_rain_S: [propext, Classical.choice, Quot.sound]
Csu.Rain.C133_classified_rain_other: [propext, Classical.choice, Quot.sound]
Csu.Rain.C133_classified_rain_tropical: [propext, Classical.choice, Quot.sound]
Csu.Rain.C134_not_reached_partial: [propext, Classical.choice, Quot.sound]
Csu.Rain.C134_other_bands_partial: [propext, Classical.choice, Quot.sound]
Csu.Rain.C134_hidro_partial: [propext, Classical.choice, Quot.sound]
Csu.Rain.C134_tropical_partial: [propext, Classical.choice, Quot.sound]
Csu.Rain.C134_S_band_partial: [propext, Classical.choice, Quot.sound]
Csu.Rain.C134_full_false: [propext, Classical.choice, Quot.sound]
Csu.Fund.C135_weather_radar_equation: [propext, Classical.choice, Quot.sound]
Csu.Fund.C135_pulse_length: [propext, Classical.choice, Quot.sound]
Csu.Fund.C136_rayleigh_partial: [propext, Classical.choice, Quot.sound]
Csu.Fund.C136_full_false: [propext, Classical.choice, Quot.sound]
Csu.Csv.C137_file: [propext, Classical.choice, Quot.sound]
Csu.Csv.C137_summer: [propext, Classical.choice, Quot.sound]
Csu.Csv.C137_winter: [propext, Classical.choice, Quot.sound]
Csu.Csv.C137_ml: [propext, Classical.choice, Quot.sound]
Csu.Heap.C138_summer: [propext, Classical.choice, Quot.sound]
Csu.Heap.C138_winter: [propext, Classical.choice, Quot.sound]
Csu.Heap.C138_ml: [propext, Classical.choice, Quot.sound]
Csu.Heap.C139_melting_layer: [propext, Classical.choice, Quot.sound]
Csu.Heap.C139_run_winter: [propext, Classical.choice, Quot.sound]
Csu.Kdp.C140_formula: [propext, Classical.choice, Quot.sound]
Csu.Kdp.C140_scales: [propext, Classical.choice, Quot.sound]
Csu.Kdp.C140_unimodal: [propext, Classical.choice, Quot.sound]
Csu.Masked.C141_visible_gates_partial: [propext, Classical.choice, Quot.sound]
Csu.Masked.C141_visible_winter_partial: [propext, Classical.choice, Quot.sound]
Csu.Masked.C141_visible_ml_partial: [propext, Classical.choice, Quot.sound]
Csu.Masked.C141_filled_reflectivity_partial: [propext, Classical.choice, Quot.sound]
Csu.Masked.C141_full_false: [propext, Classical.choice, Quot.sound]
Csu.Masked.C141_kdp_full_false: [propext, Classical.choice, Quot.sound]
Csu.Traps.C142_truncates_partial: [propext, Classical.choice, Quot.sound]
Csu.Traps.C142_hail_zero_partial: [propext, Classical.choice, Quot.sound]
Csu.Traps.C142_plateaus_partial: [propext, Classical.choice, Quot.sound]
Csu.Traps.C142_full_false: [propext, Classical.choice, Quot.sound]
Csu.Rain.C143_same_method_partial: [propext, Classical.choice, Quot.sound]
Csu.Rain.C143_ice_partial: [propext, Classical.choice, Quot.sound]
Csu.Rain.C143_full_false: [propext, Classical.choice, Quot.sound]
Csu.Rain.C144_same_method_partial: [propext, Classical.choice, Quot.sound]
Csu.Rain.C144_full_false: [propext, Classical.choice, Quot.sound]
Csu.Kdp.C145_outputs_float32: [propext, Classical.choice, Quot.sound]
Csu.Kdp.C146_std_not_negative: [propext, Classical.choice, Quot.sound]
Csu.Kdp.C146_constant_phase: [propext, Classical.choice, Quot.sound]
Csu.Kdp.C147_cython_returns_partial: [propext, Classical.choice, Quot.sound]
Csu.Kdp.C147_gates_125m: [propext, Classical.choice, Quot.sound]
Csu.Kdp.C147_full_false: [propext, Classical.choice, Quot.sound]
Csu.Kdp.C148_slope_error_partial: [propext, Classical.choice, Quot.sound]
Csu.Kdp.C148_constant_phase_partial: [propext, Classical.choice, Quot.sound]
Csu.Kdp.C148_full_false: [propext, Classical.choice, Quot.sound]
Csu.BadValue.C149_filters_partial: [propext, Classical.choice, Quot.sound]
Csu.BadValue.C149_nan_full_false: [propext, Classical.choice, Quot.sound]
Csu.BadValue.C149_nan_filters_partial: [propext, Classical.choice, Quot.sound]
Csu.Kdp.C149_kdp_partial: [propext, Classical.choice, Quot.sound]
Csu.Kdp.C149_kdp_nan_full_false: [propext, Classical.choice, Quot.sound]
Csu.Kdp.C149_kdp_collision_full_false: [propext, Classical.choice, Quot.sound]
Csu.Kdp.C149_kdp_nan_partial: [propext, Classical.choice, Quot.sound]
Csu.Heap.C150_calc_kdp_bringi_arrays: [propext, Classical.choice, Quot.sound]
Csu.Heap.C150_kernel_arrays: [propext, Classical.choice, Quot.sound]
Csu.Kdp.C151_kdp_error: [propext, Classical.choice, Quot.sound]
Csu.Kdp.C151_kdp_error_spacing: [propext, Classical.choice, Quot.sound]
Csu.Kdp.C151_filter_error_partial: [propext, Classical.choice, Quot.sound]
Csu.Kdp.C151_phase_error_partial: [propext, Classical.choice, Quot.sound]
Csu.Kdp.C151_full_false: [propext, Classical.choice, Quot.sound]
Csu.Kdp.C151_fortran_full_false: [propext, Classical.choice, Quot.sound]
Csu.Kdp.C151_bound_attained: [propext, Classical.choice, Quot.sound]
Csu.Kdp.C152_outcomes: [propext, Classical.choice, Quot.sound]
Csu.Kdp.C152_even_accepted: [propext, Classical.choice, Quot.sound]
Csu.Kdp.C152_full_false: [propext, Classical.choice, Quot.sound]
Csu.Kdp.C152_valid_window_rejected: [propext, Classical.choice, Quot.sound]
Csu.Kdp.C152_whole_km_partial: [propext, Classical.choice, Quot.sound]
Csu.Kdp.C152_right_or_none_partial: [propext, Classical.choice, Quot.sound]
Csu.Rain.C153_arrays: [propext, Classical.choice, Quot.sound]
Csu.Rain.C153_blended_partial: [propext, Classical.choice, Quot.sound]
Csu.Rain.C153_blended_python: [propext, Classical.choice, Quot.sound]
Csu.Rain.C153_hidro_partial: [propext, Quot.sound]
Csu.Rain.C153_hidro_class: [propext, Quot.sound]
Csu.Rain.C153_hidro_python: [propext, Quot.sound]
Csu.Rain.C153_kdp_number_raises: [propext, Classical.choice, Quot.sound]
Csu.Rain.C153_kdp_exception: [propext, Classical.choice, Quot.sound]
Csu.Rain.C153_full_false: [propext, Classical.choice, Quot.sound]
Csu.Rain.C153_hidro_full_false: [propext, Classical.choice, Quot.sound]
Csu.Rain.C154_tropical_partial: [propext, Classical.choice, Quot.sound]
Csu.Rain.C154_tropical_class: [propext, Classical.choice, Quot.sound]
Csu.Rain.C154_tropical_python: [propext, Classical.choice, Quot.sound]
Csu.Rain.C154_default_raises: [propext, Classical.choice, Quot.sound]
Csu.Rain.C154_full_false: [propext, Classical.choice, Quot.sound]
Csu.LiquidIce.C155_same_size: [propext, Classical.choice, Quot.sound]
Csu.LiquidIce.C155_numbers: [propext, Classical.choice, Quot.sound]
Csu.LiquidIce.C155_plain_number: [propext, Classical.choice, Quot.sound]
Csu.LiquidIce.C155_returns: [propext, Classical.choice, Quot.sound]
Csu.LiquidIce.C155_one_altitude_partial: [propext, Classical.choice, Quot.sound]
Csu.LiquidIce.C155_number_dbz_exception: [propext, Classical.choice, Quot.sound]
Csu.LiquidIce.C155_number_dbz: [propext, Classical.choice, Quot.sound]
Csu.LiquidIce.C155_numpy_zdr: [propext, Classical.choice, Quot.sound]
Csu.LiquidIce.C155_array_exception: [propext, Classical.choice, Quot.sound]
Csu.LiquidIce.C155_few_temperatures: [propext, Classical.choice, Quot.sound]
Csu.LiquidIce.C155_full_false: [propext, Classical.choice, Quot.sound]
Csu.LiquidIce.C155_sounding_full_false: [propext, Classical.choice, Quot.sound]
Csu.LiquidIce.C155_extra_temperatures_partial: [propext, Classical.choice, Quot.sound]
Csu.LiquidIce.C155_extra_one_sign: [propext, Classical.choice, Quot.sound]
Csu.Dsd.C156_arrays: [propext, Classical.choice, Quot.sound]
Csu.Dsd.C156_numbers: [propext, Classical.choice, Quot.sound]
Csu.Dsd.C156_kdp_unused: [propext, Classical.choice, Quot.sound]
Csu.Dsd.C156_zdr_number: [propext, Classical.choice, Quot.sound]
Csu.Dsd.C156_kdp_number: [propext, Classical.choice, Quot.sound]
Csu.Dsd.C156_dz_number: [propext, Classical.choice, Quot.sound]
Csu.Dsd.C156_full_false: [propext, Classical.choice, Quot.sound]
Csu.Dsd.C156_kdp_filled_partial: [propext, Classical.choice, Quot.sound]
Csu.LiquidIce.C157_masses: [propext, Classical.choice, Quot.sound]
Csu.LiquidIce.C157_plain: [propext, Classical.choice, Quot.sound]
Csu.Dsd.C158_sband: [propext, Classical.choice, Quot.sound]
Csu.Dsd.C158_cband: [propext, Classical.choice, Quot.sound]
Csu.Rain.C159_blended_S: [propext, Classical.choice, Quot.sound]
Csu.Rain.C159_blended_other: [propext, Classical.choice, Quot.sound]
Csu.Rain.C159_hidro_S: [propext, Classical.choice, Quot.sound]
Csu.Rain.C159_hidro_other: [propext, Classical.choice, Quot.sound]
Csu.Rain.C160_tropical: [propext, Classical.choice, Quot.sound]
Csu.Rain.C161_unfit_raises: [propext, Classical.choice, Quot.sound]
Csu.Rain.C161_fit: [propext, Classical.choice, Quot.sound]
Csu.Rain.C161_result_iff: [propext, Classical.choice, Quot.sound]
Csu.Rain.C161_hidro_result_iff: [propext, Classical.choice, Quot.sound]
Csu.Rain.C161_hidro_fit: [propext, Classical.choice, Quot.sound]
Csu.Rain.C161_tropical_result_iff: [propext, Classical.choice, Quot.sound]
Csu.Rain.C161_tropical_fit: [propext, Classical.choice, Quot.sound]
Csu.Dsd.C162_result_iff: [propext, Classical.choice, Quot.sound]
Csu.Dsd.C162_unfit_error: [propext, Classical.choice, Quot.sound]
Csu.Dsd.C162_fit: [propext, Classical.choice, Quot.sound]
Csu.Dsd.C162_other_band: [propext, Classical.choice, Quot.sound]
Csu.Fhc.C163_membership: [propext, Classical.choice, Quot.sound]
Csu.Fhc.C163_shipped: [propext, Classical.choice, Quot.sound]
Csu.Fhc.C164_scores: [propext, Classical.choice, Quot.sound]
Csu.Fhc.C164_category: [propext, Classical.choice, Quot.sound]
Csu.Fhc.C164_stored: [propext, Classical.choice, Quot.sound]
Csu.Fhc.C165_winter: [propext, Classical.choice, Quot.sound]
Csu.Fhc.C165_ml: [propext, Classical.choice, Quot.sound]
Csu.Fhc.C165_winter_default: [propext, Classical.choice, Quot.sound]
Csu.Fhc.C166_melting_layer: [propext, Classical.choice, Quot.sound]
Csu.Fhc.C166_run_winter: [propext, Classical.choice, Quot.sound]
Csu.Fhc.C167_classes: [propext, Classical.choice, Quot.sound]
