{
 "claims": [
  {
   "property": "C01",
   "status": "proved",
   "theorems": [
    "Csu.Misc.C01_insect_filter_exact",
    "Csu.Misc.C01_insect_filter_index_error",
    "Csu.Misc.C01_surplus_ranges_ignored"
   ],
   "note": "all threshold tables, masks and floats"
  },
  {
   "property": "C02",
   "status": "proved",
   "theorems": [
    "Csu.Misc.C02_default_insect_exact",
    "Csu.Misc.C02_threshold_monotone",
    "Csu.Misc.C02_mask_contained"
   ],
   "note": "finite dz and zdr; default tables"
  },
  {
   "property": "C03",
   "status": "proved",
   "theorems": [
    "Csu.Misc.C03_second_trip_exact",
    "Csu.Misc.C03_phase_exact",
    "Csu.Misc.C03_phase_array_exact",
    "Csu.Misc.C03_nan_passes"
   ],
   "note": ""
  },
  {
   "property": "C04",
   "status": "proved",
   "theorems": [
    "Csu.Misc.C04_despeckle_ray",
    "Csu.Misc.C04_despeckle_2d",
    "Csu.Misc.C04_despeckle_dispatch"
   ],
   "note": "1-D, 2-D and dispatch"
  },
  {
   "property": "C05",
   "status": "proved",
   "theorems": [
    "Csu.Misc.C05_idempotent",
    "Csu.Misc.C05_monotone",
    "Csu.Misc.C05_reverse",
    "Csu.Misc.C05_bad_flagged"
   ],
   "note": "idempotence needs bad == bad (bad is not NaN)"
  },
  {
   "property": "C06",
   "status": "partial",
   "theorems": [
    "Csu.Misc.C06_documented_run_length_false",
    "Csu.Misc.C06_run_length_partial"
   ],
   "note": "false of the code: negation proved with witness; what holds instead (run longer than ngates) is proved as _partial"
  },
  {
   "property": "C07",
   "status": "partial",
   "theorems": [
    "Csu.Kdp.C07_full_false",
    "Csu.Kdp.C07_no_escape_partial",
    "Csu.Kdp.C07_filtering_escapes",
    "Csu.Kdp.C07_work_buffers_overflow"
   ],
   "note": "false in full (Cython reads one past the filter coefficients; the 500-element buffers can overflow); safe with one coefficient more, and every filtering call proved to over-read"
  },
  {
   "property": "C08",
   "status": "partial",
   "theorems": [
    "Csu.Kdp.C08_full_false",
    "Csu.Kdp.C08_full_false_uninitialised",
    "Csu.Kdp.C08_deterministic_partial"
   ],
   "note": "false in full (reads foreign/uninitialised memory); proved when the arrays are as large as the kernel assumes and reflectivity is classified"
  },
  {
   "property": "C09",
   "status": "proved",
   "theorems": [
    "Csu.Kdp.C09_population_std",
    "Csu.Kdp.C09_nan_phase"
   ],
   "note": ""
  },
  {
   "property": "C10",
   "status": "proved",
   "theorems": [
    "Csu.Kdp.C10_least_squares",
    "Csu.Kdp.C10_collinear",
    "Csu.Kdp.C10_order_irrelevant",
    "Csu.Kdp.C10_zero_division",
    "Csu.Kdp.C10_fortran_degenerate"
   ],
   "note": ""
  },
  {
   "property": "C11",
   "status": "proved",
   "theorems": [
    "Csu.Kdp.C11_no_passes",
    "Csu.Kdp.C11_bad_outside",
    "Csu.Kdp.C11_filter_sum",
    "Csu.Kdp.C11_linear_phase_fortran",
    "Csu.Kdp.C11_constant_phase_cython"
   ],
   "note": ""
  },
  {
   "property": "C12",
   "status": "proved",
   "theorems": [
    "Csu.Kdp.C12_window_slope",
    "Csu.Kdp.C12_bad_reflectivity",
    "Csu.Kdp.C12_linear_phase"
   ],
   "note": ""
  },
  {
   "property": "C13",
   "status": "proved",
   "theorems": [
    "Csu.Kdp.C13_own_reflectivity"
   ],
   "note": ""
  },
  {
   "property": "C14",
   "status": "proved",
   "theorems": [
    "Csu.Kdp.C14_rays_independent",
    "Csu.Kdp.C14_all_rays",
    "Csu.Kdp.C14_selection"
   ],
   "note": ""
  },
  {
   "property": "C15",
   "status": "proved",
   "theorems": [
    "Csu.Kdp.C15_missing",
    "Csu.Kdp.C15_ndim_mismatch",
    "Csu.Kdp.C15_other_ndim",
    "Csu.Kdp.C15_odd_order",
    "Csu.Kdp.C15_std_gate",
    "Csu.Kdp.C15_thresholds_1d"
   ],
   "note": ""
  },
  {
   "property": "C16",
   "status": "proved",
   "theorems": [
    "Csu.Kdp.C16_order",
    "Csu.Kdp.C16_succeeds_iff"
   ],
   "note": ""
  },
  {
   "property": "C17",
   "status": "partial",
   "theorems": [
    "Csu.Kdp.C17_full_false",
    "Csu.Kdp.C17_std_and_phase_partial",
    "Csu.Kdp.C17_linear_phase_partial",
    "Csu.Kdp.C17_rounding_full_false"
   ],
   "note": "false in full; std (in exact arithmetic) and unfiltered phase agree, KDP agrees on linear phase and even width"
  },
  {
   "property": "C18",
   "status": "proved",
   "theorems": [
    "Csu.Fhc.C18_float_unit",
    "Csu.Fhc.C18_float_centre",
    "Csu.Fhc.C18_bell",
    "Csu.Fhc.C18_zero_width"
   ],
   "note": "exact arithmetic; bounds and centre also with rounding"
  },
  {
   "property": "C19",
   "status": "proved",
   "theorems": [
    "Csu.Fhc.C19_summer",
    "Csu.Fhc.C19_ml",
    "Csu.Fhc.C19_winter",
    "Csu.Fhc.C19_winter_nan",
    "Csu.Fhc.C19_bands"
   ],
   "note": "complete shipped tables"
  },
  {
   "property": "C20",
   "status": "proved",
   "theorems": [
    "Csu.Fhc.C20_scores_in_unit_interval",
    "Csu.Fhc.C20_float",
    "Csu.Fhc.C20_float_default"
   ],
   "note": "finite gates, any supplied subset for which the call succeeds (see C25); exact arithmetic, and with rounding (C20_float)"
  },
  {
   "property": "C21",
   "status": "proved",
   "theorems": [
    "Csu.Fhc.C21_category_range",
    "Csu.Fhc.C21_scores_shape",
    "Csu.Fhc.C21_first_best",
    "Csu.Fhc.C21_first_best_finite",
    "Csu.Fhc.C21_float_first_best",
    "Csu.Fhc.C21_float_finite"
   ],
   "note": "range and shape in any arithmetic; NaN-aware argmax, also with rounding"
  },
  {
   "property": "C22",
   "status": "proved",
   "theorems": [
    "Csu.Fhc.C22_gatewise",
    "Csu.Fhc.C22_concat",
    "Csu.Fhc.C22_concat_scores"
   ],
   "note": "any arithmetic in which no table width is zero"
  },
  {
   "property": "C23",
   "status": "proved",
   "theorems": [
    "Csu.Fhc.C23_prototypes",
    "Csu.Fhc.C23_prototypes_general"
   ],
   "note": "also any positive weights, any temp_factor, any one variable dropped"
  },
  {
   "property": "C24",
   "status": "proved",
   "theorems": [
    "Csu.Fhc.C24_weight_ratio"
   ],
   "note": "every input including NaN/inf and failing calls; linear+trapezoid excluded (there it is false, see C26)"
  },
  {
   "property": "C25",
   "status": "proved",
   "theorems": [
    "Csu.Fhc.C25_no_dz",
    "Csu.Fhc.C25_method_selection",
    "Csu.Fhc.C25_bad_method",
    "Csu.Fhc.C25_bad_band",
    "Csu.Fhc.C25_bad_n_types",
    "Csu.Fhc.C25_hybrid"
   ],
   "note": ""
  },
  {
   "property": "C26",
   "status": "proved",
   "theorems": [
    "Csu.Fhc.C26_hybrid_no_effect"
   ],
   "note": ""
  },
  {
   "property": "C27",
   "status": "partial",
   "theorems": [
    "Csu.Fhc.C27_scores_partial",
    "Csu.Fhc.C27_centre_moves",
    "Csu.Fhc.C27_full_false"
   ],
   "note": "false of the code: all three parameters are divided by temp_factor; exact scores proved"
  },
  {
   "property": "C28",
   "status": "partial",
   "theorems": [
    "Csu.Fhc.C28_nan_is_drizzle_partial",
    "Csu.Fhc.C28_scores_are_nan_partial",
    "Csu.Fhc.C28_full_false"
   ],
   "note": "false of the code: NaN reflectivity gets category 1; proved for every call; all ten scores are NaN"
  },
  {
   "property": "C29",
   "status": "proved",
   "theorems": [
    "Csu.Traps.C29_values",
    "Csu.Traps.C29_bounded",
    "Csu.Traps.C29_hail_bounded",
    "Csu.Traps.C29_out_of_range",
    "Csu.Traps.C29_vertical_ice",
    "Csu.Traps.C29_liquid_monotone",
    "Csu.Traps.C29_ice_antitone"
   ],
   "note": "all ten types, every finite temperature, float dtype"
  },
  {
   "property": "C30",
   "status": "partial",
   "theorems": [
    "Csu.Traps.C30_continuous_iff_partial",
    "Csu.Traps.C30_all_continuous_false",
    "Csu.Traps.C30_rain_jumps"
   ],
   "note": "false of the code: negation proved; exactly types 7 and 8 are continuous (proved as _partial)"
  },
  {
   "property": "C31",
   "status": "proved",
   "theorems": [
    "Csu.Fhc.C31_float",
    "Csu.Fhc.C31_float_default",
    "Csu.Fhc.C31_row_count",
    "Csu.Fhc.C31_scores_in_unit_interval",
    "Csu.Fhc.C31_default",
    "Csu.Fhc.C31_needs_pol"
   ],
   "note": "needs zdr or kdp (else the call raises, proved); finite inputs; also with rounding"
  },
  {
   "property": "C32",
   "status": "partial",
   "theorems": [
    "Csu.Fhc.C32_nan_partial",
    "Csu.Fhc.C32_full_false"
   ],
   "note": "false as stated: the rho/ldr tables are NaN so every score is NaN (proved for all inputs)"
  },
  {
   "property": "C33",
   "status": "proved",
   "theorems": [
    "Csu.Fhc.C33_rule",
    "Csu.Fhc.C33_contract",
    "Csu.Fhc.C33_wet_snow",
    "Csu.Fhc.C33_finite_sweep",
    "Csu.Fhc.C33_no_azimuths",
    "Csu.Fhc.C33_finite_volume"
   ],
   "note": "category contract for every input in any arithmetic; closed form for finite RHI/grid volumes"
  },
  {
   "property": "C34",
   "status": "partial",
   "theorems": [
    "Csu.Fhc.C34_band_ignored_partial",
    "Csu.Fhc.C34_tables_used_partial",
    "Csu.Fhc.C34_full_false"
   ],
   "note": "false: the band argument is ignored (proved); tables used are S (wet snow) and C (warm/cold)"
  },
  {
   "property": "C35",
   "status": "proved",
   "theorems": [
    "Csu.Fhc.C35_codes",
    "Csu.Fhc.C35_range",
    "Csu.Fhc.C35_no_heights",
    "Csu.Fhc.C35_needs_masked_rho",
    "Csu.Fhc.C35_no_heights_run_winter",
    "Csu.Fhc.C35_finite_sweep",
    "Csu.Fhc.C35_finite_volume"
   ],
   "note": "for every input in any arithmetic; rho must be a masked array (proved)"
  },
  {
   "property": "C36",
   "status": "proved",
   "theorems": [
    "Csu.Fhc.C36_split",
    "Csu.Fhc.C36_rhi",
    "Csu.Fhc.C36_verbose_raises",
    "Csu.Fhc.C36_no_expected",
    "Csu.Fhc.C36_rhi_no_expected",
    "Csu.Fhc.C36_nonfinite_raises",
    "Csu.Fhc.C36_nonfinite_ignored"
   ],
   "note": "finite heights and expected height; levels consistent with the returned height in any arithmetic; failure cases proved"
  },
  {
   "property": "C37",
   "status": "partial",
   "theorems": [
    "Csu.Fhc.C37_ppi_partial",
    "Csu.Fhc.C37_uncovered_partial",
    "Csu.Fhc.C37_full_false",
    "Csu.Fhc.C37_dry_gate_cold_partial",
    "Csu.Fhc.C37_no_azimuths",
    "Csu.Fhc.C37_run_winter_uncovered_partial"
   ],
   "note": "false: the fallback is 0, not the expected height, and uncovered sectors raise ZeroDivisionError (both proved)"
  },
  {
   "property": "C38",
   "status": "proved",
   "theorems": [
    "Csu.Rain.C38_blended_S_exact",
    "Csu.Rain.C38_method_range",
    "Csu.Rain.C38_fit_a_without_fit_b"
   ],
   "note": ""
  },
  {
   "property": "C39",
   "status": "proved",
   "theorems": [
    "Csu.Rain.C39_blended_other_exact",
    "Csu.Rain.C39_zdr_irrelevant"
   ],
   "note": ""
  },
  {
   "property": "C40",
   "status": "proved",
   "theorems": [
    "Csu.Rain.C40_rain_finite_nonneg",
    "Csu.Rain.C40_defaults_sane",
    "Csu.Rain.C40_float",
    "Csu.Rain.C40_float_defaults",
    "Csu.Rain.C40_float_default_call"
   ],
   "note": "real arithmetic with NaN; C40_float*: with rounding, float arrays"
  },
  {
   "property": "C41",
   "status": "proved",
   "theorems": [
    "Csu.Rain.C41_nexrad_cap",
    "Csu.Rain.C41_methods_capped",
    "Csu.Rain.C41_nexrad_scalar_raises"
   ],
   "note": ""
  },
  {
   "property": "C42",
   "status": "proved",
   "theorems": [
    "Csu.Rain.C42_blended_gatewise",
    "Csu.Rain.C42_hidro_gatewise",
    "Csu.Rain.C42_scalar",
    "Csu.Rain.C42_none"
   ],
   "note": ""
  },
  {
   "property": "C43",
   "status": "partial",
   "theorems": [
    "Csu.Rain.C43_dtype_independent_false",
    "Csu.Rain.C43_dtype_partial"
   ],
   "note": "false of the code (int dz truncates rain); negation proved, and the exact truncation relation"
  },
  {
   "property": "C44",
   "status": "proved",
   "theorems": [
    "Csu.Rain.C44_hidro_S_exact",
    "Csu.Rain.C44_hidro_other_exact",
    "Csu.Rain.C44_code_range"
   ],
   "note": ""
  },
  {
   "property": "C45",
   "status": "partial",
   "theorems": [
    "Csu.Rain.C45_thresh_nexrad_ignored",
    "Csu.Rain.C45_cap_honoured_false",
    "Csu.Rain.C45_fixed_cap_partial"
   ],
   "note": "false of the code (thresh_nexrad never passed on); negation proved, fixed 53 dBZ cap proved"
  },
  {
   "property": "C46",
   "status": "proved",
   "theorems": [
    "Csu.Rain.C46_tropical_exact",
    "Csu.Rain.C46_code_range",
    "Csu.Rain.C46_call_exact"
   ],
   "note": ""
  },
  {
   "property": "C47",
   "status": "partial",
   "theorems": [
    "Csu.Rain.C47_ice_unclassified_false",
    "Csu.Rain.C47_ice_rain_partial",
    "Csu.Rain.C47_call_partial"
   ],
   "note": "false of the code (ice gates reported as method 2); negation proved, actual rule proved"
  },
  {
   "property": "C48",
   "status": "partial",
   "theorems": [
    "Csu.Rain.C48_tropical_scalar_returns_array",
    "Csu.Rain.C48_scalar_for_scalar_false"
   ],
   "note": "false of the code (one-element arrays returned for scalars); negation proved"
  },
  {
   "property": "C49",
   "status": "proved",
   "theorems": [
    "Csu.Units.C49_dbz_z_inverse",
    "Csu.Units.C49_speed_inverse",
    "Csu.Units.C49_strictly_increasing",
    "Csu.Units.C49_factors"
   ],
   "note": "exact arithmetic on finite values"
  },
  {
   "property": "C50",
   "status": "partial",
   "theorems": [
    "Csu.Units.C50_knots_false",
    "Csu.Units.C50_knots_partial"
   ],
   "note": "false of the code (si2kts multiplies by 0.51 instead of dividing); negation proved, the actual conversion proved"
  },
  {
   "property": "C51",
   "status": "proved",
   "theorems": [
    "Csu.Dsd.C51_sband2013_physical"
   ],
   "note": ""
  },
  {
   "property": "C52",
   "status": "partial",
   "theorems": [
    "Csu.Dsd.C52_low_zdr_infinite",
    "Csu.Dsd.C52_cband_physical_false",
    "Csu.Dsd.C52_cband_physical_partial"
   ],
   "note": "false of the code (zdr < -0.5 gives D0 = 0, infinite Nw); negation proved with the whole failing region; positivity proved for zdr >= -0.5"
  },
  {
   "property": "C53",
   "status": "proved",
   "theorems": [
    "Csu.Dsd.C53_method_iff",
    "Csu.Dsd.C53_mutually_exclusive",
    "Csu.Dsd.C53_from_selected_method",
    "Csu.Dsd.C53_uncovered_zero",
    "Csu.Dsd.C53_applicable_physical",
    "Csu.Dsd.C53_call"
   ],
   "note": ""
  },
  {
   "property": "C54",
   "status": "partial",
   "theorems": [
    "Csu.Dsd.C54_blend_partial",
    "Csu.Dsd.C54_jump_at_0_2",
    "Csu.Dsd.C54_weighted_mean_false",
    "Csu.Dsd.C54_call_partial",
    "Csu.Dsd.C54_full_false"
   ],
   "note": "false of the code (weights do not sum to one); negation and the actual formula proved"
  },
  {
   "property": "C55",
   "status": "proved",
   "theorems": [
    "Csu.Dsd.C55_arrays_gatewise",
    "Csu.Dsd.C55_scalar",
    "Csu.Dsd.C55_other_band"
   ],
   "note": ""
  },
  {
   "property": "C56",
   "status": "proved",
   "theorems": [
    "Csu.LiquidIce.C56_masses",
    "Csu.LiquidIce.C56_scalar"
   ],
   "note": ""
  },
  {
   "property": "C57",
   "status": "partial",
   "theorems": [
    "Csu.LiquidIce.C57_method_ignored",
    "Csu.LiquidIce.C57_always_cifelli_partial",
    "Csu.LiquidIce.C57_honours_method_false"
   ],
   "note": "false of the code (method never reaches get_linear_fits): negation proved; always-cifelli proved"
  },
  {
   "property": "C58",
   "status": "proved",
   "theorems": [
    "Csu.LiquidIce.C58_exact_zero",
    "Csu.LiquidIce.C58_within_range",
    "Csu.LiquidIce.C58_single_crossing",
    "Csu.LiquidIce.C58_one_sign"
   ],
   "note": "all-one-sign case returns the polyfit intercept (C58_one_sign)"
  },
  {
   "property": "C59",
   "status": "proved",
   "theorems": [
    "Csu.LiquidIce.C59_threshold_values",
    "Csu.LiquidIce.C59_threshold_nonincreasing",
    "Csu.LiquidIce.C59_freezing_level",
    "Csu.LiquidIce.C59_hfrz_overrides_T"
   ],
   "note": ""
  },
  {
   "property": "C60",
   "status": "proved",
   "theorems": [
    "Csu.Fund.C60_frequency_wavelength",
    "Csu.Fund.C60_pulse"
   ],
   "note": ""
  },
  {
   "property": "C61",
   "status": "proved",
   "theorems": [
    "Csu.Fund.C61_dilemma",
    "Csu.Fund.C61_involution",
    "Csu.Fund.C61_aliases",
    "Csu.Fund.C61_radial_velocity"
   ],
   "note": ""
  },
  {
   "property": "C62",
   "status": "proved",
   "theorems": [
    "Csu.Fund.C62_blocked_area",
    "Csu.Fund.C62_fraction",
    "Csu.Fund.C62_monotone",
    "Csu.Fund.C62_antisymmetric",
    "Csu.Fund.C62_outside"
   ],
   "note": ""
  },
  {
   "property": "C63",
   "status": "proved",
   "theorems": [
    "Csu.Fund.C63_piecewise",
    "Csu.Fund.C63_nan",
    "Csu.Fund.C63_range"
   ],
   "note": ""
  },
  {
   "property": "C64",
   "status": "proved",
   "theorems": [
    "Csu.Fund.C64_float",
    "Csu.Fund.C64_lengths"
   ],
   "note": ""
  },
  {
   "property": "C65",
   "status": "partial",
   "theorems": [
    "Csu.Fund.C65_full_false",
    "Csu.Fund.C65_vel_shift_partial"
   ],
   "note": "false: range_correct and reflectivity always raise NameError, vel_shift raises TypeError unless both arguments are arrays; array case proved"
  },
  {
   "property": "C66",
   "status": "proved",
   "theorems": [
    "Csu.Fund.C66_extinction",
    "Csu.Fund.C66_defined",
    "Csu.Fund.C66_scaling",
    "Csu.Fund.C66_absorption_sign",
    "Csu.Fund.C66_vacuum"
   ],
   "note": ""
  },
  {
   "property": "C67",
   "status": "proved",
   "theorems": [
    "Csu.Fund.C67_ray_height_ends",
    "Csu.Fund.C67_ray_height_bounds",
    "Csu.Fund.C67_sample_volumes",
    "Csu.Fund.C67_half_power_radius",
    "Csu.Fund.C67_effective_radius",
    "Csu.Fund.C67_default_radius"
   ],
   "note": ""
  },
  {
   "property": "C68",
   "status": "partial",
   "theorems": [
    "Csu.Fhc.C68_twice_partial",
    "Csu.Fhc.C68_full_false"
   ],
   "note": "false: each gate is counted twice, so the threshold is 0.1 percent (proved)"
  },
  {
   "property": "C69",
   "status": "proved",
   "theorems": [
    "Csu.Fhc.C69_ppi_two_levels"
   ],
   "note": ""
  },
  {
   "property": "C70",
   "status": "partial",
   "theorems": [
    "Csu.Fhc.C70_old_scipy_partial",
    "Csu.Fhc.C70_ppi_partial",
    "Csu.Fhc.C70_verbose_only_raises_partial",
    "Csu.Fhc.C70_full_false"
   ],
   "note": "False as stated: with SciPy >= 1.11 verbose=True raises on an RHI with more than 10 wet-snow gates (C70_full_false), and on an empty volume (mu.max()). Proved: equal for non-empty volumes with older SciPy and for PPIs; a verbose call that returns always returns what the silent one does."
  },
  {
   "property": "C71",
   "status": "proved",
   "theorems": [
    "Csu.Kdp.C71_fortran_returns",
    "Csu.Kdp.C71_cython_returns",
    "Csu.Kdp.C71_equal_ranges_raise"
   ],
   "note": ""
  },
  {
   "property": "C72",
   "status": "proved",
   "theorems": [
    "Csu.Kdp.C72_filter_design"
   ],
   "note": ""
  },
  {
   "property": "C73",
   "status": "proved",
   "theorems": [
    "Csu.Fund.C73_radar_equation",
    "Csu.Fund.C73_fourth_power"
   ],
   "note": ""
  },
  {
   "property": "C74",
   "status": "proved",
   "theorems": [
    "Csu.Fund.C74_same",
    "Csu.Fund.C74_decibels",
    "Csu.Fund.C74_limits"
   ],
   "note": ""
  },
  {
   "property": "C75",
   "status": "proved",
   "theorems": [
    "Csu.Fund.C75_thermal_noise"
   ],
   "note": ""
  },
  {
   "property": "C76",
   "status": "proved",
   "theorems": [
    "Csu.Fund.C76_dual_prf",
    "Csu.Fund.C76_raises"
   ],
   "note": ""
  },
  {
   "property": "C77",
   "status": "proved",
   "theorems": [
    "Csu.Fund.C77_rayleigh"
   ],
   "note": ""
  },
  {
   "property": "C78",
   "status": "partial",
   "theorems": [
    "Csu.Fund.C78_integer_zdp",
    "Csu.Fund.C78_full_false"
   ],
   "note": "false; what integer arrays give is proved exactly"
  },
  {
   "property": "C79",
   "status": "partial",
   "theorems": [
    "Csu.Kdp.C79_thresholds_2d_raise",
    "Csu.Kdp.C79_full_false"
   ],
   "note": "false: always raises, proved for every 2-D array"
  },
  {
   "property": "C80",
   "status": "partial",
   "theorems": [
    "Csu.Fhc.C80_linear_no_pol",
    "Csu.Fhc.C80_linear_temp_off",
    "Csu.Fhc.C80_linear_partial",
    "Csu.Fhc.C80_full_false"
   ],
   "note": "false: exact success condition proved"
  },
  {
   "property": "C81",
   "status": "partial",
   "theorems": [
    "Csu.Fhc.C81_linear_scores_partial",
    "Csu.Fhc.C81_bounded_partial",
    "Csu.Fhc.C81_bounded_false",
    "Csu.Fhc.C81_temp_off_false"
   ],
   "note": "false: negations, exact scores and a bound for temperature weight >= 1 proved"
  },
  {
   "property": "C82",
   "status": "partial",
   "theorems": [
    "Csu.Dsd.C82_missing_raises",
    "Csu.Dsd.C82_missing_gives_none_false"
   ],
   "note": "false: NameError for every such call, proved"
  },
  {
   "property": "C83",
   "status": "partial",
   "theorems": [
    "Csu.LiquidIce.C83_highest_crossing_false",
    "Csu.LiquidIce.C83_exact_partial"
   ],
   "note": "false for inversions (negation proved); C58 covers single crossings; C83_exact_partial gives the exact rule for every mixed-sign sounding"
  },
  {
   "property": "C84",
   "status": "partial",
   "theorems": [
    "Csu.Fund.C84_integer_range_partial",
    "Csu.Fund.C84_integer_range_false"
   ],
   "note": "false above 55108 m (int64 overflow), proved up to it"
  },
  {
   "property": "C85",
   "status": "partial",
   "theorems": [
    "Csu.Kdp.C85_small_odd_width",
    "Csu.Kdp.C85_full_false"
   ],
   "note": "false of the Cython kernel (drops a gate; widths 1, 3, 5 never give KDP), proved"
  },
  {
   "property": "C86",
   "status": "partial",
   "theorems": [
    "Csu.Kdp.C86_full_false",
    "Csu.Kdp.C86_nan_as_previous_partial",
    "Csu.Kdp.C86_nan_uses_junk_partial"
   ],
   "note": "false: negation proved; C13 covers numbers; C86_nan_as_previous_partial / C86_nan_uses_junk_partial give the exact rule"
  },
  {
   "property": "C87",
   "status": "proved",
   "theorems": [
    "Csu.Kdp.C87_fortran_no_escape",
    "Csu.Kdp.C87_fortran_deterministic"
   ],
   "note": ""
  },
  {
   "property": "C88",
   "status": "proved",
   "theorems": [
    "Csu.Kdp.C88_linear_ray_fortran"
   ],
   "note": "Fortran kernel, exact arithmetic"
  },
  {
   "property": "C89",
   "status": "proved",
   "theorems": [
    "Csu.Kdp.C89_clean_linear_ray_fortran"
   ],
   "note": "Fortran kernel, exact arithmetic; get_fir on real numbers"
  },
  {
   "property": "C90",
   "status": "partial",
   "theorems": [
    "Csu.Kdp.C90_exact_factor_partial",
    "Csu.Kdp.C90_full_false"
   ],
   "note": "false of the code: C90_full_false; the exact factor is C90_exact_factor_partial"
  },
  {
   "property": "C91",
   "status": "partial",
   "theorems": [
    "Csu.KdpPy.C91_ten_gates_partial",
    "Csu.KdpPy.C91_full_false"
   ],
   "note": "False as stated (C91_full_false): ten gates i-5..i+4, not eleven; the partial theorem gives the exact value."
  },
  {
   "property": "C92",
   "status": "proved",
   "theorems": [
    "Csu.KdpPy.C92_gates_independent",
    "Csu.KdpPy.C92_any_order"
   ],
   "note": "Pure Python routine; any PyFloat, any lstsq."
  },
  {
   "property": "C93",
   "status": "proved",
   "theorems": [
    "Csu.KdpPy.C93_window_slope"
   ],
   "note": "Real-valued model (XR); lstsq specified by IsLstsq (exact least squares when the abscissae differ)."
  },
  {
   "property": "C94",
   "status": "proved",
   "theorems": [
    "Csu.KdpPy.C94_linear_ray",
    "Csu.KdpPy.C94_clean_ray"
   ],
   "note": "Real-valued model (XR)."
  },
  {
   "property": "C95",
   "status": "proved",
   "theorems": [
    "Csu.KdpPy.C95_returns"
   ],
   "note": ""
  },
  {
   "property": "C96",
   "status": "partial",
   "theorems": [
    "Csu.KdpPy.C96_full_false",
    "Csu.KdpPy.C96_bad_is_weak_echo_partial"
   ],
   "note": "False as stated (C96_full_false); bad value -32768 is treated as weak echo."
  },
  {
   "property": "C97",
   "status": "partial",
   "theorems": [
    "Csu.KdpPy.C97_full_false",
    "Csu.KdpPy.C97_clean_ray_partial"
   ],
   "note": "False in general (C97_full_false); agreement on clean linear rays proved."
  },
  {
   "property": "C98",
   "status": "proved",
   "theorems": [
    "Csu.Rain.C98_published_rates"
   ],
   "note": "exact real arithmetic"
  },
  {
   "property": "C99",
   "status": "proved",
   "theorems": [
    "Csu.Rain.C99_tropical_finite_nonneg",
    "Csu.Rain.C99_published_sane",
    "Csu.Rain.C99_float",
    "Csu.Rain.C99_float_published",
    "Csu.Rain.C99_float_defaults"
   ],
   "note": "real arithmetic with NaN; C99_float*: with rounding, float arrays"
  },
  {
   "property": "C100",
   "status": "proved",
   "theorems": [
    "Csu.Fhc.C100_axes",
    "Csu.Fhc.C100_plotted_curves",
    "Csu.Fhc.C100_number_of_species"
   ],
   "note": "Every plotted point equals hid_beta_f at that abscissa; figure count, names and panel order."
  },
  {
   "property": "C101",
   "status": "partial",
   "theorems": [
    "Csu.Fhc.C101_summer_partial",
    "Csu.Fhc.C101_winter_partial",
    "Csu.Fhc.C101_ml_partial",
    "Csu.Fhc.C101_no_temperature_raises",
    "Csu.Fhc.C101_winter_default_raises",
    "Csu.Fhc.C101_full_false"
   ],
   "note": "False as stated: without temperature plot_flag=True raises TypeError; the winter default n_types=7 exceeds the 6 rows and raises. Proved equal with temperature in use and n_types within the tables."
  },
  {
   "property": "C102",
   "status": "partial",
   "theorems": [
    "Csu.Fhc.C102_verbose_partial",
    "Csu.Fhc.C102_full_false"
   ],
   "note": "False for an array without elements (mu.max() raises). Proved for every non-empty array, including the exceptions raised."
  },
  {
   "property": "C103",
   "status": "proved",
   "theorems": [
    "Csu.Fhc.C103_hid_beta"
   ],
   "note": "In any arithmetic of the model (the compiled function works in single precision, which the model does not distinguish)."
  },
  {
   "property": "C104",
   "status": "proved",
   "theorems": [
    "Csu.Fhc.C104_returned_classes"
   ],
   "note": "In any arithmetic, whenever the call returns."
  },
  {
   "property": "C105",
   "status": "proved",
   "theorems": [
    "Csu.Kdp.C105_scalar_is_constant",
    "Csu.Kdp.C105_rejected_1d",
    "Csu.Kdp.C105_rejected_2d"
   ],
   "note": "scalar thsd equals the constant float32 vector/array; lists and float64 or wrong-dimension arrays are rejected. A NumPy float64 scalar under NumPy 2 promotion is not modelled."
  },
  {
   "property": "C106",
   "status": "proved",
   "theorems": [
    "Csu.Fhc.C106_ml_scores",
    "Csu.Fhc.C106_ml_default"
   ],
   "note": "also C18_float_*, C20_float*, C21_float_*, C31_float*: theorems for every IeeeFloat, instances binary32/64"
  },
  {
   "property": "C107",
   "status": "proved",
   "theorems": [
    "Csu.Rain.C107_hidro_finite_nonneg"
   ],
   "note": "with rounding (every IeeeFloat, instances binary32/64); float arrays"
  },
  {
   "property": "C108",
   "status": "proved",
   "theorems": [
    "Csu.Heap.C108_insect_filter",
    "Csu.Heap.C108_despeckle",
    "Csu.Heap.C108_second_trip",
    "Csu.Heap.C108_diff_phase",
    "Csu.Heap.C108_liquid_ice",
    "Csu.Heap.C108_blended",
    "Csu.Heap.C108_hidro",
    "Csu.Heap.C108_tropical",
    "Csu.Heap.C108_dsd",
    "Csu.Heap.C108_zdp",
    "Csu.Heap.C108_hdr",
    "Csu.Heap.C108_traps"
   ],
   "note": "all heaps, all references; partially overlapping views are not modelled"
  },
  {
   "property": "C109",
   "status": "proved",
   "theorems": [
    "Csu.Heap.C109_insect_filter",
    "Csu.Heap.C109_second_trip",
    "Csu.Heap.C109_diff_phase",
    "Csu.Heap.C109_despeckle",
    "Csu.Heap.C109_blended",
    "Csu.Heap.C109_hidro",
    "Csu.Heap.C109_tropical",
    "Csu.Heap.C109_dsd",
    "Csu.Heap.C109_zdp",
    "Csu.Heap.C109_hdr",
    "Csu.Heap.C109_traps",
    "Csu.Heap.C109_liquid_ice"
   ],
   "note": "refinement of the value models; despeckle needs 0 == 0 and not 1 == 0, which hold in every format (zero_one_facts)"
  },
  {
   "property": "C110",
   "status": "proved",
   "theorems": [
    "Csu.Rain.C110_blended_S",
    "Csu.Rain.C110_blended_other",
    "Csu.Rain.C110_hidro_S",
    "Csu.Rain.C110_hidro_other",
    "Csu.Rain.C110_tropical",
    "Csu.Rain.C110_tropical_predef_irrelevant"
   ],
   "note": "XR; float arrays, gates with finite observables; the numbers are written out in the statement"
  },
  {
   "property": "C111",
   "status": "proved",
   "theorems": [
    "Csu.Csv.C111_tables",
    "Csu.Csv.C111_summer",
    "Csu.Csv.C111_winter",
    "Csu.Csv.C111_ml",
    "Csu.Csv.C111_melting_layer",
    "Csu.Csv.C111_run_winter"
   ],
   "note": "All five entry points, any arithmetic; the shipped directory is a hypothesis on the file system, satisfied by installedAt."
  },
  {
   "property": "C112",
   "status": "proved",
   "theorems": [
    "Csu.Csv.C112_sets_congr",
    "Csu.Csv.C112_summer_congr",
    "Csu.Csv.C112_winter_congr",
    "Csu.Csv.C112_ml_congr",
    "Csu.Csv.C112_run_winter_congr",
    "Csu.Csv.C112_missing"
   ],
   "note": "Congruence for every entry point; missing files by cases."
  },
  {
   "property": "C113",
   "status": "proved",
   "theorems": [
    "Csu.Csv.C113_sets",
    "Csu.Csv.C113_summer",
    "Csu.Csv.C113_winter",
    "Csu.Csv.C113_ml"
   ],
   "note": "Parser inverts the specified writing; consequences for the three classifiers."
  },
  {
   "property": "C114",
   "status": "partial",
   "theorems": [
    "Csu.Csv.C114_no_separator_partial",
    "Csu.Csv.C114_no_separator_winter_partial",
    "Csu.Csv.C114_no_separator_ml_partial",
    "Csu.Csv.C114_full_false"
   ],
   "note": "Full statement false (C114_full_false); proved: without a matching file beside the directory every call with reflectivity raises FileNotFoundError."
  },
  {
   "property": "C115",
   "status": "proved",
   "theorems": [
    "Csu.Csv.C115_summer",
    "Csu.Csv.C115_winter",
    "Csu.Csv.C115_ml",
    "Csu.Csv.C115_unit"
   ],
   "note": "Exact score formula for arbitrary tables; trapezoids off."
  },
  {
   "property": "C116",
   "status": "proved",
   "theorems": [
    "Csu.Csv.C116_count"
   ],
   "note": "Any arithmetic, any files."
  },
  {
   "property": "C117",
   "status": "proved",
   "theorems": [
    "Csu.LiquidIce.C117_masses",
    "Csu.LiquidIce.C117_scalar",
    "Csu.LiquidIce.C117_parts"
   ],
   "note": "exact masses in real numbers, arrays and scalars"
  },
  {
   "property": "C118",
   "status": "partial",
   "theorems": [
    "Csu.Fhc.C118_count_partial",
    "Csu.Fhc.C118_sectors_partial",
    "Csu.Fhc.C118_default_partial",
    "Csu.Fhc.C118_full_false"
   ],
   "note": "false of the code: np.linspace(0, 360, nsect) has nsect edges, so nsect-1 sectors; negation and exact rule proved"
  },
  {
   "property": "C119",
   "status": "proved",
   "theorems": [
    "Csu.Csv.C119_summer",
    "Csu.Csv.C119_winter",
    "Csu.Csv.C119_ml"
   ],
   "note": "exact error for all three classifiers"
  },
  {
   "property": "C120",
   "status": "proved",
   "theorems": [
    "Csu.Fhc.C120_winter_scores",
    "Csu.Fhc.C120_ml_scores",
    "Csu.Fhc.C120_winter_gatewise",
    "Csu.Fhc.C120_ml_gatewise",
    "Csu.Fhc.C120_concat"
   ],
   "note": "Exact scores in real arithmetic for finite gates; gatewise in any arithmetic."
  },
  {
   "property": "C121",
   "status": "proved",
   "theorems": [
    "Csu.Fhc.C121_weight_ratio"
   ],
   "note": "Real arithmetic with NaN and infinities."
  },
  {
   "property": "C122",
   "status": "proved",
   "theorems": [
    "Csu.Fhc.C122_no_dz",
    "Csu.Fhc.C122_bad_band",
    "Csu.Fhc.C122_bad_n_types",
    "Csu.Fhc.C122_linear_no_pol",
    "Csu.Fhc.C122_hybrid"
   ],
   "note": ""
  },
  {
   "property": "C123",
   "status": "partial",
   "theorems": [
    "Csu.Fhc.C123_summer_partial",
    "Csu.Fhc.C123_winter_partial",
    "Csu.Fhc.C123_ml_partial",
    "Csu.Fhc.C123_run_winter_partial",
    "Csu.Fhc.C123_full_false",
    "Csu.Fhc.C123_run_winter_full_false"
   ],
   "note": "False of the code: such gates get class 1 (summer), 1 or 6 (run_winter); their scores are NaN."
  },
  {
   "property": "C124",
   "status": "proved",
   "theorems": [
    "Csu.Kdp.C124_change_of_units",
    "Csu.Kdp.C124_range_units"
   ],
   "note": "Cython kernel"
  },
  {
   "property": "C125",
   "status": "partial",
   "theorems": [
    "Csu.Kdp.C125_phase_offset_partial",
    "Csu.Kdp.C125_collision_full_false",
    "Csu.Kdp.C125_two_passes_full_false"
   ],
   "note": "full statement false (C125_collision_full_false, C125_two_passes_full_false); proved for all but finitely many offsets when nf <= 1 or the coefficients as read keep a constant"
  },
  {
   "property": "C126",
   "status": "partial",
   "theorems": [
    "Csu.Kdp.C126_prefix_partial",
    "Csu.Kdp.C126_clean_window_partial",
    "Csu.Kdp.C126_full_false",
    "Csu.Kdp.C126_fortran_full_false"
   ],
   "note": "false in both kernels: gaps are filled in place (C126_full_false, C126_fortran_full_false); C126_prefix_partial (any gaps and passes: gates up to i + nf*order/2), C126_clean_window_partial"
  },
  {
   "property": "C127",
   "status": "partial",
   "theorems": [
    "Csu.Fhc.C127_surplus_ignored_partial",
    "Csu.Fhc.C127_short_partial",
    "Csu.Fhc.C127_trapezoid_partial",
    "Csu.Fhc.C127_full_false"
   ],
   "note": "false of the code (C127_full_false): sizes are not compared; exact behaviour proved for larger arrays (all classifiers), short arrays (summer, hybrid) and the trapezoid option"
  },
  {
   "property": "C128",
   "status": "partial",
   "theorems": [
    "Csu.Kdp.C128_between_slopes_partial",
    "Csu.Kdp.C128_nondecreasing_partial",
    "Csu.Kdp.C128_full_false",
    "Csu.Kdp.C128_fortran_full_false"
   ],
   "note": "False of the code, proved for both kernels (C128_full_false, C128_fortran_full_false). Proved instead: KDP lies between half the extreme pairwise slopes of the filtered phase of the window, and with no missing phase and one pass a nondecreasing phase gives KDP >= 0."
  },
  {
   "property": "C129",
   "status": "partial",
   "theorems": [
    "Csu.Kdp.C129_no_overshoot_partial",
    "Csu.Kdp.C129_full_false",
    "Csu.Kdp.C129_fortran_full_false"
   ],
   "note": "False of the code, proved for both kernels (C129_full_false, C129_fortran_full_false): filled gaps overshoot. Proved instead: with no missing phase one pass stays within the bounds of its window."
  },
  {
   "property": "C130",
   "status": "partial",
   "theorems": [
    "Csu.Rain.C130_ice_fraction_partial",
    "Csu.Rain.C130_zdr_not_positive_partial",
    "Csu.Rain.C130_full_false"
   ],
   "note": "False of the code (C130_full_false). Proved instead: exact closed form, always below 1, nonnegative exactly where dz reaches the rain line; zdr <= 0 gates are ice."
  },
  {
   "property": "C131",
   "status": "partial",
   "theorems": [
    "Csu.Rain.C131_same_method_partial",
    "Csu.Rain.C131_full_false"
   ],
   "note": "False of the code (C131_full_false): the rate drops where the method switches. Proved instead: monotone among gates given the same method."
  },
  {
   "property": "C132",
   "status": "proved",
   "theorems": [
    "Csu.Fhc.C132_melting_layer",
    "Csu.Fhc.C132_run_winter",
    "Csu.Fhc.C132_run_winter_sweep",
    "Csu.Fhc.C132_no_pol"
   ],
   "note": "All 16 subsets of {zdr, kdp, T, sn}."
  },
  {
   "property": "C133",
   "status": "proved",
   "theorems": [
    "Csu.Rain.C133_classified_rain_S",
    "Csu.Rain.C133_classified_rain_other",
    "Csu.Rain.C133_classified_rain_tropical"
   ],
   "note": "three theorems: S band, other bands, tropical retrieval"
  },
  {
   "property": "C134",
   "status": "partial",
   "theorems": [
    "Csu.Rain.C134_not_reached_partial",
    "Csu.Rain.C134_other_bands_partial",
    "Csu.Rain.C134_hidro_partial",
    "Csu.Rain.C134_tropical_partial",
    "Csu.Rain.C134_S_band_partial",
    "Csu.Rain.C134_full_false"
   ],
   "note": "False at S band in calc_blended_rain (negation proved): flagged Zdr makes Zdp its floor of -120 dB, the ice fraction close to 1, method 5 and a rate under 1e-8 mm/h however strong the echo; NaN Zdr gives method 5 and rate NaN. Proved: R(Z) at every other band, in csu_hidro_rain for liquid classes at every band, and in the tropical retrieval; and, for every parameter and arithmetic, Kdp (Zdr) below threshold never selects a relation using it."
  },
  {
   "property": "C135",
   "status": "proved",
   "theorems": [
    "Csu.Fund.C135_weather_radar_equation",
    "Csu.Fund.C135_pulse_length"
   ],
   "note": "real arithmetic; rounding not considered"
  },
  {
   "property": "C136",
   "status": "partial",
   "theorems": [
    "Csu.Fund.C136_rayleigh_partial",
    "Csu.Fund.C136_full_false"
   ],
   "note": "False (negation proved): the code squares the factor again, so with |K|^2 the cross-section is too small by the factor |K|^2. Proved: with the amplitude |K| as factor it is exactly 3/2 of scat_coeff."
  },
  {
   "property": "C137",
   "status": "proved",
   "theorems": [
    "Csu.Csv.C137_file",
    "Csu.Csv.C137_summer",
    "Csu.Csv.C137_winter",
    "Csu.Csv.C137_ml"
   ],
   "note": "Raised from a wrong-program test (dropping index_col=0 was not noticed before)."
  },
  {
   "property": "C138",
   "status": "proved",
   "theorems": [
    "Csu.Heap.C138_summer",
    "Csu.Heap.C138_winter",
    "Csu.Heap.C138_ml"
   ],
   "note": ""
  },
  {
   "property": "C139",
   "status": "proved",
   "theorems": [
    "Csu.Heap.C139_melting_layer",
    "Csu.Heap.C139_run_winter"
   ],
   "note": "Arrays of one shape (no broadcasting), as in the value model."
  },
  {
   "property": "C140",
   "status": "proved",
   "theorems": [
    "Csu.Kdp.C140_formula",
    "Csu.Kdp.C140_scales",
    "Csu.Kdp.C140_unimodal"
   ],
   "note": "Raised from a wrong-program test (a wrong Gaussian width was not noticed before)."
  },
  {
   "property": "C141",
   "status": "partial",
   "theorems": [
    "Csu.Masked.C141_visible_gates_partial",
    "Csu.Masked.C141_visible_winter_partial",
    "Csu.Masked.C141_visible_ml_partial",
    "Csu.Masked.C141_filled_reflectivity_partial",
    "Csu.Masked.C141_full_false",
    "Csu.Masked.C141_kdp_full_false"
   ],
   "note": "False of the code: np.array() drops the mask (C141_full_false, C141_kdp_full_false). Proved: agreement at gates masked in no variable, and bad KDP where the reflectivity under the mask is the bad value."
  },
  {
   "property": "C142",
   "status": "partial",
   "theorems": [
    "Csu.Traps.C142_truncates_partial",
    "Csu.Traps.C142_hail_zero_partial",
    "Csu.Traps.C142_plateaus_partial",
    "Csu.Traps.C142_full_false"
   ],
   "note": "False of the code (C142_full_false): np.zeros_like inherits the integer dtype, so every fraction is cut off; exact rule, the hail consequence and agreement on whole-number values proved."
  },
  {
   "property": "C143",
   "status": "partial",
   "theorems": [
    "Csu.Rain.C143_same_method_partial",
    "Csu.Rain.C143_ice_partial",
    "Csu.Rain.C143_full_false"
   ],
   "note": "False of the code (C143_full_false: rain at 53 dBZ, Kdp 0.2->0.3 lowers the rate). Proved: monotone within a method, and always monotone for classes other than 1, 2, 10."
  },
  {
   "property": "C144",
   "status": "partial",
   "theorems": [
    "Csu.Rain.C144_same_method_partial",
    "Csu.Rain.C144_full_false"
   ],
   "note": "False of the code (C144_full_false: at 60 dBZ raising Kdp 0.2->0.3 lowers the rate). Proved: monotone within a method for every coefficient set of the usual signs (published_increasing: all three bands qualify)."
  },
  {
   "property": "C145",
   "status": "proved",
   "theorems": [
    "Csu.Kdp.C145_outputs_float32"
   ],
   "note": ""
  },
  {
   "property": "C146",
   "status": "proved",
   "theorems": [
    "Csu.Kdp.C146_std_not_negative",
    "Csu.Kdp.C146_constant_phase"
   ],
   "note": ""
  },
  {
   "property": "C147",
   "status": "partial",
   "theorems": [
    "Csu.Kdp.C147_cython_returns_partial",
    "Csu.Kdp.C147_gates_125m",
    "Csu.Kdp.C147_full_false"
   ],
   "note": "False of the code (C147_full_false: gates at 150.00, 150.01, ..., 150.10 make the float32 determinant 0 and the kernel raises ZeroDivisionError). Proved: it returns whenever gate spacing s and largest range H satisfy 12(3.1N+4)H\u00b2 <= 1.6e7 s\u00b2(N\u00b2-1) for the possible sample counts N, e.g. order 20 and H <= 1700 s (C147_gates_125m: 125 m gates to 200 km). Reflectivity must not be NaN."
  },
  {
   "property": "C148",
   "status": "partial",
   "theorems": [
    "Csu.Kdp.C148_slope_error_partial",
    "Csu.Kdp.C148_constant_phase_partial",
    "Csu.Kdp.C148_full_false"
   ],
   "note": "False of the code (C148_full_false: gates at 60.00, 60.01, ..., 60.10 with constant phase 100.1 give KDP 1). Proved: |KDP - slope/2| <= 12(3.1N+7)H(Phi+|slope|H)/(1.6e7 s^2(N^2-1)) + 2^-99 for resolved ranges up to H, gate spacing >= s and phases in [0, Phi]; missing: negative phases, and the Fortran kernel."
  },
  {
   "property": "C149",
   "status": "partial",
   "theorems": [
    "Csu.BadValue.C149_filters_partial",
    "Csu.BadValue.C149_nan_full_false",
    "Csu.BadValue.C149_nan_filters_partial",
    "Csu.Kdp.C149_kdp_partial",
    "Csu.Kdp.C149_kdp_nan_full_false",
    "Csu.Kdp.C149_kdp_collision_full_false",
    "Csu.Kdp.C149_kdp_nan_partial"
   ],
   "note": "False of the code for NaN (C149_nan_full_false, C149_kdp_nan_full_false) and for a number that happens to equal a filtered phase (C149_kdp_collision_full_false). Proved: the filters treat all numbers alike; all but finitely many numbers give one and the same KDP result; exact behaviour of the filters with NaN; with NaN no gap is tolerated in a KDP window."
  },
  {
   "property": "C150",
   "status": "proved",
   "theorems": [
    "Csu.Heap.C150_calc_kdp_bringi_arrays",
    "Csu.Heap.C150_kernel_arrays"
   ],
   "note": ""
  },
  {
   "property": "C151",
   "status": "partial",
   "theorems": [
    "Csu.Kdp.C151_kdp_error",
    "Csu.Kdp.C151_kdp_error_spacing",
    "Csu.Kdp.C151_filter_error_partial",
    "Csu.Kdp.C151_phase_error_partial",
    "Csu.Kdp.C151_full_false",
    "Csu.Kdp.C151_fortran_full_false",
    "Csu.Kdp.C151_bound_attained"
   ],
   "note": "C151_filter_error_partial and C151_phase_error_partial need rays without missing phases and one pass; the KDP step (C151_kdp_error, C151_kdp_error_spacing) is unconditional given the filtered phases. The full statement with gaps is false (C151_full_false, C151_fortran_full_false)."
  },
  {
   "property": "C152",
   "status": "partial",
   "theorems": [
    "Csu.Kdp.C152_outcomes",
    "Csu.Kdp.C152_even_accepted",
    "Csu.Kdp.C152_full_false",
    "Csu.Kdp.C152_valid_window_rejected",
    "Csu.Kdp.C152_whole_km_partial",
    "Csu.Kdp.C152_right_or_none_partial"
   ],
   "note": "Exact arithmetic: proved in full (C152_outcomes, C152_even_accepted). Double precision: false (C152_full_false, C152_valid_window_rejected); C152_whole_km_partial and C152_right_or_none_partial hold."
  },
  {
   "property": "C153",
   "status": "partial",
   "theorems": [
    "Csu.Rain.C153_arrays",
    "Csu.Rain.C153_blended_partial",
    "Csu.Rain.C153_blended_python",
    "Csu.Rain.C153_hidro_partial",
    "Csu.Rain.C153_hidro_class",
    "Csu.Rain.C153_hidro_python",
    "Csu.Rain.C153_kdp_number_raises",
    "Csu.Rain.C153_kdp_exception",
    "Csu.Rain.C153_full_false",
    "Csu.Rain.C153_hidro_full_false"
   ],
   "note": "The full claim is false of the code and its negation is proved: `~cond_zdr` on a Python bool is -1 or -2, so at S band method 2 overwrites 1 and 4 overwrites 3. Proved: the claim for NumPy scalars, other bands and values below the threshold; the exact outcome otherwise; class numbers; KDP numbers always raise."
  },
  {
   "property": "C154",
   "status": "partial",
   "theorems": [
    "Csu.Rain.C154_tropical_partial",
    "Csu.Rain.C154_tropical_class",
    "Csu.Rain.C154_tropical_python",
    "Csu.Rain.C154_default_raises",
    "Csu.Rain.C154_full_false"
   ],
   "note": "The full claim is false of the code and its negation is proved (`~` on a Python bool; tuple coefficients). Proved: NumPy ZDR scalars and values below the threshold outside predefined S band, classes and rain types always, the exact outcome for Python numbers. A NumPy ZDR scalar with the tuple coefficients of predef='True' at S band is not modelled."
  },
  {
   "property": "C155",
   "status": "partial",
   "theorems": [
    "Csu.LiquidIce.C155_same_size",
    "Csu.LiquidIce.C155_numbers",
    "Csu.LiquidIce.C155_plain_number",
    "Csu.LiquidIce.C155_returns",
    "Csu.LiquidIce.C155_one_altitude_partial",
    "Csu.LiquidIce.C155_number_dbz_exception",
    "Csu.LiquidIce.C155_number_dbz",
    "Csu.LiquidIce.C155_numpy_zdr",
    "Csu.LiquidIce.C155_array_exception",
    "Csu.LiquidIce.C155_few_temperatures",
    "Csu.LiquidIce.C155_full_false",
    "Csu.LiquidIce.C155_sounding_full_false",
    "Csu.LiquidIce.C155_extra_temperatures_partial",
    "Csu.LiquidIce.C155_extra_one_sign"
   ],
   "note": "The full claim is false of the code and both negations are proved: a plain Python number raises AttributeError, a NumPy number for ZDR raises IndexError, and more temperatures than altitudes are accepted. Proved: equal numbers of values in any shapes, one altitude, necessary conditions for a result, the exceptions, and the effect of surplus temperatures for soundings with both signs."
  },
  {
   "property": "C156",
   "status": "partial",
   "theorems": [
    "Csu.Dsd.C156_arrays",
    "Csu.Dsd.C156_numbers",
    "Csu.Dsd.C156_kdp_unused",
    "Csu.Dsd.C156_zdr_number",
    "Csu.Dsd.C156_kdp_number",
    "Csu.Dsd.C156_dz_number",
    "Csu.Dsd.C156_full_false",
    "Csu.Dsd.C156_kdp_filled_partial"
   ],
   "note": "The full claim is false of the code and its negation is proved. Proved: KDP of any kind is irrelevant without the 2004 method, and the exception of every other mixed call. A NumPy ZDR number beside an array in the retrievals without KDP is not modelled."
  },
  {
   "property": "C157",
   "status": "proved",
   "theorems": [
    "Csu.LiquidIce.C157_masses",
    "Csu.LiquidIce.C157_plain"
   ],
   "note": "powers are only assumed on the right side of 0 and 1 and accurate to a factor of two within 2^-100..2^100; ZDR is limited to 50 dB"
  },
  {
   "property": "C158",
   "status": "proved",
   "theorems": [
    "Csu.Dsd.C158_sband",
    "Csu.Dsd.C158_cband"
   ],
   "note": "powers are assumed right within 2^-20 for results up to 2^100; the exact formulas are sD0, cD0, sNw, cNw over the reals"
  },
  {
   "property": "C159",
   "status": "proved",
   "theorems": [
    "Csu.Rain.C159_blended_S",
    "Csu.Rain.C159_blended_other",
    "Csu.Rain.C159_hidro_S",
    "Csu.Rain.C159_hidro_other"
   ],
   "note": "method 5 (rain line) is excluded; powers are assumed right within 2^-20 for results from 2^-77 to 2^90; reflectivity arrays are floating (an integer dtype truncates the rate on assignment)"
  },
  {
   "property": "C160",
   "status": "proved",
   "theorems": [
    "Csu.Rain.C160_tropical"
   ],
   "note": "powers are assumed right within 2^-20 for results from 2^-77 to 2^90; reflectivity arrays are floating"
  },
  {
   "property": "C161",
   "status": "proved",
   "theorems": [
    "Csu.Rain.C161_unfit_raises",
    "Csu.Rain.C161_fit",
    "Csu.Rain.C161_result_iff",
    "Csu.Rain.C161_hidro_result_iff",
    "Csu.Rain.C161_hidro_fit",
    "Csu.Rain.C161_tropical_result_iff",
    "Csu.Rain.C161_tropical_fit"
   ],
   "note": "one-dimensional arrays; unequal shapes of more axes are not modelled; fit_a without fit_b raises TypeError at S band"
  },
  {
   "property": "C162",
   "status": "proved",
   "theorems": [
    "Csu.Dsd.C162_result_iff",
    "Csu.Dsd.C162_unfit_error",
    "Csu.Dsd.C162_fit",
    "Csu.Dsd.C162_other_band"
   ],
   "note": "one-dimensional arrays; unequal shapes of more axes are not modelled"
  },
  {
   "property": "C163",
   "status": "proved",
   "theorems": [
    "Csu.Fhc.C163_membership",
    "Csu.Fhc.C163_shipped"
   ],
   "note": "Binary formats and exact arithmetic are proved to satisfy IeeeFloatPow; the parameters are taken as the floats they are stored as"
  },
  {
   "property": "C164",
   "status": "proved",
   "theorems": [
    "Csu.Fhc.C164_scores",
    "Csu.Fhc.C164_category",
    "Csu.Fhc.C164_stored"
   ],
   "note": "exact score stated with an explicit list of averaged variables and 1/(1+((x-m)/a)^2^b) over the reals; the parameters are those stored in the chosen float format, which C164_stored bounds against the numbers of the files"
  },
  {
   "property": "C165",
   "status": "proved",
   "theorems": [
    "Csu.Fhc.C165_winter",
    "Csu.Fhc.C165_ml",
    "Csu.Fhc.C165_winter_default"
   ],
   "note": "rho and ldr are excluded because the winter tables have no usable rows for them"
  },
  {
   "property": "C166",
   "status": "proved",
   "theorems": [
    "Csu.Fhc.C166_melting_layer",
    "Csu.Fhc.C166_run_winter"
   ],
   "note": "the example is a gate at the centres of wet snow, where run_winter is shown to give 5"
  },
  {
   "property": "C167",
   "status": "proved",
   "theorems": [
    "Csu.Fhc.C167_classes"
   ],
   "note": "C-band because run_winter hard-codes it (see C34)"
  }
 ]
}