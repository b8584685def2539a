{"id": "C01", "title": "insect_filter flags exactly the documented gates", "statement": "insect_filter(dz, zdr, mask, dz_range, dr_thresh, bad) marks a gate True exactly when the supplied mask is True there (or, when no mask is supplied, when dz or zdr equals bad), or when for some position i of dr_thresh the gate has dz_range[i][0] < dz <= dz_range[i][1] and zdr >= dr_thresh[i]. A dz_range shorter than dr_thresh raises IndexError and returns no mask; surplus dz_range entries are ignored.", "quantifier": "every array of gates, every threshold table of every length, every supplied mask, every sentinel, every float value including NaN", "why_tests_cant": "threshold tables, masks and gate values form an infinite product; tests sample a few tables", "anchors": ["csu_radartools/csu_misc.py:insect_filter", "csu_radartools/csu_misc.py:DEFAULT_DZ_RANGE", "csu_radartools/csu_misc.py:DEFAULT_DR_THRESH"]}
{"id": "C02", "title": "insect_filter with default thresholds is monotone and bounded in reflectivity", "statement": "With the default threshold tables, a gate that is not bad is never flagged when dz > 35 or dz <= -100, raising zdr never un-flags a gate, and for -100 < dz <= 35 the gate is flagged exactly from a single zdr threshold, which never decreases as dz increases. A supplied mask is always contained in the result.", "quantifier": "every real dz and zdr", "why_tests_cant": "boundary behaviour at every real value", "anchors": ["csu_radartools/csu_misc.py:insect_filter"]}
{"id": "C03", "title": "second-trip and differential-phase filters are gatewise and let NaN pass", "statement": "second_trip_filter_magnetron flags a gate exactly when its velocity equals bad; differential_phase_filter flags exactly when sdp exceeds the (scalar or per-gate) threshold. NaN is never flagged by either.", "quantifier": "every array, threshold array and sentinel", "why_tests_cant": "all float values incl. NaN", "anchors": ["csu_radartools/csu_misc.py:second_trip_filter_magnetron", "csu_radartools/csu_misc.py:differential_phase_filter"]}
{"id": "C04", "title": "despeckle keeps a gate iff it lies in a run of more than ngates good gates", "statement": "For a 1-D ray despeckle returns False (keep) at gate i exactly when there are ngates+1 consecutive gates, one of them gate i, none of which equals bad; it returns True everywhere else, and the result has the length of the ray. For 2-D data every row is treated separately as a ray. Scalars and arrays of 3 or more dimensions return None; a 0-d array raises TypeError.", "quantifier": "every ray length, every placement of bad gates, every ngates", "why_tests_cant": "2^n bad-gate patterns for every n", "anchors": ["csu_radartools/csu_misc.py:despeckle", "csu_radartools/csu_misc.py:_despeckle_ray"]}
{"id": "C05", "title": "despeckle laws: idempotent, monotone, direction-free", "statement": "Re-running despeckle after blanking the gates it flagged changes nothing; increasing ngates never un-flags a gate; reversing the ray reverses the mask; bad gates are always flagged; ngates = 0 flags only the bad gates.", "quantifier": "every ray and every ngates", "why_tests_cant": "universally quantified over ray histories", "anchors": ["csu_radartools/csu_misc.py:despeckle", "csu_radartools/csu_misc.py:_despeckle_ray"]}
{"id": "C06", "title": "despeckle honours its documented run length", "statement": "The docstring says ngates is the 'number of contiguous good data gates required along ray for no masking to occur', i.e. a run of exactly ngates good gates is left unmasked.", "quantifier": "every ray containing a maximal run of exactly ngates good gates", "why_tests_cant": "boundary case for every run position and ray", "anchors": ["csu_radartools/csu_misc.py:despeckle"]}
{"id": "C07", "title": "KDP ray processing never touches memory outside its arrays", "statement": "calc_kdp_ray_fir, compiled with bounds checks off, reads and writes only inside the arrays it was given and inside its two 500-element work buffers.", "quantifier": "every ray length, phase, reflectivity, thresholds, filter order, number of passes", "why_tests_cant": "an out-of-bounds access is undefined behaviour; a test can pass by luck", "anchors": ["csu_radartools/calc_kdp_ray_fir.pyx:calc_kdp_ray_fir", "csu_radartools/csu_kdp.py:get_fir"]}
{"id": "C08", "title": "KDP output is a function of its arguments", "statement": "Two calls of calc_kdp_ray_fir with equal arguments return equal KDP, filtered phase and standard deviation.", "quantifier": "every pair of executions with the same arguments and any other memory contents", "why_tests_cant": "depends on memory contents outside the arguments", "anchors": ["csu_radartools/calc_kdp_ray_fir.pyx:calc_kdp_ray_fir"]}
{"id": "C09", "title": "Phase standard deviation is the windowed population standard deviation", "statement": "The returned standard deviation at a gate is 100 when the std_gate window does not fit in the ray or holds at most half a window of good phases, and otherwise is the population standard deviation of the good phases in the window centred on the gate.", "quantifier": "every ray, window size and placement of bad gates", "why_tests_cant": "the one-pass update must agree with the two-pass definition on every sequence", "anchors": ["csu_radartools/calc_kdp_ray_fir.pyx:calc_kdp_ray_fir"]}
{"id": "C10", "title": "LSE is the least-squares line", "statement": "For samples with at least two distinct abscissae, LSE returns the slope and intercept that minimise the sum of squared residuals over the non-bad samples; no other line does better; collinear samples are recovered exactly; sample order is irrelevant; when all good abscissae coincide (or none is good) it raises ZeroDivisionError instead of returning a line.", "quantifier": "every finite sample of every length, every candidate line", "why_tests_cant": "optimality is against all real lines", "anchors": ["csu_radartools/calc_kdp_ray_fir.pyx:LSE"]}
{"id": "C11", "title": "Filtered phase is defined only where the filter window fits and the gate passes QC", "statement": "With at least one pass, the filtered phase equals bad at every gate closer than half a filter window to either end and at every gate whose phase standard deviation exceeds its threshold; with zero passes the phase is returned unchanged.", "quantifier": "every ray, order, number of passes, thresholds", "why_tests_cant": "for all ray lengths and pass counts", "anchors": ["csu_radartools/calc_kdp_ray_fir.pyx:calc_kdp_ray_fir"]}
{"id": "C12", "title": "KDP is half the least-squares slope of filtered phase over the reflectivity-adaptive window", "statement": "KDP at a gate is bad when reflectivity is bad, when the gate has fewer than h = w//2 gates on either side, or when at most 0.8 w samples of its window are good, where the nominal width w is the half filter order for dz >= 45, twice it for 35 <= dz < 45 and three times it below 35, and the window is the 2h gates from i-h on (Cython) or the 2h+1 gates centred on i (Fortran); otherwise it is half the slope of the unique least-squares line of the good filtered phases in the window. If the filtered phase is linear in range with slope 2k then KDP is exactly k.", "quantifier": "every ray, every reflectivity profile, every order", "why_tests_cant": "all window placements and profiles", "anchors": ["csu_radartools/calc_kdp_ray_fir.pyx:calc_kdp_ray_fir", "csu_radartools/calc_kdp_ray_fir.pyx:LSE"]}
{"id": "C13", "title": "KDP window at a gate depends only on that gate's reflectivity", "statement": "The adaptive window used for a gate whose reflectivity is bad or a number is determined by that gate's own reflectivity: changing the reflectivity elsewhere does not change its KDP.", "quantifier": "every reflectivity profile", "why_tests_cant": "depends on the values carried over from earlier loop iterations", "anchors": ["csu_radartools/calc_kdp_ray_fir.pyx:calc_kdp_ray_fir"]}
{"id": "C14", "title": "2-D KDP processing treats rays independently", "statement": "calc_kdp_bringi on a 2-D array returns, for each ray, exactly what it returns for that ray alone; permuting or dropping rays permutes or drops the results.", "quantifier": "every number of rays and every ray", "why_tests_cant": "any number of rays", "anchors": ["csu_radartools/csu_kdp.py:calc_kdp_bringi"]}
{"id": "C15", "title": "calc_kdp_bringi argument contract", "statement": "Missing dp, dz or rng, or arrays of differing dimensionality, or a dimensionality other than 1 or 2, return None; an odd filter order returns (None, None, None); an even std_gate behaves exactly like std_gate=11; a 1-D float32 vector of per-range thresholds is accepted for 1-D data.", "quantifier": "every combination of arguments", "why_tests_cant": "combinatorial argument space", "anchors": ["csu_radartools/csu_kdp.py:calc_kdp_bringi", "csu_radartools/csu_kdp.py:get_fir"]}
{"id": "C16", "title": "FIR order contract", "statement": "get_fir succeeds exactly when trunc(1000*window/gs) is even and nonzero; the filter then has trunc(1000*window/gs)+1 coefficients and gain 1; an odd order returns None, order zero raises ValueError.", "quantifier": "every positive gate spacing and window", "why_tests_cant": "all real pairs", "anchors": ["csu_radartools/csu_kdp.py:get_fir"]}
{"id": "C17", "title": "The Cython and Fortran builds compute the same KDP", "statement": "The package can be built from calc_kdp_ray_fir.pyx or calc_kdp_ray_fir.f; both builds return the same KDP, filtered phase and standard deviation on the same input.", "quantifier": "every input ray", "why_tests_cant": "equivalence of two programs on all inputs", "anchors": ["csu_radartools/calc_kdp_ray_fir.pyx", "csu_radartools/calc_kdp_ray_fir.f"]}
{"id": "C18", "title": "Membership beta function is a bounded bell", "statement": "For width a != 0 and slope b > 0 the beta function lies in (0,1], equals 1 exactly at the centre m, equals 1/2 exactly at distance |a| from m, is symmetric about m and strictly decreases with distance from m.", "quantifier": "every real x, m, a != 0, b > 0", "why_tests_cant": "real-valued law", "anchors": ["csu_radartools/calc_kdp_ray_fir.pyx:hid_beta_f", "csu_radartools/csu_fhc.py:hid_beta", "csu_radartools/beta_functions.py:_get_beta_example"]}
{"id": "C19", "title": "Membership parameter tables are well formed", "statement": "Every summer table (3 bands x 6 variables) has 10 rows with positive width and slope, every melting-layer table 2 such rows; winter tables have 6 rows, with positive width and slope except for the correlation and depolarization tables, whose centre and width are NaN.", "quantifier": "every band, variable and species of the shipped tables", "why_tests_cant": "finite but the later properties rest on all of them", "anchors": ["csu_radartools/beta_function_parameters", "csu_radartools/beta_functions.py:get_beta_set"]}
{"id": "C20", "title": "Summer HID scores lie in [0,1]", "statement": "Without trapezoids, for both methods, every score returned by csu_fhc_summer for finite inputs lies between 0 and 1, whatever subset of variables is supplied and whatever nonnegative weights (not all zero on supplied variables) are used.", "quantifier": "every finite gate value, subset of variables, band, weights", "why_tests_cant": "continuous domain", "anchors": ["csu_radartools/csu_fhc.py:csu_fhc_summer", "csu_radartools/csu_fhc.py:_get_test_list", "csu_radartools/csu_fhc.py:_calculate_test"]}
{"id": "C21", "title": "HID category is the first best-scoring species", "statement": "The category returned by csu_fhc_summer at each gate is between 1 and 10 and is the lowest-numbered species whose score is maximal at that gate; the returned array has the shape of dz; the score array has shape (n_types,)+shape.", "quantifier": "every input shape and value", "why_tests_cant": "all shapes and values", "anchors": ["csu_radartools/csu_fhc.py:csu_fhc_summer"]}
{"id": "C22", "title": "HID is gatewise", "statement": "csu_fhc_summer applied to a concatenation of gates equals the concatenation of the results; category and scores at a gate depend on that gate's inputs only.", "quantifier": "every way of splitting the gates", "why_tests_cant": "all partitions", "anchors": ["csu_radartools/csu_fhc.py:csu_fhc_summer"]}
{"id": "C23", "title": "Prototype gates are classified as their own species", "statement": "With all variables supplied and default weights, a gate whose variables all sit at the centres of species k is classified as k, for both methods and all bands.", "quantifier": "every band, species and method", "why_tests_cant": "rests on all table rows at once", "anchors": ["csu_radartools/csu_fhc.py:csu_fhc_summer", "csu_radartools/beta_function_parameters"]}
{"id": "C24", "title": "HID weights act only by ratio", "statement": "Multiplying every weight by the same positive constant changes no score and no category.", "quantifier": "every weight vector, every positive factor, every input", "why_tests_cant": "real-valued scaling law", "anchors": ["csu_radartools/csu_fhc.py:_get_weight_sum", "csu_radartools/csu_fhc.py:_calculate_test"]}
{"id": "C25", "title": "csu_fhc_summer failure contract, hybrid method", "statement": "No dz returns None; a method naming neither hybrid nor linear returns None; an unknown band raises FileNotFoundError; with the hybrid method any subset of variables and any flags return a classification.", "quantifier": "every subset of variables and flags", "why_tests_cant": "combinatorial", "anchors": ["csu_radartools/csu_fhc.py:csu_fhc_summer"]}
{"id": "C26", "title": "use_trap has no effect with the hybrid method", "statement": "use_trap has no effect with the hybrid method.", "quantifier": "every input and weight", "why_tests_cant": "continuous domain", "anchors": ["csu_radartools/csu_fhc.py:_calculate_test_trap", "csu_radartools/csu_t_traps.py:get_hid_traps"]}
{"id": "C27", "title": "temp_factor broadens temperature membership without moving it", "statement": "temp_factor > 1 widens each temperature membership function and leaves its centre where it was.", "quantifier": "every factor, band, species", "why_tests_cant": "real-valued", "anchors": ["csu_radartools/beta_functions.py:get_beta_set", "csu_radartools/beta_functions.py:get_mbf_sets_summer"]}
{"id": "C28", "title": "Gates with NaN reflectivity are not given a hydrometeor class", "statement": "csu_fhc_summer does not report a physical species for a gate whose reflectivity is NaN.", "quantifier": "every gate with NaN reflectivity", "why_tests_cant": "all other inputs arbitrary", "anchors": ["csu_radartools/csu_fhc.py:csu_fhc_summer"]}
{"id": "C29", "title": "Trapezoid values are bounded and the type range is checked", "statement": "get_hid_traps returns values in [-1,1] for types 0..9 (hail in [0.2,0.8]) and None for any other type; vertical ice equals ice crystals; the liquid types never decrease with temperature and the ice types never increase above freezing.", "quantifier": "every temperature, every type number", "why_tests_cant": "all reals", "anchors": ["csu_radartools/csu_t_traps.py:get_hid_traps"]}
{"id": "C30", "title": "Trapezoid temperature functions are continuous", "statement": "Each temperature trapezoid is a continuous function of temperature.", "quantifier": "every type and temperature", "why_tests_cant": "limits", "anchors": ["csu_radartools/csu_t_traps.py"]}
{"id": "C31", "title": "Winter scores are bounded and split by warm/cold", "statement": "csu_fhc_winter returns 2 scores per gate when warm and 4 when cold, each in [0,1] for finite dz, zdr, kdp and T.", "quantifier": "every finite input", "why_tests_cant": "continuous", "anchors": ["csu_radartools/csu_fhc_winter.py:csu_fhc_winter"]}
{"id": "C32", "title": "Supplying rho or ldr to the winter classifier with zero weight does not matter", "statement": "RH and LD have weight zero in the winter weights, so supplying rho or ldr does not change the scores.", "quantifier": "every input", "why_tests_cant": "all inputs", "anchors": ["csu_radartools/csu_fhc_winter.py:csu_fhc_winter", "csu_radartools/beta_function_parameters"]}
{"id": "C33", "title": "run_winter category contract", "statement": "run_winter returns only -1 (unclassified) and 1..7; wet snow (5) exactly where the melting detector says wet snow with usable rho and signal; 6/7 only below, 1-4 only above (or, on grids, at) the melting level.", "quantifier": "every volume of gates", "why_tests_cant": "all gate combinations", "anchors": ["csu_radartools/csu_fhc.py:run_winter"]}
{"id": "C34", "title": "run_winter uses the requested band", "statement": "The band argument of run_winter selects the membership tables of that band.", "quantifier": "every band and input", "why_tests_cant": "all inputs", "anchors": ["csu_radartools/csu_fhc.py:run_winter", "csu_radartools/csu_fhc_melt.py:melting_layer"]}
{"id": "C35", "title": "melting_layer quality control precedence", "statement": "A gate with invalid rho or rho <= minRH gets code -1 whatever its scores and signal; otherwise a gate below the signal threshold gets 0; otherwise 1 or 2 from the scores, ties going to 1. Without heights the function returns None.", "quantifier": "every gate", "why_tests_cant": "all values", "anchors": ["csu_radartools/csu_fhc_melt.py:melting_layer"]}
{"id": "C36", "title": "RHI melting level split", "statement": "get_ml_rhi returns 0 below, 2 above and 1 at the melting height, which is the median height of the wet-snow gates within 1.5 of the expected height when more than 10 exist, otherwise the expected height.", "quantifier": "every volume", "why_tests_cant": "all volumes", "anchors": ["csu_radartools/csu_fhc_melt.py:get_ml_rhi"]}
{"id": "C37", "title": "PPI melting level falls back to the expected height", "statement": "get_ml_ppi gives each azimuth sector its own melting height: the median wet-snow height when enough wet snow is present and close to the expected height, and otherwise the expected height; it works for sweeps that do not cover all azimuths.", "quantifier": "every sweep", "why_tests_cant": "all sweeps", "anchors": ["csu_radartools/csu_fhc_melt.py:get_ml_ppi"]}
{"id": "C38", "title": "Blended S-band rain method selection is total and exact", "statement": "At S band every gate gets exactly one method code 1..5: with low ice fraction, 1 or 2 when dz and kdp reach their thresholds (by zdr threshold), else 3 or 4 (by zdr threshold); with high ice fraction, 2 when dz and kdp reach their thresholds, else 5; and the rain rate is that method's formula.", "quantifier": "every gate, thresholds, coefficients, NaN included", "why_tests_cant": "all float inputs", "anchors": ["csu_radartools/csu_blended_rain.py:calc_blended_rain"]}
{"id": "C39", "title": "Blended rain at other bands uses only R(Kdp) and R(Z)", "statement": "For any band but S, the method is 2 when dz and kdp reach their thresholds and 4 otherwise; zdr has no influence.", "quantifier": "every gate and zdr", "why_tests_cant": "all inputs", "anchors": ["csu_radartools/csu_blended_rain.py:calc_blended_rain"]}
{"id": "C40", "title": "Blended rain rates are finite and nonnegative", "statement": "With default coefficients, finite dz, zdr and kdp (any sign) give a finite nonnegative rain rate at every band, and a finite one also when kdp is NaN.", "quantifier": "every finite gate", "why_tests_cant": "powers of negative numbers are NaN; must never be selected", "anchors": ["csu_radartools/csu_blended_rain.py:calc_blended_rain", "csu_radartools/common.py"]}
{"id": "C41", "title": "NEXRAD cap", "statement": "R(Z) with cap never exceeds R(thresh), is nondecreasing in dz, and equals the uncapped relation up to the cap; hence methods 4 and 5 never exceed R(thresh_nexrad).", "quantifier": "every dz, cap and positive a, b", "why_tests_cant": "real-valued law", "anchors": ["csu_radartools/common.py:calc_rain_nexrad", "csu_radartools/csu_blended_rain.py:calc_blended_rain"]}
{"id": "C42", "title": "Rain retrievals are gatewise, keep shape and return scalars for scalars", "statement": "calc_blended_rain and csu_hidro_rain on concatenated gates equal the concatenated results; arrays keep their shape; scalar input gives the scalar result of the one-gate array; missing dz, zdr or kdp returns None; Zdp and ice fraction are returned only for ice_flag at S band.", "quantifier": "every split of every array", "why_tests_cant": "all partitions and shapes", "anchors": ["csu_radartools/csu_blended_rain.py:calc_blended_rain", "csu_radartools/csu_blended_rain.py:csu_hidro_rain", "csu_radartools/common.py:_check_for_array"]}
{"id": "C43", "title": "Rain rate does not depend on the number type of dz", "statement": "Passing dz as integers gives the same rain rate as passing the same values as floats.", "quantifier": "every integer dz", "why_tests_cant": "dtype-dependent truncation", "anchors": ["csu_radartools/csu_blended_rain.py:calc_blended_rain"]}
{"id": "C44", "title": "Hydrometeor-guided rain method selection", "statement": "csu_hidro_rain at S band: rain classes (1,2,10) get 1/2 (dz and kdp reached, by zdr), 3 (dz reached, kdp not, zdr reached) or 4 (otherwise); ice classes 5,7,8,9 get 2 when kdp is reached; every other gate gets method 0 and rate 0. Other bands: 2 with R(Kdp) when dz and kdp are reached, else 4 for rain classes, else rate 0.", "quantifier": "every gate and class", "why_tests_cant": "all inputs", "anchors": ["csu_radartools/csu_blended_rain.py:csu_hidro_rain"]}
{"id": "C45", "title": "csu_hidro_rain honours thresh_nexrad", "statement": "The thresh_nexrad argument of csu_hidro_rain caps R(Z).", "quantifier": "every threshold and gate", "why_tests_cant": "all values", "anchors": ["csu_radartools/csu_blended_rain.py:csu_hidro_rain"]}
{"id": "C46", "title": "Tropical blended rain method selection", "statement": "calc_blended_rain_tropical gives method 1/2 (dz and kdp reached, by zdr), 3 (not both reached, zdr reached), otherwise 4, or by rain type 5 (convective), 6 (stratiform), 4 (mixed), with -1 and zero rain for unknown type; dz < -10 gives zero rain and -1.", "quantifier": "every gate and rain type", "why_tests_cant": "all inputs", "anchors": ["csu_radartools/csu_blended_rain_tropical.py:calc_blended_rain_tropical"]}
{"id": "C47", "title": "Tropical rain marks non-hail ice as unclassified", "statement": "With a hydrometeor field, ice classes 3..9 get zero rain and method -1, except hail with dz and kdp reached, which gets R(Kdp) and method 2.", "quantifier": "every gate and class", "why_tests_cant": "all inputs", "anchors": ["csu_radartools/csu_blended_rain_tropical.py:calc_blended_rain_tropical"]}
{"id": "C48", "title": "Tropical rain returns a scalar for scalar input", "statement": "Scalar dz, zdr and kdp give scalar rain and method, as in the other rain functions.", "quantifier": "every scalar input", "why_tests_cant": "API symmetry on all inputs", "anchors": ["csu_radartools/csu_blended_rain_tropical.py:calc_blended_rain_tropical"]}
{"id": "C49", "title": "Unit conversions are mutually inverse", "statement": "z2dbz inverts dbz2z and conversely on positive z; kmh2si, mph2si and kts2si invert si2kmh, si2mph and si2kts; all are strictly increasing.", "quantifier": "every real", "why_tests_cant": "real-valued", "anchors": ["csu_radartools/common.py:dbz2z", "csu_radartools/common.py:z2dbz", "csu_radartools/common.py:si2kmh", "csu_radartools/common.py:si2mph", "csu_radartools/common.py:si2kts"]}
{"id": "C50", "title": "Knots conversion has the right size", "statement": "si2kts converts m/s to knots: one knot is 0.5144 m/s (0.51 in the code), so si2kts(0.51) is 1.", "quantifier": "every speed", "why_tests_cant": "real-valued", "anchors": ["csu_radartools/common.py:si2kts", "csu_radartools/common.py:kts2si"]}
{"id": "C51", "title": "S-band 2013 DSD retrieval is positive and finite", "statement": "calc_dsd(band='S', method='2013') gives D0 > 0, Nw > 0 finite and mu = 3 for all finite dz and zdr.", "quantifier": "every real dz and zdr", "why_tests_cant": "polynomial positivity on the whole real line", "anchors": ["csu_radartools/csu_dsd.py:calc_dsd_sband_bringi_2013"]}
{"id": "C52", "title": "C-band 2009 DSD retrieval is positive and finite", "statement": "calc_dsd(band='C') gives D0 > 0 and finite Nw > 0 for all finite dz and zdr.", "quantifier": "every real dz and zdr", "why_tests_cant": "real-valued", "anchors": ["csu_radartools/csu_dsd.py:calc_dsd_cband_bringi_2009"]}
{"id": "C53", "title": "2004 DSD methods are mutually exclusive", "statement": "In the 2004 retrieval at most one of the four methods applies at a gate, D0, Nw and mu all come from that method, and gates covered by none get zeros; where a method applies D0 and Nw are positive and finite.", "quantifier": "every gate", "why_tests_cant": "all reals, NaN included", "anchors": ["csu_radartools/csu_dsd.py:calc_dsd_sband_bringi_2004"]}
{"id": "C54", "title": "2004 DSD method 3 blends methods 2 and 4", "statement": "For 0.2 <= zdr < 0.5 D0 is a weighted mean of the method-2 and method-4 values with weights summing to one, so D0 is continuous at zdr = 0.5 and zdr = 0.2.", "quantifier": "every dz and zdr in the range", "why_tests_cant": "real-valued", "anchors": ["csu_radartools/csu_dsd.py:calc_d0_sband_method3"]}
{"id": "C55", "title": "calc_dsd argument contract", "statement": "A band other than S or C warns and returns None; scalar input gives scalar output; arrays keep their shape and are treated gatewise.", "quantifier": "every argument combination", "why_tests_cant": "combinatorial", "anchors": ["csu_radartools/csu_dsd.py:calc_dsd"]}
{"id": "C56", "title": "Water and ice mass are finite, nonnegative and follow the ice rules", "statement": "calc_liquid_ice_mass returns finite nonnegative masses for finite inputs; water is zero where zdr < 0; ice is zero exactly where the departure from the rain line is below the height-dependent threshold or zero.", "quantifier": "every finite gate, height, freezing level", "why_tests_cant": "all reals", "anchors": ["csu_radartools/csu_liquid_ice_mass.py:calc_liquid_ice_mass", "csu_radartools/csu_liquid_ice_mass.py:_liquid_ice_calcs"]}
{"id": "C57", "title": "calc_liquid_ice_mass honours method", "statement": "The method argument selects the rain line (cifelli, cr1995, otherwise Carey and Rutledge 2000) when fit coefficients are not given.", "quantifier": "every input", "why_tests_cant": "all inputs", "anchors": ["csu_radartools/csu_liquid_ice_mass.py:calc_liquid_ice_mass", "csu_radartools/csu_liquid_ice_mass.py:get_linear_fits"]}
{"id": "C58", "title": "Freezing altitude", "statement": "get_freezing_altitude returns the highest altitude at which T is exactly 0 if any; else, for soundings in which every level above freezing lies below every level below freezing, the altitude at which the piecewise-linear sounding crosses 0; the result always lies between the lowest and highest altitude of a sounding that has both signs.", "quantifier": "every sounding of every length", "why_tests_cant": "all soundings", "anchors": ["csu_radartools/csu_liquid_ice_mass.py:get_freezing_altitude"]}
{"id": "C59", "title": "Ice detection threshold by height", "statement": "The threshold is 1.1 above the freezing level and 2 + (8/3)(Hfrz - z) at or below it, hence at least 1.1 everywhere and nonincreasing with height; default freezing level is 4.5 when neither T nor Hfrz is given and a given Hfrz overrides T.", "quantifier": "every height and level", "why_tests_cant": "reals", "anchors": ["csu_radartools/csu_liquid_ice_mass.py:get_delta_thresh", "csu_radartools/csu_liquid_ice_mass.py:_get_hfrz"]}
{"id": "C60", "title": "Inverse pairs in fundamentals", "statement": "frequency/wavelength and pulse_length/pulse_duration are mutually inverse on positive arguments.", "quantifier": "every positive real", "why_tests_cant": "real", "anchors": ["csu_radartools/fundamentals.py:frequency", "csu_radartools/fundamentals.py:wavelength", "csu_radartools/fundamentals.py:pulse_length", "csu_radartools/fundamentals.py:pulse_duration"]}
{"id": "C61", "title": "Doppler dilemma is consistent with vmax and rmax", "statement": "vmax(prf, wl) * rmax(prf) = c*wl/8; doppler_dilemma maps vmax to rmax and rmax to vmax and is an involution; nyquist and unambiguous_range are aliases.", "quantifier": "every positive prf and wavelength", "why_tests_cant": "real", "anchors": ["csu_radartools/fundamentals.py:vmax", "csu_radartools/fundamentals.py:rmax", "csu_radartools/fundamentals.py:doppler_dilemma"]}
{"id": "C62", "title": "Beam blockage fraction is a fraction", "statement": "For terrain within a beam radius of the beam axis, beam_block_frac lies in [0,1], is 0 at the bottom, 1/2 on the axis, 1 at the top, is nondecreasing in terrain height and antisymmetric about the axis; outside that range it is NaN; it is the area of the beam disc below the terrain divided by the area of the disc.", "quantifier": "every real terrain, height and positive radius", "why_tests_cant": "transcendental real function", "anchors": ["csu_radartools/fundamentals.py:beam_block_frac"]}
{"id": "C63", "title": "Hail signature hdr is piecewise as published", "statement": "hdr = dbz - f(zdr) with f = 27 for zdr <= 0, 19 zdr + 27 for 0 < zdr <= 1.74, 60 above; f lies in [27, 60.06]; NaN zdr gives NaN.", "quantifier": "every real and NaN", "why_tests_cant": "reals", "anchors": ["csu_radartools/fundamentals.py:hdr"]}
{"id": "C64", "title": "Reflectivity difference zdp", "statement": "fundamentals.zdp is 10 log10(zh - zv) where zh > zv and NaN elsewhere; lengths that differ raise ValueError.", "quantifier": "every pair of floating-point arrays (integer arrays: C78)", "why_tests_cant": "reals", "anchors": ["csu_radartools/fundamentals.py:zdp"]}
{"id": "C65", "title": "Every public function of fundamentals can be called", "statement": "range_correct, reflectivity and vel_shift return a value for documented arguments (floats or arrays).", "quantifier": "every documented argument", "why_tests_cant": "for all inputs", "anchors": ["csu_radartools/fundamentals.py:range_correct", "csu_radartools/fundamentals.py:reflectivity", "csu_radartools/fundamentals.py:vel_shift"]}
{"id": "C66", "title": "Attenuation coefficients", "statement": "Extinction is absorption plus scattering; scattering is nonnegative and scales with the sixth power of diameter, absorption with the third; k_complex maps refractive index 1 to 0; with m = n - jk (n, k >= 0) absorption is nonnegative; all three raise ZeroDivisionError exactly when m**2 = -2.", "quantifier": "every diameter, wavelength and refractive index", "why_tests_cant": "reals", "anchors": ["csu_radartools/fundamentals.py:abs_coeff", "csu_radartools/fundamentals.py:scat_coeff", "csu_radartools/fundamentals.py:ext_coeff", "csu_radartools/fundamentals.py:k_complex"]}
{"id": "C67", "title": "Geometry relations", "statement": "ray_height equals h0 at range 0, and range + h0 when pointing straight up, increases with range for elevations in [0,90]; half_power_radius is half the arc subtended by the beamwidth; the ideal sample volume is the elliptic cylinder with the half-power radii and half the pulse length, and the Gaussian one is that times 1/(2 ln 2); the standard effective radius is positive and larger than the earth radius.", "quantifier": "every real argument in range", "why_tests_cant": "reals", "anchors": ["csu_radartools/fundamentals.py:ray_height", "csu_radartools/fundamentals.py:sample_vol_ideal", "csu_radartools/fundamentals.py:sample_vol_gauss", "csu_radartools/fundamentals.py:r_effective"]}
{"id": "C68", "title": "PPI wet-snow fraction is relative to the gates of the sector", "statement": "In get_ml_ppi a sector has enough wet snow when wet-snow gates are more than 0.05 percent of the sector's gates; then, if bright enough and close to the expected height, their median height is the sector's melting height.", "quantifier": "every sweep and sector", "why_tests_cant": "all sweeps; the threshold is a small fraction of large sectors", "anchors": ["csu_radartools/csu_fhc_melt.py:get_ml_ppi"]}
{"id": "C69", "title": "PPI gates are warm or cold, never in the melting level", "statement": "With azimuths given, get_ml_ppi assigns level 0 or 2 to every gate of a sweep with finite heights; level 1 never occurs (a gate exactly at the melting height is warm).", "quantifier": "every finite sweep", "why_tests_cant": "all sweeps", "anchors": ["csu_radartools/csu_fhc_melt.py:get_ml_ppi"]}
{"id": "C70", "title": "verbose does not change run_winter's result", "statement": "run_winter and melting_layer return the same result, or raise the same error, with verbose=True and verbose=False.", "quantifier": "every input and installed SciPy", "why_tests_cant": "all inputs and library versions", "anchors": ["csu_radartools/csu_fhc_melt.py:get_ml_rhi", "csu_radartools/csu_fhc.py:run_winter"]}
{"id": "C71", "title": "The KDP kernel returns on every ray with distinct ranges", "statement": "The compiled KDP kernel never raises on a ray whose gates have pairwise distinct real ranges, an odd positive std_gate and an even positive filter order: every gate gets a KDP, a filtered phase and a standard deviation. With all ranges equal the Cython kernel raises ZeroDivisionError (while the Fortran kernel does not).", "quantifier": "every ray length, phase, reflectivity, thresholds, number of passes and filter", "why_tests_cant": "all rays; the division is by a data-dependent determinant", "anchors": ["csu_radartools/calc_kdp_ray_fir.pyx:calc_kdp_ray_fir", "csu_radartools/calc_kdp_ray_fir.pyx:LSE", "csu_radartools/calc_kdp_ray_fir.f"]}
{"id": "C72", "title": "get_fir designs a symmetric positive filter of unit gain", "statement": "For every positive gate spacing and window for which get_fir succeeds, the coefficients are symmetric about the middle tap, all positive, and sum to one.", "quantifier": "every gate spacing and window", "why_tests_cant": "reals; all orders", "anchors": ["csu_radartools/csu_kdp.py:get_fir"]}
{"id": "C73", "title": "The radar equation is consistent", "statement": "The power returned by a target equals the power it intercepts (backscatter cross-section as area) spread over a sphere of the range's radius times the antenna's effective area; it is positive and falls with the fourth power of range.", "quantifier": "every power, gain, wavelength, cross-section and positive real range", "why_tests_cant": "reals, and integer overflow only at some ranges", "anchors": ["csu_radartools/fundamentals.py:power_return_target", "csu_radartools/fundamentals.py:power_target", "csu_radartools/fundamentals.py:ant_eff_area"]}
{"id": "C74", "title": "Decibel ratios", "statement": "antenna_gain, cdr, ldr and zdr of positive arguments: swapping the arguments negates the result, it is 0 exactly for equal arguments, ratios chain by adding, a factor ten adds 10 dB; no power in the first channel gives -infinity, none in the second +infinity.", "quantifier": "every positive real", "why_tests_cant": "reals", "anchors": ["csu_radartools/fundamentals.py:antenna_gain", "csu_radartools/fundamentals.py:cdr", "csu_radartools/fundamentals.py:ldr", "csu_radartools/fundamentals.py:zdr"]}
{"id": "C75", "title": "Thermal noise units", "statement": "thermal_noise in dBm is 10 log10 of the noise in W plus 30; units are not case sensitive; any other unit gives NaN.", "quantifier": "every positive bandwidth and temperature, every unit string", "why_tests_cant": "all strings and reals", "anchors": ["csu_radartools/fundamentals.py:thermal_noise"]}
{"id": "C76", "title": "Dual-PRF Nyquist velocity", "statement": "vmax_dual of distinct positive PRFs is v1 v2/(v2 - v1) with the single-PRF Nyquist velocities, changes sign when the PRFs are exchanged, exceeds both when prf1 < prf2 < 2 prf1; equal PRFs or a zero PRF raise ZeroDivisionError.", "quantifier": "every wavelength and pair of PRFs", "why_tests_cant": "reals", "anchors": ["csu_radartools/fundamentals.py:vmax_dual", "csu_radartools/fundamentals.py:dual_nyquist", "csu_radartools/fundamentals.py:vmax"]}
{"id": "C77", "title": "Rayleigh scattering relations", "statement": "xsec_bscatter_sphere grows with the sixth power of diameter and falls with the fourth power of wavelength; norm_xsec_bscatter_sphere is it divided by the geometric cross-section, which equals 4 K^2 alpha^4 with size_param alpha.", "quantifier": "every positive diameter and wavelength, every dielectric factor", "why_tests_cant": "reals", "anchors": ["csu_radartools/fundamentals.py:xsec_bscatter_sphere", "csu_radartools/fundamentals.py:norm_xsec_bscatter_sphere", "csu_radartools/fundamentals.py:size_param"]}
{"id": "C78", "title": "zdp does not depend on the dtype", "statement": "fundamentals.zdp of integer arrays equals that of float arrays with the same values.", "quantifier": "every pair of integer arrays", "why_tests_cant": "all arrays", "anchors": ["csu_radartools/fundamentals.py:zdp"]}
{"id": "C79", "title": "Per-range thresholds for 2-D data", "statement": "A 1-D vector of per-range thresholds is accepted by calc_kdp_bringi with 2-D data.", "quantifier": "every number of rays and every vector", "why_tests_cant": "all arrays", "anchors": ["csu_radartools/csu_kdp.py:calc_kdp_bringi", "csu_radartools/csu_kdp.py:get_fir"]}
{"id": "C80", "title": "csu_fhc_summer classifies with the linear method", "statement": "With the linear method any subset of variables containing dz and any flags return a classification.", "quantifier": "every subset of variables, flags and gates", "why_tests_cant": "combinatorial argument space", "anchors": ["csu_radartools/csu_fhc.py:csu_fhc_summer"]}
{"id": "C81", "title": "Trapezoids with the linear method", "statement": "With the linear method use_trap replaces the weighted temperature membership by the trapezoid, so scores stay within [-1,1] and use_temp=False still removes temperature.", "quantifier": "every finite gate and set of weights", "why_tests_cant": "reals", "anchors": ["csu_radartools/csu_fhc.py:_calculate_test_trap", "csu_radartools/csu_t_traps.py:get_hid_traps"]}
{"id": "C82", "title": "calc_dsd without input returns None", "statement": "Missing dz, zdr or kdp warns and returns None.", "quantifier": "every combination of missing fields, band and method", "why_tests_cant": "combinatorial argument space", "anchors": ["csu_radartools/csu_dsd.py:calc_dsd"]}
{"id": "C83", "title": "Freezing altitude of a sounding with inversions", "statement": "get_freezing_altitude returns the highest altitude at which the piecewise-linear sounding crosses 0, whatever the number of crossings.", "quantifier": "every sounding with both signs", "why_tests_cant": "all soundings", "anchors": ["csu_radartools/csu_liquid_ice_mass.py:get_freezing_altitude"]}
{"id": "C84", "title": "Integer ranges in the radar equation", "statement": "power_return_target of an integer range equals that of the float of the same value.", "quantifier": "every positive integer range", "why_tests_cant": "integer overflow only at some ranges", "anchors": ["csu_radartools/fundamentals.py:power_return_target", "csu_radartools/fundamentals.py:power_target", "csu_radartools/fundamentals.py:ant_eff_area"]}
{"id": "C85", "title": "The KDP window has its nominal width", "statement": "On a completely good ray KDP at a gate is half the slope of a fit over w consecutive gates around it, w being the nominal width.", "quantifier": "every good ray", "why_tests_cant": "all window placements", "anchors": ["csu_radartools/calc_kdp_ray_fir.pyx:calc_kdp_ray_fir", "csu_radartools/calc_kdp_ray_fir.pyx:LSE"]}
{"id": "C86", "title": "NaN reflectivity does not pick up its neighbours' window", "statement": "The adaptive window used for a gate is determined by that gate's own reflectivity also when it is NaN.", "quantifier": "every reflectivity profile", "why_tests_cant": "depends on values carried over from earlier iterations", "anchors": ["csu_radartools/calc_kdp_ray_fir.pyx:calc_kdp_ray_fir"]}
{"id": "C87", "title": "The Fortran kernel is memory safe and deterministic", "statement": "Called as calc_kdp_bringi calls it, with filter orders up to 332 and reflectivity that is bad or a number, the Fortran kernel stays inside its arrays and its result is a function of its arguments.", "quantifier": "every ray, threshold, number of passes; any memory contents", "why_tests_cant": "undefined behaviour can pass a test by luck", "anchors": ["csu_radartools/calc_kdp_ray_fir.pyx", "csu_radartools/calc_kdp_ray_fir.f"]}
{"id": "C88", "title": "A linear phase profile stays on its line through gaps and repeated filtering (Fortran kernel)", "statement": "With the Fortran kernel and the filter get_fir designs (symmetric, unit sum), if every gate of a ray of equally spaced gates is bad or lies on one straight line in range, then after any number of filter passes every filtered gate is bad or on the same line, and every KDP computed over a window of width 2 or more is bad or exactly half the slope: gap filling and re-filtering introduce no bias.", "quantifier": "every ray length, gap pattern, line, spacing, thresholds, number of passes, reflectivity profile, even filter order", "why_tests_cant": "ranges over all gap patterns and numbers of passes, and needs exact least-squares reasoning", "anchors": ["csu_radartools/calc_kdp_ray_fir.f", "csu_radartools/csu_kdp.py:calc_kdp_bringi"]}
{"id": "C89", "title": "KDP of a clean linear ray is half its slope (package built with the Fortran kernel)", "statement": "calc_kdp_bringi on a ray of good, linearly increasing phases returns; the standard deviation is |a s| sqrt(h(h+1)/3) away from the ends (std_gate = 2h+1); if that is within the threshold the filtered phase equals the phase at gates with order/2+h gates on both sides, and KDP is exactly half the slope at gates of good reflectivity with a further half window on both sides, for every number of passes of at least one.", "quantifier": "every gate spacing and window get_fir accepts with order >= 4, every line, spacing, ray length, reflectivity, threshold, number of passes", "why_tests_cant": "exact statement over all rays and filter designs", "anchors": ["csu_radartools/csu_kdp.py:calc_kdp_bringi", "csu_radartools/csu_kdp.py:get_fir", "csu_radartools/calc_kdp_ray_fir.f"]}
{"id": "C90", "title": "KDP of a clean linear ray is half its slope (package built with the Cython kernel)", "statement": "As C89, for the Cython kernel.  (False: the kernel reads the coefficients shifted by one and one beyond their end, so KDP is (1 - c0 + g) times half the slope, c0 the first coefficient and g the memory after the last.)", "quantifier": "as C89, one pass", "why_tests_cant": "exact statement over all rays and filter designs and memory contents", "anchors": ["csu_radartools/calc_kdp_ray_fir.pyx:calc_kdp_ray_fir", "csu_radartools/csu_kdp.py:calc_kdp_bringi"]}
{"id": "C91", "title": "Pure-Python KDP: roughness over the documented eleven gates", "statement": "In the pure-Python KDP routine the standard deviation of a good gate is that of the good phases among the eleven gates centred on it ('fixed @ 11 gates').  (False: ten gates, i-5 .. i+4, are used, and the last six gates of a ray, not five, get none.)", "quantifier": "every ray of phases, every gate", "why_tests_cant": "the window is wrong by one only on data whose roughness depends on the last gate; a statement over all rays", "anchors": ["csu_radartools/csu_kdp.py:_calc_kdp_ray", "csu_radartools/csu_kdp.py:_quick_std"]}
{"id": "C92", "title": "Pure-Python KDP: gates of a filter pass are independent", "statement": "Although a pass fills gaps in place, in the array the next gates read, the filtered phase of a gate depends only on the phases the pass started from, and the order in which gates are visited does not matter.", "quantifier": "every ray, mask, least-squares routine, every gate, every order of visits", "why_tests_cant": "aliasing: the slice is a view, and the overlap of windows depends on the pattern of gaps; must hold for all patterns and orders", "anchors": ["csu_radartools/csu_kdp.py:_calc_kdp_ray"]}
{"id": "C93", "title": "Pure-Python KDP is half the least-squares slope over the adaptive window", "statement": "KDP of a gate with filtered phase is half the slope of the least-squares line through the filtered gates among those of the window whose width is chosen from reflectivity (three, two or one half-filters), if at least 80% of that width is filtered and the window is inside the ray; otherwise it is the bad value.", "quantifier": "every ray, reflectivity, filter, number of passes", "why_tests_cant": "numeric statement over all rays", "anchors": ["csu_radartools/csu_kdp.py:_calc_kdp_ray", "csu_radartools/csu_kdp.py:_fit_line_and_get_kdp", "csu_radartools/csu_kdp.py:_leastsqrs", "csu_radartools/csu_kdp.py:_get_nadp_indices"]}
{"id": "C94", "title": "Pure-Python KDP: linear phase is preserved", "statement": "If phase is linear in range at the good gates, then for any pattern of gaps and any number of passes every filtered gate is on the line and every KDP is the bad value or half its slope; on a clean ray of small enough slope both are returned away from the ends.", "quantifier": "every line, spacing, gap pattern, number of passes, symmetric unit-gain filter", "why_tests_cant": "exact statement over all lines and gap patterns", "anchors": ["csu_radartools/csu_kdp.py:_calc_kdp_ray"]}
{"id": "C95", "title": "Pure-Python KDP always returns", "statement": "Given a least-squares routine that does not raise and a filter with as many coefficients as gates in its window, the routine returns, with one KDP, one filtered phase and one standard deviation per gate.", "quantifier": "every ray including NaNs and empty rays, every reflectivity, number of passes", "why_tests_cant": "totality over all inputs", "anchors": ["csu_radartools/csu_kdp.py:_calc_kdp_ray"]}
{"id": "C96", "title": "Pure-Python KDP: bad reflectivity gives bad KDP", "statement": "Gates with bad reflectivity get the bad value for KDP, as in the compiled kernels.  (False: a bad reflectivity counts as weak echo.)", "quantifier": "every ray, every gate", "why_tests_cant": "a statement over all rays", "anchors": ["csu_radartools/csu_kdp.py:_calc_kdp_ray", "csu_radartools/calc_kdp_ray_fir.f", "csu_radartools/calc_kdp_ray_fir.pyx"]}
{"id": "C97", "title": "Pure-Python KDP agrees with the compiled kernel", "statement": "On the same ray the pure-Python routine and the compiled (Fortran) kernel return the same filtered phase and KDP.  (False in general; holds on clean linear rays away from the ends.)", "quantifier": "every ray, filter, threshold, number of passes", "why_tests_cant": "equivalence of two programs over all inputs", "anchors": ["csu_radartools/csu_kdp.py:_calc_kdp_ray", "csu_radartools/calc_kdp_ray_fir.f"]}
{"id": "C98", "title": "Tropical rain uses the published relations", "statement": "With predef='True' at S, C or X band calc_blended_rain_tropical computes each method's rate from the Thompson et al. (2016) coefficients for that band, whatever coefficients the caller passes; thresholds are the caller's.", "quantifier": "all bands, gates with finite dz, zdr and positive kdp, all caller coefficients", "why_tests_cant": "exact statement over all gate values and all caller arguments", "anchors": ["csu_radartools/csu_blended_rain_tropical.py:calc_blended_rain_tropical"]}
{"id": "C99", "title": "Tropical rain rates are finite and nonnegative", "statement": "calc_blended_rain_tropical returns a finite nonnegative rate at every gate with finite dz and zdr, for any finite (also negative) or NaN kdp, with or without rain types and hydrometeor classes.", "quantifier": "all arrays of any shape, all parameters with positive kdp threshold and sane coefficients; the published ones at every band", "why_tests_cant": "universally quantified numeric statement; NaN intermediate values are masked out", "anchors": ["csu_radartools/csu_blended_rain_tropical.py:calc_blended_rain_tropical"]}
{"id": "C100", "title": "Plotted membership curves are the ones used", "statement": "With plot_flag=True one figure per species is drawn, named after the species and the band, whose six panels show at every plotted abscissa exactly the membership value the classifier computes there for that species.", "quantifier": "all seasons, bands, temperature factors and numbers of species for which plotting succeeds; every point of every panel", "why_tests_cant": "ranges over all temperature factors and every plotted point; the curve formula is duplicated in Python and Cython", "anchors": ["csu_radartools/beta_functions.py:plot_beta_functions", "csu_radartools/beta_functions.py:_get_beta_example", "csu_radartools/calc_kdp_ray_fir.pyx:hid_beta_f"]}
{"id": "C101", "title": "Plotting does not change the classification", "statement": "plot_flag=True does not change what csu_fhc_summer, csu_fhc_winter or csu_fhc_cold_newml1 return.", "quantifier": "all arguments and inputs", "why_tests_cant": "equality of two calls for all inputs; the failing cases depend on an option combination (no temperature, default n_types)", "anchors": ["csu_radartools/csu_fhc.py:csu_fhc_summer", "csu_radartools/csu_fhc_winter.py:csu_fhc_winter", "csu_radartools/csu_fhc_ml1.py:csu_fhc_cold_newml1", "csu_radartools/beta_functions.py:plot_beta_functions"]}
{"id": "C102", "title": "verbose does not change the classification", "statement": "verbose=True does not change what csu_fhc_summer, csu_fhc_winter or csu_fhc_cold_newml1 return or raise.", "quantifier": "all arguments and inputs", "why_tests_cant": "equality of two calls for all inputs, including empty arrays", "anchors": ["csu_radartools/csu_fhc.py:csu_fhc_summer", "csu_radartools/csu_fhc_winter.py:csu_fhc_winter", "csu_radartools/csu_fhc_ml1.py:csu_fhc_cold_newml1"]}
{"id": "C103", "title": "The public and compiled membership functions agree", "statement": "hid_beta (NumPy, public) and hid_beta_f (compiled, used for classification) return the same membership value for every gate and every parameter set with nonzero width; with zero width the compiled one raises ZeroDivisionError.", "quantifier": "all gate values (NaN and infinities included), all parameters, arrays of any length", "why_tests_cant": "equality of two implementations over all inputs", "anchors": ["csu_radartools/csu_fhc.py:hid_beta", "csu_radartools/csu_fhc_winter.py:hid_beta", "csu_radartools/calc_kdp_ray_fir.pyx:hid_beta_f"]}
{"id": "C104", "title": "run_winter's intermediate classes explain the final category", "statement": "With return_scores=True run_winter also returns the wet-snow, warm and cold classes. At every gate the final category is 5 exactly where the wet-snow class is 5, -1 where it is 0 or -1, and otherwise the warm class, the cold class or -1; the warm class is 6 or 7 and the cold class 1 to 4, each the best-scoring species of the returned scores.", "quantifier": "all inputs for which run_winter returns; every gate", "why_tests_cant": "relation between five returned arrays for all inputs, through in-place updates of shared arrays", "anchors": ["csu_radartools/csu_fhc.py:run_winter"]}
{"id": "C105", "title": "Forms of the standard-deviation threshold", "statement": "In calc_kdp_bringi a number as thsd behaves exactly like the constant float32 array of the shape of the data with that number; a Python list raises TypeError, and an array that is not float32 or has the wrong number of dimensions raises ValueError.", "quantifier": "all data, options, and threshold values; 1-D and 2-D", "why_tests_cant": "equality of two argument forms for every input, and rejection for every malformed one", "anchors": ["csu_radartools/csu_kdp.py:calc_kdp_bringi", "csu_radartools/calc_kdp_ray_fir.pyx:calc_kdp_ray_fir"]}
{"id": "C106", "title": "Scores stay in [0,1] whatever the rounding", "statement": "The membership functions and the scores of the summer, winter and melting-layer classifiers never leave [0,1] and are never NaN for finite gates, and the returned category is the first best of the scores, also in floating-point arithmetic where every operation rounds, overflows or underflows (binary32, binary64 or any larger format).", "quantifier": "all finite float inputs, subsets of variables, bands, usable weights, temp_factor between 2^-20 and 2^20, numbers of gates; every rounding satisfying the IEEE laws", "why_tests_cant": "bounds on rounded sums and quotients for every float input; one rounding in an unlucky direction would push a score above 1", "anchors": ["csu_radartools/csu_fhc.py:_get_test_list", "csu_radartools/csu_fhc_ml1.py:csu_fhc_cold_newml1", "csu_radartools/calc_kdp_ray_fir.pyx:hid_beta_f"]}
{"id": "C107", "title": "Class-guided rain rates are finite and nonnegative whatever the rounding", "statement": "csu_hidro_rain returns, for every array of hydrometeor classes and every band, only finite nonnegative rain rates when reflectivity and differential reflectivity are finite (at most 200 dB in size) and Kdp is NaN, -inf or any number up to 2^60; likewise calc_blended_rain and calc_blended_rain_tropical, also in floating-point arithmetic where every operation rounds.", "quantifier": "all shapes and sizes of arrays, all class arrays, bands, sane coefficients (in particular the defaults and the published ones); every rounding satisfying the IEEE laws", "why_tests_cant": "no NaN, infinity or negative rate for any float input, including negative and NaN Kdp, and any rounding", "anchors": ["csu_radartools/csu_blended_rain.py:csu_hidro_rain", "csu_radartools/csu_blended_rain.py:calc_blended_rain", "csu_radartools/csu_blended_rain_tropical.py:calc_blended_rain_tropical"]}
{"id": "C108", "title": "Calls do not change the caller's arrays", "statement": "insect_filter, second_trip_filter_magnetron, differential_phase_filter, despeckle, calc_blended_rain, csu_hidro_rain, calc_blended_rain_tropical, calc_dsd, calc_liquid_ice_mass, get_hid_traps, zdp and hdr leave every array that existed before the call as it was, also when the call raises and when one array is passed for several arguments; the arrays they return are new objects. The one exception: insect_filter with a mask and an empty list of thresholds returns that mask itself.", "quantifier": "all heaps of array objects, all (also equal or invalid) references for the arguments, all shapes, dtypes, parameters", "why_tests_cant": "a test checks the arrays it looks at after one call; that no statement of any branch ever writes to an object of the caller needs all heaps, all aliasing patterns and all exits", "anchors": ["csu_radartools/csu_misc.py:despeckle", "csu_radartools/csu_misc.py:insect_filter", "csu_radartools/csu_blended_rain.py:calc_blended_rain", "csu_radartools/csu_blended_rain.py:csu_hidro_rain", "csu_radartools/csu_blended_rain_tropical.py:calc_blended_rain_tropical", "csu_radartools/csu_dsd.py:calc_dsd", "csu_radartools/csu_liquid_ice_mass.py:calc_liquid_ice_mass", "csu_radartools/csu_t_traps.py:get_hid_traps", "csu_radartools/fundamentals.py:zdp", "csu_radartools/fundamentals.py:hdr"]}
{"id": "C109", "title": "Results depend only on the contents of the arguments", "statement": "For the functions of C108 the returned arrays hold exactly what the element-by-element description says for the contents of the arguments at the time of the call, whichever arguments are the same object and whatever other arrays exist; the functions raise exactly when that description says so.", "quantifier": "all heaps, all references (aliased or not) to arrays of the right kind, all shapes, dtypes, parameters", "why_tests_cant": "aliasing between arguments and results can only go wrong for particular combinations of objects; all of them are covered", "anchors": ["csu_radartools/csu_misc.py:despeckle", "csu_radartools/csu_misc.py:insect_filter", "csu_radartools/csu_blended_rain.py:calc_blended_rain", "csu_radartools/csu_blended_rain.py:csu_hidro_rain", "csu_radartools/csu_blended_rain_tropical.py:calc_blended_rain_tropical", "csu_radartools/csu_dsd.py:calc_dsd", "csu_radartools/csu_liquid_ice_mass.py:calc_liquid_ice_mass", "csu_radartools/csu_t_traps.py:get_hid_traps", "csu_radartools/fundamentals.py:zdp"]}
{"id": "C110", "title": "Documented default thresholds and coefficients of the rain retrievals", "statement": "With every keyword left at its default, calc_blended_rain, csu_hidro_rain and calc_blended_rain_tropical return, at each gate with finite observables, the method and the rate of one written-out numerical rule: thresholds 38 dBZ, 0.3 deg/km, 0.5 dB (0.25 dB tropical) and ice fraction 0.1, rates 90.8 Kdp^0.93 10^(-0.169 Zdr), 40.5 Kdp^0.85, 0.0067 Z^0.927 10^(-0.343 Zdr), (Z/300)^(1/1.4) capped at 53 dBZ, and the tropical ones 96.5726, 59.5202, 0.0085, Z = 216 R^1.39; with default coefficients the tropical predef switch has no effect at S band.", "quantifier": "all float arrays of one shape, all gates with finite values, all bands, all class arrays", "why_tests_cant": "a wrong default changes the result only on part of the domain; the rule has to hold at every gate value", "anchors": ["csu_radartools/csu_blended_rain.py:calc_blended_rain", "csu_radartools/csu_blended_rain.py:csu_hidro_rain", "csu_radartools/csu_blended_rain_tropical.py:calc_blended_rain_tropical", "csu_radartools/common.py"]}
{"id": "C111", "title": "Reading the shipped parameter files", "statement": "With fdir pointing at the parameter files as shipped, reading and parsing the files gives, for every season, band and temp_factor, exactly the membership tables used everywhere else, so csu_fhc_summer, csu_fhc_winter, csu_fhc_cold_newml1, melting_layer and run_winter return (or raise) the same; a band without files is a FileNotFoundError.", "quantifier": "all file systems in which fdir is as shipped, all directories, bands, seasons, arguments and inputs, any arithmetic", "why_tests_cant": "every call reads up to six of 54 files; which ones, and that each is read correctly for every argument, is not settled by a few calls", "anchors": ["csu_radartools/beta_functions.py:get_beta_set", "csu_radartools/beta_functions.py:get_mbf_sets_summer", "csu_radartools/beta_functions.py:get_mbf_sets_winter", "csu_radartools/beta_functions.py:get_mbf_sets_winterML", "csu_radartools/csu_fhc.py:csu_fhc_summer", "csu_radartools/csu_fhc_winter.py:csu_fhc_winter", "csu_radartools/csu_fhc_ml1.py:csu_fhc_cold_newml1", "csu_radartools/csu_fhc.py:run_winter", "csu_radartools/csu_fhc_melt.py:melting_layer"]}
{"id": "C112", "title": "Which parameter files a call reads", "statement": "A call reads only the five (six with temperature) files of its season and band in fdir: two file systems that agree on them give the same result, whatever else is in them. All five are read even for variables that are not supplied: if one is missing and the others are tables or missing, the call raises FileNotFoundError. run_winter reads the melting-layer files of band S and the winter files of band C, whatever band is requested.", "quantifier": "all file systems, directories, bands, seasons, arguments", "why_tests_cant": "independence from all other files is a statement about every file system", "anchors": ["csu_radartools/beta_functions.py:get_beta_set", "csu_radartools/beta_functions.py:get_mbf_sets_summer", "csu_radartools/beta_functions.py:get_mbf_sets_winter", "csu_radartools/beta_functions.py:get_mbf_sets_winterML", "csu_radartools/csu_fhc.py:csu_fhc_summer", "csu_radartools/csu_fhc_winter.py:csu_fhc_winter", "csu_radartools/csu_fhc_ml1.py:csu_fhc_cold_newml1", "csu_radartools/csu_fhc.py:run_winter", "csu_radartools/csu_fhc_melt.py:melting_layer"]}
{"id": "C113", "title": "Parameter files are read by column name and line", "statement": "A comma-separated file with columns named m, a and b is read as the numbers written in those columns, line by line: species names, order of columns, further columns, the notation of the numbers (signs, leading zeros, decimal point, exponent, blanks) and the line ends do not matter. Two directories with the same numbers classify alike.", "quantifier": "all sheets of any size, all decimal notations, all directories, seasons, bands, arguments, any arithmetic", "why_tests_cant": "round trip of a parser over all texts", "anchors": ["csu_radartools/beta_functions.py:get_beta_set", "csu_radartools/beta_functions.py:get_mbf_sets_summer", "csu_radartools/beta_functions.py:get_mbf_sets_winter", "csu_radartools/beta_functions.py:get_mbf_sets_winterML", "csu_radartools/csu_fhc.py:csu_fhc_summer", "csu_radartools/csu_fhc_winter.py:csu_fhc_winter", "csu_radartools/csu_fhc_ml1.py:csu_fhc_cold_newml1"]}
{"id": "C114", "title": "fdir with and without the separator at its end", "statement": "A parameter directory can be given as fdir with or without the separator at its end, with the same result.", "quantifier": "all file systems, directories and calls", "why_tests_cant": "False of the code (the path is fdir + name): without the separator the call looks for files beside the directory and, if there are none, raises FileNotFoundError for every argument", "anchors": ["csu_radartools/beta_functions.py:get_beta_set", "csu_radartools/beta_functions.py:get_mbf_sets_summer", "csu_radartools/beta_functions.py:get_mbf_sets_winter", "csu_radartools/beta_functions.py:get_mbf_sets_winterML", "csu_radartools/csu_fhc.py:csu_fhc_summer", "csu_radartools/csu_fhc_winter.py:csu_fhc_winter", "csu_radartools/csu_fhc_ml1.py:csu_fhc_cold_newml1"]}
{"id": "C115", "title": "Scores with parameter files of one's own", "statement": "With files of one's own, for any number of species (lines), every score of the three classifiers is the weighted bell score of the numbers in the files (temperature numbers divided by temp_factor), hence between 0 and 1 for weights that are not negative, and csu_fhc_summer's category is the lowest-numbered species with the highest score.", "quantifier": "all tables of any length with nonzero widths and positive slopes, all finite gates, weights, both methods", "why_tests_cant": "all tables and all gates", "anchors": ["csu_radartools/beta_functions.py:get_beta_set", "csu_radartools/beta_functions.py:get_mbf_sets_summer", "csu_radartools/beta_functions.py:get_mbf_sets_winter", "csu_radartools/beta_functions.py:get_mbf_sets_winterML", "csu_radartools/csu_fhc.py:csu_fhc_summer", "csu_radartools/csu_fhc_winter.py:csu_fhc_winter", "csu_radartools/csu_fhc_ml1.py:csu_fhc_cold_newml1"]}
{"id": "C116", "title": "n_types is the number of lines of the reflectivity file", "statement": "If csu_fhc_summer returns something for a nonempty reflectivity array, then n_types equals the number of lines of the reflectivity file that was read, scores have n_types rows, and categories lie between 1 and n_types.", "quantifier": "all file systems, directories, arguments, inputs, any arithmetic", "why_tests_cant": "all tables and arguments", "anchors": ["csu_radartools/beta_functions.py:get_beta_set", "csu_radartools/beta_functions.py:get_mbf_sets_summer", "csu_radartools/csu_fhc.py:csu_fhc_summer"]}
{"id": "C117", "title": "The water and ice masses are the published formulas, gate by gate", "statement": "For equal-shaped arrays (or scalars) with a finite freezing level, calc_liquid_ice_mass gives at every finite gate: water = 0 where zdr < 0; else 3.44e-3 Zr^(4/7) where the departure from the rain line reaches the threshold, with Zr the linear reflectivity lowered by the departure in dB; else 0.70e-3 Zh^0.886 (linear zdr)^-4.159. Ice = 1000 pi 917 (4e6)^(3/7) (5.28e-18 (Zh-Zr)/720)^(4/7) where the departure reaches the threshold, else 0. 0 < Zr <= Zh.", "quantifier": "all shapes, all real gates, heights, freezing levels and rain lines, any sounding", "why_tests_cant": "all real inputs", "anchors": ["csu_radartools/csu_liquid_ice_mass.py:calc_liquid_ice_mass", "csu_radartools/csu_liquid_ice_mass.py:_liquid_ice_calcs"]}
{"id": "C118", "title": "nsect is the number of azimuth sectors of a PPI", "statement": "get_ml_ppi (and so melting_layer and run_winter) divides the circle into nsect equal sectors of 360/nsect degrees, by default 36 sectors of 10 degrees, returns one height per sector, and the level of a gate follows the height of the sector of its azimuth.", "quantifier": "all sweeps and numbers of sectors of at least 2", "why_tests_cant": "all sweeps and azimuths", "anchors": ["csu_radartools/csu_fhc_melt.py:get_ml_ppi", "csu_radartools/csu_fhc.py:run_winter"]}
{"id": "C119", "title": "Parameter files with too few lines raise IndexError", "statement": "With parameter files of one's own, csu_fhc_summer and csu_fhc_cold_newml1 raise IndexError when the file of a variable that is used has fewer lines than the reflectivity file, and csu_fhc_winter when such a file has fewer than 4 lines (6 with warm); they never return a truncated result.", "quantifier": "all files with nonzero widths, all gates (also NaN and infinite), weights, n_types, both methods, verbose or not", "why_tests_cant": "all tables, gates and combinations of variables", "anchors": ["csu_radartools/beta_functions.py:get_beta_set", "csu_radartools/csu_fhc.py:csu_fhc_summer", "csu_radartools/csu_fhc_winter.py:csu_fhc_winter", "csu_radartools/csu_fhc_ml1.py:csu_fhc_cold_newml1"]}
{"id": "C120", "title": "Winter and melting-layer scores are the weighted means of the tables, gate by gate", "statement": "csu_fhc_winter gives, for the two warm or the four cold species in the order of the tables, the weighted mean (linear) or the product (hybrid) of the membership bells with that species' weights, and csu_fhc_cold_newml1 likewise for its two species; the scores of a gate depend on that gate only, and classifying two sets of gates together is classifying each.", "quantifier": "all numbers of gates and shapes, subsets of variables, bands, weights with positive total, methods; gatewise in any arithmetic", "why_tests_cant": "all real gates, all array lengths", "anchors": ["csu_radartools/csu_fhc_winter.py:csu_fhc_winter", "csu_radartools/csu_fhc_ml1.py:csu_fhc_cold_newml1"]}
{"id": "C121", "title": "Winter and melting-layer weights act only by ratio within a species", "statement": "Multiplying all the weights of a species by a positive number, a different one for each species if desired, changes neither scores nor errors of csu_fhc_winter and csu_fhc_cold_newml1.", "quantifier": "all inputs (finite or not), weights, positive factors per species", "why_tests_cant": "all weights and inputs", "anchors": ["csu_radartools/csu_fhc_winter.py:_get_weight_sum", "csu_radartools/csu_fhc_ml1.py:_get_weight_sum"]}
{"id": "C122", "title": "Failure contract of the winter and melting-layer classifiers", "statement": "Without reflectivity both return None; an unknown band raises FileNotFoundError; n_types other than 2 makes csu_fhc_cold_newml1 raise ValueError; the linear method without a polarimetric variable raises UnboundLocalError; the hybrid method returns scores for every set of variables with reflectivity.", "quantifier": "all inputs, arithmetic, weights", "why_tests_cant": "all inputs", "anchors": ["csu_radartools/csu_fhc_winter.py:csu_fhc_winter", "csu_radartools/csu_fhc_ml1.py:csu_fhc_cold_newml1"]}
{"id": "C123", "title": "Gates with a NaN in any used variable are not given a hydrometeor class", "statement": "A gate with a NaN in a supplied variable (dz, zdr, kdp, rho, ldr, T), whatever the weight of that variable, is not given a hydrometeor class by csu_fhc_summer or run_winter, and its scores show that it is invalid.", "quantifier": "all gates, subsets of variables, weights (also 0), bands, methods, scan types", "why_tests_cant": "all positions and kinds of missing values", "anchors": ["csu_radartools/csu_fhc.py:csu_fhc_summer", "csu_radartools/csu_fhc.py:run_winter", "csu_radartools/csu_fhc_winter.py:csu_fhc_winter", "csu_radartools/csu_fhc_ml1.py:csu_fhc_cold_newml1"]}
{"id": "C124", "title": "KDP under a change of units", "statement": "Measuring phase in another unit and from another reference (x -> lam x + c, bad value and thresholds likewise, lam > 0) and range in another unit and from another origin (r -> mu r + d, mu != 0) changes the result of calc_kdp_ray_fir (Cython) exactly as units do: filtered phase x -> lam x + c, standard deviation times lam, KDP times lam / mu, the same gates missing, the same exceptions.  (c != 0 needs a filter whose coefficients as read, times the gain, sum to 1.)", "quantifier": "every ray, gap pattern, number of passes, filter and change of units", "why_tests_cant": "an identity between two runs for all real inputs", "anchors": ["csu_radartools/calc_kdp_ray_fir.pyx:calc_kdp_ray_fir", "csu_radartools/calc_kdp_ray_fir.pyx:LSE"]}
{"id": "C125", "title": "KDP does not depend on the system phase", "statement": "Adding a constant to every phase that is not bad leaves KDP, the standard deviation and the gates that have a filtered phase unchanged.  (False: a shifted, filled or filtered phase can coincide with the bad value; and with several passes of a filter whose coefficients as read do not sum to 1, gates near the ends keep an earlier pass's phase and KDP follows the constant.  With at most one pass, or a filter keeping constants, it holds for all but finitely many constants.)", "quantifier": "every ray, gap pattern and constant", "why_tests_cant": "all real constants", "anchors": ["csu_radartools/calc_kdp_ray_fir.pyx:calc_kdp_ray_fir"]}
{"id": "C126", "title": "The filtered phase of a gate depends only on its own filter window", "statement": "With one pass, changing the phase of a gate outside the filter window of gate i does not change the filtered phase returned for gate i (standard deviations being equal).  (False in both kernels: gaps are filled in place by the first gate whose window reaches them, and later gates read the filled value.  What holds: for any number of passes, the filtered phase and the standard deviation of gate i depend only on the gates up to i + nf * order/2, plus (std_gate-1)/2 gates more of phase; and, with one pass, only on its window if every gate of the window passes quality control.)", "quantifier": "every ray, gap pattern, filter, pair of rays and gate", "why_tests_cant": "non-interference between two runs for all inputs", "anchors": ["csu_radartools/calc_kdp_ray_fir.pyx:calc_kdp_ray_fir", "csu_radartools/calc_kdp_ray_fir.f"]}
{"id": "C127", "title": "Arrays of another size than the reflectivity are rejected", "statement": "csu_fhc_summer, csu_fhc_winter and csu_fhc_cold_newml1 return a classification only if every supplied array has the shape of the reflectivity array.  (False: sizes are never compared.  A larger array is flattened and cut to its first gates, exactly as if the cut array had been passed; with a smaller array, e.g. one temperature or a profile, memory past its end is read; only use_trap with the linear method and a temperature array of another size raises ValueError.)", "quantifier": "all arrays, sizes, shapes, weights and flags, any arithmetic", "why_tests_cant": "all shapes and combinations of variables", "anchors": ["csu_radartools/csu_fhc.py:_populate_vars", "csu_radartools/calc_kdp_ray_fir.pyx:hid_beta_f", "csu_radartools/csu_fhc.py:_calculate_test_trap"]}
{"id": "C128", "title": "Phase that never decreases with range gives KDP that is never negative", "statement": "If the differential phases of a ray that are not missing never decrease with range and the filter coefficients and gain are not negative, no returned KDP is negative.  (False in both kernels: a missing gate is filled with the extrapolation of a straight line, the filtered phase then rises above every phase of the ray and falls back.  What holds: KDP always lies between half the smallest and half the largest slope of the filtered phase over the fit window, so it has the sign of a monotone filtered phase; and with no missing phase one pass gives KDP >= 0.)", "quantifier": "every ray, reflectivity, gap pattern, filter, threshold and gate", "why_tests_cant": "sign of a least-squares slope for all rays; a test shows single rays", "anchors": ["csu_radartools/calc_kdp_ray_fir.pyx:calc_kdp_ray_fir", "csu_radartools/calc_kdp_ray_fir.f"]}
{"id": "C129", "title": "Filtering does not overshoot", "statement": "If the filter coefficients that are read are not negative and keep a constant, every filtered phase lies between the smallest and the largest phase of the ray that is not missing.  (False in both kernels: filled gaps extrapolate.  What holds: with no missing phase, one pass leaves every filtered phase between the smallest and the largest phase of its own filter window.)", "quantifier": "every ray, gap pattern, filter, threshold and gate", "why_tests_cant": "bounds for all rays and filters", "anchors": ["csu_radartools/calc_kdp_ray_fir.pyx:calc_kdp_ray_fir", "csu_radartools/calc_kdp_ray_fir.f"]}
{"id": "C130", "title": "The ice fraction returned by calc_blended_rain is a fraction", "statement": "With ice_flag at S band, every ice fraction calc_blended_rain returns for finite gates lies in [0, 1].  (False: at 0 dBZ with zdr 10 dB it is negative.  What holds: it is 1 - 10^((L - dz)/10) with L the rain line at the gate's Zdp, so less than 1, and not negative exactly where dz reaches the rain line; a gate above -50 dBZ with zdr <= 0 always has ice fraction above 0.99 and so gets method 2 or 5.)", "quantifier": "every finite gate, array shape, parameter set and rain line", "why_tests_cant": "inequality over a continuum of gates and coefficients", "anchors": ["csu_radartools/csu_blended_rain.py:calc_blended_rain", "csu_radartools/csu_liquid_ice_mass.py:get_linear_fits"]}
{"id": "C131", "title": "More reflectivity or Kdp never means less rain", "statement": "Of two finite gates with the same zdr, the one with the larger (or equal) reflectivity and Kdp gets the larger (or equal) rain rate from calc_blended_rain.  (False: at 53 dBZ, band C, raising Kdp from 0.2 to 0.3 deg/km lowers the rate because the method changes from R(Z) to R(Kdp).  What holds: among gates that get the same method the rate never decreases with reflectivity or Kdp, and for the two methods that use zdr it never increases with zdr, for floating point and integer rain arrays, every band, all coefficients of the usual signs.)", "quantifier": "all pairs of finite gates, bands, shapes, coefficients of the usual signs", "why_tests_cant": "monotonicity relates all pairs of inputs", "anchors": ["csu_radartools/csu_blended_rain.py:calc_blended_rain", "csu_radartools/common.py:calc_rain_nexrad"]}
{"id": "C132", "title": "Winter classification with optional fields left out", "statement": "run_winter and melting_layer may be called without zdr, kdp, T or sn.  melting_layer then returns codes based on the supplied variables only (weights of missing ones leave numerator and divisor), and without sn no gate counts as weak signal.  run_winter does the same for the warm and cold species as long as zdr or kdp is supplied (without T the warm species are scored on reflectivity alone); without both it raises UnboundLocalError although melting_layer succeeds.", "quantifier": "every subset of the optional fields, every finite volume of any shape (RHI, grid, PPI without azimuths, covered sweep), threshold, expected height", "why_tests_cant": "all volumes and all subsets of optional fields", "anchors": ["csu_radartools/csu_fhc.py:run_winter", "csu_radartools/csu_fhc_melt.py:melting_layer"]}
{"id": "C133", "title": "From measurements through the classifier to class-guided rain", "statement": "If csu_fhc_summer returns classes for some fields and those classes are handed, with the same reflectivity and Zdr/Kdp of its shape, to csu_hidro_rain or calc_blended_rain_tropical, the rain call succeeds and keeps the shape; each gate is liquid (1, 2, 10), mixed (5, 7, 8, 9) or frozen (3, 4, 6). csu_hidro_rain at S band: liquid gates always get one of the methods 1-4, mixed gates R(Kdp) exactly when Kdp reaches its threshold and otherwise rate 0, frozen gates rate 0. Other bands: R(Kdp) wherever both thresholds are reached whatever the class, else R(Z) for liquid and rate 0 for all others. Tropical: non-liquid gates above -10 dBZ report method 2 and rain only for hail with both thresholds reached.", "quantifier": "every classifier input (any subset of fields, weights, band, method, NaN gates) for which classes are returned, every array shape, every parameter of the rain retrieval, any arithmetic", "why_tests_cant": "It links two functions over all inputs of both; a test would have to hit every class and threshold combination of the chain.", "anchors": ["csu_radartools/csu_fhc.py: csu_fhc_summer", "csu_radartools/csu_blended_rain.py: csu_hidro_rain", "csu_radartools/csu_blended_rain_tropical.py: calc_blended_rain_tropical"]}
{"id": "C134", "title": "Gates with missing Zdr and Kdp fall back to R(Z)", "statement": "With default parameters, a gate of valid reflectivity whose Zdr and Kdp are missing (the flag -32768 or NaN) gets the R(Z) rate and method 4.", "quantifier": "every band, array shape, gate values; every retrieval", "why_tests_cant": "Missing values meet every comparison and formula of the retrieval; the claim is about all reflectivities.", "anchors": ["csu_radartools/csu_blended_rain.py: calc_blended_rain, csu_hidro_rain, _get_sband", "csu_radartools/csu_blended_rain_tropical.py: calc_blended_rain_tropical"]}
{"id": "C135", "title": "radar_const is the constant of the weather radar equation", "statement": "For a sample volume (sample_vol_gauss with pulse length c tau) filled with drops of any diameters, the sum of power_return_target over the drops (each with xsec_bscatter_sphere as cross-section) equals radar_const * K^2 * Z / r^2, Z being the sum of the sixth powers of the diameters per volume; losses of a and b dB multiply the constant by 10^((a+b)/10); with the package's pulse_length (c tau / 2) the sample volume is half as large.", "quantifier": "every transmitted power, gain, pulse width, wavelength, beamwidths, range, dielectric factor and every finite list of drop diameters", "why_tests_cant": "An identity between four functions for all parameters and all drop populations; tests fix one radar.", "anchors": ["csu_radartools/fundamentals.py: radar_const, power_return_target, xsec_bscatter_sphere, sample_vol_gauss, pulse_length"]}
{"id": "C136", "title": "Backscatter and scattering cross-sections of a sphere agree", "statement": "With the documented dielectric factor of a particle (|K|^2: 0.93 for water, 0.176 for ice) xsec_bscatter_sphere is the Rayleigh backscatter cross-section, 3/2 of scat_coeff of the same sphere.", "quantifier": "every diameter, wavelength and complex refractive index", "why_tests_cant": "It compares two formulas for all refractive indices.", "anchors": ["csu_radartools/fundamentals.py: xsec_bscatter_sphere, scat_coeff, k_complex"]}
{"id": "C137", "title": "Parameter files without one of the columns", "statement": "If one of the parameter files a classifier reads has no column m, a or b - or has that name over its first column, which names the species - the call raises: KeyError if the other cells are numbers. It never classifies with another column in its place.", "quantifier": "for every well-formed file with either kind of line end, every position of the other columns, every season, band and input", "why_tests_cant": "the files are the user's own; there is no bound on their columns, lines or cells", "anchors": ["csu_radartools/beta_functions.py:get_beta_set", "csu_radartools/beta_functions.py:get_mbf_sets_summer", "csu_radartools/csu_fhc.py:csu_fhc_summer"]}
{"id": "C138", "title": "Classifier calls do not change the caller's arrays", "statement": "csu_fhc_summer, csu_fhc_winter and csu_fhc_cold_newml1 leave every array that existed before the call as it was, whether or not they raise and also if one array is passed for several arguments; the score arrays and the category array they return are new objects, and errors and contents depend only on the contents of the arguments.", "quantifier": "for every heap of array objects, every way of sharing them between the arguments, every band, method, weights, flags and array size", "why_tests_cant": "aliasing patterns and contents are unbounded; a test only sees the arrays it passes", "anchors": ["csu_radartools/csu_fhc.py:csu_fhc_summer", "csu_radartools/csu_fhc.py:_populate_vars", "csu_radartools/csu_fhc.py:_get_test_list", "csu_radartools/csu_fhc_winter.py:csu_fhc_winter", "csu_radartools/csu_fhc_ml1.py:csu_fhc_cold_newml1"]}
{"id": "C139", "title": "melting_layer and run_winter do not change the caller's arrays; the arrays run_winter returns are separate objects", "statement": "melting_layer and run_winter leave every array of the caller as it was - also the data and the mask of a masked rho, and also if they raise or if one array is passed for several arguments. The level, category and score arrays they return are new objects; the combined categories of run_winter and the three category arrays of its dictionary are four different objects, although wet snow is renumbered in place. Errors and contents depend only on the contents of the arguments.", "quantifier": "for every heap of array objects, every way of sharing them between the arguments, arrays of one shape, every scan type, sector count, threshold and expected height", "why_tests_cant": "aliasing patterns, contents and sizes are unbounded", "anchors": ["csu_radartools/csu_fhc.py:run_winter", "csu_radartools/csu_fhc_melt.py:melting_layer", "csu_radartools/csu_fhc_melt.py:get_ml_rhi", "csu_radartools/csu_fhc_melt.py:get_ml_ppi"]}
{"id": "C140", "title": "The filter scales with the window and is bell-shaped", "statement": "For every gate spacing and window for which get_fir returns a filter, its coefficients are samples of one fixed bell-shaped function of the position in the window (up to the factor that makes them sum to one): filters for different gate spacings or windows have the same shape, and the coefficients rise strictly from the ends to the middle.", "quantifier": "for every pair of positive gate spacings and windows with an even order, and every coefficient", "why_tests_cant": "gate spacing, window and the number of coefficients are unbounded", "anchors": ["csu_radartools/csu_kdp.py:get_fir"]}
{"id": "C141", "title": "Values under a mask do not influence the result", "statement": "When the measurands are NumPy masked arrays (the documentation asks for them), the categories of csu_fhc_summer, the scores of csu_fhc_winter and csu_fhc_cold_newml1 and the KDP of calc_kdp_bringi depend only on the unmasked values: changing what lies under a mask changes nothing.", "quantifier": "for every set of masked inputs, every mask and every pair of contents that agree where not masked", "why_tests_cant": "number of gates, masks and hidden contents are unbounded", "anchors": ["csu_radartools/csu_fhc.py:_populate_vars", "csu_radartools/csu_fhc.py:csu_fhc_summer", "csu_radartools/csu_fhc_winter.py:_populate_vars", "csu_radartools/csu_fhc_ml1.py:_populate_vars", "csu_radartools/csu_kdp.py:calc_kdp_bringi"]}
{"id": "C142", "title": "Trapezoids do not depend on the dtype of the temperatures", "statement": "get_hid_traps gives the same temperature scores for an array of whole-degree temperatures whether the array holds integers or floats.", "quantifier": "for every type number and every array of whole-degree temperatures", "why_tests_cant": "arrays are unbounded", "anchors": ["csu_radartools/csu_t_traps.py:get_hid_traps", "csu_radartools/csu_t_traps.py:t_trap_ha"]}
{"id": "C143", "title": "Class-guided rain never decreases with reflectivity or Kdp", "statement": "In csu_hidro_rain, of two finite gates of the same class and zdr, the one with the larger (or equal) reflectivity and Kdp gets the larger (or equal) rain rate.", "quantifier": "for every band, every class, every array size and every pair of finite gates", "why_tests_cant": "reals and arrays are unbounded; the claim ranges over pairs of gates", "anchors": ["csu_radartools/csu_blended_rain.py:csu_hidro_rain"]}
{"id": "C144", "title": "Tropical rain never decreases with reflectivity or Kdp", "statement": "In calc_blended_rain_tropical with the published coefficients, of two finite gates of the same rain type, class and zdr, the one with the larger (or equal) reflectivity and Kdp gets the larger (or equal) rain rate.", "quantifier": "for every published band, every rain type and class, every array size and every pair of finite gates", "why_tests_cant": "reals and arrays are unbounded; the claim ranges over pairs of gates", "anchors": ["csu_radartools/csu_blended_rain_tropical.py:calc_blended_rain_tropical"]}
{"id": "C145", "title": "KDP outputs are float32", "statement": "Every number that calc_kdp_bringi returns (KDP, filtered phase, standard deviation) is exactly representable in float32, whatever the precision of the inputs.", "quantifier": "for every number of rays and gates, every data (NaN and infinities included), every filter, threshold and bad value, both kernels, and every rounding that satisfies the IEEE rules", "why_tests_cant": "the values of all gates of all rays in all data sets; a test sees single inputs", "anchors": ["csu_radartools/csu_kdp.py:calc_kdp_bringi", "csu_radartools/calc_kdp_ray_fir.pyx:calc_kdp_ray_fir", "csu_radartools/calc_kdp_ray_fir.f:calc_kdp_ray_fir"]}
{"id": "C146", "title": "Phase standard deviation with rounding", "statement": "In floating point too, no returned standard deviation is negative, and where all good phases of a gate's window are equal and more than half of the window is good it is exactly 0.", "quantifier": "for every ray, both kernels, every odd window up to 2^24 gates, every IEEE rounding", "why_tests_cant": "rounding errors depend on all the values; the claim is for every ray and every window", "anchors": ["csu_radartools/calc_kdp_ray_fir.pyx:calc_kdp_ray_fir", "csu_radartools/calc_kdp_ray_fir.f:calc_kdp_ray_fir"]}
{"id": "C147", "title": "No ZeroDivisionError in the KDP fit, in floating point", "statement": "With pairwise distinct ranges (none of them the bad value) the Cython kernel of calc_kdp_bringi returns a result, also when its single precision arithmetic is taken into account.", "quantifier": "for every ray, phase, threshold, number of passes, even order and window, in IEEE double precision with float32 stores", "why_tests_cant": "whether the rounded determinant vanishes depends on all ranges of a window; infinitely many rays", "anchors": ["csu_radartools/calc_kdp_ray_fir.pyx:LSE", "csu_radartools/calc_kdp_ray_fir.pyx:calc_kdp_ray_fir"]}
{"id": "C148", "title": "Accuracy of KDP in floating point", "statement": "KDP of constant phase is 0 (more generally, KDP is half the least-squares slope of the filtered phase), also in the single precision arithmetic that the Cython kernel uses.", "quantifier": "for every ray with increasing ranges, every gate and every set of good gates in its window, in IEEE double precision with float32 stores", "why_tests_cant": "rounding errors depend on every sample; a bound must hold for all of them", "anchors": ["csu_radartools/calc_kdp_ray_fir.pyx:LSE", "csu_radartools/calc_kdp_ray_fir.pyx:calc_kdp_ray_fir"]}
{"id": "C149", "title": "Any value can mark missing data", "statement": "The argument bad only names the value that marks missing gates: marking them with another value (a number that does not occur in the data, or NaN) and passing that value as bad gives the same masks (insect_filter, second_trip_filter_magnetron, despeckle) and the same KDP, filtered phase and standard deviation (calc_kdp_bringi), up to the mark.", "quantifier": "for every array with any pattern of missing gates and every two marks", "why_tests_cant": "the mark is compared with computed values too, so the claim concerns all data, all gap patterns and all marks", "anchors": ["csu_radartools/csu_misc.py:insect_filter", "csu_radartools/csu_misc.py:second_trip_filter_magnetron", "csu_radartools/csu_misc.py:despeckle", "csu_radartools/calc_kdp_ray_fir.pyx:calc_kdp_ray_fir", "csu_radartools/calc_kdp_ray_fir.f:calc_kdp_ray_fir"]}
{"id": "C150", "title": "calc_kdp_bringi leaves the caller's arrays alone and returns new ones", "statement": "Whatever calc_kdp_bringi is called with - 1-D or 2-D arrays, the same array passed for several arguments, a number or an array of thresholds (which the kernel reads without a copy) - every array of the caller has the same contents after the call, whether it returns or raises. It returns three new, different arrays, with the values that the value model of the function computes, row by row for 2-D data, and raises what that raises.", "quantifier": "all heaps of array objects, all argument shapes and aliasings, all thresholds, filters, kernels (Cython and Fortran), numbers of passes, lengths and contents", "why_tests_cant": "The kernel writes element by element into its work arrays while it reads its arguments, through several passes; that no write reaches an argument for any aliasing, and that the in-place loops compute what the equations say, ranges over all programs' heaps.", "anchors": ["csu_radartools/csu_kdp.py: calc_kdp_bringi", "csu_radartools/calc_kdp_ray_fir.pyx: calc_kdp_ray_fir"]}
{"id": "C151", "title": "A small error in the phase gives a small error in KDP", "statement": "If two calls of calc_kdp_bringi's kernel differ only in the phases, then at a gate where the same gates of the window keep a filtered phase and those filtered phases differ by at most eps, KDP is missing in both or differs by at most eps/2 * sum|r-rbar| / sum (r-rbar)^2 over the good gates; for N gates a distance s apart with none missing that is 3 N eps / (2 (N^2-1) s), and this bound is attained. With no missing phases and one pass of a nonnegative filter that keeps constants, phases that differ by at most eps give filtered phases that differ by at most eps, so the same bound holds from the phases put in. In full (phases with gaps) the filter step is false: filling a gap extrapolates a line and magnifies the error; phases at most 50 apart give filtered phases 60 apart.", "quantifier": "all pairs of rays that differ in their phases, all gates, window widths, ranges, reflectivities, gaps and numbers of passes (for the KDP step), both kernels, exact arithmetic", "why_tests_cant": "A bound on the change of the output ranges over all pairs of inputs; tests compare a few.", "anchors": ["csu_radartools/calc_kdp_ray_fir.pyx:calc_kdp_ray_fir", "csu_radartools/calc_kdp_ray_fir.f:calc_kdp_ray_fir", "csu_radartools/csu_kdp.py:calc_kdp_bringi"]}
{"id": "C152", "title": "A window of an even number of gates is accepted", "statement": "get_fir (and calc_kdp_bringi) accept every filter window that is an even number n > 0 of gates, whatever the gate spacing, and make a filter of order n with n+1 taps; the outcome depends on n only. An odd number gives no filter (calc_kdp_bringi returns None, None, None), a window shorter than one gate or a negative even one ValueError, a spacing of 0 ZeroDivisionError. In floating point the first claim is false: for gates of 149.9 m and a window of 2.0986 km (14 gates) the order is truncated to 13 and calc_kdp_bringi returns None, None, None. For windows of whole kilometres it holds; for any spacing from 1 mm to 1000 km and any even n up to a million the filter made is the right one or none.", "quantifier": "all gate spacings, windows and data (exact arithmetic); all rational spacings and windows in range, rounded to double precision (floating point)", "why_tests_cant": "Whether truncation of a rounded quotient hits the right integer must be settled for all spacings and windows; tests use 150 m and 3 km, where it does.", "anchors": ["csu_radartools/csu_kdp.py:get_fir", "csu_radartools/csu_kdp.py:calc_kdp_bringi"]}
{"id": "C153", "title": "A single ZDR or class value beside arrays acts as that value in every gate", "statement": "Calling calc_blended_rain or csu_hidro_rain with an array of reflectivity (and an array of KDP) and one number for ZDR, or one hydrometeor class for csu_hidro_rain, gives the rain and method arrays of the call in which an array filled with that number is passed. One number for KDP beside an array of reflectivity raises.", "quantifier": "every parameter set, band, array shape and content (NaN included), every value, and both kinds of number (plain Python number, NumPy scalar)", "why_tests_cant": "the outcome depends on the Python type of the number, the band, the threshold and every gate; a test uses one combination", "anchors": ["csu_radartools/csu_blended_rain.py:calc_blended_rain", "csu_radartools/csu_blended_rain.py:csu_hidro_rain", "csu_radartools/common.py:_check_for_array"]}
{"id": "C154", "title": "Numbers beside arrays in the tropical rain function act as that value in every gate", "statement": "Calling calc_blended_rain_tropical with arrays of reflectivity and KDP and one number for ZDR, for the rain type or for the hydrometeor class gives the rain and method arrays of the call with arrays filled with those numbers.", "quantifier": "every coefficient set, predef setting and band, every array shape and content (NaN included), every value and both kinds of number (plain Python number, NumPy scalar), with or without rain types and classes", "why_tests_cant": "the outcome depends on the Python type of the number, the band, predef and every gate; a test uses one combination", "anchors": ["csu_radartools/csu_blended_rain_tropical.py:calc_blended_rain_tropical"]}
{"id": "C155", "title": "Arguments of other shapes, and numbers beside arrays, in the water and ice masses", "statement": "calc_liquid_ice_mass pairs arrays gate by gate: arrays with as many values as the reflectivity are read in memory order whatever their shape, one number or one-element array stands for that value at every gate, and any other number of values (ZDR, altitudes, temperatures) is refused with an exception.", "quantifier": "every shape, content (NaN included) and number of values of each argument, plain and NumPy numbers, with or without temperatures, freezing level and rain line", "why_tests_cant": "the outcome depends on the lengths of four arguments, on the Python type of the numbers and on which optional arguments are given; a test uses one combination", "anchors": ["csu_radartools/csu_liquid_ice_mass.py:calc_liquid_ice_mass", "csu_radartools/csu_liquid_ice_mass.py:get_freezing_altitude", "csu_radartools/csu_liquid_ice_mass.py:_liquid_ice_calcs"]}
{"id": "C156", "title": "Numbers and arrays mixed in calc_dsd", "statement": "calc_dsd called with an array of reflectivity and one number for ZDR or KDP gives the result of the call with arrays filled with those numbers; KDP of any kind is irrelevant to the 2013 S-band and the C-band retrievals.", "quantifier": "both bands, every method string, every array shape and content (NaN included), every number, plain Python or NumPy", "why_tests_cant": "the outcome depends on band, method, the Python type of each number and which argument is an array", "anchors": ["csu_radartools/csu_dsd.py:calc_dsd", "csu_radartools/common.py:_check_for_array"]}
{"id": "C157", "title": "Water and ice masses stay finite and nonnegative in floating point", "statement": "In single or double precision, however the operations round, calc_liquid_ice_mass on arrays of one shape with reflectivities from -200 to 200 dBZ and differential reflectivities from -200 to 50 dB returns two arrays of that shape whose every element is a finite, nonnegative number (no NaN, no infinity, nothing negative from cancellation in 'total minus rain'), whatever the heights (NaN included), the sounding and the freezing level; water is exactly 0 where zdr < 0. The rain line may be the published one or any finite line with nonzero slope.", "quantifier": "every floating-point format and rounding meeting the IEEE-style axioms (instances: binary32, binary64), every shape and every array contents in the stated ranges, every height, sounding, freezing level and rain line", "why_tests_cant": "Overflow, underflow and cancellation depend on every bit pattern of three arrays; tests sample a few values in exact-looking ranges.", "anchors": ["csu_radartools/csu_liquid_ice_mass.py:calc_liquid_ice_mass", "csu_radartools/csu_liquid_ice_mass.py:_liquid_ice_calcs", "csu_radartools/csu_liquid_ice_mass.py:calc_zdp"]}
{"id": "C158", "title": "Drop-size retrievals are accurate in floating point", "statement": "In single or double precision, with every operation rounded, at every gate with a reflectivity from -40 to 100 dBZ and a differential reflectivity from -8 (S band; -0.5 for C band) to 20 dB, calc_dsd (S band 2013 and C band 2009) gives a D0 within 0.1 % and an Nw within 1 % of the published formulas evaluated in exact arithmetic; both are positive and finite and mu is exactly 3. Other gates (NaN, out of range) and Kdp have no influence.", "quantifier": "every floating-point format and rounding meeting the IEEE-style axioms (instances: binary32, binary64), every shape, every array contents, every gate in the stated range", "why_tests_cant": "Cancellation in the cubic and quartic polynomials and error growth through the power 7.46 depend on every bit pattern; tests sample a few values with a tolerance.", "anchors": ["csu_radartools/csu_dsd.py:calc_dsd", "csu_radartools/csu_dsd.py:calc_dsd_sband_bringi_2013", "csu_radartools/csu_dsd.py:calc_dsd_cband_bringi_2009", "csu_radartools/csu_dsd.py:d0_low_zdr", "csu_radartools/csu_dsd.py:d0_high_zdr"]}
{"id": "C159", "title": "Rain rates are accurate in floating point", "statement": "In single or double precision, with every operation rounded, at every gate with finite fields (reflectivity from -40 to 100 dBZ, differential reflectivity from -8 to 20 dB, Kdp at most 1000 degrees per km, negative Kdp included), calc_blended_rain and csu_hidro_rain with their default coefficients return, wherever the reported method is 1 to 4, a finite positive rate within 0.1 % of the published formula of that method (R(Kdp,Zdr), R(Kdp), R(Z,Zdr), R(Z) capped at 53 dBZ) evaluated in exact arithmetic. With classes, the gates without rain have rate exactly 0.", "quantifier": "every floating-point format and rounding meeting the IEEE-style axioms (instances: binary32, binary64), every shape, every array contents, every gate in the stated range, every band, every class array", "why_tests_cant": "The error of a power depends on the rounding of its base, of its exponent literal and of the power itself for every bit pattern; tests compare a few values with a tolerance.", "anchors": ["csu_radartools/csu_blended_rain.py:calc_blended_rain", "csu_radartools/csu_blended_rain.py:csu_hidro_rain", "csu_radartools/common.py:calc_rain_kdp_zdr", "csu_radartools/common.py:calc_rain_kdp", "csu_radartools/common.py:calc_rain_z_zdr", "csu_radartools/common.py:calc_rain_nexrad"]}
{"id": "C160", "title": "Tropical rain rates are accurate in floating point", "statement": "In single or double precision, with every operation rounded, calc_blended_rain_tropical with predef='True' at S, C or X band and the default Kdp threshold (other parameters free), at every gate with finite fields (reflectivity from -40 to 100 dBZ, differential reflectivity from -8 to 20 dB, Kdp at most 1000 degrees per km, negative Kdp included): method -1 has rate exactly 0, every other method a finite positive rate within 0.1 % of its published relation evaluated in exact arithmetic, except ice classes (3 to 9, reported as method 2), which may have no rain.", "quantifier": "every floating-point format and rounding meeting the IEEE-style axioms (instances: binary32, binary64), the three bands, every shape, every array contents, every rain-type and class array or their absence, every gate in the stated range", "why_tests_cant": "The error of a power depends on the rounding of its base, of its exponent (itself a rounded quotient here) and of the power itself for every bit pattern; tests compare a few values with a tolerance.", "anchors": ["csu_radartools/csu_blended_rain_tropical.py:calc_blended_rain_tropical", "csu_radartools/common.py:calc_rain_kdp_zdr", "csu_radartools/common.py:calc_rain_kdp", "csu_radartools/common.py:calc_rain_z_zdr", "csu_radartools/common.py:calc_rain_zr"]}
{"id": "C161", "title": "Rain fields of different lengths never give a misaligned answer", "statement": "With one-dimensional arrays, calc_blended_rain and csu_hidro_rain return a result exactly when Kdp has as many gates as the reflectivity, the classes as many or one, and at S band Zdr as many or one; every other combination of lengths raises an exception whatever the arrays contain (reflectivity of one gate beside longer arrays included). A Zdr or class array of one element acts as that value in every gate, and at bands other than S neither the values nor the length of Zdr have any influence. calc_blended_rain_tropical returns a result exactly when Kdp and the hydrometeor classes have as many gates as the reflectivity, and Zdr and the rain types as many or one.", "quantifier": "every band, every set of parameters, every three or four one-dimensional arrays of any lengths (empty ones included) and contents", "why_tests_cant": "The functions never compare sizes: the outcome depends on broadcasting rules and boolean-index checks along the whole body, for every combination of lengths and contents.", "anchors": ["csu_radartools/csu_blended_rain.py:calc_blended_rain", "csu_radartools/csu_blended_rain.py:csu_hidro_rain", "csu_radartools/common.py:_check_for_array", "csu_radartools/csu_blended_rain_tropical.py:calc_blended_rain_tropical"]}
{"id": "C162", "title": "Drop-size fields of different lengths raise, and selecting gates is computing gate by gate", "statement": "With one-dimensional arrays at S or C band, calc_dsd returns a result exactly when ZDR has as many gates as the reflectivity and, for the 2004 retrieval, KDP too (one-element arrays are not repeated, not even against each other's lengths); otherwise it raises IndexError, or ValueError when the 2004 retrieval cannot broadcast the three lengths, whatever the arrays contain. When it returns, selecting the gates of each method, computing on the selection and writing the results back gives the values of the gate-by-gate computation, and the KDP array has no influence (neither values nor length) on the retrievals that do not use it. At an unknown band None is returned whatever the lengths.", "quantifier": "every band and method, every three one-dimensional arrays of any lengths (empty ones included) and contents", "why_tests_cant": "The functions never compare sizes: the outcome depends on broadcasting and on the length check of every boolean index, and the write-back on the number of gates each mask selects, for every combination of lengths and contents.", "anchors": ["csu_radartools/csu_dsd.py:calc_dsd", "csu_radartools/csu_dsd.py:calc_dsd_sband_bringi_2004", "csu_radartools/csu_dsd.py:calc_dsd_sband_bringi_2013", "csu_radartools/csu_dsd.py:calc_dsd_cband_bringi_2009"]}
{"id": "C163", "title": "Membership values are accurate in floating point", "statement": "Whatever the precision of the arithmetic, every value hid_beta_f returns is within 0.001 of 1/(1+(((x-m)/a)^2)^b) evaluated exactly on the same numbers, however far the measurement is from the centre (including where the power overflows) and however close to it (including where the square underflows), as long as the measurement and the parameters are finite and of moderate size (up to 2^20), the width at least 2^-20 and the exponent from 1/2 to 100; every usable row of the shipped parameter files is such a parameter set.", "quantifier": "every binary floating-point format at least as large as binary32 (and exact arithmetic), every array of measurements, every such m, a and b, every row of the 54 shipped files", "why_tests_cant": "The exponent (up to 100 in the shipped files) magnifies rounding errors, and the intermediate results overflow and underflow; no finite set of measurements shows the bound for all of them.", "anchors": ["csu_radartools/calc_kdp_ray_fir.pyx:hid_beta_f", "csu_radartools/beta_functions.py:get_beta_set"]}
{"id": "C164", "title": "Classification scores and categories are accurate in floating point", "statement": "With return_scores=True, csu_fhc_summer called with temp_factor 1 (trapezoids off for method='linear') returns scores that differ by at most 0.004 from the scores computed exactly from the same inputs, weights and stored membership parameters: the weighted mean of the memberships (linear), or the weighted mean over the supplied polarimetric variables times the membership of reflectivity, times that of temperature if it is supplied and used (hybrid). Without return_scores, the category returned at a gate has an exact score within 0.008 of the best exact score, and a species whose exact score exceeds all others by more than 0.008 is the one returned.", "quantifier": "every band, both methods, every subset of variables for which the call succeeds, every gate whose values are finite and up to 2^20 in magnitude, whatever the other gates hold, all weights from 0 to 2^20 with total at least 2^-20 where a mean is taken, every precision and rounding with an accurate power", "why_tests_cant": "rounding errors differ with every input and every platform; a test compares a few gates with the same float computation", "anchors": ["csu_radartools/csu_fhc.py:csu_fhc_summer", "csu_radartools/csu_fhc.py:_calculate_test", "csu_radartools/csu_fhc.py:_get_test_list", "csu_radartools/calc_kdp_ray_fir.pyx:hid_beta_f"]}
{"id": "C165", "title": "Winter and melting-layer scores are accurate in floating point", "statement": "csu_fhc_winter (without rho and ldr, temp_factor 1) returns, for each species of the chosen regime in order (rows 4-5 of the winter parameter file when warm, rows 0-3 when cold), scores within 0.004 of the scores computed exactly from the same inputs, weights and stored parameters; the melting-layer classifier csu_fhc_cold_newml1 returns two rows of scores with the same accuracy.", "quantifier": "every band and regime, both methods, every subset of variables for which the call succeeds, every gate whose values are finite and up to 2^20 in magnitude, whatever the other gates hold, all per-species weights from 0 to 2^20 with total at least 2^-20 where a mean is taken, every precision and rounding with an accurate power", "why_tests_cant": "rounding errors differ with every input and platform", "anchors": ["csu_radartools/csu_fhc_winter.py:csu_fhc_winter", "csu_radartools/csu_fhc_ml1.py:csu_fhc_cold_newml1", "csu_radartools/beta_functions.py:get_mbf_sets_winter"]}
{"id": "C166", "title": "Wet snow is detected right in floating point", "statement": "Whenever melting_layer returns, at every gate whose correlation is usable (unmasked, not NaN, above minRH) and whose signal is not below sn_thresh, and whose values are finite and up to 2^20 in size, the code is 2 (wet snow) if the exact weighted mean of the wet-snow memberships (weights 4, 7 and 14 for reflectivity, differential reflectivity and correlation) exceeds that of the other class by more than 0.008, and 1 if it is the other way round; whenever run_winter returns, its category at such a gate is 5 in the first case and not 5 in the second.", "quantifier": "every successful call of melting_layer and run_winter, every gate, whatever the other gates hold (NaN, infinities, masked values), every precision and rounding with an accurate power", "why_tests_cant": "a rounding error near a tie could flip the class; no finite set of gates shows that it cannot flip it away from a tie", "anchors": ["csu_radartools/csu_fhc_melt.py:melting_layer", "csu_radartools/csu_fhc.py:run_winter", "csu_radartools/csu_fhc_ml1.py:csu_fhc_cold_newml1"]}
{"id": "C167", "title": "The warm and cold winter classes are right in floating point", "statement": "Whenever run_winter returns, at every gate whose supplied reflectivity, temperature, differential reflectivity and specific differential phase are finite and up to 2^20 in size (with at least one of the last two supplied), the returned warm class is 6 or 7 and the returned cold class 1 to 4, and no other class of the same group has an exact score (default weights, C-band parameters) larger by more than 0.008.", "quantifier": "every successful call of run_winter, every gate, whatever the other gates hold, every precision and rounding with an accurate power", "why_tests_cant": "a rounding error near a tie could flip the class; no finite set of gates shows that it cannot flip it away from a tie", "anchors": ["csu_radartools/csu_fhc.py:run_winter", "csu_radartools/csu_fhc_winter.py:csu_fhc_winter"]}
