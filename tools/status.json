{
 "C01": [
  "proved",
  "all threshold tables, masks and floats"
 ],
 "C02": [
  "proved",
  "finite dz and zdr; default tables"
 ],
 "C03": [
  "proved",
  ""
 ],
 "C04": [
  "proved",
  "1-D, 2-D and dispatch"
 ],
 "C05": [
  "proved",
  "idempotence needs bad == bad (bad is not NaN)"
 ],
 "C06": [
  "partial",
  "false of the code: negation proved with witness; what holds instead (run longer than ngates) is proved as _partial"
 ],
 "C07": [
  "partial",
  "false in full (Cython reads one past the filter coefficients; the 500-element buffers can overflow); safe with one coefficient more, and every filtering call proved to over-read"
 ],
 "C08": [
  "partial",
  "false in full (reads foreign/uninitialised memory); proved when the arrays are as large as the kernel assumes and reflectivity is classified"
 ],
 "C09": [
  "proved",
  ""
 ],
 "C10": [
  "proved",
  ""
 ],
 "C100": [
  "proved",
  "Every plotted point equals hid_beta_f at that abscissa; figure count, names and panel order."
 ],
 "C101": [
  "partial",
  "False as stated: without temperature plot_flag=True raises TypeError; the winter default n_types=7 exceeds the 6 rows and raises. Proved equal with temperature in use and n_types within the tables."
 ],
 "C102": [
  "partial",
  "False for an array without elements (mu.max() raises). Proved for every non-empty array, including the exceptions raised."
 ],
 "C103": [
  "proved",
  "In any arithmetic of the model (the compiled function works in single precision, which the model does not distinguish)."
 ],
 "C104": [
  "proved",
  "In any arithmetic, whenever the call returns."
 ],
 "C105": [
  "proved",
  "scalar thsd equals the constant float32 vector/array; lists and float64 or wrong-dimension arrays are rejected. A NumPy float64 scalar under NumPy 2 promotion is not modelled."
 ],
 "C106": [
  "proved",
  "also C18_float_*, C20_float*, C21_float_*, C31_float*: theorems for every IeeeFloat, instances binary32/64"
 ],
 "C107": [
  "proved",
  "with rounding (every IeeeFloat, instances binary32/64); float arrays"
 ],
 "C108": [
  "proved",
  "all heaps, all references; partially overlapping views are not modelled"
 ],
 "C109": [
  "proved",
  "refinement of the value models; despeckle needs 0 == 0 and not 1 == 0, which hold in every format (zero_one_facts)"
 ],
 "C11": [
  "proved",
  ""
 ],
 "C110": [
  "proved",
  "XR; float arrays, gates with finite observables; the numbers are written out in the statement"
 ],
 "C111": [
  "proved",
  "All five entry points, any arithmetic; the shipped directory is a hypothesis on the file system, satisfied by installedAt."
 ],
 "C112": [
  "proved",
  "Congruence for every entry point; missing files by cases."
 ],
 "C113": [
  "proved",
  "Parser inverts the specified writing; consequences for the three classifiers."
 ],
 "C114": [
  "partial",
  "Full statement false (C114_full_false); proved: without a matching file beside the directory every call with reflectivity raises FileNotFoundError."
 ],
 "C115": [
  "proved",
  "Exact score formula for arbitrary tables; trapezoids off."
 ],
 "C116": [
  "proved",
  "Any arithmetic, any files."
 ],
 "C117": [
  "proved",
  "exact masses in real numbers, arrays and scalars"
 ],
 "C118": [
  "partial",
  "false of the code: np.linspace(0, 360, nsect) has nsect edges, so nsect-1 sectors; negation and exact rule proved"
 ],
 "C119": [
  "proved",
  "exact error for all three classifiers"
 ],
 "C12": [
  "proved",
  ""
 ],
 "C120": [
  "proved",
  "Exact scores in real arithmetic for finite gates; gatewise in any arithmetic."
 ],
 "C121": [
  "proved",
  "Real arithmetic with NaN and infinities."
 ],
 "C122": [
  "proved",
  ""
 ],
 "C123": [
  "partial",
  "False of the code: such gates get class 1 (summer), 1 or 6 (run_winter); their scores are NaN."
 ],
 "C124": [
  "proved",
  "Cython kernel"
 ],
 "C125": [
  "partial",
  "full statement false (C125_collision_full_false, C125_two_passes_full_false); proved for all but finitely many offsets when nf <= 1 or the coefficients as read keep a constant"
 ],
 "C126": [
  "partial",
  "false in both kernels: gaps are filled in place (C126_full_false, C126_fortran_full_false); C126_prefix_partial (any gaps and passes: gates up to i + nf*order/2), C126_clean_window_partial"
 ],
 "C127": [
  "partial",
  "false of the code (C127_full_false): sizes are not compared; exact behaviour proved for larger arrays (all classifiers), short arrays (summer, hybrid) and the trapezoid option"
 ],
 "C128": [
  "partial",
  "False of the code, proved for both kernels (C128_full_false, C128_fortran_full_false). Proved instead: KDP lies between half the extreme pairwise slopes of the filtered phase of the window, and with no missing phase and one pass a nondecreasing phase gives KDP >= 0."
 ],
 "C129": [
  "partial",
  "False of the code, proved for both kernels (C129_full_false, C129_fortran_full_false): filled gaps overshoot. Proved instead: with no missing phase one pass stays within the bounds of its window."
 ],
 "C13": [
  "proved",
  ""
 ],
 "C130": [
  "partial",
  "False of the code (C130_full_false). Proved instead: exact closed form, always below 1, nonnegative exactly where dz reaches the rain line; zdr <= 0 gates are ice."
 ],
 "C131": [
  "partial",
  "False of the code (C131_full_false): the rate drops where the method switches. Proved instead: monotone among gates given the same method."
 ],
 "C132": [
  "proved",
  "All 16 subsets of {zdr, kdp, T, sn}."
 ],
 "C133": [
  "proved",
  "three theorems: S band, other bands, tropical retrieval"
 ],
 "C134": [
  "partial",
  "False at S band in calc_blended_rain (negation proved): flagged Zdr makes Zdp its floor of -120 dB, the ice fraction close to 1, method 5 and a rate under 1e-8 mm/h however strong the echo; NaN Zdr gives method 5 and rate NaN. Proved: R(Z) at every other band, in csu_hidro_rain for liquid classes at every band, and in the tropical retrieval; and, for every parameter and arithmetic, Kdp (Zdr) below threshold never selects a relation using it."
 ],
 "C135": [
  "proved",
  "real arithmetic; rounding not considered"
 ],
 "C136": [
  "partial",
  "False (negation proved): the code squares the factor again, so with |K|^2 the cross-section is too small by the factor |K|^2. Proved: with the amplitude |K| as factor it is exactly 3/2 of scat_coeff."
 ],
 "C137": [
  "proved",
  "Raised from a wrong-program test (dropping index_col=0 was not noticed before)."
 ],
 "C138": [
  "proved",
  ""
 ],
 "C139": [
  "proved",
  "Arrays of one shape (no broadcasting), as in the value model."
 ],
 "C14": [
  "proved",
  ""
 ],
 "C140": [
  "proved",
  "Raised from a wrong-program test (a wrong Gaussian width was not noticed before)."
 ],
 "C141": [
  "partial",
  "False of the code: np.array() drops the mask (C141_full_false, C141_kdp_full_false). Proved: agreement at gates masked in no variable, and bad KDP where the reflectivity under the mask is the bad value."
 ],
 "C142": [
  "partial",
  "False of the code (C142_full_false): np.zeros_like inherits the integer dtype, so every fraction is cut off; exact rule, the hail consequence and agreement on whole-number values proved."
 ],
 "C143": [
  "partial",
  "False of the code (C143_full_false: rain at 53 dBZ, Kdp 0.2->0.3 lowers the rate). Proved: monotone within a method, and always monotone for classes other than 1, 2, 10."
 ],
 "C144": [
  "partial",
  "False of the code (C144_full_false: at 60 dBZ raising Kdp 0.2->0.3 lowers the rate). Proved: monotone within a method for every coefficient set of the usual signs (published_increasing: all three bands qualify)."
 ],
 "C145": [
  "proved",
  ""
 ],
 "C146": [
  "proved",
  ""
 ],
 "C147": [
  "partial",
  "False of the code (C147_full_false: gates at 150.00, 150.01, ..., 150.10 make the float32 determinant 0 and the kernel raises ZeroDivisionError). Proved: it returns whenever gate spacing s and largest range H satisfy 12(3.1N+4)H\u00b2 <= 1.6e7 s\u00b2(N\u00b2-1) for the possible sample counts N, e.g. order 20 and H <= 1700 s (C147_gates_125m: 125 m gates to 200 km). Reflectivity must not be NaN."
 ],
 "C148": [
  "partial",
  "False of the code (C148_full_false: gates at 60.00, 60.01, ..., 60.10 with constant phase 100.1 give KDP 1). Proved: |KDP - slope/2| <= 12(3.1N+7)H(Phi+|slope|H)/(1.6e7 s^2(N^2-1)) + 2^-99 for resolved ranges up to H, gate spacing >= s and phases in [0, Phi]; missing: negative phases, and the Fortran kernel."
 ],
 "C149": [
  "partial",
  "False of the code for NaN (C149_nan_full_false, C149_kdp_nan_full_false) and for a number that happens to equal a filtered phase (C149_kdp_collision_full_false). Proved: the filters treat all numbers alike; all but finitely many numbers give one and the same KDP result; exact behaviour of the filters with NaN; with NaN no gap is tolerated in a KDP window."
 ],
 "C15": [
  "proved",
  ""
 ],
 "C150": [
  "proved",
  ""
 ],
 "C151": [
  "partial",
  "C151_filter_error_partial and C151_phase_error_partial need rays without missing phases and one pass; the KDP step (C151_kdp_error, C151_kdp_error_spacing) is unconditional given the filtered phases. The full statement with gaps is false (C151_full_false, C151_fortran_full_false)."
 ],
 "C152": [
  "partial",
  "Exact arithmetic: proved in full (C152_outcomes, C152_even_accepted). Double precision: false (C152_full_false, C152_valid_window_rejected); C152_whole_km_partial and C152_right_or_none_partial hold."
 ],
 "C153": [
  "partial",
  "The full claim is false of the code and its negation is proved: `~cond_zdr` on a Python bool is -1 or -2, so at S band method 2 overwrites 1 and 4 overwrites 3. Proved: the claim for NumPy scalars, other bands and values below the threshold; the exact outcome otherwise; class numbers; KDP numbers always raise."
 ],
 "C154": [
  "partial",
  "The full claim is false of the code and its negation is proved (`~` on a Python bool; tuple coefficients). Proved: NumPy ZDR scalars and values below the threshold outside predefined S band, classes and rain types always, the exact outcome for Python numbers. A NumPy ZDR scalar with the tuple coefficients of predef='True' at S band is not modelled."
 ],
 "C155": [
  "partial",
  "The full claim is false of the code and both negations are proved: a plain Python number raises AttributeError, a NumPy number for ZDR raises IndexError, and more temperatures than altitudes are accepted. Proved: equal numbers of values in any shapes, one altitude, necessary conditions for a result, the exceptions, and the effect of surplus temperatures for soundings with both signs."
 ],
 "C156": [
  "partial",
  "The full claim is false of the code and its negation is proved. Proved: KDP of any kind is irrelevant without the 2004 method, and the exception of every other mixed call. A NumPy ZDR number beside an array in the retrievals without KDP is not modelled."
 ],
 "C157": [
  "proved",
  "powers are only assumed on the right side of 0 and 1 and accurate to a factor of two within 2^-100..2^100; ZDR is limited to 50 dB"
 ],
 "C158": [
  "proved",
  "powers are assumed right within 2^-20 for results up to 2^100; the exact formulas are sD0, cD0, sNw, cNw over the reals"
 ],
 "C159": [
  "proved",
  "method 5 (rain line) is excluded; powers are assumed right within 2^-20 for results from 2^-77 to 2^90; reflectivity arrays are floating (an integer dtype truncates the rate on assignment)"
 ],
 "C16": [
  "proved",
  ""
 ],
 "C160": [
  "proved",
  "powers are assumed right within 2^-20 for results from 2^-77 to 2^90; reflectivity arrays are floating"
 ],
 "C161": [
  "proved",
  "one-dimensional arrays; unequal shapes of more axes are not modelled; fit_a without fit_b raises TypeError at S band"
 ],
 "C162": [
  "proved",
  "one-dimensional arrays; unequal shapes of more axes are not modelled"
 ],
 "C163": [
  "proved",
  "Binary formats and exact arithmetic are proved to satisfy IeeeFloatPow; the parameters are taken as the floats they are stored as"
 ],
 "C164": [
  "proved",
  "exact score stated with an explicit list of averaged variables and 1/(1+((x-m)/a)^2^b) over the reals; the parameters are those stored in the chosen float format, which C164_stored bounds against the numbers of the files"
 ],
 "C165": [
  "proved",
  "rho and ldr are excluded because the winter tables have no usable rows for them"
 ],
 "C166": [
  "proved",
  "the example is a gate at the centres of wet snow, where run_winter is shown to give 5"
 ],
 "C167": [
  "proved",
  "C-band because run_winter hard-codes it (see C34)"
 ],
 "C17": [
  "partial",
  "false in full; std (in exact arithmetic) and unfiltered phase agree, KDP agrees on linear phase and even width"
 ],
 "C18": [
  "proved",
  "exact arithmetic; bounds and centre also with rounding"
 ],
 "C19": [
  "proved",
  "complete shipped tables"
 ],
 "C20": [
  "proved",
  "finite gates, any supplied subset for which the call succeeds (see C25); exact arithmetic, and with rounding (C20_float)"
 ],
 "C21": [
  "proved",
  "range and shape in any arithmetic; NaN-aware argmax, also with rounding"
 ],
 "C22": [
  "proved",
  "any arithmetic in which no table width is zero"
 ],
 "C23": [
  "proved",
  "also any positive weights, any temp_factor, any one variable dropped"
 ],
 "C24": [
  "proved",
  "every input including NaN/inf and failing calls; linear+trapezoid excluded (there it is false, see C26)"
 ],
 "C25": [
  "proved",
  ""
 ],
 "C26": [
  "proved",
  ""
 ],
 "C27": [
  "partial",
  "false of the code: all three parameters are divided by temp_factor; exact scores proved"
 ],
 "C28": [
  "partial",
  "false of the code: NaN reflectivity gets category 1; proved for every call; all ten scores are NaN"
 ],
 "C29": [
  "proved",
  "all ten types, every finite temperature, float dtype"
 ],
 "C30": [
  "partial",
  "false of the code: negation proved; exactly types 7 and 8 are continuous (proved as _partial)"
 ],
 "C31": [
  "proved",
  "needs zdr or kdp (else the call raises, proved); finite inputs; also with rounding"
 ],
 "C32": [
  "partial",
  "false as stated: the rho/ldr tables are NaN so every score is NaN (proved for all inputs)"
 ],
 "C33": [
  "proved",
  "category contract for every input in any arithmetic; closed form for finite RHI/grid volumes"
 ],
 "C34": [
  "partial",
  "false: the band argument is ignored (proved); tables used are S (wet snow) and C (warm/cold)"
 ],
 "C35": [
  "proved",
  "for every input in any arithmetic; rho must be a masked array (proved)"
 ],
 "C36": [
  "proved",
  "finite heights and expected height; levels consistent with the returned height in any arithmetic; failure cases proved"
 ],
 "C37": [
  "partial",
  "false: the fallback is 0, not the expected height, and uncovered sectors raise ZeroDivisionError (both proved)"
 ],
 "C38": [
  "proved",
  ""
 ],
 "C39": [
  "proved",
  ""
 ],
 "C40": [
  "proved",
  "real arithmetic with NaN; C40_float*: with rounding, float arrays"
 ],
 "C41": [
  "proved",
  ""
 ],
 "C42": [
  "proved",
  ""
 ],
 "C43": [
  "partial",
  "false of the code (int dz truncates rain); negation proved, and the exact truncation relation"
 ],
 "C44": [
  "proved",
  ""
 ],
 "C45": [
  "partial",
  "false of the code (thresh_nexrad never passed on); negation proved, fixed 53 dBZ cap proved"
 ],
 "C46": [
  "proved",
  ""
 ],
 "C47": [
  "partial",
  "false of the code (ice gates reported as method 2); negation proved, actual rule proved"
 ],
 "C48": [
  "partial",
  "false of the code (one-element arrays returned for scalars); negation proved"
 ],
 "C49": [
  "proved",
  "exact arithmetic on finite values"
 ],
 "C50": [
  "partial",
  "false of the code (si2kts multiplies by 0.51 instead of dividing); negation proved, the actual conversion proved"
 ],
 "C51": [
  "proved",
  ""
 ],
 "C52": [
  "partial",
  "false of the code (zdr < -0.5 gives D0 = 0, infinite Nw); negation proved with the whole failing region; positivity proved for zdr >= -0.5"
 ],
 "C53": [
  "proved",
  ""
 ],
 "C54": [
  "partial",
  "false of the code (weights do not sum to one); negation and the actual formula proved"
 ],
 "C55": [
  "proved",
  ""
 ],
 "C56": [
  "proved",
  ""
 ],
 "C57": [
  "partial",
  "false of the code (method never reaches get_linear_fits): negation proved; always-cifelli proved"
 ],
 "C58": [
  "proved",
  "all-one-sign case returns the polyfit intercept (C58_one_sign)"
 ],
 "C59": [
  "proved",
  ""
 ],
 "C60": [
  "proved",
  ""
 ],
 "C61": [
  "proved",
  ""
 ],
 "C62": [
  "proved",
  ""
 ],
 "C63": [
  "proved",
  ""
 ],
 "C64": [
  "proved",
  ""
 ],
 "C65": [
  "partial",
  "false: range_correct and reflectivity always raise NameError, vel_shift raises TypeError unless both arguments are arrays; array case proved"
 ],
 "C66": [
  "proved",
  ""
 ],
 "C67": [
  "proved",
  ""
 ],
 "C68": [
  "partial",
  "false: each gate is counted twice, so the threshold is 0.1 percent (proved)"
 ],
 "C69": [
  "proved",
  ""
 ],
 "C70": [
  "partial",
  "False as stated: with SciPy >= 1.11 verbose=True raises on an RHI with more than 10 wet-snow gates (C70_full_false), and on an empty volume (mu.max()). Proved: equal for non-empty volumes with older SciPy and for PPIs; a verbose call that returns always returns what the silent one does."
 ],
 "C71": [
  "proved",
  ""
 ],
 "C72": [
  "proved",
  ""
 ],
 "C73": [
  "proved",
  ""
 ],
 "C74": [
  "proved",
  ""
 ],
 "C75": [
  "proved",
  ""
 ],
 "C76": [
  "proved",
  ""
 ],
 "C77": [
  "proved",
  ""
 ],
 "C78": [
  "partial",
  "false; what integer arrays give is proved exactly"
 ],
 "C79": [
  "partial",
  "false: always raises, proved for every 2-D array"
 ],
 "C80": [
  "partial",
  "false: exact success condition proved"
 ],
 "C81": [
  "partial",
  "false: negations, exact scores and a bound for temperature weight >= 1 proved"
 ],
 "C82": [
  "partial",
  "false: NameError for every such call, proved"
 ],
 "C83": [
  "partial",
  "false for inversions (negation proved); C58 covers single crossings; C83_exact_partial gives the exact rule for every mixed-sign sounding"
 ],
 "C84": [
  "partial",
  "false above 55108 m (int64 overflow), proved up to it"
 ],
 "C85": [
  "partial",
  "false of the Cython kernel (drops a gate; widths 1, 3, 5 never give KDP), proved"
 ],
 "C86": [
  "partial",
  "false: negation proved; C13 covers numbers; C86_nan_as_previous_partial / C86_nan_uses_junk_partial give the exact rule"
 ],
 "C87": [
  "proved",
  ""
 ],
 "C88": [
  "proved",
  "Fortran kernel, exact arithmetic"
 ],
 "C89": [
  "proved",
  "Fortran kernel, exact arithmetic; get_fir on real numbers"
 ],
 "C90": [
  "partial",
  "false of the code: C90_full_false; the exact factor is C90_exact_factor_partial"
 ],
 "C91": [
  "partial",
  "False as stated (C91_full_false): ten gates i-5..i+4, not eleven; the partial theorem gives the exact value."
 ],
 "C92": [
  "proved",
  "Pure Python routine; any PyFloat, any lstsq."
 ],
 "C93": [
  "proved",
  "Real-valued model (XR); lstsq specified by IsLstsq (exact least squares when the abscissae differ)."
 ],
 "C94": [
  "proved",
  "Real-valued model (XR)."
 ],
 "C95": [
  "proved",
  ""
 ],
 "C96": [
  "partial",
  "False as stated (C96_full_false); bad value -32768 is treated as weak echo."
 ],
 "C97": [
  "partial",
  "False in general (C97_full_false); agreement on clean linear rays proved."
 ],
 "C98": [
  "proved",
  "exact real arithmetic"
 ],
 "C99": [
  "proved",
  "real arithmetic with NaN; C99_float*: with rounding, float arrays"
 ]
}