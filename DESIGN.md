# Formal model of CSU_RadarTools in Lean 4

## 1. Approach

* **Source**: `/repo/csu_radartools/*.py`, `calc_kdp_ray_fir.pyx`, `calc_kdp_ray_fir.f`, and the 54 CSV parameter tables.
* **Shallow model**: every Python/Cython/Fortran function becomes a Lean function that follows it statement by statement
  (`Verif/Model/*.lean`, each definition cites file and lines). Exceptions are values (`Except PyErr _`), Python's `None`
  is `Option.none`.
* **Arithmetic is a parameter.** Model functions are polymorphic over a class `PyFloat α` (`Verif/PyFloat.lean`) that
  offers literals, `+ - * / **`, comparisons (`Bool` valued), `sqrt`, `log10`, ... with *no laws*. So
  * a *generic* theorem (for every `α`) holds for IEEE binary32/64 with NaN, infinities and rounding, and for
    anything else: it is about control flow, masks, indices, shapes, loops, exceptions;
  * a *numeric* theorem is about the instance `XR` (`Verif/XReal.lean`): the real numbers extended by `+inf`, `-inf`
    and NaN, with the IEEE/C99 rules for special values and exact arithmetic on finite values;
  * a theorem *with rounding* (R) is about every `IeeeFloat α` (`Verif/Ieee.lean`): operations return the exact result rounded by one
    monotone rounding, with overflow to infinity; `Verif/Binary.lean` proves that round-to-nearest-even in binary32, binary64 and every larger
    binary format is an instance;
  * `QF` (`Verif/QFloat.lean`), rationals plus NaN, is used only to evaluate concrete witnesses in the kernel.
* **Arrays**: a 1-D array is a `List α`; an n-D array is its row-major data plus a shape. `a[mask] = v` and
  `a[mask] = b[mask]` are `maskSet`/`maskCopy`, executed in source order (so the models of the retrievals are *whole-array*
  programs, and "gatewise" is a theorem, not an assumption). The compiled ray code works on `Buf` (length + total memory
  around it) with an explicit switch between checked access (raises) and unchecked access (reads whatever is there), so
  that out-of-bounds accesses and use of uninitialised memory are visible as dependence on that memory.
* **Specs** are stated per gate, in plain arithmetic, in `Verif/Spec/*.lean` or in the theorem itself, and do not call the
  model's helpers. Property theorems `Cxx_...` live in `Verif/Props/*.lean`, helper lemmas in `Verif/Lemmas/*.lean`.
* **False properties.** Many documented behaviours turned out to be false of the code. Then the full statement is kept as a
  `def CxxFull : Prop` (or written out), its negation is a theorem (`..._false`), and what does hold is proved under the
  suffix `_partial`. The manifest status is `partial`.
* **Non-vacuity**: an `example` beside each theorem gives a concrete case that meets the hypotheses.

## 2. Plan per property

(G) = generic theorem, any `PyFloat`; (X) = real-valued instance; (T) = finite fact about the complete shipped tables, by
kernel evaluation.

| id | what is modelled | how it is proved |
|----|------------------|-----------|
| C01, C02 | `insect_filter`, threshold tables | (G) fold of masks -> "exists a range" per gate, IndexError exactly if too few thresholds; (X) monotonicity |
| C03 | `second_trip_filter_magnetron`, `differential_phase_filter` | (G) per gate; (X) NaN |
| C04-C06 | `despeckle` with SciPy's 1-D `label` and the relabel loop | (G) induction over the ray: kept iff inside a run of more than `ngates` good gates; laws (idempotent, monotone, reversal) from that; C06: docstring's run length is off by one, negation by witness |
| C07, C08 | Cython `calc_kdp_ray_fir` on `Buf` | (G) loop invariants over memory; false in full (coefficient index off by one, 500-element work buffers): negations, plus the exact safe condition |
| C09 | one-pass standard deviation loop | (X) invariant: V = sum of squared deviations (Welford) |
| C10 | `lse` loops | (X) invariant: sums; minimality of the residual, collinear exactness, order independence; division by zero |
| C11-C13 | FIR and KDP passes | (G) loop invariants; (X) FIR value as a sum, linear and constant phase; KDP is half the slope |
| C14-C16 | `calc_kdp_bringi`, `get_fir` | (G) case analysis over all argument shapes; ray independence |
| C17 | Fortran kernel as a second dialect of the same loops | false: witness; equality of std (in exact arithmetic: the Fortran kernel computes it in single precision) and unfiltered parts |
| C18 | `hid_beta_f` | (X) |
| C19 | CSV tables (generated into `Tables.lean`), `get_mbf_sets_*` | (T) over all tables |
| C20-C28 | `csu_fhc_summer` with weights, hybrid/linear scoring, argmax | (X) score bounds by induction over the species and variables; (G) argmax and gatewise theorems; false: C27, C28 with exact replacements |
| C29, C30 | `csu_t_traps` | (X) piecewise linear case analysis; continuity (Mathlib `Continuous`) characterised by type |
| C31, C32 | `csu_fhc_winter` | as summer; C32: NaN tables make every score NaN, for all inputs |
| C33, C34 | `run_winter` | (G) combination rule; band argument ignored |
| C35-C37, C68-C70 | `melting_layer`, RHI/PPI melting level, `Env` for the masked-array and SciPy-version behaviour | (G) case analysis, folds over sectors; (X) level split |
| C38-C48 | `csu_blended_rain`, `csu_blended_rain_tropical` | (G) sequence of masked assignments = per-gate decision list; (X) positivity, cap; false ones by witness and exact rule |
| C49, C50 | `common`: unit conversions | (X) |
| C51-C55, C82 | `csu_dsd` | (X) polynomial positivity; (G) selection; NameError for missing input |
| C56-C59, C83 | `csu_liquid_ice_mass` | (X); `np.polyfit` and `np.argsort` are parameters of the model |
| C60-C67, C73-C78, C84 | `fundamentals` | (X) real analysis (arcsin identities for blockage, complex modulus for K); integer dtype variants modelled separately |
| C71 | both kernels | (G)/(X) the kernel returns unless all ranges in a fit coincide |
| C72 | `get_fir`, SciPy `firwin` with Gaussian window | (X) explicit tap formula; symmetry, positivity and unit sum |
| C79 | 2-D thresholds | (G) always raises |
| C80, C81 | linear method of `csu_fhc_summer` | (G) success condition; (X) exact scores |
| C85, C86 | KDP window width; NaN reflectivity | false of the Cython kernel: negations, and the exact rule of C86 (a NaN gate is treated as the nearest earlier classified gate) |
| C87 | Fortran kernel memory safety | (G) invariant: every access in bounds, for every memory |
| C88-C90 | kernel + wrapper + `get_fir` on linear rays | (X) invariant over gates and passes: filtered gates lie on the line; C90 exact error factor of the Cython build |
| C91-C97 | the pure-Python kernel `_calc_kdp_ray` | (G) in-place filling through a view does not leak between gates; (X) std, slope, linear rays; agreement with the Fortran kernel on clean rays, negation in general |
| C98-C99 | tropical blended rain at call level | (X) published coefficients per band whatever the caller passes; rates finite and nonnegative at every gate |
| C100-C102 | plotting option and `verbose` of the classifiers | (G) plotted points are the values of `hid_beta_f`; equality of the plotted/verbose call with the plain one, with the failing option combinations as negation theorems |
| C103 | `hid_beta` against `hid_beta_f` | (G) elementwise equality, zero width raises |
| C104 | `run_winter(return_scores=True)` dictionary | (G) gatewise relation of the returned arrays, from the inversion of a successful call |
| C105 | `calc_kdp_bringi` argument `thsd` | (G) equality of the two calls ray by ray; case analysis of the rejected forms |
| C106 | melting-layer scores; also C18, C20, C21, C31 with rounding | (R) invariant of the weighted sum: the rounded numerator never exceeds the rounded sum of weights |
| C107 | csu_hidro_rain rates; also C40 and C99 with rounding | (R) every factor of a rate lies in [0, 2^k] and rounding keeps it there; the logarithm of Zdp is never NaN |
| C108 | array functions as programs on a heap of array objects (`Heap.lean`, `Model/Objects.lean`): new arrays, other names of an argument, in-place writes | (G) program logic `Keeps`: the first n objects stay as they are on every path, also on exceptions, and results have numbers >= n |
| C109 | the same programs against the value models | (G) symbolic execution on `h ++ news`; induction for the loops of `insect_filter` and `despeckle` |
| C110 | the three rain calls with `Params.default` / `TropParams.default` | (R) the parametric theorems C38, C39, C44, C46 evaluated at XR against a rule written in plain real numbers |
| C111 | `Model/CsvText.lean` (text of the 54 files), `Model/Csv.lean` (`parseCsv`, `getBetaSetF`, `getMbfSetsF`, the classifiers with `fdir`) | (T) the 54 parses are kernel computations; (G) equality with the table-based model |
| C112 | `getMbfSetsF`, classifiers with `fdir` | (G) congruence in the file system; missing files by cases over the reading order |
| C113 | parser against `Spec/Csv.lean` (sheets, decimal notations) | (G) induction over characters, cells, lines: the parser inverts the specified writing |
| C114 | as C112 | full statement refuted on a concrete file system; FileNotFoundError without separator proved for all |
| C115 | classifiers with `fdir` | (R) C113 and the scoring lemmas behind C20, C21, for any table |
| C116 | `csuFhcSummerF` | (G) length of the score list |
| C117 | `calcLiquidIceMassVal` | (X) gatewise form, closed formulas in real numbers (`Spec/LiquidIce.lean`) |
| C118 | `getMlPpi`, `MeltArgs` | false (one sector fewer); (G) count, (X) sectors of 360/(nsect-1) degrees |
| C119 | `csuFhcSummerF`, `csuFhcWinterF`, `csuFhcMlF` | (X) every species gives scores or IndexError; a missing line gives IndexError |
| C120 | `csuFhcWinter`, `csuFhcMl` | (X) exact scores; (G) gatewise, concatenation |
| C121 | `csuFhcWinter`, `csuFhcMl` | (X) scaling relation of C24, species by species |
| C122 | `csuFhcWinter`, `csuFhcMl` | (G) each failing path |
| C123 | the classifiers, `runWinter` | false (class 1, or 6 in warm air); (X) every score of such a gate is NaN, and the classes that result |
| C124 | `calcKdpRayFir cython` on two rays | (X) simulation of two runs step by step (`Lemmas/KdpAffine`), every value related by the change of units |
| C125 | `calcKdpRayFir cython` on a family of rays | false (kernel-evaluated rational rays); (X) simulation of the family of all offsets in the cofinite filter (`Lemmas/KdpOffset`) |
| C126 | `calcKdpRayFir`, both dialects, on two rays | false (kernel-evaluated rational rays); (G) relational simulation on the common prefix (`ERel`), closed form of a clean window |
| C127 | the classifiers on arrays of different sizes | false (a call with a larger array returns); (G) congruence under cutting, exact errors for short arrays and ragged trapezoid rows |
| C128 | `calcKdpRayFir`, both dialects | false (kernel-evaluated rational ray); (X) slope of a least-squares line lies between the pairwise slopes (double sums); filter sums keep the order |
| C129 | `calcKdpRayFir`, both dialects | false (same ray); (X) convex combinations, closed form of one pass without gaps |
| C130 | `calcBlendedRain` with `ice_flag` | false (explicit gate); (X) closed form of Zdp and ice fraction with real powers and logarithms |
| C131 | `calcBlendedRain`, all bands | false (explicit pair, bounds on real powers); (X) monotone real powers, method by method |
| C132 | `runWinter`, `meltingLayer` with `none` for missing fields | (X) scores over the supplied variables written out per gate; combination per gate as in C33 |
| C133 | composition of the classifier model and the rain models on arrays | category range 1..10 (C21) fed into the exact per-gate rules (C44, C46, C47); generic in the arithmetic |
| C134 | rain models at XR (NaN included) and in any arithmetic | per-gate rule; full claim false at S band, exact behaviour there proved |
| C135 | the five functions at real arguments | closed forms and algebra over the reals, sum over the list of drops |
| C136 | both functions at real and complex arguments | closed forms; full claim refuted at m = 2 |
| C137 | `getBetaSetF` with the index column, on arbitrary sheets (Spec/Csv) | round trip of the parser, then case analysis on which column is missing first |
| C138 | the three classifiers as programs on a heap of array objects (Model/Objects2): copies in `_populate_vars`, in-place `test *= ..` on new arrays, `np.array(test_list)` | simulation (Lemmas/HeapSim, HeapFhc): the program extends the caller's heap and returns what the value model returns |
| C139 | the functions as programs on a heap (Model/Objects2): `filled` copies a masked array, `fh[..] = ..` writes to the array argmax returned, `meltlev` is new, the sector loop writes to `meltlev_az`, run_winter writes to melting_layer's `fh` | simulation against the value models (Lemmas/HeapMelt), with an invariant that only the named object changes |
| C140 | `getFir` with SciPy's firwin formula (sinc times Gaussian) over the reals (Model/KdpApi) | algebra: freq and std scale inversely and proportionally with the order; strict concavity of sin for the strict rise |
| C141 | masked array = data + mask, `np.array` drops the mask (Model/Masked) | false: a fully masked gate gets category 1 or 9 according to the hidden data, and a fully masked ray the KDP of the hidden phase; proved: at gates masked in no variable the results agree (any arithmetic, from C22), and hidden reflectivity equal to `bad` gives the `bad` KDP |
| C142 | `np.zeros_like` inherits the dtype, integer arrays truncate on assignment (Model/Traps `store`) | false: with integers hail scores 0 everywhere; proved exactly: integer result = float result with the fraction cut off (any arithmetic), equality on the plateaus |
| C143 | csu_hidro_rain (Model/Rain) at XR | false at the method switch R(Z)->R(Kdp); proved for gates given the same method, and without restriction for every class other than drizzle, rain and big drops |
| C144 | calc_blended_rain_tropical (Model/Rain) at XR | false at the method switch R(Z)->R(Kdp); proved for gates given the same method, with any coefficients of the usual signs and with the published ones of all bands |
| C145 | kdpWithFir (Model/KdpApi) over any IeeeFloat | invariant of the buffers through the fill-in, the filter passes and the KDP loop |
| C146 | sdAt / sdStep (Model/Kdp) over any IeeeFloat | sign from monotone rounding; induction over the one-pass recurrence with exact zeros |
| C147 | calcKdpRayFir (Model/Kdp) at Binary64, i.e. rationals with correct rounding | forward error analysis of LSE: relative errors (1±δ)^k of the sums, determinant >= s²N²(N²-1)/12 minus (3.1N+4)δ·N·Σx²; counterexample evaluated in the kernel |
| C148 | calcKdpRayFir (Model/Kdp) at Binary64 | forward error analysis of LSE (sums, products, differences, quotient, half) compared with the exact least-squares line of Spec/Kdp; counterexample evaluated in the kernel |
| C149 | Model/Misc, Model/Kdp with missing gates as Option | filters: C01, C04 gate by gate; KDP: induction over the run for all marks outside a finite set (cofinite filter); NaN: invariants of the filter passes |
| C150 | the kernel and its caller as a program on a heap of array objects (Model/Objects3: views, single element reads and writes) | simulation (Lemmas/HeapKdp): by induction over the loops it refines the value model and only extends the heap |
| C151 | The kernel at exact arithmetic, both dialects, two runs. | `C151_kdp_error` from the least-squares characterisation (C12) and the deviation form of the slope; `C151_kdp_error_spacing` by closed sums (induction on N); filter part from `filtered_nobad`; the full statement refuted on a 12-gate ray by kernel evaluation. |
| C152 | Model/KdpApi.getFir (exact) and Model/FirOrder (order with IEEE rounding, Binary64) | case analysis on the order; error bounds of four roundings (right or none); kernel evaluation of the double quotient for the counterexample |
| C153 | Model/RainMixed: values that are a Python number, a NumPy scalar or an array, NumPy broadcasting of a number, `~` on a Python bool (always true as a condition), subscripting a number (TypeError / IndexError); calc_blended_rain and csu_hidro_rain statement by statement with an array dz | array-level case analysis over gates; false for a plain Python ZDR at S band that reaches the threshold (C153_full_false with every keyword at its default, C153_hidro_full_false); the partial theorems give the exact condition and the *_python theorems what is computed instead (as if the ZDR threshold were never reached) |
| C154 | Model/RainMixed: tropicalMix, statement by statement with an array dz, and calcBlendedRainTropicalMixed with the tuple coefficients of predef='True' at S band | gate-by-gate case analysis against tropicalArr; false for a plain Python ZDR (C154_full_false); C154_tropical_partial gives the condition, C154_tropical_python what is computed instead, C154_default_raises the TypeError of the default keywords, C154_tropical_class the part about rain types and classes |
| C155 | Model/LiquidIceAny: the whole call with 1-D broadcasting, the length check of every boolean index, the swallowed IndexError of z[T == 0], ravel/np.array([x]) of each kind of argument and shape broadcasting for a number dbz | memory-order pairing reduced to the equal-shape model (C155_same_size, C155_numbers), necessary lengths by inversion of the call (C155_returns), exact exceptions (C155_plain_number, C155_numpy_zdr, C155_number_dbz, C155_few_temperatures); false parts: C155_full_false, C155_sounding_full_false; C155_one_altitude_partial and C155_extra_temperatures_partial say what holds |
| C156 | Model/DsdAny: calcDsdAny over numbers and arrays for all three arguments | case analysis on band, method and kind; C156_arrays/C156_numbers tie it to the equal-shape model; false for a plain Python ZDR (C156_full_false); C156_kdp_filled_partial and C156_kdp_unused say what holds, C156_zdr_number, C156_kdp_number, C156_dz_number the exceptions |
| C157 | calc_liquid_ice_mass over the IeeeFloat class (Model/LiquidIce.lean, Ieee.lean, Binary.lean) | interval bounds (powers of two) carried through every operation, monotone rounding; rain part between 0 and the total so the difference cannot go negative |
| C158 | calcDsd over the IeeeFloat class (Model/Dsd.lean, Ieee.lean, Binary.lean) | rounding error of any monotone rounding that keeps 24-bit numbers; forward error analysis of the polynomials (terms at most ten times the sum), differences of logarithms for the power law |
| C159 | calcBlendedRain, csuHidroRain over the IeeeFloat class (Model/Rain.lean, Ieee.lean, Binary.lean) | the exact per-gate rules of C38, C39 and C44, then differences of logarithms: each literal, product, quotient and power adds a few units of 2^-20 |
| C160 | calcBlendedRainTropical over the IeeeFloat class (Model/Rain.lean, Ieee.lean, Binary.lean) | the per-gate rule of C46 and C47, then differences of logarithms: each literal, product, quotient and power adds a few units of 2^-20 |
| C161 | blendedSizes, hidroSizes, tropicalSizes (Model/RainSizes.lean): every NumPy operation with its broadcasting, every boolean index with its length check | inversion of a successful run gives the lengths; on fitting lengths the body equals the one of Model/Rain.lean on the spread arrays |
| C162 | cband2009Sizes, sband2013Sizes, sband2004Sizes, calcDsd1d (Model/DsdSizes.lean): selections getAny, write-backs putAny, each with NumPy's length checks | put after get is the masked copy, by induction on the mask; case analysis of the lengths for the errors |
| C163 | hidBetaF, beta (Model/Fhc.lean) over IeeeFloatPow: the IeeeFloat class plus: a power whose exact value is at least 2^100 is computed as at least 2^99 | logarithms of the intermediate results differ by a few units of 2^-20, times the exponent; separate cases near the centre and for huge powers |
| C164 | csu_fhc_summer with the shipped tables over IeeeFloat with an accurate pow (as C163) | every addition, product and quotient of the weighted mean is bounded by relative error (induction over the variables), memberships by C163, products of numbers from 0 to 1; the category by the specification of argmax |
| C165 | csu_fhc_winter and csu_fhc_cold_newml1 with the shipped tables over IeeeFloat with an accurate pow (as C163) | the error analysis of C164 applied to the gates of each species, by the canonical form of the two functions on gates |
| C166 | melting_layer, run_winter and csu_fhc_cold_newml1 over IeeeFloat with an accurate pow (as C163) | the error analysis of C164 at the one gate, and the contracts of the quality control (C35) and of the winter combination (C33) |
| C167 | run_winter and csu_fhc_winter over IeeeFloat with an accurate pow (as C163) | the error analysis of C164 at the one gate, the specification of argmax, and the contract of run_winter's returned classes (C104) |

No property on the list is inexpressible in the model.

## 3. What is modelled, file by file

| source | model | not modelled |
|--------|-------|--------------|
| `csu_misc.py` | `Model/Misc.lean`: everything | printed text |
| `common.py` | `Model/Common.lean`: everything used by the package | |
| `csu_blended_rain.py`, `csu_blended_rain_tropical.py` | `Model/Rain.lean`: everything with all arguments arrays or all numbers; `Model/RainMixed.lean`: the same functions with numbers beside arrays; `Model/RainSizes.lean`: one-dimensional arrays of any lengths | broadcasting of unequal shapes of two or more axes; a NumPy ZDR scalar with the tuple coefficients of the tropical S-band set |
| `csu_dsd.py` | `Model/Dsd.lean`: everything with all arguments arrays of one shape or all numbers; `Model/DsdAny.lean`: numbers and arrays mixed; `Model/DsdSizes.lean`: one-dimensional arrays of any lengths, selections and write-backs taken apart | unequal shapes of more than one axis; a NumPy ZDR number beside an array without the 2004 method |
| `csu_liquid_ice_mass.py` | `Model/LiquidIce.lean`: everything for equal shapes or all numbers; `Model/LiquidIceAny.lean`: any shapes, numbers and arrays mixed | Python lists as arguments; `np.polyfit`, `np.argsort` are parameters |
| `csu_t_traps.py` | `Model/Traps.lean`: everything, float dtype | |
| `beta_functions.py` | `Model/Fhc.lean` (`getBetaSet`, `getMbfSets`), `Model/Tables.lean` (all CSVs), `Model/Csv.lean` (`fdir`, CSV parsing, file names), `Model/CsvText.lean`, `Model/Plot.lean` (`_get_beta_example`, `plot_beta_functions`) | `pandas.read_csv` beyond `Model/Csv.lean` (quotation marks, rows longer than the header, boolean and infinite entries, rounding of decimal conversion), verbose text, Matplotlib itself (titles, figure layout, file writing) |
| `csu_fhc.py` | `Model/Fhc.lean`: summer, winter and melting-layer classifiers, both scoring methods; `Model/Plot.lean`: the `verbose` and `plot_flag` paths | verbose text |
| `csu_fhc_winter.py`, `csu_fhc_ml1.py` | `Model/Fhc.lean` | verbose text |
| `csu_fhc_melt.py`, `run_winter` | `Model/Winter.lean` | printed text |
| `csu_kdp.py` | `Model/KdpApi.lean` (`calc_kdp_bringi`, `get_fir`, SciPy `firwin`), `Model/FirOrder.lean` (the order with rounding), `Model/KdpPy.lean` (`_calc_kdp_ray` and helpers) | `numpy.linalg.lstsq` is a parameter, specified by `IsLstsq` |
| `calc_kdp_ray_fir.pyx`, `calc_kdp_ray_fir.f` | `Model/Kdp.lean`: one set of loops with a `Dialect` record for the points where the two differ; stores to `float`/`float32` variables and arrays round with `f32`, locals are double (Cython) or single (Fortran) | C/Fortran integer overflow; fused multiply-add and extended-precision registers |
| `fundamentals.py` | `Model/Fundamentals.lean`: everything, incl. int64 wrap-around where it matters | OverflowError of Python floats |
| array identity (which object a statement writes to) | `Heap.lean`, `Model/Objects.lean`: `csu_misc.py`, rain, DSD, liquid/ice mass, trapezoids, `zdp`, `hdr`; `Model/Objects2.lean`: the classifiers, `melting_layer`, `run_winter`; `Model/Objects3.lean`: `calc_kdp_bringi` and its kernel, with rows of 2-D arrays as views | views other than `ravel` and rows; arrays that overlap partially; the other models treat arrays as values |

## 4. Trusted base

* The Lean 4.33.0 kernel. Axioms: every theorem depends on a subset of `propext`, `Classical.choice`, `Quot.sound`
  (`AXIOMS.txt`, made by `tools/axioms.py`, lists them per theorem); no axiom of our own, no compiled evaluation: `decide +kernel` is
  checked by kernel reduction.
* The hand translation from Python/Cython/Fortran to Lean, function by function. There is no extraction; the citations in
  the comments are what a reviewer should compare. The CSV tables are generated by `tools/` from `/repo` and checked to be complete.
* The behaviour of the NumPy/SciPy/Python primitives as written in `Verif/Np.lean` and in the model files: masked
  assignment, `np.argmax` (first maximum, first NaN wins), `np.median`, `np.nanmean`, `scipy.ndimage.label` in 1-D,
  `scipy.stats.mode` result types (`Env`), `scipy.signal.firwin`, `np.interp`-style interpolation, masked-array `.mask`/`.filled`.
* Parameters with a specification instead of a model: `np.polyfit` (C58_one_sign), `np.argsort` (must return a sorting
  permutation), `numpy.linalg.lstsq` (least squares where the abscissae are not all equal), memory contents outside arrays (`Junk`).
* Simplifications: outside the KDP kernels and their caller (where stores to float32 round) one float type for float32/float64/Python float; exact real arithmetic in (X) theorems, so rounding,
  overflow and signed zeros are not exhibited there (the (G) theorems cover them, and the (R) theorems cover rounding and overflow
  (in one format, and in double with float32 stores for KDP); about `**` the (R) theorems assume that the result is on the right side of 0 and 1 and, for results from 2^-100 to 2^100, right within a factor of two (C158: within a relative error of 2^-20 up to 2^100; C163 to C167: the same, and at least 2^99 for results of at least 2^100); about `pi` that it is the rounded π; about `log10` that it is not NaN for nonnegative arguments); arrays of equal shape (NumPy raises
  or broadcasts otherwise); integer dtypes are modelled only where the code's result depends on them (C43, C78, C84).

## 5. Disagreements between documentation/intent and code that the proofs exposed

C06 despeckle keeps runs of more than `ngates`, docstring says at least; C07/C08/C90 Cython kernel reads coefficients
shifted by one and one past the end, its KDP is off by the factor (1 - c0 + g); C17/C85 Cython window drops a gate; C27
`temp_factor` moves the temperature centres; C28 NaN reflectivity is classified as drizzle; C30 temperature trapezoids
jump; C32 winter rho/ldr tables are NaN; C34 `run_winter` ignores `band`; C37/C68 PPI melting level falls back to 0, raises on
empty sectors, and counts each gate twice; C43/C78 integer arrays truncate; C45 `thresh_nexrad` ignored by
`csu_hidro_rain`; C47, C48 tropical rain ice code and scalar return; C50 `si2kts` multiplies instead of dividing; C52 C-band D0
of 0 for low Zdr; C54 blending weights do not sum to one; C57 `method` ignored; C65 `range_correct`, `reflectivity`, `vel_shift` cannot
be called; C70 `verbose` raises with SciPy >= 1.11; C79 2-D thresholds raise; C80/C81 linear method mostly raises and its
scores exceed 1; C82 `calc_dsd` without data raises NameError; C83 freezing altitude with inversions; C84 int64 overflow in the
radar equation; C86 NaN reflectivity reuses the previous gate's window; C91/C96/C97 pure-Python KDP differs from the compiled kernels;
C149 a NaN or a colliding `bad` value changes results; C152 the filter order is truncated after rounding, so some even windows are rejected; C153 a plain
Python ZDR beside arrays suppresses methods 1 and 3 (`~` on a Python bool); C154 the same in the tropical function, which raises with default keywords; C155 `calc_liquid_ice_mass` does not compare shapes, accepts surplus temperatures, raises on plain numbers; C156 `calc_dsd` raises on numbers beside arrays;
C101 `plot_flag=True` raises without temperature and with the winter default `n_types`; C102 `verbose=True` raises on an empty array.

## 6. Tests against wrong programs

`tools/mutate.py` edits one model definition at a time in a scratch copy and rebuilds; the outcome of each attempt is in
`seeded/LOG.jsonl`.
