{"claims": [
 {"property": "C01", "status": "partial", "theorems": ["EFX.Props.C01_history_partial", "EFX.Props.C01_inverse_partial", "EFX.Props.C01_moves_partial", "EFX.Props.C01_history_refuted"], "note": "any history over an unbounded number of variables, with construction from and reading of decimal literals; false for mantissa/exponent construction, direct reciprocals of huge negative numbers and the text --1"},
 {"property": "C02", "status": "proved", "theorems": ["EFX.Props.C02_cmp_is_order", "EFX.Props.C02_operators", "EFX.Props.C02_eq_same_digits"], "note": ""},
 {"property": "C03", "status": "partial", "theorems": ["EFX.Props.C03_infinities_and_nan_partial", "EFX.Props.C03_nan_ordered_refuted"], "note": "ordered comparisons with NaN are not false in the code; refuted"},
 {"property": "C04", "status": "proved", "theorems": ["EFX.Props.C04_integer_ctor"], "note": ""},
 {"property": "C05", "status": "partial", "theorems": ["EFX.Props.C05_round_trip_signed_partial", "EFX.Props.C05_round_trip_unsigned"], "note": "unsigned: all values; signed: all except the most negative value, for which the extraction negates -2^63 (undefined)"},
 {"property": "C06", "status": "partial", "theorems": ["EFX.Props.C06_extract_signed_partial", "EFX.Props.C06_extract_unsigned", "EFX.Props.C06_to_int32_partial", "EFX.Props.C06_min_is_undefined_refuted"], "note": "All finite values; extraction of -2^63 negates out of range (undefined behaviour, refuted)."},
 {"property": "C07", "status": "proved", "theorems": ["EFX.Props.C07_add_same_sign"], "note": ""},
 {"property": "C08", "status": "proved", "theorems": ["EFX.Props.C08_add_opposite_sign"], "note": ""},
 {"property": "C09", "status": "partial", "theorems": ["EFX.Props.C09_add_comm_partial", "EFX.Props.C09_add_comm_inf_refuted"], "note": "proved for finite operands; refuted for infinite operands"},
 {"property": "C10", "status": "proved", "theorems": ["EFX.Props.C10_add_zero", "EFX.Props.C10_sub"], "note": ""},
 {"property": "C100", "status": "partial", "theorems": ["EFX.Props.C100_ln2_partial", "EFX.Props.C100_log_partial", "EFX.Props.C100_all_partial"], "note": "exact operations, square root and pi with given errors, arguments with minv * 10^D * max(x, 1/x) <= 1/2; C100_all_partial uses the square root and ln2 of the templates. Missing: rounding of T, the ends of the range."},
 {"property": "C101", "status": "partial", "theorems": ["EFX.Props.C101_cexp_partial", "EFX.Props.C101_clog_partial", "EFX.Props.C101_csin_partial"], "note": "exact arithmetic; the rounding of the components is left out, as are the real parts that are multiples of ln 2 and the steep points of atan2 (C65, C73 refutations)"},
 {"property": "C102", "status": "partial", "theorems": ["EFX.Props.C102_gamma_real", "EFX.Props.C102_integer_refuted", "EFX.Props.C102_left_refuted"], "note": "refuted: an integer real part gives the factorial of the real axis or NaN whatever the imaginary part; on the real axis the complex function is the real one"},
 {"property": "C103", "status": "partial", "theorems": ["EFX.Props.C103_gamma_right_partial", "EFX.Props.C103_gamma_left_partial"], "note": "exact arithmetic, arguments beyond the small-argument series; the rounding is left out"},
 {"property": "C104", "status": "partial", "theorems": ["EFX.Props.C104_pochhammer_small", "EFX.Props.C104_pochhammer_partial", "EFX.Props.C104_pochhammer_refuted"], "note": "below 50 factors exact; from there the errors of the gamma functions carry over; refuted for integer real parts"},
 {"property": "C105", "status": "partial", "theorems": ["EFX.Props.C105_jpow", "EFX.Props.C105_series_partial", "EFX.Props.C105_prime_partial", "EFX.Props.C105_zeta_partial"], "note": "exact arithmetic; imaginary parts that are not zero, real part at most 100 for the combined bound; the rounding is left out, as are the exponents that are multiples of ln 2 (C65)"},
 {"property": "C106", "status": "partial", "theorems": ["EFX.Props.C106_terms_refuted", "EFX.Props.C106_large_refuted", "EFX.Props.C106_limit", "EFX.Props.C106_reflection_partial", "EFX.Props.C106_power_partial", "EFX.Props.C106_left_partial", "EFX.Props.C106_integer_refuted"], "note": "refuted: imaginary parts from 21066 to 1000100 overflow an int32_t; negative integer real parts use the gamma function of the real axis; elsewhere on the left the relative errors carry over, in exact arithmetic"},
 {"property": "C107", "status": "partial", "theorems": ["EFX.Props.C107_minarg", "EFX.Props.C107_range", "EFX.Props.C107_gamma_partial", "EFX.Props.C107_digits_refuted"], "note": "holds up to 590 digits (exact arithmetic); refuted from 609 digits on, where every argument below 240 that is no integer gives infinity; between 591 and 608 digits nothing is claimed"},
 {"property": "C108", "status": "partial", "theorems": ["EFX.Props.C108_accepts", "EFX.Props.C108_read", "EFX.Props.C108_error_partial", "EFX.Props.C108_restore_refuted", "EFX.Props.C108_end_refuted", "EFX.Props.C108_joined_refuted", "EFX.Props.C108_loose_refuted"], "note": "string streams; literals in the three forms are read as in C29, other words set failbit and keep the variable. Refuted: rejected words go back in reversed order (badbit for read-only streams), reading at the end of the stream and words such as 1..5, (1,), e8 use a variable never written, 1-5 is read as -15"},
 {"property": "C109", "status": "partial", "theorems": ["EFX.Props.C109_roundtrip_partial", "EFX.Props.C109_special_refuted"], "note": "scientific format, precision up to max_digits10, any width with white fill; infinite and NaN parts are written but rejected on reading (refuted)"},
 {"property": "C11", "status": "partial", "theorems": ["EFX.Props.C11_self_partial", "EFX.Props.C11_square_partial", "EFX.Props.C11_self_refuted"], "note": "x+=x and x*=x proved, x/=x is one; x-=x doubles x (refuted), x/=x differs from division by a copy for negative x (refuted)"},
 {"property": "C110", "status": "partial", "theorems": ["EFX.Props.C110_near_one_partial", "EFX.Props.C110_last_step_partial", "EFX.Props.C110_log_refuted"], "note": "near one, and given the accuracy of the iterate before the last Newton step when that step runs at full precision, the result is accurate to the rounding. Refuted where the last step runs at reduced precision: log(10) is off by more than 2.5e-43 at 49 digits and 3.5e-86 at 100 digits. Missing: the accuracy of the earlier steps (they run at reduced precision) and arguments outside 10^-1000..10^1001"},
 {"property": "C111", "status": "partial", "theorems": ["EFX.Props.C111_full_partial", "EFX.Props.C111_prec_refuted", "EFX.Props.C111_cube_refuted"], "note": "full precision from 239 digits on; refuted up to 168 digits for all finite arguments that are not negative: rootn_inv ends with precision(tolerance), which is fewer limbs than a number has; the cube of cbrt(2) is off by 5e-41 at 49 digits. Between 169 and 238 digits it depends on the remainder (nothing claimed)"},
 {"property": "C112", "status": "partial", "theorems": ["EFX.Props.C112_complex_arithmetic_partial"], "note": "up to 1000 digits, operands up to 10^400000000 and divisors from 10^-400000000 on, full precision; underflow of single products included"},
 {"property": "C113", "status": "partial", "theorems": ["EFX.Props.C113_complex_functions_partial"], "note": "under the conditions of C89 and C90 for the components. Missing: larger arguments, more digits, reduced precision, functions built on the logarithm"},
 {"property": "C114", "status": "partial", "theorems": ["EFX.Props.C114_complex_powers_partial"], "note": "Missing: more than 1000 digits, reduced precision, powers outside 10^±300000000"},
 {"property": "C115", "status": "partial", "theorems": ["EFX.Props.C115_complex_tangent_partial", "EFX.Props.C115_polar_partial"], "note": "Missing: larger arguments, more than 1000 digits, reduced precision, arguments nearer to a pole"},
 {"property": "C116", "status": "partial", "theorems": ["EFX.Props.C116_complex_abs_partial", "EFX.Props.C116_complex_sqrt_partial", "EFX.Props.C116_sqrt_refuted"], "note": "refuted for the sign of the imaginary part: sqrt(3-4i) is computed as 2+i, because -4/4 is 1 (C20); every other result is shown accurate. Missing: more than 1000 digits, reduced precision, absolute values outside 10^±300000000"},
 {"property": "C117", "status": "partial", "theorems": ["EFX.Props.C117_acosh_partial", "EFX.Props.C117_atanh_partial", "EFX.Props.C117_log1p_partial", "EFX.Props.C117_asinh_refuted"], "note": "the e_float code with every rounding, near one for acosh and near zero for atanh and log1p. Missing: the branches through the logarithm (C110), atanh of zero and below 10^-100000, more digits, reduced precision; false for asinh (C117_asinh_refuted)."},
 {"property": "C118", "status": "partial", "theorems": ["EFX.Props.C118_pow_partial", "EFX.Props.C118_near_one_partial", "EFX.Props.C118_large_refuted", "EFX.Props.C118_infinite_refuted"], "note": "the e_float code with every rounding. Missing: bases between 0.09 and 0.91 (another series), negative bases, more digits, reduced precision; away from one the accuracy of the computed logarithm is an assumption (C110); refuted for exponents above 2^63, which all give the same power, and for infinity to a negative power, which is infinity"},
 {"property": "C119", "status": "partial", "theorems": ["EFX.Props.C119_log_partial", "EFX.Props.C119_log_refuted", "EFX.Props.C119_branch_refuted"], "note": "the e_float code with every rounding; the accuracy of the real logarithm is an assumption (C110). Missing: the angles excluded in C95, numbers beyond 10^(+-1000000); false for im z = -re z < 0 and for im z = re z < 0, where the imaginary part is about -5 pi/4"},
 {"property": "C12", "status": "partial", "theorems": ["EFX.Props.C12_add_special_partial", "EFX.Props.C12_add_special_refuted"], "note": "refuted for a non-finite right operand"},
 {"property": "C120", "status": "partial", "theorems": ["EFX.Props.C120_pow_partial", "EFX.Props.C120_pow_refuted"], "note": "the e_float code with every rounding; the accuracy of the computed complex logarithm is an assumption (C119). Missing: products with the exponent beyond 10^7 or with tiny parts that are not zero; false for im z = -re z < 0, where the power of the conjugate number is computed"},
 {"property": "C13", "status": "partial", "theorems": ["EFX.Props.C13_mul_error_partial", "EFX.Props.C13_mul_error_reduced_partial", "EFX.Props.C13_reduced_exceeds_refuted"], "note": "full precision: cut toward zero, relative error p*10^(8(2-p)), below 10^-(D+5) with the school method; with the half-limb convolution the bound is 20000 times larger; at reduced precision 'never exceeds' is refuted and a two-sided bound is proved"},
 {"property": "C14", "status": "proved", "theorems": ["EFX.Props.C14_mul_exact", "EFX.Props.C14_mul_integers"], "note": ""},
 {"property": "C15", "status": "proved", "theorems": ["EFX.Props.C15_mul_special"], "note": ""},
 {"property": "C16", "status": "partial", "theorems": ["EFX.Props.C16_mul_comm_identities_partial", "EFX.Props.C16_mul_comm_reduced_refuted", "EFX.Props.C16_mul_one_fft_refuted"], "note": "commutes at full working precision; refuted at reduced precision; x*1 loses the last limb with the half-limb convolution (refuted)"},
 {"property": "C17", "status": "proved", "theorems": ["EFX.Props.C17_add_loop", "EFX.Props.C17_sub_loop", "EFX.Props.C17_mul_loop", "EFX.Props.C17_fft_release", "EFX.Props.C17_mul_small", "EFX.Props.C17_div_small"], "note": ""},
 {"property": "C18", "status": "proved", "theorems": ["EFX.Props.C18_mul_unsigned"], "note": ""},
 {"property": "C19", "status": "partial", "theorems": ["EFX.Props.C19_div_unsigned_partial", "EFX.Props.C19_stale_limb_refuted", "EFX.Props.C19_div_zero_sign_refuted"], "note": "the quotient is not chopped (a stale limb is used) and x/0 loses the sign; error bound proved"},
 {"property": "C20", "status": "partial", "theorems": ["EFX.Props.C20_div_partial", "EFX.Props.C20_div_refuted", "EFX.Props.C20_div_nonfinite"], "note": "Equal magnitudes with positive dividend, division by zero and non-finite operands proved; equal magnitudes with negative dividend and 0/0 are wrong in the code (refuted)."},
 {"property": "C21", "status": "partial", "theorems": ["EFX.Props.C21_inverse_partial", "EFX.Props.C21_quotient_partial"], "note": "Relative error of the reciprocal and of the quotient for every configuration; the claimed bound is reached up to 19000 limbs (about 151000 digits). Missing: larger configurations, where the model's product by the fast transform is too inaccurate, and exponents within 64 of the ends of the range."},
 {"property": "C22", "status": "partial", "theorems": ["EFX.Props.C22_sqrt_special", "EFX.Props.C22_sqrt_partial", "EFX.Props.C22_sqrt_full_partial", "EFX.Props.C22_sqrt_refuted"], "note": "special cases proved; the accuracy claim is false at full precision (early exit of the loop, 85-digit witness), proved with the bound that always holds and with the full bound when the early exit does not change the result"},
 {"property": "C23", "status": "proved", "theorems": ["EFX.Props.C23_negate", "EFX.Props.C23_fabs", "EFX.Props.C23_sgn"], "note": ""},
 {"property": "C24", "status": "partial", "theorems": ["EFX.Props.C24_parts_partial", "EFX.Props.C24_integer_part_refuted"], "note": "the integer part keeps stored fractional digits when the exponent is at least digits10-1 (refuted)"},
 {"property": "C25", "status": "partial", "theorems": ["EFX.Props.C25_floor_ceil_partial", "EFX.Props.C25_floor_refuted"], "note": "integers and all numbers up to 10^(digits10-2); refuted above"},
 {"property": "C26", "status": "partial", "theorems": ["EFX.Props.C26_predicates_partial", "EFX.Props.C26_isone_refuted"], "note": "isone() is true only for 0.99...9 (refuted)"},
 {"property": "C27", "status": "proved", "theorems": ["EFX.Props.C27_order"], "note": ""},
 {"property": "C28", "status": "proved", "theorems": ["EFX.Props.C28_precision"], "note": ""},
 {"property": "C29", "status": "partial", "theorems": ["EFX.Props.C29_read_partial", "EFX.Props.C29_range_refuted", "EFX.Props.C29_max_literal"], "note": "Every valid literal (length < 2^31-48, |exponent| < 2^62) is read without failure; result is the exact number cut to the stored digit groups between 10^min_exp10 and 10^(max_exp10+8), zero below, infinity above, exact with at most 8(groups-1)+1 significant digits. The clause 'beyond the range gives infinity' is false between value_max and 10^(max_exp10+8): C29_range_refuted. C29_max_literal: the literal of my_value_max is read as the model's valueMax."},
 {"property": "C30", "status": "partial", "theorems": ["EFX.Props.C30_state_partial", "EFX.Props.C30_state_refuted"], "note": "For every text and every previous finite state the same failure or number results (same object at full precision); stored digits, exponent and sign never depend on the previous state. False for a previous NaN or infinity: class (and working precision) are kept, C30_state_refuted."},
 {"property": "C31", "status": "proved", "theorems": ["EFX.Props.C31_digits"], "note": "every finite non-zero number, every digit count from 1 to max_digits10+1; the result is the number rounded to n significant digits, halves away from zero"},
 {"property": "C32", "status": "partial", "theorems": ["EFX.Props.C32_roundtrip_partial", "EFX.Props.C32_precision_refuted"], "note": "scientific format without field width and precision up to max_digits10: text within half a unit of the last digit, reading returns a number as close (cut to the stored groups), equal when the digits fit. False for larger precisions (refuted: the writer pads with zeros)."},
 {"property": "C33", "status": "partial", "theorems": ["EFX.Props.C33_writes_partial", "EFX.Props.C33_writes_refuted"], "note": "exact characterisation of the numbers and formats for which the writer throws; the property is false (four witnesses)"},
 {"property": "C34", "status": "partial", "theorems": ["EFX.Props.C34_range_partial", "EFX.Props.C34_product_partial", "EFX.Props.C34_product_refuted"], "note": "false for products and mul_unsigned_long_long"},
 {"property": "C35", "status": "partial", "theorems": ["EFX.Props.C35_one_times_max_refuted", "EFX.Props.C35_mul_one_partial"], "note": "refuted at the limit; proved below the leading limb weight of max"},
 {"property": "C36", "status": "partial", "theorems": ["EFX.Props.C36_power_partial", "EFX.Props.C36_field_partial", "EFX.Props.C36_integers_exact", "EFX.Props.C36_pow2_exact", "EFX.Props.C36_min_refuted"], "note": "Both power loops (pown_template and pow(e_float,int64)) return the product of |p| factors, or its reciprocal, in every monoid with division, for every 64-bit exponent but the smallest, whose negation overflows (refuted). In e_float arithmetic powers of integers and 2^p, 2^-p are exact while they fit into the storage less one group of digits."},
 {"property": "C37", "status": "proved", "theorems": ["EFX.Props.C37_sieve", "EFX.Props.C37_prime", "EFX.Props.C37_limit_refuted"], "note": "All limits up to 65535^2 (beyond, uint32 arithmetic wraps; for the largest limit the sieve never ends: C37_limit_refuted). The limit computed with double logarithms is a parameter; that it is large enough for n primes is a hypothesis for n >= 6550 and proved for the built-in table (limit >= 65582)."},
 {"property": "C38", "status": "proved", "theorems": ["EFX.Props.C38_factors"], "note": "All n from 1 to 2^32-1, every table limit from 65582 to 65535^2 (the code computes 68157 in double arithmetic). Includes termination, no division by zero, increasing primes. The double square root of a 32-bit integer is taken exactly before rounding."},
 {"property": "C39", "status": "proved", "theorems": ["EFX.Props.C39_ownership", "EFX.Props.C39_values"], "note": "all histories over the storage model, with refinement to plain lists"},
 {"property": "C40", "status": "partial", "theorems": ["EFX.Props.C40_move_partial", "EFX.Props.C40_copy_refuted", "EFX.Props.C40_storage_refuted"], "note": "false for copy assignment; holds for move assignment"},
 {"property": "C41", "status": "partial", "theorems": ["EFX.Props.C41_transform", "EFX.Props.C41_rounding", "EFX.Props.C41_product_partial", "EFX.Props.C41_large_refuted"], "note": "Exact arithmetic, every digit pattern and every length 9 <= p <= 2^25; any column error below 1/2 is harmless. That the double computation stays below 1/2 is assumption A-FFT. Above 2^25 limbs the code takes the 64-point transform (refuted)."},
 {"property": "C42", "status": "partial", "theorems": ["EFX.Props.C42_field", "EFX.Props.C42_complex", "EFX.Props.C42_conj_refuted"], "note": "Arithmetic over any ordered field and, over the reals, equal to Mathlib's complex numbers. conj of the code is multiplication by i and does not negate the imaginary part, proj is not the standard one (refuted)."},
 {"property": "C43", "status": "proved", "theorems": ["EFX.Props.C43_exponents"], "note": "all histories of the modelled operations, including moves used in a disciplined way"},
 {"property": "C44", "status": "proved", "theorems": ["EFX.Props.C44_add_monotone"], "note": ""},
 {"property": "C45", "status": "proved", "theorems": ["EFX.Props.C45_swap_assign"], "note": ""},
 {"property": "C46", "status": "partial", "theorems": ["EFX.Props.C46_asin_partial", "EFX.Props.C46_asin_refuted", "EFX.Props.C46_atan_partial", "EFX.Props.C46_atan_refuted"], "note": "asin is odd except for nonzero arguments below 10^-max(tolerance/10,6), where it is even; atan is odd except from 10^(max(tolerance/10,6)+1) to 10^(tolerance+1), where atan of a negative number is positive. Parameters: constants and double estimates."},
 {"property": "C47", "status": "partial", "theorems": ["EFX.Props.C47_increment_partial", "EFX.Props.C47_increment_refuted"], "note": "integers within the storage and non-negative numbers; refuted for -0.99...9"},
 {"property": "C48", "status": "partial", "theorems": ["EFX.Props.C48_bisect_partial", "EFX.Props.C48_bracket_refuted"], "note": "Given a change of sign: result in the interval, a zero or within the tolerance of a point of opposite sign, success guaranteed for |hi-lo| < eps*2^2048. Without a change of sign the code returns 0 with success: refuted."},
 {"property": "C49", "status": "proved", "theorems": ["EFX.Props.C49_interpolate"], "note": "std::lower_bound is taken as its specification on a sorted range; exact arithmetic of an ordered field"},
 {"property": "C50", "status": "proved", "theorems": ["EFX.Props.C50_series"], "note": "any commutative ring; also the effect of the start values"},
 {"property": "C51", "status": "proved", "theorems": ["EFX.Props.C51_integer_arithmetic"], "note": ""},
 {"property": "C52", "status": "proved", "theorems": ["EFX.Props.C52_trapezoid", "EFX.Props.C52_affine"], "note": "exact arithmetic of an ordered field"},
 {"property": "C53", "status": "proved", "theorems": ["EFX.Props.C53_derivative"], "note": "exact arithmetic of an ordered field"},
 {"property": "C54", "status": "partial", "theorems": ["EFX.Props.C54_newton_interval", "EFX.Props.C54_convergence_refuted"], "note": "On success the result lies in the interval. Convergence is not implied: after 256 rounds the code reports success (refuted)."},
 {"property": "C55", "status": "partial", "theorems": ["EFX.Props.C55_functions", "EFX.Props.C55_sqrt_zero_refuted"], "note": "All functions with exact real component functions, z != 0 where needed. With e_float components sqrt(0) is i (refuted)."},
 {"property": "C56", "status": "proved", "theorems": ["EFX.Props.C56_inverse"], "note": "Exact real component functions; branch points excluded."},
 {"property": "C57", "status": "proved", "theorems": ["EFX.Props.C57_product", "EFX.Props.C57_quotient", "EFX.Props.C57_exact"], "note": "Components of full working precision with exponents up to 10^8 (error bounds); Gaussian integers exact. Newton inverse and chopped products of the code included."},
 {"property": "C58", "status": "partial", "theorems": ["EFX.Props.C58_add_sub", "EFX.Props.C58_mul", "EFX.Props.C58_div", "EFX.Props.C58_nan_refuted"], "note": "All finite operands of full precision; for integers of nine or more digits the bounds of C13 and C21 with their exponent limits. NaN times a signed integer is +inf (refuted). n = -2^63 negates out of range (undefined, see C36/C06)."},
 {"property": "C59", "status": "proved", "theorems": ["EFX.Props.C59_field", "EFX.Props.C59_special"], "note": "All finite objects and all formats; the field width is ignored for inf and nan as in the code."},
 {"property": "C60", "status": "partial", "theorems": ["EFX.Props.C60_fmod_partial", "EFX.Props.C60_fmod_refuted"], "note": "Integers of up to half the stored digits with positive divisor: exact remainder when the divisor does not divide, zero or a whole divisor otherwise. Refuted: fmod(6,3)=3, fmod(-9,9)=-18, fmod(-7,-3)=2, fmod(7,-3)=-2."},
 {"property": "C61", "status": "proved", "theorems": ["EFX.Props.C61_valid", "EFX.Props.C61_rootn"], "note": "all functions of functions/elementary; rootn and cbrt may return a zero with sign because calculate_inv may. Constants and double estimates are any valid objects."},
 {"property": "C62", "status": "proved", "theorems": ["EFX.Props.C62_parity"], "note": "exact equality of the stored numbers"},
 {"property": "C63", "status": "partial", "theorems": ["EFX.Props.C63_partial_sums", "EFX.Props.C63_remainder", "EFX.Props.C63_terminating_refuted"], "note": "the code of the functions run in exact real arithmetic; the claim for terminating series is false (NaN is returned) and refuted. Rounding of e_float arithmetic is not included."},
 {"property": "C64", "status": "partial", "theorems": ["EFX.Props.C64_sin_partial", "EFX.Props.C64_cos_partial", "EFX.Props.C64_tan_partial", "EFX.Props.C64_large_refuted"], "note": "the code of sin, cos and tan run in exact real arithmetic with exact pi, for tolerances up to 59990; for tolerances of 190000 and more the series limit of 10000 terms makes the result NaN, which is proved. Rounding of e_float arithmetic is not included."},
 {"property": "C65", "status": "partial", "theorems": ["EFX.Props.C65_exp_partial", "EFX.Props.C65_ln2_refuted"], "note": "the code of exp run in exact real arithmetic with exact ln 2 and e, for tolerances up to 29990 and arguments within the exponent limit; multiples of ln 2 give a NaN series in exact arithmetic (proved). Rounding of e_float arithmetic is not included."},
 {"property": "C66", "status": "partial", "theorems": ["EFX.Props.C66_log_partial", "EFX.Props.C66_log14_partial"], "note": "the code of log run in exact real arithmetic; assumes the double precision starting estimate is good to 10^-d (14 digits give full accuracy); excludes arguments near powers of two because of C65_ln2_refuted."},
 {"property": "C67", "status": "partial", "theorems": ["EFX.Props.C67_atan_partial", "EFX.Props.C67_negative_refuted"], "note": "the code of atan run in exact real arithmetic; assumes the double precision arc tangent below 100 is good to 10^-15. For negative arguments of orders above max(tolerance/10,6) up to tolerance the result is wrong by pi (proved)."},
 {"property": "C68", "status": "partial", "theorems": ["EFX.Props.C68_asin_partial", "EFX.Props.C68_acos_partial", "EFX.Props.C68_negative_refuted", "EFX.Props.C68_one_refuted"], "note": "exact arithmetic: error at most 2*10^(9-tol)/sqrt(1-x^2) for 1-x^2 >= 1/1000 or x in the series range near one, assuming the double estimate; refuted for small negatives (sign lost) and at x = 1 (Newton at a double root, off by more than 10^-22 at any digit count); not shown between 1-x^2 = 1/1000 and the series range"},
 {"property": "C69", "status": "partial", "theorems": ["EFX.Props.C69_hyperbolic_partial", "EFX.Props.C69_small_refuted"], "note": "the code of sinh, cosh, tanh run in exact real arithmetic; cosh relative, sinh and tanh only absolute: below 10^-tolerance sinh and tanh return zero (proved). Conditions of C65."},
 {"property": "C70", "status": "partial", "theorems": ["EFX.Props.C70_asinh_partial", "EFX.Props.C70_acosh_partial", "EFX.Props.C70_atanh_partial"], "note": "the code of asinh, acosh, atanh run in exact real arithmetic; conditions of C66 on the argument of the logarithm"},
 {"property": "C71", "status": "partial", "theorems": ["EFX.Props.C71_pow_partial", "EFX.Props.C71_zero_refuted", "EFX.Props.C71_slow_refuted"], "note": "the code of pow run in exact real arithmetic, conditions of C65 and C66 where exp and log are used; refuted: pow(0, a) = 1 for every a, and NaN for bases between 1/10 and 1/9 when the tolerance is at least 570, because the binomial series needs more than 10000 terms"},
 {"property": "C72", "status": "partial", "theorems": ["EFX.Props.C72_rootn_partial", "EFX.Props.C72_rootn_refuted"], "note": "the code of the roots run in exact real arithmetic, from a starting estimate of relative error at most 10^-12/(2p); refuted: rootn_inverse(x, 1) = x, cbrt of negative numbers is NaN"},
 {"property": "C73", "status": "partial", "theorems": ["EFX.Props.C73_atan2_partial", "EFX.Props.C73_steep_refuted"], "note": "the code of atan2 run in exact real arithmetic, with the condition of C67; refuted for steep points in the second and fourth quadrant (off by pi)"},
 {"property": "C74", "status": "partial", "theorems": ["EFX.Props.C74_bernoulli_table", "EFX.Props.C74_valid", "EFX.Props.C74_bernoulli_table_refuted"], "note": "the code of bernoulli_table in exact real arithmetic for 1 <= n < 2^31-1 gives exactly the Bernoulli numbers; with e_float elements validity and length only, not accuracy; refuted for n = 0 and n = 2^32-1, where the code writes outside the table"},
 {"property": "C75", "status": "partial", "theorems": ["EFX.Props.C75_constants_partial", "EFX.Props.C75_constants_refuted", "EFX.Props.C75_valid"], "note": "sqrt2, e, ln2, ln10, phi at all digit counts and pi below 1010 digits; the digits of Euler's, Catalan's, Glaisher's and Khinchin's constant are not checked (only valid objects); refuted from 1104 digits on, where the strings of 1100 digits are too short"},
 {"property": "C76", "status": "partial", "theorems": ["EFX.Props.C76_pi_partial"], "note": "in exact arithmetic: loop ends by its test, error below 10^-(tolerance+14), 32-bit conversions exact; missing: the rounding errors of the e_float operations (validity of the e_float result is C75_valid)"},
 {"property": "C77", "status": "partial", "theorems": ["EFX.Props.C77_gamma_poles", "EFX.Props.C77_gamma_table", "EFX.Props.C77_gamma_partial"], "note": "the code of gamma run in exact real arithmetic with tables as parameters; missing: rounding, the 20-term series for tiny arguments, the estimates of the Newton iteration of log (a condition, as in C66), the exponents that are multiples of ln 2 (C65_ln2_refuted); the range condition holds up to some 590 digits, above that the least argument 240 is too small and the series diverges before the test is met (text)"},
 {"property": "C78", "status": "proved", "theorems": ["EFX.Props.C78_factorials", "EFX.Props.C78_double_factorials", "EFX.Props.C78_bernoulli", "EFX.Props.C78_binomials", "EFX.Props.C78_tabBern"], "note": "all entries of five tables, transcribed by a script from the sources (Model/TabData) and compared in the kernel with numbers computed by recurrences proved right; the Bernoulli numbers by the tangent recurrence of C74"},
 {"property": "C79", "status": "partial", "theorems": ["EFX.Props.C79_factorial_table", "EFX.Props.C79_factorial_partial"], "note": "up to 1000 complete; above that in exact arithmetic, with the conditions of C65 and C66 for exp and log; missing: rounding"},
 {"property": "C80", "status": "partial", "theorems": ["EFX.Props.C80_binomial_exact", "EFX.Props.C80_binomial_partial", "EFX.Props.C80_binomial_refuted"], "note": "false for k > n, where the code gives NaN instead of zero; exact up to row 160, 418 digits up to row 1000; missing: rows above 1000 (through C79), rounding, the overloads with e_float arguments"},
 {"property": "C81", "status": "partial", "theorems": ["EFX.Props.C81_pochhammer_small", "EFX.Props.C81_pochhammer_partial", "EFX.Props.C81_pochhammer_refuted"], "note": "false at the nonpositive integers from 50 factors on, where the code divides by the NaN of gamma at a pole and the value is zero; complete below 50 factors in exact arithmetic; above, errors of gamma carry over tenfold at positive arguments"},
 {"property": "C82", "status": "partial", "theorems": ["EFX.Props.C82_factorial2", "EFX.Props.C82_odd_partial", "EFX.Props.C82_negative"], "note": "tables and even numbers up to 2000 and the negative numbers down to -1001 complete; large odd numbers relative to the factorial (C79); missing: rounding"},
 {"property": "C83", "status": "partial", "theorems": ["EFX.Props.C83_bernoulli", "EFX.Props.C83_bernoulli_large_partial"], "note": "odd indices and even ones up to 2000 complete; above, the error of the factorial (C79) plus 20000 times the tolerance, for tolerances up to 8000 digits; missing: rounding"},
 {"property": "C84", "status": "partial", "theorems": ["EFX.Props.C84_jpow", "EFX.Props.C84_integer", "EFX.Props.C84_prime_partial"], "note": "exact for integer exponents, independence of the map complete, in exact arithmetic; other exponents with the conditions of C65 and C66; missing: rounding"},
 {"property": "C85", "status": "partial", "theorems": ["EFX.Props.C85_one", "EFX.Props.C85_even", "EFX.Props.C85_even_table", "EFX.Props.C85_negative"], "note": "complete in exact arithmetic, the numbers below -2147483646 overflow; missing: rounding, even numbers between 2002 and the switch to one go through C83"},
 {"property": "C86", "status": "partial", "theorems": ["EFX.Props.C86_series_partial", "EFX.Props.C86_integer", "EFX.Props.C86_digits_refuted"], "note": "from 15981 digits on the loop overflows an int32_t (undefined); below, the error of the truncated series is at most 2(N+1)/5.82^(N-1), the errors of the powers are added; missing: rounding"},
 {"property": "C87", "status": "partial", "theorems": ["EFX.Props.C87_primes_partial", "EFX.Props.C87_primes_integer", "EFX.Props.C87_large_refuted"], "note": "false for huge arguments as 10^12, where the powers overflow and the result is NaN instead of one (proved for the e_float model); complete in exact arithmetic relative to the powers of C84; missing: rounding"},
 {"property": "C88", "status": "partial", "theorems": ["EFX.Props.C88_reflection_partial"], "note": "relative to the errors of gamma (C77), sine (C64), pow (C71) and zeta at 1 - s (C86, C87); missing: rounding"},
 {"property": "C89", "status": "partial", "theorems": ["EFX.Props.C89_exp_partial"], "note": "the e_float code of exp with every rounding of every operation, for up to 1000 digits, the constants read from the library's strings, and |x| <= 10^8; needs that the computed 1/ln 2 is not above the exact one, which is decidable for a digit count and shown for 101 digits. Missing: larger arguments, more digits, reduced precision."},
 {"property": "C90", "status": "partial", "theorems": ["EFX.Props.C90_sin_cos_partial"], "note": "the e_float code of sin and cos with every rounding of every operation (reduction modulo the stored pi, series, triple angle formula), for up to 1000 digits, |x| <= 10^8, x zero or above 10^-19000000. Missing: larger and smaller arguments, more digits, reduced precision."},
 {"property": "C91", "status": "partial", "theorems": ["EFX.Props.C91_integer_powers_partial"], "note": "the e_float code of pown and pow(x, int64) with every rounding, for up to 1000 digits and results within 10^(8*10^8). Missing: larger results, more digits, reduced precision."},
 {"property": "C92", "status": "partial", "theorems": ["EFX.Props.C92_hyperbolic_partial"], "note": "the e_float code of sinh, cosh and tanh with every rounding, under the conditions of C89. Missing: larger arguments, more digits, reduced precision."},
 {"property": "C93", "status": "partial", "theorems": ["EFX.Props.C93_tan_partial"], "note": "the e_float code of tan, cot, sec and csc with every rounding, under the conditions of C90, away from zeros and poles by 10^-10, and for negative numerators away from |tan x| = 1, where the division defect of C20 could strike. Missing: those neighbourhoods, larger arguments, more digits."},
 {"property": "C94", "status": "partial", "theorems": ["EFX.Props.C94_asin_acos_partial"], "note": "the e_float code of asin and acos with every rounding (Newton's iteration from a double precision start good to 10^-15, the series for small positive arguments), for up to 1000 digits. Missing: small negative arguments (wrong sign, C68), arguments near 1, more digits, reduced precision."},
 {"property": "C95", "status": "partial", "theorems": ["EFX.Props.C95_atan_partial", "EFX.Props.C95_atan2_partial", "EFX.Props.C95_atan2_refuted"], "note": "the e_float code of atan and atan2 with every rounding in all five branches, for up to 1000 digits. Missing: negative arguments of large order (wrong by pi, C67), equal magnitudes with y < 0 for atan2 (false: C95_atan2_refuted shows pi/4 for y = -x < 0 and -5 pi/4 for y = x < 0, for all such numbers), tiny arguments, the axes for atan2, more digits."},
 {"property": "C96", "status": "partial", "theorems": ["EFX.Props.C96_pown_partial", "EFX.Props.C96_min_refuted"], "note": "any number type with an associative multiplication. Fails only for p = -2^63, where the negation overflows."},
 {"property": "C97", "status": "partial", "theorems": ["EFX.Props.C97_sqrt_partial", "EFX.Props.C97_tiny_refuted"], "note": "exact operations; the passages through double and text are parameters with the accuracy stated in GenEnv.Good. Positive arguments below twice the least positive number are taken for zero and returned unchanged (C97_tiny_refuted). Missing: rounding of T."},
 {"property": "C98", "status": "partial", "theorems": ["EFX.Props.C98_rootn_partial", "EFX.Props.C98_min_refuted", "EFX.Props.C98_builtin_refuted"], "note": "exact operations as in C97, indices up to 256. rootn<float>, rootn<double>, rootn<long double> return pow(x, p) (C98_builtin_refuted); p = -2^31 overflows. Missing: rounding of T, larger indices, where the double mantissa underflows."},
 {"property": "C99", "status": "partial", "theorems": ["EFX.Props.C99_pi_partial"], "note": "exact operations and an exact square root. Missing: rounding of T."}
]}
