{"id": "C01", "title": "No history of operations corrupts a number", "statement": "Starting from any set of e_float variables built with the public constructors, after any finite sequence of public operations (assignment, +=, -=, *=, /=, integer mul/div, ++, --, negate, precision, swap, integer/decimal part, also with source and destination the same variable) every variable is still a valid e_float: its stored digits are proper base-10^8 digits, the leading digit of a non-zero number is not zero, the exponent is a multiple of eight and zero carries no sign.", "quantifier": "every configured precision, every number of variables, every operation sequence of every length, every operand pair including aliased ones", "why_tests_cant": "the state space is the set of all histories; a test visits a handful of them and a broken digit only shows several operations later", "anchors": ["libs/e_float/src/e_float/efx/e_float_efx.cpp::operator+=", "libs/e_float/src/e_float/efx/e_float_efx.cpp::operator*=", "libs/e_float/src/e_float/efx/e_float_efx.cpp::operator/=", "libs/e_float/src/e_float/efx/e_float_efx.cpp::mul_unsigned_long_long", "libs/e_float/src/e_float/efx/e_float_efx.cpp::div_unsigned_long_long", "libs/e_float/src/e_float/efx/e_float_efx.cpp::precision", "libs/e_float/src/e_float/efx/e_float_efx.cpp::extract_decimal_part"]}
{"id": "C02", "title": "Comparison is the order of the numbers", "statement": "For finite x and y, x.cmp(y) is -1, 0 or 1 exactly when the number x is less than, equal to or greater than the number y; in particular == holds only for equal numbers and < is a strict total order.", "quantifier": "all pairs of valid finite e_floats of every configured precision", "why_tests_cant": "a lexicographic comparison bug only shows for particular pairs of exponents, signs and digit prefixes", "anchors": ["libs/e_float/src/e_float/efx/e_float_efx.cpp::cmp", "libs/e_float/src/e_float/efx/e_float_efx.cpp::cmp_data", "libs/e_float/src/e_float/e_float.h::operator<"]}
{"id": "C03", "title": "Comparison with infinities and NaN", "statement": "-inf is below and +inf above every finite number, infinities of the same sign are equal, NaN is never equal to anything, and every ordered comparison involving NaN is false.", "quantifier": "all pairs in which at least one operand is not finite", "why_tests_cant": "the case table is a product of classes and signs with every finite number on the other side", "anchors": ["libs/e_float/src/e_float/efx/e_float_efx.cpp::cmp"]}
{"id": "C04", "title": "Integer construction is exact", "statement": "Constructing an e_float from any built-in signed or unsigned integer yields exactly that integer, including the most negative signed value.", "quantifier": "all 2^64 unsigned and all 2^64 signed arguments, every precision", "why_tests_cant": "2^65 arguments cannot be enumerated", "anchors": ["libs/e_float/src/e_float/efx/e_float_efx.h::e_float(UnsignedIntegralType)", "libs/e_float/src/e_float/efx/e_float_efx.h::e_float(SignedIntegralType)", "libs/e_float/src/e_float/efx/e_float_efx.cpp::from_unsigned_long_long"]}
{"id": "C05", "title": "Integer round trip", "statement": "Constructing an e_float from an integer and extracting an integer of the same kind returns the original integer.", "quantifier": "all 64-bit unsigned and signed integers, every precision", "why_tests_cant": "2^64 arguments; the single failing argument is an extreme one", "anchors": ["libs/e_float/src/e_float/efx/e_float_efx.cpp::extract_signed_long_long", "libs/e_float/src/e_float/efx/e_float_efx.cpp::extract_unsigned_long_long", "libs/e_float/src/e_float/efx/e_float_efx.cpp::from_unsigned_long_long"]}
{"id": "C06", "title": "Integer extraction truncates and saturates", "statement": "Extracting a signed (or, for non-negative x, an unsigned) 64-bit integer from finite x returns x truncated toward zero when that fits the type, and the nearest limit of the type otherwise.", "quantifier": "all valid finite e_floats", "why_tests_cant": "boundary behaviour depends on digits far away from the boundary value", "anchors": ["libs/e_float/src/e_float/efx/e_float_efx.cpp::extract_signed_long_long", "libs/e_float/src/e_float/efx/e_float_efx.cpp::extract_unsigned_long_long"]}
{"id": "C07", "title": "Addition of same-signed numbers is the exact sum chopped", "statement": "If x and y are finite, non-zero and of equal sign, then x+y has the same sign, its magnitude is the largest number representable at the result's own digit position not exceeding the exact |x|+|y|, unless the result exceeds the largest finite number, in which case it is the infinity of that sign.", "quantifier": "all valid finite pairs, all exponent differences, every precision", "why_tests_cant": "carry chains of every length and alignment, at every exponent difference", "anchors": ["libs/e_float/src/e_float/efx/e_float_efx.cpp::operator+="]}
{"id": "C08", "title": "Subtraction error bound, sign and zero", "statement": "If x and y are finite and of opposite sign, then x+y has the sign of the exact sum, is zero only if the exact sum is zero, and differs from the exact sum by less than one unit of the last stored digit of the operand with the larger magnitude; it is exact when the exponents coincide.", "quantifier": "all valid finite pairs of opposite sign", "why_tests_cant": "borrow chains and cancellation of every length", "anchors": ["libs/e_float/src/e_float/efx/e_float_efx.cpp::operator+=", "libs/e_float/src/e_float/efx/e_float_efx.cpp::operator-="]}
{"id": "C09", "title": "Addition commutes", "statement": "x+y and y+x are the same number (or both the same infinity or NaN).", "quantifier": "all pairs of valid e_floats", "why_tests_cant": "the two orders execute different code paths (shift of u versus shift of v, copy versus in place)", "anchors": ["libs/e_float/src/e_float/efx/e_float_efx.cpp::operator+="]}
{"id": "C10", "title": "Additive identities", "statement": "x+0 = 0+x = x, x+(-x) = 0, x-y = 0 only if x = y, and -(x-y) = y-x.", "quantifier": "all valid e_floats x, y", "why_tests_cant": "holds or fails per digit pattern", "anchors": ["libs/e_float/src/e_float/efx/e_float_efx.cpp::operator+=", "libs/e_float/src/e_float/efx/e_float_efx.cpp::operator-=", "libs/e_float/src/e_float/efx/e_float_efx.cpp::negate"]}
{"id": "C11", "title": "Compound assignment with the variable itself", "statement": "x += x doubles, x -= x gives zero, x *= x squares and x /= x gives one, exactly as if the right-hand side were a copy of x.", "quantifier": "all valid finite x", "why_tests_cant": "the in-place loops read digits that earlier iterations may have overwritten, for every digit pattern", "anchors": ["libs/e_float/src/e_float/efx/e_float_efx.cpp::operator+=", "libs/e_float/src/e_float/efx/e_float_efx.cpp::operator-=", "libs/e_float/src/e_float/efx/e_float_efx.cpp::operator*=", "libs/e_float/src/e_float/efx/e_float_efx.cpp::operator/="]}
{"id": "C12", "title": "Infinity and NaN propagate through addition", "statement": "If either operand of + is NaN the result is NaN; if exactly one operand is infinite the result is that infinity; opposite infinities give NaN.", "quantifier": "all pairs with at least one non-finite operand", "why_tests_cant": "the other operand ranges over all finite numbers and the code path depends on its exponent", "anchors": ["libs/e_float/src/e_float/efx/e_float_efx.cpp::operator+="]}
{"id": "C13", "title": "Multiplication error bound", "statement": "For finite non-zero x, y whose exponents are inside the range, the product computed at working precision of p digits-groups never exceeds the exact product in magnitude and its relative error is below the last-but-two digit group times the number of groups; at full precision this is smaller than 10^-(digits10+5).", "quantifier": "all valid finite pairs, every precision handled by school multiplication", "why_tests_cant": "the truncated convolution drops partial products whose sum depends on all digits", "anchors": ["libs/e_float/src/e_float/efx/e_float_efx.cpp::operator*=", "libs/e_float/src/e_float/efx/e_float_efx.cpp::mul_loop_uv"]}
{"id": "C14", "title": "Multiplication is exact when the product fits", "statement": "If the digits of x and y occupy few enough digit groups that the full product fits into the stored groups, x*y is exactly the product; in particular products of integers are exact as long as they fit.", "quantifier": "all valid finite pairs with short expansions", "why_tests_cant": "depends on every combination of lengths and carries", "anchors": ["libs/e_float/src/e_float/efx/e_float_efx.cpp::operator*=", "libs/e_float/src/e_float/efx/e_float_efx.cpp::mul_loop_uv"]}
{"id": "C15", "title": "Multiplication signs and special values", "statement": "The sign of a non-zero finite or infinite product is the product of the signs; zero times finite is zero; NaN times anything and zero times infinity are NaN; infinity times non-zero is infinity.", "quantifier": "all pairs of valid e_floats", "why_tests_cant": "case table over all numbers", "anchors": ["libs/e_float/src/e_float/efx/e_float_efx.cpp::operator*="]}
{"id": "C16", "title": "Multiplication commutes and has identities", "statement": "x*y and y*x are the same number; x*1 = x; x*0 = 0.", "quantifier": "all pairs of valid e_floats of equal working precision", "why_tests_cant": "the in-place loop treats the two operands asymmetrically", "anchors": ["libs/e_float/src/e_float/efx/e_float_efx.cpp::operator*=", "libs/e_float/src/e_float/efx/e_float_efx.cpp::mul_loop_uv"]}
{"id": "C17", "title": "Digit loops never overflow machine words", "statement": "In every addition, subtraction, multiplication and integer division loop all intermediate 32-bit and 64-bit quantities stay in range, so machine arithmetic equals integer arithmetic, for every precision the build can be configured to.", "quantifier": "all digit patterns, all configured precisions", "why_tests_cant": "the worst case (all digits 99999999 at the largest school-multiplication size) is one pattern among astronomically many, and other precisions are other binaries", "anchors": ["libs/e_float/src/e_float/efx/e_float_efx.cpp::mul_loop_uv", "libs/e_float/src/e_float/efx/e_float_efx.cpp::mul_loop_n", "libs/e_float/src/e_float/efx/e_float_efx.cpp::div_loop_n", "libs/e_float/src/e_float/efx/e_float_efx.cpp::operator+="]}
{"id": "C18", "title": "Multiplication by a built-in unsigned integer", "statement": "x*n for n < 10^8 at full precision has the sign of x and magnitude the exact |x|*n chopped to the stored digit groups (exact if they suffice); n=0 gives zero, n=1 gives x, infinity and NaN follow the usual rules.", "quantifier": "all valid x, all n below 10^8, every precision", "why_tests_cant": "10^8 multipliers times all digit patterns", "anchors": ["libs/e_float/src/e_float/efx/e_float_efx.cpp::mul_unsigned_long_long", "libs/e_float/src/e_float/efx/e_float_efx.cpp::mul_loop_n"]}
{"id": "C19", "title": "Division by a built-in unsigned integer", "statement": "x/n for 1 <= n < 10^8 at full precision has the sign of x and magnitude the exact |x|/n chopped to the stored digit groups; x/0 is infinite with the sign of x, 0/0 is NaN.", "quantifier": "all valid x, all n, every precision", "why_tests_cant": "10^8 divisors times all digit patterns; the defect sits in the second-to-last digit group", "anchors": ["libs/e_float/src/e_float/efx/e_float_efx.cpp::div_unsigned_long_long", "libs/e_float/src/e_float/efx/e_float_efx.cpp::div_loop_n"]}
{"id": "C20", "title": "Division sign and exact quotients of equal magnitudes", "statement": "x/x = 1 for every finite non-zero x; if |x| = |y| != 0 then x/y is 1 or -1 according to the signs; 0/0 is NaN; x/0 is infinite for x != 0.", "quantifier": "all valid pairs of equal magnitude, all signs", "why_tests_cant": "needs all sign combinations of all numbers", "anchors": ["libs/e_float/src/e_float/efx/e_float_efx.cpp::operator/=", "libs/e_float/src/e_float/efx/e_float_efx.cpp::calculate_inv"]}
{"id": "C21", "title": "Reciprocal and quotient accuracy", "statement": "For finite x != 0 (and in-range exponent) the computed 1/x has relative error below 10^-digits10, hence x/y has relative error below 10^-(digits10-1), for every configured precision.", "quantifier": "all valid non-zero finite operands, every precision", "why_tests_cant": "the Newton iteration works at varying internal precision; its error depends on all digits and on the precision schedule of the configured size", "anchors": ["libs/e_float/src/e_float/efx/e_float_efx.cpp::calculate_inv", "libs/e_float/src/e_float/efx/e_float_efx.cpp::operator/=", "libs/e_float/src/e_float/efx/e_float_efx.cpp::extract_parts", "libs/e_float/src/e_float/efx/e_float_efx.cpp::precision"]}
{"id": "C22", "title": "Square root special cases and accuracy", "statement": "sqrt of a negative or non-finite argument is NaN, sqrt(0) = 0, and for positive x the result r is non-negative with r*r close to x to working precision.", "quantifier": "all valid e_floats", "why_tests_cant": "coupled Newton iteration over all digit patterns", "anchors": ["libs/e_float/src/e_float/efx/e_float_efx.cpp::calculate_sqrt"]}
{"id": "C23", "title": "Negation and absolute value are exact", "statement": "-(-x) = x, -x is the exact opposite, fabs(x) is the exact absolute value, sgn(x) is the sign of the number.", "quantifier": "all valid e_floats", "why_tests_cant": "all numbers", "anchors": ["libs/e_float/src/e_float/efx/e_float_efx.cpp::negate", "libs/e_float/src/functions/elementary/elementary_math.cpp::fabs", "libs/e_float/src/functions/elementary/elementary_math.cpp::sgn"]}
{"id": "C24", "title": "Integer part and decimal part split a number", "statement": "integer_part(x) + decimal_part(x) = x exactly; integer_part(x) is an integer; |decimal_part(x)| < 1; both have the sign of x or are zero.", "quantifier": "all valid finite x, every precision", "why_tests_cant": "depends on the position of the decimal point inside the digit array", "anchors": ["libs/e_float/src/e_float/efx/e_float_efx.cpp::extract_integer_part", "libs/e_float/src/e_float/efx/e_float_efx.cpp::extract_decimal_part"]}
{"id": "C25", "title": "Floor and ceiling", "statement": "floor(x) is the greatest integer not above x and ceil(x) the least integer not below x.", "quantifier": "all valid finite x, every precision", "why_tests_cant": "boundary between representable magnitudes and the internal size threshold differs per configured precision", "anchors": ["libs/e_float/src/functions/elementary/elementary_math.cpp::floor", "libs/e_float/src/functions/elementary/elementary_math.cpp::ceil", "libs/e_float/src/e_float/efx/e_float_efx.cpp::isint", "libs/e_float/src/e_float/efx/e_float_efx.cpp::extract_integer_part"]}
{"id": "C26", "title": "Predicates decide the property they name", "statement": "iszero(x) iff x = 0, isint(x) iff x is an integer, isneg(x) iff x < 0, isone(x) iff x = 1.", "quantifier": "all valid finite x", "why_tests_cant": "equivalences over all numbers", "anchors": ["libs/e_float/src/e_float/efx/e_float_efx.cpp::iszero", "libs/e_float/src/e_float/efx/e_float_efx.cpp::isint", "libs/e_float/src/e_float/efx/e_float_efx.cpp::isneg", "libs/e_float/src/e_float/efx/e_float_efx.cpp::isone"]}
{"id": "C27", "title": "order() is the decimal order of magnitude", "statement": "For finite non-zero x, 10^order(x) <= |x| < 10^(order(x)+1).", "quantifier": "all valid finite non-zero x", "why_tests_cant": "all leading digit groups and exponents", "anchors": ["libs/e_float/src/e_float/efx/e_float_efx.cpp::get_order_fast"]}
{"id": "C28", "title": "precision() only changes the working precision", "statement": "precision(d) clamps the working precision to between two digit groups and full size, never changes the value, and asking for at least the full number of digits restores full precision.", "quantifier": "all d, all x", "why_tests_cant": "all requested precisions", "anchors": ["libs/e_float/src/e_float/efx/e_float_efx.cpp::precision"]}
{"id": "C29", "title": "Reading a decimal literal", "statement": "For every decimal literal (optional sign, digits with optional point, optional exponent) whose exponent is in range, the e_float read from it is the exact number chopped to the stored digit groups, hence exact when the literal has at most 8*(groups-1)+1 significant digits; literals beyond the range give infinity or zero.", "quantifier": "all valid literals of any length", "why_tests_cant": "unbounded set of strings; alignment of the point, exponent modulo eight and padding interact", "anchors": ["libs/e_float/src/e_float/efx/e_float_efx.cpp::rd_string", "libs/e_float/src/e_float/efx/e_float_efx.cpp::e_float(const char*)"]}
{"id": "C30", "title": "Reading replaces the previous value", "statement": "Reading a literal into an existing variable gives the same number as constructing a fresh e_float from that literal, whatever the variable held before.", "quantifier": "all previous states, all literals", "why_tests_cant": "needs all previous states, including infinity and NaN", "anchors": ["libs/e_float/src/e_float/efx/e_float_efx.cpp::rd_string", "libs/e_float/src/e_float/e_float_base.cpp::operator>>"]}
{"id": "C31", "title": "Digits written are correctly rounded", "statement": "The digit string produced for n >= 1 requested significant digits together with the decimal exponent denotes |x| rounded to n significant digits, ties away from zero.", "quantifier": "all finite non-zero x, all n up to max_digits10+1", "why_tests_cant": "rounding carries through runs of nines of every length", "anchors": ["libs/e_float/src/e_float/efx/e_float_efx.cpp::get_output_string", "libs/e_float/src/e_float/e_float_base.cpp::wr_string"]}
{"id": "C32", "title": "Write then read returns the number", "statement": "Writing x in scientific format with p digits of precision and reading the text back gives a number within half a unit of the last written digit of x, and gives x itself whenever x has at most p+1 significant digits.", "quantifier": "all finite x, all precisions p", "why_tests_cant": "composition of writer and reader over all numbers", "anchors": ["libs/e_float/src/e_float/e_float_base.cpp::wr_string", "libs/e_float/src/e_float/e_float_base.cpp::wr_string_scientific", "libs/e_float/src/e_float/efx/e_float_efx.cpp::rd_string"]}
{"id": "C33", "title": "Writing never fails", "statement": "Inserting any e_float into a stream with any format flags and any precision produces text and never throws.", "quantifier": "all e_floats, all flag combinations, all precisions", "why_tests_cant": "the throwing combinations are sparse", "anchors": ["libs/e_float/src/e_float/e_float_base.cpp::wr_string", "libs/e_float/src/e_float/e_float_base.cpp::special_extend_string_to_precision", "libs/e_float/src/e_float/efx/e_float_efx.cpp::get_output_string"]}
{"id": "C34", "title": "Finite results stay within the advertised range", "statement": "No operation returns a finite number larger in magnitude than numeric_limits<e_float>::max(); results beyond become infinite, and products below the range become zero.", "quantifier": "all operations on all in-range operands", "why_tests_cant": "extreme exponents combined with all digit patterns", "anchors": ["libs/e_float/src/e_float/efx/e_float_efx.cpp::operator+=", "libs/e_float/src/e_float/efx/e_float_efx.cpp::operator*=", "libs/e_float/src/e_float/efx/e_float_efx.cpp::mul_unsigned_long_long", "libs/e_float/src/e_float/e_float_base.cpp::mul_signed_long_long", "libs/e_float/src/e_float/e_float_base.cpp::my_value_max"]}
{"id": "C35", "title": "Multiplication by one near the range limit", "statement": "1*x = x for every finite x up to numeric_limits<e_float>::max().", "quantifier": "all finite in-range x", "why_tests_cant": "fails only in the top decade group", "anchors": ["libs/e_float/src/e_float/efx/e_float_efx.cpp::operator*="]}
{"id": "C36", "title": "Integer powers", "statement": "The binary-splitting power of t with integer exponent p is t multiplied p times (one for p = 0, the reciprocal power for p < 0) for every type with associative multiplication; 2^p is computed exactly while it fits.", "quantifier": "all exponents, all associative types, all t", "why_tests_cant": "unbounded exponent", "anchors": ["libs/e_float/src/e_float/detail/e_float_detail_pown_template.h::pown_template", "libs/e_float/src/functions/elementary/elementary_trans.cpp::pow2"]}
{"id": "C37", "title": "Prime generation", "statement": "The sieve returns exactly the primes below its limit in increasing order, and prime(n) returns the first n primes whenever the limit is large enough.", "quantifier": "all limits for which index arithmetic does not wrap", "why_tests_cant": "every limit", "anchors": ["libs/e_float/src/functions/integer/prime.cpp::Generator"]}
{"id": "C38", "title": "Prime factorisation", "statement": "For every 32-bit n >= 1 the returned list of (p, e) pairs has product of p^e equal to n, and every p is prime (or one).", "quantifier": "all n below 2^32", "why_tests_cant": "2^32 arguments", "anchors": ["libs/e_float/src/functions/integer/prime_factor.cpp::Factors"]}
{"id": "C39", "title": "Digit storage is owned exactly once", "statement": "Over any sequence of constructions, copies, moves, assignments, swaps and destructions of array variables, no storage block is freed twice, no live array refers to freed storage, and when all variables are destroyed every block has been freed.", "quantifier": "all operation histories on any number of variables", "why_tests_cant": "use-after-free and leaks depend on the history", "anchors": ["libs/e_float/src/utility/util_dynamic_array.h::dynamic_array"]}
{"id": "C40", "title": "A moved-from number can be assigned again", "statement": "After y = std::move(x), assigning a new value to x makes x usable with that value.", "quantifier": "all values, all histories", "why_tests_cant": "depends on history", "anchors": ["libs/e_float/src/e_float/efx/e_float_efx.h::e_float(e_float&&)", "libs/e_float/src/e_float/efx/e_float_efx.cpp::operator=", "libs/e_float/src/utility/util_dynamic_array.h::operator="]}
{"id": "C41", "title": "FFT multiplication computes the convolution", "statement": "In exact arithmetic the transform, pointwise product and inverse transform yield the convolution of the half-digit sequences, and releasing carries yields the same digits as multiplying the integers.", "quantifier": "all digit patterns, all transform lengths 2^k", "why_tests_cant": "all inputs of all lengths", "anchors": ["libs/e_float/src/e_float/efx/e_float_efx.cpp::mul_loop_fft", "libs/e_float/src/e_float/detail/e_float_detail_fft.h"]}
{"id": "C42", "title": "Complex arithmetic", "statement": "Complex +, -, *, / computed by the class equal the field operations when the component type is exact; conj(z) negates the imaginary part; norm(z) = z*conj(z).", "quantifier": "all complex operands over any field", "why_tests_cant": "algebraic identities", "anchors": ["libs/e_float/src/e_float/e_float_complex.h"]}
{"id": "C43", "title": "Exponents cannot overflow in any feasible history", "statement": "Starting from numbers in the advertised range, after k operations every exponent is bounded by the range limit plus a constant times k, so 64-bit exponent arithmetic cannot overflow in fewer than 10^8 operations.", "quantifier": "all histories", "why_tests_cant": "requires astronomically long or extreme histories", "anchors": ["libs/e_float/src/e_float/efx/e_float_efx.cpp::operator*=", "libs/e_float/src/e_float/efx/e_float_efx.cpp::operator+="]}
{"id": "C44", "title": "Addition is monotone", "statement": "If y <= z then x+y <= x+z.", "quantifier": "all finite x, y, z with in-range results", "why_tests_cant": "rounding by chopping of differently aligned operands could break it for rare patterns", "anchors": ["libs/e_float/src/e_float/efx/e_float_efx.cpp::operator+="]}
{"id": "C45", "title": "swap and assignment", "statement": "x.swap(y) exchanges the two values completely, and assignment makes the destination equal to the source in value and working precision without changing the source.", "quantifier": "all valid x, y, including the same variable", "why_tests_cant": "all states", "anchors": ["libs/e_float/src/e_float/efx/e_float_efx.cpp::swap", "libs/e_float/src/e_float/efx/e_float_efx.cpp::operator="]}
{"id": "C46", "title": "Odd functions keep the sign", "statement": "asin(-x) = -asin(x) and atan(-x) = -atan(x), and results have the sign of the argument.", "quantifier": "all arguments in the domain, including very small and very large ones", "why_tests_cant": "separate series branches for small and large arguments of each sign", "anchors": ["libs/e_float/src/functions/elementary/elementary_trig.cpp::asin", "libs/e_float/src/functions/elementary/elementary_trig.cpp::atan"]}
{"id": "C47", "title": "Increment and decrement", "statement": "++x adds exactly one when x+1 is representable, post-increment returns the old value, and --(++x) = x for integers in range.", "quantifier": "all valid x", "why_tests_cant": "all carries", "anchors": ["libs/e_float/src/e_float/efx/e_float_efx.cpp::operator++", "libs/e_float/src/e_float/efx/e_float_efx.cpp::operator--"]}
{"id": "C48", "title": "Root bracketing", "statement": "Bisection always returns a point inside the initial interval and, on success, a point within the tolerance of a sign change of the function.", "quantifier": "all functions, all intervals, all tolerances", "why_tests_cant": "quantifies over functions", "anchors": ["libs/e_float/src/utility/util_find_root_bisect.h"]}
{"id": "C49", "title": "Linear interpolation", "statement": "Interpolating at a tabulated abscissa returns the tabulated ordinate, between two points it returns the chord value, and outside the table the nearest end value.", "quantifier": "all strictly increasing tables of any length and all arguments", "why_tests_cant": "unbounded table length", "anchors": ["libs/e_float/src/utility/util_interpolate.h"]}
{"id": "C50", "title": "Coefficient expansion and alternating sum", "statement": "Accumulating with the coefficient expansion functor evaluates sum of c_i * x^i, and with the alternating functor sum of (-1)^i c_i.", "quantifier": "all coefficient lists of any length, all x in any commutative ring", "why_tests_cant": "unbounded list length", "anchors": ["libs/e_float/src/utility/util_coefficient_expansion.h", "libs/e_float/src/utility/util_alternating_sum.h"]}
{"id": "C51", "title": "Integer arithmetic is exact", "statement": "Sums, differences and products of integer-valued numbers are exactly the integer results as long as operands and results fit the stored digit groups.", "quantifier": "all pairs of integer-valued e_floats, all configurations", "why_tests_cant": "unbounded set of operand pairs of up to millions of digits", "anchors": ["libs/e_float/src/e_float/efx/e_float_efx.cpp:415-787"]}
{"id": "C52", "title": "Recursive trapezoid rule", "statement": "The recursive trapezoid integration returns the composite trapezoid rule with 2^m intervals for some m <= 31; success is reported only when m >= 5 and the relative change against 2^(m-1) intervals is below the tolerance; affine functions are integrated exactly.", "quantifier": "all functions, all intervals, all tolerances, any ordered field", "why_tests_cant": "the statement is over all integrands and all numbers of refinement rounds", "anchors": ["libs/e_float/src/utility/util_trapezoid.h"]}
{"id": "C53", "title": "Difference quotient of sixth order", "statement": "The numerical derivative is exact for every polynomial of degree at most six, for every point and every non-zero step.", "quantifier": "all polynomials of degree at most 6, all points, all steps, any ordered field", "why_tests_cant": "infinitely many polynomials, points and steps; a wrong weight shows only as a small error in a test", "anchors": ["libs/e_float/src/utility/util_function_derivative.h"]}
{"id": "C54", "title": "Newton root finding", "statement": "When the Newton-Raphson root finder reports success, the result is a point of the interval at which the iteration has converged within the tolerance.", "quantifier": "all functions with derivatives, all intervals, all tolerances", "why_tests_cant": "tests use functions for which the iteration converges; the claim is about every function", "anchors": ["libs/e_float/src/utility/util_find_root_newton_raphson.h"]}
{"id": "C55", "title": "Complex elementary functions", "statement": "With exact real component functions abs, arg, polar, exp, log, log10, sin, cos, tan, sinh, cosh, tanh, sqrt, pow and integer powers of the complex class are the complex functions (principal branches), wherever these are defined.", "quantifier": "all complex arguments", "why_tests_cant": "uncountably many arguments; branch cuts and quadrants are hit only by chance; identities between the component formulas and the complex function need proof", "anchors": ["libs/e_float/src/e_float/e_float_complex.h"]}
{"id": "C56", "title": "Complex inverse functions", "statement": "With exact real component functions asin, acos, atan, asinh, acosh, atanh of the complex class are right inverses of sin, cos, tan, sinh, cosh, tanh.", "quantifier": "all complex arguments except the branch points", "why_tests_cant": "uncountably many arguments; a wrong branch or sign shows only in some quadrants", "anchors": ["libs/e_float/src/e_float/e_float_complex.h"]}
{"id": "C57", "title": "Complex arithmetic with e_float components", "statement": "For complex numbers with e_float components sums and products of Gaussian integers within the precision are exact, and products and quotients of all numbers of moderate exponent have an error far below 10^-digits10 relative to the product of the absolute values of the terms.", "quantifier": "all finite components of moderate exponent, all precisions", "why_tests_cant": "error bounds over all digit patterns and cancellations", "anchors": ["libs/e_float/src/e_float/e_float_complex.h"]}
{"id": "C58", "title": "Mixed arithmetic with signed integers", "statement": "Adding, subtracting, multiplying and dividing by a built-in signed integer gives the same result as the corresponding operation with the mathematical integer: sums and differences equal those with the converted operand, products are cut toward zero or become a signed infinity above max, quotients have the error bounds of the division, and the sign is the sign of the exact result; NaN stays NaN.", "quantifier": "all finite operands, all signed 64-bit integers except -2^63", "why_tests_cant": "2^64 integers times all digit patterns; sign handling is done by negating before and after", "anchors": ["libs/e_float/src/e_float/e_float_base.cpp"]}
{"id": "C59", "title": "Field width, sign and text of special values", "statement": "The text of a finite number is its unsigned text behind the sign the format asks for, padded with the fill character to the field width on the proper side; infinities are written inf behind the sign and NaN as nan, in capitals on request.", "quantifier": "all e_floats, all format flags, widths and fill characters", "why_tests_cant": "combinations of flags, widths and text lengths are unbounded", "anchors": ["libs/e_float/src/e_float/e_float_base.cpp::wr_string", "libs/e_float/src/e_float/e_float_base.cpp::special_handle_string_not_finite"]}
{"id": "C60", "title": "Floating remainder", "statement": "fmod(x, y) is x - n*y where n is x/y cut toward zero; in particular for integers it is the remainder of the integer division.", "quantifier": "all finite x and nonzero y whose quotient fits the stored digits", "why_tests_cant": "depends on the rounding of the quotient at every multiple of the divisor", "anchors": ["libs/e_float/src/functions/elementary/elementary_math.cpp::fmod"]}
{"id": "C61", "title": "Elementary functions return valid objects", "statement": "Every elementary function (trigonometric, inverse trigonometric, exponential, logarithmic, power, root, hyperbolic, hypergeometric) returns an object whose representation is valid: right number of digit groups, each below 10^8, exponent a multiple of 8, working precision in range, zero stored with all groups zero and no sign.", "quantifier": "all valid arguments of any class and precision, all digit counts, all valid constants and starting estimates", "why_tests_cant": "the loops pass through intermediate objects of every precision and class; no test enumerates them", "anchors": ["libs/e_float/src/functions/elementary/elementary_trig.cpp", "libs/e_float/src/functions/elementary/elementary_trans.cpp", "libs/e_float/src/functions/elementary/elementary_hyper_g.cpp"]}
{"id": "C62", "title": "Parity of sin, cos and asinh", "statement": "sin(-x) = -sin(x), cos(-x) = cos(x) and asinh(-x) = -asinh(x), exactly.", "quantifier": "all finite arguments, all digit counts", "why_tests_cant": "argument reduction and four evaluation branches; exact equality for all arguments", "anchors": ["libs/e_float/src/functions/elementary/elementary_trig.cpp::sin", "libs/e_float/src/functions/elementary/elementary_trig.cpp::cos", "libs/e_float/src/functions/elementary/elementary_trans.cpp::asinh"]}
{"id": "C63", "title": "Hypergeometric functions return the value of their series", "statement": "Each hypergeometric function returns the value of its series to relative accuracy 2*10^-tolerance whenever the series converges with terms that at least halve after the 20th, and NaN only if 9999 terms do not reach that accuracy. In particular a series that terminates returns its polynomial value.", "quantifier": "all real parameters and arguments, all digit counts (exact arithmetic)", "why_tests_cant": "the stopping rule compares decimal orders of a term and a sum; its correctness depends on every parameter and argument", "anchors": ["libs/e_float/src/functions/elementary/elementary_hyper_g.cpp"]}
{"id": "C64", "title": "Sine, cosine and tangent are accurate", "statement": "sin, cos and tan return the value of the mathematical function: sin with relative error at most 4*10^-tolerance, cos with absolute error at most 10^(9-tolerance), tan and cos with relative error at most 10^(11+max(tolerance/10,6)-tolerance), whatever the size of the argument.", "quantifier": "all real arguments, all digit counts (exact arithmetic)", "why_tests_cant": "argument reduction, five evaluation branches and error growth through nine triple angle steps; all arguments", "anchors": ["libs/e_float/src/functions/elementary/elementary_trig.cpp::sin", "libs/e_float/src/functions/elementary/elementary_trig.cpp::cos"]}
{"id": "C65", "title": "The exponential function is accurate", "statement": "exp returns e^x with relative error at most 4700*10^-tolerance for every argument within the exponent limits.", "quantifier": "all real arguments, all digit counts (exact arithmetic)", "why_tests_cant": "range reduction by ln 2, a series and a 2048th power, for all arguments", "anchors": ["libs/e_float/src/functions/elementary/elementary_trans.cpp::exp"]}
{"id": "C66", "title": "The logarithm is accurate", "statement": "log returns the natural logarithm: relative error at most 3*10^-tolerance near one, absolute error at most 6001*10^-tolerance elsewhere, for every positive argument, including those beyond 10^1000 and below 10^-1000.", "quantifier": "all positive real arguments, all digit counts (exact arithmetic)", "why_tests_cant": "the number of Newton rounds is fixed by the digit count; that it suffices for all arguments is a proof obligation", "anchors": ["libs/e_float/src/functions/elementary/elementary_trans.cpp::log"]}
{"id": "C67", "title": "The arc tangent is accurate", "statement": "atan returns the arc tangent with absolute error at most 4*10^(9-tolerance) for every argument, and relative error at most 3*10^-tolerance for small arguments.", "quantifier": "all real arguments, all digit counts (exact arithmetic)", "why_tests_cant": "five branches and a Newton iteration whose convergence depends on the size of the argument", "anchors": ["libs/e_float/src/functions/elementary/elementary_trig.cpp::atan"]}
{"id": "C68", "title": "asin and acos are accurate, with the right sign, on [-1,1]", "statement": "For |x| <= 1 asin returns the arc sine and acos the arc cosine to the working tolerance (in exact arithmetic, from a double precision start), including negative, small and end point arguments.", "quantifier": "for all real x with |x| <= 1, all tolerances from 30 to 29990 and all double precision estimates within their error bound", "why_tests_cant": "The Newton iteration has a double root at 1 and the number of steps is fixed by the digit count, so the accuracy depends jointly on the argument and on the digit count; only a proof covers every pair.", "anchors": ["libs/e_float/src/functions/elementary/elementary_trig.cpp:269-379"]}
{"id": "C69", "title": "Hyperbolic functions are accurate", "statement": "sinh, cosh and tanh return the hyperbolic functions to the working tolerance, relative to the result, for every argument within the exponent limit.", "quantifier": "all real arguments within the exponent limit, all digit counts (exact arithmetic)", "why_tests_cant": "cancellation in (e^x - e^-x)/2 depends on the size of the argument; a test samples a few sizes", "anchors": ["libs/e_float/src/functions/elementary/elementary_trans.cpp::sinh", "libs/e_float/src/functions/elementary/elementary_trans.cpp::sinhcosh", "libs/e_float/src/functions/elementary/elementary_trans.cpp::tanh"]}
{"id": "C70", "title": "Inverse hyperbolic functions are accurate", "statement": "asinh, acosh and atanh return the inverse hyperbolic functions: relative error at most 3*10^-tolerance where a series is used, absolute error at most 6001*10^-tolerance elsewhere.", "quantifier": "all real arguments in the domain, all digit counts (exact arithmetic)", "why_tests_cant": "series branches near the branch points meet the logarithm branches at a digit-dependent border", "anchors": ["libs/e_float/src/functions/elementary/elementary_trans.cpp::asinh", "libs/e_float/src/functions/elementary/elementary_trans.cpp::acosh", "libs/e_float/src/functions/elementary/elementary_trans.cpp::atanh", "libs/e_float/src/functions/elementary/elementary_trans.cpp::log1p1m2"]}
{"id": "C71", "title": "Powers with real exponents are accurate", "statement": "pow(x, a) returns x^a: exactly for integer exponents, with relative error at most 11200*10^-tolerance for positive bases and other exponents; pow(0, a) is zero for positive a.", "quantifier": "all bases and exponents with |a| < 2^63, all digit counts (exact arithmetic)", "why_tests_cant": "four branches; the binomial series of the middle branch converges the slower the smaller the base is, with a fixed limit of terms", "anchors": ["libs/e_float/src/functions/elementary/elementary_trans.cpp::pow"]}
{"id": "C72", "title": "Roots of every index are accurate", "statement": "rootn(x, p) and rootn_inverse(x, p) return x^(1/p) and x^(-1/p) with relative error at most 2*10^-tolerance for all positive x and all non-zero p; cbrt also for negative x.", "quantifier": "all positive real arguments, all indices below 2^31 in size, all digit counts (exact arithmetic)", "why_tests_cant": "the number of Newton rounds is fixed by the digit count but the speed of convergence depends on the index", "anchors": ["libs/e_float/src/functions/elementary/elementary_trans.cpp::rootn_inv", "libs/e_float/src/functions/elementary/elementary_trans.cpp::rootn", "libs/e_float/src/functions/elementary/elementary_trans.cpp::rootn_inverse"]}
{"id": "C73", "title": "atan2 returns the angle of the point", "statement": "atan2(y, x) is the argument of x + iy in (-pi, pi] with absolute error at most 4*10^(9-tolerance), in all quadrants and on the axes.", "quantifier": "all real points, all digit counts (exact arithmetic)", "why_tests_cant": "quadrant logic times the branches of the arc tangent; a branch error of the arc tangent shows only for steep points", "anchors": ["libs/e_float/src/functions/elementary/elementary_trig.cpp::atan2"]}
{"id": "C74", "title": "The table of Bernoulli numbers is exact in exact arithmetic", "statement": "bernoulli_table(bn, n) fills bn[0..n] with the Bernoulli numbers B_0 .. B_n (B_1 = -1/2), writes only inside the table, and with e_float entries every entry is a valid object.", "quantifier": "all table sizes n, all digit counts", "why_tests_cant": "the in-place recurrence for the tangent numbers is checked by tests only against a short list of values; indices out of range at n = 0 and at the wrap of n + 1 need no visible failure", "anchors": ["libs/e_float/src/functions/integer/bernoulli_b.cpp::bernoulli_table"]}
{"id": "C75", "title": "The mathematical constants are accurate to the last digit", "statement": "ef::sqrt2, e, ln2, ln10, phi, pi (and the other constants) are valid numbers within one unit of the last limb of the mathematical constants, at every digit count.", "quantifier": "all digit counts", "why_tests_cant": "1100 digits per constant, compared by tests at one setting only; a wrong digit late in a string or a string too short for the setting only loses accuracy", "anchors": ["libs/e_float/src/functions/constants/constants.cpp::sqrt2", "libs/e_float/src/functions/constants/constants.cpp::pi", "libs/e_float/src/functions/constants/constants.cpp::e", "libs/e_float/src/functions/constants/constants.cpp::ln2", "libs/e_float/src/functions/constants/constants.cpp::ln10", "libs/e_float/src/functions/constants/constants.cpp::phi"]}
{"id": "C76", "title": "The arithmetic-geometric mean loop computes pi", "statement": "For 1010 digits and more ef::pi leaves its loop by its own test before k reaches 31, no 32-bit conversion in it changes a value, and the result is pi to more than tolerance() digits.", "quantifier": "all tolerances up to 1.2e9 (every digit count)", "why_tests_cant": "tests run a few digit counts; the loop count, the stopping test and the shift 1UL << k depend on the digit count, and the correctness of the formula is a theorem about theta functions", "anchors": ["libs/e_float/src/functions/constants/constants.cpp::pi"]}
{"id": "C77", "title": "The gamma function is accurate", "statement": "ef::gamma gives NaN at the poles, the factorial from the table at the small positive integers, and elsewhere a value whose relative error is of the order of the tolerance times the (raised) argument: the recursion, the reflection and the Stirling expansion with its stopping test are right.", "quantifier": "all real arguments outside the small-argument series, all tables with Bernoulli numbers right to a relative error, all digit counts whose least argument is large enough", "why_tests_cant": "the stopping test depends on an asymptotic series that diverges; tests see a few arguments at a few digit counts", "anchors": ["libs/e_float/src/functions/gamma/gamma.cpp::gamma_imp"]}
{"id": "C78", "title": "The tables of numbers are right", "statement": "The tables of factorials, double factorials, Bernoulli numerators and denominators hold the numbers they claim to hold, to 419 significant digits and exactly where these suffice; the triangle of binomial coefficients is exact.", "quantifier": "all 1001 entries of each table, all 161 rows", "why_tests_cant": "an entry is used for one argument only; a wrong digit in one of 4000 long strings goes unnoticed unless every entry is compared with an independent computation", "anchors": ["libs/e_float/src/functions/tables/tables.h::Tables", "libs/e_float/src/functions/tables/A000142.cpp", "libs/e_float/src/functions/tables/A006882.cpp", "libs/e_float/src/functions/tables/A000367.cpp", "libs/e_float/src/functions/tables/A002445.cpp", "libs/e_float/src/functions/tables/A007318.cpp"]}
{"id": "C79", "title": "Factorials are accurate", "statement": "ef::factorial(n) is n! to the digits of the table up to 1000 and to the tolerance above.", "quantifier": "all n with 32 bits whose factorial does not overflow", "why_tests_cant": "the expansion is used for four thousand million arguments", "anchors": ["libs/e_float/src/functions/gamma/factorial.cpp::ef::factorial"]}
{"id": "C80", "title": "Binomial coefficients are accurate", "statement": "ef::binomial(n, k) is the binomial coefficient, exact up to row 160.", "quantifier": "all n and k", "why_tests_cant": "the number of pairs", "anchors": ["libs/e_float/src/functions/gamma/factorial.cpp::ef::binomial"]}
{"id": "C81", "title": "Pochhammer symbols are accurate", "statement": "ef::pochhammer(x, n) is x (x+1) ... (x+n-1) for every x and n.", "quantifier": "all x and n", "why_tests_cant": "the zeros lie at the nonpositive integers, and the switch at 50 factors depends on n only", "anchors": ["libs/e_float/src/functions/gamma/pochhammer.cpp::ef::pochhammer"]}
{"id": "C82", "title": "Double factorials are accurate", "statement": "ef::factorial2(n) is n!!, continued to the negative odd numbers by the recurrence (n+2)!! = (n+2) n!!.", "quantifier": "all n of 32 bits with sign", "why_tests_cant": "signs and offsets differ in five branches", "anchors": ["libs/e_float/src/functions/gamma/factorial.cpp::ef::factorial2"]}
{"id": "C83", "title": "Bernoulli numbers are accurate", "statement": "ef::bernoulli(n) is the Bernoulli number B_n to the tolerance, for table indices, for odd indices and for the zeta series above.", "quantifier": "all n", "why_tests_cant": "the series is used for indices above 2000 only", "anchors": ["libs/e_float/src/functions/integer/bernoulli_b.cpp::ef::bernoulli"]}
{"id": "C84", "title": "Powers of integers through prime factors are accurate", "statement": "Util::j_pow_x(j, x, map) is j^x, exact for integer x, and does not depend on what earlier calls left in the map of prime powers.", "quantifier": "all j of 32 bits, all x, all contents of the map that calls with the same x produce", "why_tests_cant": "the map makes the result depend on the history of calls", "anchors": ["libs/e_float/src/utility/util_power_j_pow_x.cpp::Util::j_pow_x"]}
{"id": "C85", "title": "The zeta function at integers in closed form", "statement": "ef::riemann_zeta(n) is zeta(n) to the tolerance for even n, negative n, and those n where it returns one.", "quantifier": "all n of 32 bits with sign", "why_tests_cant": "the switch to the constant one depends on the number of digits", "anchors": ["libs/e_float/src/functions/zeta/zeta.cpp::ef::riemann_zeta", "libs/e_float/src/functions/zeta/zeta.cpp::Zeta_Series::has_simple_form_for_zeta_n"]}
{"id": "C86", "title": "The alternating series converges to the zeta function", "statement": "For positive s the weighted alternating series with N = 1.45 digits terms gives zeta(s) to the tolerance.", "quantifier": "all s > 0, all numbers of digits", "why_tests_cant": "the coefficients are not those of the published algorithm; agreement at sample points says nothing about the rate", "anchors": ["libs/e_float/src/functions/zeta/zeta.cpp::Zeta_Series::ZetaTemplate"]}
{"id": "C87", "title": "The product over primes gives the zeta function", "statement": "For large s the product over the first 300 primes gives zeta(s) to the tolerance.", "quantifier": "all s for which the code takes the product", "why_tests_cant": "the bound on the missing factors is needed at the switch only", "anchors": ["libs/e_float/src/functions/zeta/zeta.cpp::Zeta_Series::ZetaTemplate"]}
{"id": "C88", "title": "The reflection of the zeta function", "statement": "For negative s that are not integers the result is zeta(s), from gamma, sine and the series at 1 - s.", "quantifier": "all negative s", "why_tests_cant": "errors of five factors multiply", "anchors": ["libs/e_float/src/functions/zeta/zeta.cpp::Zeta_Series::Reflection"]}
{"id": "C89", "title": "The exponential function is accurate including all rounding", "statement": "With the library's own constants, exp of a full-precision number x with |x| <= 10^8 returns a valid full-precision number whose relative distance from e^x is at most (500+|x|)*10^-(D+1), D being the number of decimal digits; no intermediate operation overflows, and no argument gives a NaN.", "quantifier": "all numbers of full working precision up to 10^8 in magnitude, all digit counts up to 1000", "why_tests_cant": "the rounding errors of about 60 operations per call accumulate differently for each of the 10^800 arguments", "anchors": ["libs/e_float/src/functions/elementary/elementary_trans.cpp::exp", "libs/e_float/src/e_float/efx/e_float_efx.cpp::mul_loop_uv"]}
{"id": "C90", "title": "Sine and cosine are accurate including all rounding", "statement": "With the stored pi, sin of a full-precision number x with |x| <= 10^8 returns a valid full-precision number within (4+|x|/1000)*10^-(D+1) of sin x, and within 2|x|*10^-(D+1) for |x| <= 3/2; cos is within (10000001+|x|/1000)*10^-(D+1) of cos x; no argument gives a NaN, also where the computed quotient x/pi rounds to the wrong integer.", "quantifier": "all numbers of full working precision up to 10^8 in magnitude which are zero or at least 10^-19000000, all digit counts up to 1000", "why_tests_cant": "the worst cases are arguments next to multiples of pi/2, where reduction cancels all leading digits; these cannot be enumerated", "anchors": ["libs/e_float/src/functions/elementary/elementary_trig.cpp::sin", "libs/e_float/src/functions/elementary/elementary_trig.cpp::cos"]}
{"id": "C91", "title": "Integer powers are accurate including all rounding", "statement": "For a full-precision number x with 10^-K <= |x| <= 10^K and an integer p with |p|K <= 8*10^8 and |p| <= 10^9, both integer power functions return a valid full-precision number whose relative distance from x^p is at most (2+|p|/1000)*10^-(D+1).", "quantifier": "all numbers of full working precision, all exponents in that range, all digit counts up to 1000", "why_tests_cant": "the roundings accumulate differently for every base and exponent", "anchors": ["libs/e_float/src/functions/elementary/elementary_trans.cpp::pown", "libs/e_float/src/e_float/detail/e_float_detail_pown_template.h::pown_template"]}
{"id": "C92", "title": "Hyperbolic functions are accurate including all rounding", "statement": "With the library's constants, sinh and cosh of a full-precision number x with |x| <= 10^8 are within (1010+2|x|)*10^-(D+1)*cosh x, and tanh is within (3200+7|x|)*10^-(D+1) of the exact value; all three results are valid full-precision numbers.", "quantifier": "all numbers of full working precision up to 10^8 in magnitude, all digit counts up to 1000", "why_tests_cant": "cancellation in e^x - e^-x and the sign of tanh for large negative arguments depend on the argument", "anchors": ["libs/e_float/src/functions/elementary/elementary_trans.cpp::sinhcosh", "libs/e_float/src/functions/elementary/elementary_trans.cpp::tanh"]}
{"id": "C93", "title": "Tangent, cotangent, secant and cosecant are accurate including all rounding", "statement": "With the stored pi, the four quotients of sine and cosine of a full-precision number x with |x| <= 10^8 are within 3(10000001+|x|/1000)*10^-(D+1) divided by the square of the denominator of their exact value.", "quantifier": "all numbers of full working precision up to 10^8 in magnitude whose sine and cosine are not near zero, all digit counts up to 1000", "why_tests_cant": "all arguments; division has a special path for equal magnitudes", "anchors": ["libs/e_float/src/functions/elementary/elementary_trig.cpp::tan", "libs/e_float/src/functions/elementary/elementary_trig.cpp::cot", "libs/e_float/src/functions/elementary/elementary_trig.cpp::sec", "libs/e_float/src/functions/elementary/elementary_trig.cpp::csc"]}
{"id": "C94", "title": "Arc sine and arc cosine are accurate including all rounding", "statement": "With the stored pi and a double precision start value good to 10^-15, asin and acos of a full-precision number x of middle size (1 - x^2 >= 1/1000) are within 11 and 13 times 10^-(D+1)/sqrt(1-x^2) of the exact values; for small x >= 0 asin has relative error at most 10^-(D+1)/40.", "quantifier": "all numbers of full working precision away from 1 and not small negative, all digit counts up to 1000", "why_tests_cant": "Newton's iteration mixes a sine and a cosine of different accuracy for every argument", "anchors": ["libs/e_float/src/functions/elementary/elementary_trig.cpp::asin", "libs/e_float/src/functions/elementary/elementary_trig.cpp::acos"]}
{"id": "C95", "title": "Arc tangent and the angle of a point are accurate including all rounding", "statement": "With the stored pi and a double precision start value good to 10^-15, atan of a full-precision number is within 7*10^7*10^-(D+1) of the exact value, relatively accurate for small arguments; atan2(y,x) is within 8*10^7*10^-(D+1) of the angle in (-pi,pi].", "quantifier": "all numbers of full working precision outside the range where the sign is lost (C67) and, for atan2, outside the equal magnitude case of the division (C20); all digit counts up to 1000", "why_tests_cant": "five branches by the order of the argument, each with its own error analysis", "anchors": ["libs/e_float/src/functions/elementary/elementary_trig.cpp::atan", "libs/e_float/src/functions/elementary/elementary_trig.cpp::atan2"]}
{"id": "C96", "title": "Generic integer power", "statement": "pown<T>(t, p) is the p-th power of t under any associative multiplication with unit, and the reciprocal of the |p|-th power for negative p.", "quantifier": "all number types with an associative multiplication, all t, all 64 bit exponents", "why_tests_cant": "all exponents and all number types at once", "anchors": ["libs/e_float/src/generic_functions/elementary/generic_functions_elementary.h::pown"]}
{"id": "C97", "title": "Generic square root", "statement": "With exact operations of T and double precision start values that are good to 2*10^-16, sqrt<T>(x) has relative error at most 10^-(D+1)/5; a negative argument gives NaN.", "quantifier": "all digit counts up to 2^30, all real x", "why_tests_cant": "all digit counts and arguments", "anchors": ["libs/e_float/src/generic_functions/elementary/generic_functions_elementary.h::sqrt", "libs/e_float/src/generic_functions/elementary/generic_functions_elementary.h::frexp10", "libs/e_float/src/generic_functions/elementary/generic_functions_elementary.h::iszero", "libs/e_float/src/generic_functions/elementary/generic_functions_elementary.h::isone"]}
{"id": "C98", "title": "Generic p-th root", "statement": "rootn<T>(x, p) is the p-th root of x: argument for p=1, sqrt for p=2, reciprocal for negative p, NaN for p=0 or negative x, otherwise relative error at most 10^-(D+1) for |p| up to 4 and a fixed share of the digits for larger p.", "quantifier": "all positive x, all indices, all digit counts up to 2^30, and the specialisations for built-in types", "why_tests_cant": "all arguments, indices and digit counts; the specialisations for float and double are never called by the tests", "anchors": ["libs/e_float/src/generic_functions/elementary/generic_functions_elementary.h::rootn"]}
{"id": "C99", "title": "Generic pi", "statement": "pi<T>() ends by its own test, without overflow in its shifts, and differs from pi by at most 123*10^(-2[D/2]).", "quantifier": "all digit counts from 6 to 2^30", "why_tests_cant": "all digit counts, up to 30 rounds of doubling", "anchors": ["libs/e_float/src/generic_functions/constants/generic_functions_constants.h::pi"]}
{"id": "C100", "title": "Generic logarithm", "statement": "ln2<T>() and log<T>(x) are the natural logarithms of two and of x, with errors of order S^2 times the errors of square root and pi plus S^2*10^-D, where S = |ln x| + 2D; log of numbers below the least positive number is NaN.", "quantifier": "all positive x away from the ends of the range, all digit counts from 7", "why_tests_cant": "all arguments and digit counts; rests on the relation between the arithmetic-geometric mean and theta functions", "anchors": ["libs/e_float/src/generic_functions/elementary/generic_functions_elementary.h::log", "libs/e_float/src/generic_functions/constants/generic_functions_constants.h::ln2"]}
{"id": "C101", "title": "Complex exponential, logarithm and sine", "statement": "exp, log and sin of complex<e_float> computed with the library's own real functions have errors of order 10^(9-tolerance): relative for exp, absolute for log, relative to cosh of the imaginary part for sin.", "quantifier": "all complex arguments within the exponent limit away from multiples of ln 2, respectively with good double starts", "why_tests_cant": "all arguments; the tests print a few values", "anchors": ["libs/e_float/src/e_float/e_float_complex.h::exp", "libs/e_float/src/e_float/e_float_complex.h::log", "libs/e_float/src/e_float/e_float_complex.h::sin"]}
{"id": "C102", "title": "Complex gamma function, integer real part", "statement": "gamma(z) of a complex argument depends on the imaginary part also where the real part is an integer, and is finite off the real axis.", "quantifier": "all integer real parts, all imaginary parts", "why_tests_cant": "the tests avoid integer real parts", "anchors": ["libs/e_float/src/functions/gamma/gamma.cpp::GammaTemplate"]}
{"id": "C103", "title": "Complex gamma function, accuracy", "statement": "gamma(z) for a real part that is no integer (or beyond the factorial table) has a relative error of order |z|*10^(9-tolerance), in the left half plane times the loss of the reflection.", "quantifier": "all complex arguments beyond the small-argument series, all tables of Bernoulli numbers of given accuracy", "why_tests_cant": "all arguments and precisions; needs an error bound of the complex Stirling series", "anchors": ["libs/e_float/src/functions/gamma/gamma.cpp::GammaTemplate"]}
{"id": "C104", "title": "Complex Pochhammer symbol", "statement": "pochhammer(z, n) of a complex argument is z(z+1)...(z+n-1).", "quantifier": "all complex z, all n", "why_tests_cant": "all arguments; the quotient of gamma functions from 50 factors on fails at integer real parts", "anchors": ["libs/e_float/src/functions/gamma/pochhammer.cpp::Pochhammer_Template"]}
{"id": "C105", "title": "Complex zeta function, accuracy of the alternating series", "statement": "riemann_zeta(s) for a complex argument with positive real part equals the zeta function up to the truncation error of the alternating series with N = trunc(1.45*digits + 1.1*|Im s|) terms and the errors of the integer powers, both divided by |1 - 2^(1-s)|; the integer powers built from cached prime powers do not depend on the cache.", "quantifier": "all complex s with positive real part and non-zero imaginary part up to 1000100, all N up to 23171, all precisions", "why_tests_cant": "all arguments and precisions; needs the truncation error of the series for complex arguments", "anchors": ["libs/e_float/src/functions/zeta/zeta.cpp::ZetaTemplate", "libs/e_float/src/utility/util_power_j_pow_x.cpp::Util::j_pow_x"]}
{"id": "C106", "title": "Complex zeta function, limits and reflection", "statement": "riemann_zeta(s) is defined for every complex s with |Im s| up to the limit 1000100 of the code, and to the left of the imaginary axis the reflection formula gives the zeta function with the relative errors of its factors.", "quantifier": "all complex s", "why_tests_cant": "the tests use small imaginary parts and no integer real parts", "anchors": ["libs/e_float/src/functions/zeta/zeta.cpp::ZetaTemplate", "libs/e_float/src/functions/zeta/zeta.cpp::Reflection"]}
{"id": "C107", "title": "Digits the gamma function is good for", "statement": "The least argument of the expansion of gamma, 240 * DigitScale() truncated, is large enough for the tolerance at every number of digits, so gamma has the accuracy of C77 with the tables of the source.", "quantifier": "all numbers of digits, all arguments that are no integers", "why_tests_cant": "the tests run a few precisions, none near 600 digits", "anchors": ["libs/e_float/src/utility/util_digit_scale.cpp::Util::DigitScale", "libs/e_float/src/functions/gamma/gamma.cpp::GammaTemplate"]}
{"id": "C108", "title": "Reading complex numbers", "statement": "operator>> of complex numbers reads exactly the words u, (u) and (u,v) with decimal literals u, v and gives the parts the values of the literals; for any other input it sets failbit, keeps the variable and restores the characters.", "quantifier": "all stream contents and states, all words, all precisions", "why_tests_cant": "the tests read no complex number from malformed text and never look at the stream after an error", "anchors": ["libs/e_float/src/e_float/e_float_complex.h::operator>>", "libs/e_float/src/e_float/e_float_base.cpp::operator>>"]}
{"id": "C109", "title": "Complex numbers written and read back", "statement": "The text that operator<< writes for a complex number is read back by operator>> as the same number, up to half a unit of the last written digit of each part.", "quantifier": "all complex numbers, formats, widths and precisions", "why_tests_cant": "the tests write complex numbers but never read them back", "anchors": ["libs/e_float/src/e_float/e_float_complex.h::operator<<", "libs/e_float/src/e_float/e_float_complex.h::operator>>"]}
{"id": "C110", "title": "Logarithm with rounding", "statement": "ef::log returns the natural logarithm to within a small number of units of the requested last digit, with all rounding of the arithmetic and the working precisions of the Newton steps taken into account.", "quantifier": "all positive finite numbers, all precisions up to 1000 digits", "why_tests_cant": "tests compare a few arguments at precisions where the digit doubling happens to land beyond the requested digits", "anchors": ["libs/e_float/src/functions/elementary/elementary_trans.cpp::ef::log", "libs/e_float/src/functions/elementary/elementary_trans.cpp::Log_Series::AtOne"]}
{"id": "C111", "title": "Working precision of roots", "statement": "The results of rootn, cbrt and rootn_inverse carry the full working precision, so that products of them are accurate to the requested digits.", "quantifier": "all finite arguments, all indices from 3 on, all precisions", "why_tests_cant": "the working precision is a hidden member of the object; the tests compare the digits of the root itself, which are right", "anchors": ["libs/e_float/src/functions/elementary/elementary_trans.cpp::ElementaryTrans_Series::rootn_inv", "libs/e_float/src/e_float/efx/e_float_efx.cpp::e_float::precision"]}
{"id": "C112", "title": "Complex arithmetic with rounding", "statement": "Sums, differences, products, squared moduli and quotients of complex e_float numbers are accurate, with every rounding of the component operations, relative to the absolute values of the operands.", "quantifier": "all pairs of complex numbers with finite parts of full precision, all precisions up to 1000 digits", "why_tests_cant": "cancellation in one component and underflow of single products happen only for special pairs; the tests compare a few literals", "anchors": ["libs/e_float/src/e_float/e_float_complex.h:1486-1553", "libs/e_float/src/e_float/e_float_complex.h:1686"]}
{"id": "C113", "title": "Complex exponential, trigonometric and hyperbolic functions with rounding", "statement": "exp, sin, cos, sinh and cosh of complex e_float numbers are accurate, with every rounding of every operation, relative to the growth of the function (exp of the real part, cosh of the imaginary or real part).", "quantifier": "all complex numbers with components up to 10^8, all precisions up to 1000 digits", "why_tests_cant": "the error depends on the argument reduction and on two component functions each; the tests take a few dozen arguments near the origin", "anchors": ["libs/e_float/src/e_float/e_float_complex.h:1751-1777", "libs/e_float/src/e_float/e_float_complex.h:1815-1833"]}
{"id": "C114", "title": "Integer powers of complex numbers with rounding", "statement": "pow(z, p) for complex e_float z and int64 p is accurate with every rounding of every product and of the final division: the relative error grows at most in proportion to |p|; the zeroth power is exactly one.", "quantifier": "all complex numbers with finite parts of full precision, all int64 exponents except -2^63, powers within 10^±300000000, all precisions up to 1000 digits", "why_tests_cant": "the tests raise a few literals to small powers; the number of products and the branch taken depend on every bit of the exponent, and self-multiplication takes its own code path", "anchors": ["libs/e_float/src/e_float/e_float_complex.h:1795-1798", "libs/e_float/src/e_float/detail/e_float_detail_pown_template.h:18-64"]}
{"id": "C115", "title": "Complex tangent, hyperbolic tangent and polar form with rounding", "statement": "tan, tanh and polar of complex<e_float> are accurate with every rounding of every operation: for the tangents relative to the squared ratio of the growth of cosine to its value (distance from a pole), for polar relative to the modulus.", "quantifier": "all complex numbers with components up to 10^8 that are not within about digits10-9 digits of a pole, all moduli within 10^±100000000, all precisions up to 1000 digits", "why_tests_cant": "the loss of digits near the poles depends on every digit of the argument; the tests use a few dozen arguments", "anchors": ["libs/e_float/src/e_float/e_float_complex.h:1701-1707", "libs/e_float/src/e_float/e_float_complex.h:1866-1890"]}
{"id": "C116", "title": "Absolute value and square root of complex numbers with rounding", "statement": "abs(z) is accurate to the accuracy of the real square root with every rounding; the square of sqrt(z) is z to that accuracy and sqrt(z) is the root on the principal branch.", "quantifier": "all complex numbers with finite parts of full precision and absolute value within 10^±300000000, all precisions up to 1000 digits", "why_tests_cant": "the tests take the root of a few literals; the wrong sign of the imaginary part appears only when the imaginary part is exactly minus twice the computed root", "anchors": ["libs/e_float/src/e_float/e_float_complex.h:1684", "libs/e_float/src/e_float/e_float_complex.h:1835-1864"]}
{"id": "C117", "title": "The inverse hyperbolic functions and log1p keep relative accuracy close to their special points, including all rounding", "statement": "acosh of a number above one by less than 10^-max(tolerance/10,6) is within (E + 10^-(D+1)) acosh(x) of the exact value, E being the error of the square root (C22); atanh of such small numbers is within |x| 10^-(D+1), log1p of numbers up to 1/1000 within |x|/40 10^-(D+1). asinh does not: asinh(10^-200) is zero at 101 digits.", "quantifier": "all numbers of full working precision in these ranges; all digit counts up to 1000", "why_tests_cant": "the cancellation x - 1 must be exact for every argument, and the series run up to 10000 rounds with rounding in each", "anchors": ["libs/e_float/src/functions/elementary/elementary_trans.cpp::acosh", "libs/e_float/src/functions/elementary/elementary_trans.cpp::atanh", "libs/e_float/src/functions/elementary/elementary_trans.cpp::log1p1m2", "libs/e_float/src/functions/elementary/elementary_trans.cpp::asinh"]}
{"id": "C118", "title": "The power function with a real exponent is accurate, including all rounding, and the error of the logarithm is not multiplied by the exponent", "statement": "For a positive base x up to 0.09 or from 0.91 on whose computed logarithm is off by at most d <= 1/100, and every exponent a (integer or not, of either sign) with |a| <= 10^9, the computed pow(x, a) is within 5 d + (1100 + 5 |log x| + |a|/200) 10^-(D+1) of x^a, relatively. For bases within 10^-max(tolerance/10,6)/2 of one the bound (1110 + |a|/200) 10^-(D+1) needs no assumption on the logarithm.", "quantifier": "all bases and exponents of full working precision in these ranges; all digit counts up to 1000", "why_tests_cant": "the error of the fractional part of the exponent, of the logarithm, of the exponential and of the integer power combine differently for every pair of arguments", "anchors": ["libs/e_float/src/functions/elementary/elementary_trans.cpp::pow", "libs/e_float/src/functions/elementary/elementary_trans.cpp::exp"]}
{"id": "C119", "title": "The complex logarithm is accurate in both parts, including all rounding, except for the angle below the diagonals", "statement": "If the computed logarithm of the computed |z|^2 is off by at most d, the real part of log z is within d + (1 + |log |z||) 10^-(D+1) and, for the angles covered by C95, the imaginary part within 8 10^7 10^-(D+1) of the principal value. For every z with im z = -re z < 0 it fails: the imaginary part is about pi/4 instead of -pi/4. For every z with im z = re z < 0 it is about -5 pi/4, below the principal branch.", "quantifier": "all complex numbers with parts of full working precision between 10^-1000000 and 10^1000000; all digit counts up to 1000", "why_tests_cant": "the squared modulus is rounded before the logarithm and the bound must hold for every pair of parts; the wrong angle shows only on a diagonal", "anchors": ["libs/e_float/src/e_float/e_float_complex.h::log", "libs/e_float/src/functions/elementary/elementary_trig.cpp::atan2"]}
{"id": "C120", "title": "Powers of complex numbers are accurate, including all rounding, wherever the complex logarithm is", "statement": "If the computed logarithm of z is within e of the principal value, pow(z, a) for a real or complex exponent a has a relative error of at most 2 |a| e + (34000000 + 8 |a log z|) 10^-(D+1). For every z with im z = -re z < 0 and a real exponent it fails: the computed power is that of the conjugate number, so that pow(1-i, 1.0) is 1+i.", "quantifier": "all complex bases other than zero, all real and complex exponents with |a log z| up to 10^7; all digit counts up to 1000", "why_tests_cant": "the error of the logarithm is multiplied by the exponent; the wrong branch shows only on a diagonal and for exponents that are no built-in integers", "anchors": ["libs/e_float/src/e_float/e_float_complex.h::pow"]}
