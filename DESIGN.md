# Formal model of e_float (efx back end) in Lean 4 — design

The code under study is `/repo/libs/e_float/src`.  The model covers the native back end `efx::e_float` (base 10^8 limbs,
`src/e_float/efx`), its base class (`src/e_float/e_float_base.cpp`), the digit array (`util::dynamic_array`), the
elementary functions (`src/functions/elementary`), the complex functions (`src/functions/complex`), the prime numbers,
the generic helpers (`src/utility`) and the generic functions (`src/generic_functions`).  Every Lean definition that models code carries a comment with the file and the lines
it models and lists its simplifications.

## Layout

| directory | content |
|---|---|
| `lean/Verif/Model` | transcription of the code; no theorems |
| `lean/Verif/Spec.lean` | specification: the number an object stands for, validity, truncation; uses no model function |
| `lean/Verif/Lemmas` | auxiliary results |
| `lean/Verif/Props` | one theorem (or a few) per property, named after the property |
| `properties.jsonl` | the properties in English |
| `MANIFEST.json` | status and theorem names per property |
| `seeded/LOG.jsonl` | wrong programs tried against the theorems |

## Conventions of the model

* **Configuration.**  `E_FLOAT_DIGITS10` is a compile-time setting.  The model is parametric in it (`Cfg.setting : Int`);
  `Cfg.digits10` applies the clamp of `e_float_base.h:54`, `Cfg.elems` is `ef_elem_number`.  Theorems quantify over all
  configurations, not only the default 101.
* **Numbers.**  `EFloat` has exactly the five data members of the C++ class: `data` (limbs, most significant first), `exp`,
  `neg`, `cls`, `prec`.
* **Machine words.**  The limb loops exist twice: with unbounded numbers (`Model/Limbs`, `Model/Core`) and with the
  wrap-around of the unsigned types (`Model/Checked`); absence of wrap-around is proved (C17).  The exponent (`int64_t`) is
  an unbounded `Int`; that this is harmless is a theorem about histories (C43).  Signed operations that overflow are an
  explicit outcome.
* **Loops.**  A C++ loop from the last limb to the first is structural recursion on the limb list; index loops with in-place
  update use `List.set` on the same list, so overlap of source and destination is visible.  Loops without a static bound
  carry fuel; the theorem states that the fuel suffices (or the fuel is the bound in the code).
* **Aliasing.**  The register machine (`Model/Machine`) executes `dst op= src` on a store, so `x -= x` runs on one object.
* **Undefined behaviour and exceptions** are the outcome `none` where the code can reach them (moved-from objects, signed
  overflow, `std::string::at`, reading an uninitialised variable).
* **Double precision.**  A double is a rational number; operations round to 53 bits, to nearest, ties to even
  (`Model/Double`).  The exponent range of double is not modelled.
* **Elementary functions** (`Model/Elementary`) are written once over a record `Arith` of operations.  `Model/ElementaryE`
  fills it with the e_float operations of the model (used by C46, C61, C62), `Model/ElementaryR` with exact real operations
  and exact constants (used by C63–C68 and later).  The real version separates the error of the algorithm (series cut,
  argument reduction, Newton steps) from the rounding of the arithmetic; rounding is not part of these theorems.
* **Generic functions** (`Model/Generic`, C96–C100) are the templates of `src/generic_functions` over a record `Gen` of
  operations; `Model/GenericR` fills it with exact real operations and lists in `GenEnv.Good` what is assumed about the
  passages through `double` and text.
* **Rounding** (C89–C95): `Lemmas/RndArith` lists what the error analysis uses about the operations (`Rnd`), `Lemmas/RndInst`
  proves that the e_float operations of the model satisfy it; the analysis of each function is done over `Rnd`.

## Specification

`Spec.val` is the rational number of an object, `denote` adds infinities and NaN, `Spec.WF`/`FinWF` is validity (limb count,
limb range, normalised leading limb, zero without sign, precision in range), `IsTrunc` says that a number is another one cut
toward zero at a given digit position.  Theorems are stated with these and with Mathlib's numbers and functions.

## Trusted base

* The Lean 4.33.0 kernel and, for every theorem of the manifest, at most the axioms `propext`, `Classical.choice` and
  `Quot.sound`; the list per theorem is in `AXIOMS.md`.  No own axioms, no `sorry`, no `native_decide`, no `bv_decide`.
* The reading of the C++ text into the definitions under `Verif/Model`.
* Recorded assumptions about things outside the code:
  * **A-FFT**: in the arithmetic model, multiplication of 625 limbs and more is the exact half-limb convolution, i.e. every
    column error of the double computation stays below 1/2.  The transform itself is modelled over the complex numbers and
    proved (C41); only the size of the rounding error of double arithmetic is assumed.
  * **A-LOG**: `static_cast<int>(::log10(double) + 0.9*eps)` in `order()` is the digit count minus one for `1 <= n < 10^8`.
  * **A-DBL**: hardware double is IEEE-754 binary64 with round-to-nearest (start values of the Newton iterations).
  * The start values `std::asin`, `std::atan`, `std::log`, `std::pow` are parameters; the accuracy theorems state the error
    they need as a hypothesis.
  * `std::lower_bound`, `std::string`, streams' `str()`, `std::regex_match`, extraction of words and `putback` of string streams behave as
    specified by the standard (C108).
  * the limit of the prime sieve, computed with double logarithms, is a parameter (C37, C38).

## Not modelled

The `gmp` and `mpfr` back ends (wrappers around external libraries), the language bindings, the tests, the timer,
file and console streams, the memory allocator, threads, and
the rounding error of e_float arithmetic inside the functions, except in C89–C95.

## How properties that are false are treated

The English statement stays in `properties.jsonl`.  A theorem `..._refuted` proves the negation with a concrete witness (or
for a whole class of arguments) and a theorem `..._partial` proves what does hold, as close as possible to the limit.

## Defects of the code found on the way

Proved in Lean unless marked (text), which were found by reading and are not formalised.

* `gamma` at 609 digits and more: the least argument stays 240, so the terms of the expansion never fall below the tolerance, the loop
  adds the growing terms up to index 9998, and the result is infinity (C107).  At 60, 75, 100 and 150 digits the least argument is one too
  small because of the rounding of double (C107).
* `binomial(n, k)` is NaN for `k > n` (C80); `pochhammer(x, n)` is NaN for nonpositive integers `x` and `n >= 50` (C81).
* complex `gamma(n + iy)` is the factorial of the real axis or NaN, whatever `y` (C102); `pochhammer(n + iy, k)` from 50 factors on is
  real (C104).
* `x -= x` doubles `x` (C11).  `x /= y` for `|x| = |y|` loses the sign, `0/0 = 1` (C20).  `1 + inf = 1`, `1 + NaN = 1` (C12).
* `isone()` is true only for 0.99…9 (C26), so `asin(1)` runs Newton's iteration at a double root and is right to some 18
  digits only (C68).
* `rootn<float>`, `rootn<double>`, `rootn<long double>` of the generic functions return `pow(x, p)` instead of the root (C98);
  the generic `sqrt` returns tiny arguments unchanged (C97).
* `NaN * int = +inf` (C58).  Division by a built-in integer uses a stale limb, `x/0` is always `+inf` (C19).
* `e_float("--1")` is accepted: after the sign is stripped, the group `-1` is converted with `operator>>` into `uint32_t`,
  and C++ streams accept a minus sign there (the value is negated modulo 2^32), so the leading digit is 4294967295 (C01).
* `mul_unsigned_long_long` has no overflow check (C34); `1 * value_max = inf` (C35).
* At 625 limbs and more `x * 1` loses the last limb (C16); at reduced precision products do not commute and exceed the exact
  value (C13, C16).
* `calculate_sqrt` stops early when two iterates agree by accident (C22).
* `calculate_inv` of huge negative numbers gives a negative zero, `e_float(10.0, 7)` stores a limb of 10^8 (C01).
* Ordered comparison with NaN is not false (C03).  Extraction of -2^63 negates out of range (C06), `pown(x, INT64_MIN)` too (C36).
* `integer_part`, `floor`, `ceil` of numbers with stored fraction digits beyond digits10 (C24, C25); `--`/`++` of -0.99…9 (C47).
* A moved-from number stays empty after copy assignment (C40).
* `rd_string` keeps a previous NaN/inf class (C30); `12345678e2147483616` is finite but above the maximum (C29); precision above
  `max_digits10` pads with zeros (C32); the writer throws for four classes of numbers and formats (C33).
* complex `operator>>` puts a rejected word back in reversed order (badbit for a read-only stream), accepts `1-5` as -15, and reads a
  variable that was never written at the end of the stream and for words such as `(1,)` and `1..5` (C108); it rejects `(inf,0)` (C109).
* `fmod(6,3) = 3`, `fmod(7,-3) = -2` (C60).
* The sieve does not end for the limit 2^32-1 (C37).
* complex `conj` is multiplication by i, `proj` is nonstandard (C42), `sqrt(0) = i` (C55), `sqrt(3-4i) = 2+i` because `-4/4` is 1 (C116).
* bisection returns 0 with success without a change of sign (C48), Newton reports success after 256 rounds (C54).
* Products of more than 2^25 limbs take a 64-point transform (C41).
* `asin` of small negative numbers is positive, `atan` of large negative numbers is off by pi (C46, C67, C68); `atan2(-x,x) = pi/4`, `atan2(-x,-x) = -5 pi/4` for all x > 0 (C95); `asinh(10^-200) = 0` at 101 digits (C117).
* A terminating hypergeometric series, `0F0(0)` and `0F1(b;0)` return NaN (C63); `sin` is NaN for tolerances of 190000 and more
  (C64); `exp` at an exact multiple of the stored ln 2 (C65).
* `pow(0,a) = 1`; `pow` is NaN for bases between 1/10 and 1/9 at some 500 digits (C71); `rootn_inverse(x,1) = x`, `cbrt(-8)` is NaN
  (C72); `atan2` is off by pi for steep points (C73).
* complex `riemann_zeta` overflows an `int32_t` for imaginary parts from 21066 on, although it lets 1000100 in; with a negative integer real
  part it uses the gamma function of the real axis (C106).
* `riemann_zeta` of huge arguments as 10^12 is NaN instead of one (C87); from 15981 digits on the zeta series overflows an `int32_t`
  (C86); integers from -2147483647 down overflow (C85); `riemann_zeta(1)` never reaches its branch for one and divides by zero (text).
* `bernoulli_table` writes outside the table for n = 0 and n = 2^32-1 (C74).
* (text) `rootn` divides the mantissa by 10 up to `p - 1` times in double precision, which underflows for `p` above 324.
* From 1104 digits on `sqrt2`, `e`, `ln2`, `ln10`, `phi` are not accurate to `digits10`, the strings have 1100 digits (C75).
* (text) `acosh` returns one where `isone` holds; `numeric_limits::lowest()` is zero; 
  `"inf"`/`"nan"` are not parsed; `sqrt(-0)` is NaN; comparison of `dynamic_array` looks at the common prefix only.

## Per property

| id | property | modelled by | how proved | status | remark |
|---|---|---|---|---|---|
| C01 | No history of operations corrupts a number | register machine over all operations (`Machine`) | invariant, induction over histories | partial | any history over an unbounded number of variables, with construction from and reading of decimal literals; false for mantissa/exponent construction, direct reciprocals of huge negative numbers and the text --1 |
| C02 | Comparison is the order of the numbers | `cmp`, `cmpData` (`Core`) | lexicographic order of limbs = order of numbers | proved |  |
| C03 | Comparison with infinities and NaN | `cmp` | case analysis, witness | partial | ordered comparisons with NaN are not false in the code; refuted |
| C04 | Integer construction is exact | `ofUnsigned`, `ofSigned` (`Integer`) | induction on the digit loop | proved |  |
| C05 | Integer round trip | constructors and extraction (`Integer`) | composition of C04 and C06 | partial | unsigned: all values; signed: all except the most negative value, for which the extraction negates -2^63 (undefined) |
| C06 | Integer extraction truncates and saturates | `extractSigned`, `extractUnsigned`, `toInt32` | induction on the limb loop, witness | partial | All finite values; extraction of -2^63 negates out of range (undefined behaviour, refuted). |
| C07 | Addition of same-signed numbers is the exact sum chopped | `addAssign` | loop refinement to integer addition, truncation spec | proved |  |
| C08 | Subtraction error bound, sign and zero | `addAssign` | loop refinement to integer subtraction, error bound over ℚ | proved |  |
| C09 | Addition commutes | `addAssign` | uniqueness of the truncated sum; witness | partial | proved for finite operands; refuted for infinite operands |
| C10 | Additive identities | `addAssign`, `subAssign` | case analysis | proved |  |
| C11 | Compound assignment with the variable itself | machine with `dst = src` | as C07/C13; witnesses | partial | x+=x and x*=x proved, x/=x is one; x-=x doubles x (refuted), x/=x differs from division by a copy for negative x (refuted) |
| C12 | Infinity and NaN propagate through addition | `addAssign` | case analysis, witness | partial | refuted for a non-finite right operand |
| C13 | Multiplication error bound | `mulAssign`, `mulLoopUV`, half-limb product | column sums, truncation bound; witness | partial | full precision: cut toward zero, relative error p*10^(8(2-p)), below 10^-(D+5) with the school method; with the half-limb convolution the bound is 20000 times larger; at reduced precision 'never exceeds' is refuted and a two-sided bound is proved |
| C14 | Multiplication is exact when the product fits | `mulAssign` | product of integers below the cut is exact | proved |  |
| C15 | Multiplication signs and special values | `mulAssign` | case analysis | proved |  |
| C16 | Multiplication commutes and has identities | `mulAssign` | symmetry of column sums; witnesses | partial | commutes at full working precision; refuted at reduced precision; x*1 loses the last limb with the half-limb convolution (refuted) |
| C17 | Digit loops never overflow machine words | `Checked`: word-level loops | equality with the unbounded loops under validity | proved |  |
| C18 | Multiplication by a built-in unsigned integer | `mulUnsigned` | loop refinement | proved |  |
| C19 | Division by a built-in unsigned integer | `divUnsigned` | loop refinement with the stale limb; witnesses | partial | the quotient is not chopped (a stale limb is used) and x/0 loses the sign; error bound proved |
| C20 | Division sign and exact quotients of equal magnitudes | `divAssign`, `finiteIdentical` | case analysis; witness | partial | Equal magnitudes with positive dividend, division by zero and non-finite operands proved; equal magnitudes with negative dividend and 0/0 are wrong in the code (refuted). |
| C21 | Reciprocal and quotient accuracy | `calculateInv`, `divAssign`, `Double` | Newton error recursion over ℚ from the double start | partial | Relative error of the reciprocal and of the quotient for every configuration; the claimed bound is reached up to 19000 limbs (about 151000 digits). Missing: larger configurations, where the model's product by the fast transform is too inaccurate, and exponents within 64 of the ends of the range. |
| C22 | Square root special cases and accuracy | `calculateSqrt`, `Double` | coupled Newton error recursion; witness for the early exit | partial | special cases proved; the accuracy claim is false at full precision (early exit of the loop, 85-digit witness), proved with the bound that always holds and with the full bound when the early exit does not change the result |
| C23 | Negation and absolute value are exact | `negate`, `fabs`, `sgn` | value lemmas | proved |  |
| C24 | Integer part and decimal part split a number | `integerPart`, `decimalPart` | limb splitting; witness | partial | the integer part keeps stored fractional digits when the exponent is at least digits10-1 (refuted) |
| C25 | Floor and ceiling | `floor`, `ceil` | from C24 and C47; witness | partial | integers and all numbers up to 10^(digits10-2); refuted above |
| C26 | Predicates decide the property they name | predicates | value lemmas; witness | partial | isone() is true only for 0.99...9 (refuted) |
| C27 | order() is the decimal order of magnitude | `order` | digit count of the leading limb | proved |  |
| C28 | precision() only changes the working precision | `setPrecision` | case analysis | proved |  |
| C29 | Reading a decimal literal | `rdString` (`Text`) | induction over the literal; witness | partial | Every valid literal (length < 2^31-48, \|exponent\| < 2^62) is read without failure; result is the exact number cut to the stored digit groups between 10^min_exp10 and 10^(max_exp10+8), zero below, infinity above, exact with at most 8(groups-1)+1 significant digits. The clause 'beyond the range gives infinity' is false between value_max and 10^(max_exp10+8): C29_range_refuted. C29_max_literal: the literal of my_value_max is read as the model's valueMax. |
| C30 | Reading replaces the previous value | `rdString` | independence of the old state; witness | partial | For every text and every previous finite state the same failure or number results (same object at full precision); stored digits, exponent and sign never depend on the previous state. False for a previous NaN or infinity: class (and working precision) are kept, C30_state_refuted. |
| C31 | Digits written are correctly rounded | `outputString` | rounding of a digit string | proved | every finite non-zero number, every digit count from 1 to max_digits10+1; the result is the number rounded to n significant digits, halves away from zero |
| C32 | Write then read returns the number | `wrString`, `rdString` | composition of C29 and C31; witness | partial | scientific format without field width and precision up to max_digits10: text within half a unit of the last digit, reading returns a number as close (cut to the stored groups), equal when the digits fit. False for larger precisions (refuted: the writer pads with zeros). |
| C33 | Writing never fails | `wrString` | exact characterisation of throwing inputs | partial | exact characterisation of the numbers and formats for which the writer throws; the property is false (four witnesses) |
| C34 | Finite results stay within the advertised range | all operations | range of results; witness | partial | false for products and mul_unsigned_long_long |
| C35 | Multiplication by one near the range limit | `mulAssign` | witness; bound | partial | refuted at the limit; proved below the leading limb weight of max |
| C36 | Integer powers | `pown`, `powInt` (`Util`) | strong induction on the exponent in any monoid; for exactness the same loops with the invariant that every product still needed fits, and C14 | partial | Both power loops (pown_template and pow(e_float,int64)) return the product of \|p\| factors, or its reciprocal, in every monoid with division, for every 64-bit exponent but the smallest, whose negation overflows (refuted). In e_float arithmetic powers of integers and 2^p, 2^-p are exact while they fit into the storage less one group of digits. |
| C37 | Prime generation | sieve (`Prime`) | loop invariants | proved | All limits up to 65535^2 (beyond, uint32 arithmetic wraps; for the largest limit the sieve never ends: C37_limit_refuted). The limit computed with double logarithms is a parameter; that it is large enough for n primes is a hypothesis for n >= 6550 and proved for the built-in table (limit >= 65582). |
| C38 | Prime factorisation | trial division (`Prime`) | loop invariants, prime counting | proved | All n from 1 to 2^32-1, every table limit from 65582 to 65535^2 (the code computes 68157 in double arithmetic). Includes termination, no division by zero, increasing primes. The double square root of a 32-bit integer is taken exactly before rounding. |
| C39 | Digit storage is owned exactly once | `Heap`: storage cells | ownership invariant over histories, refinement to lists | proved | all histories over the storage model, with refinement to plain lists |
| C40 | A moved-from number can be assigned again | `Heap`, moved-from `EFloat` | case analysis; witness | partial | false for copy assignment; holds for move assignment |
| C41 | FFT multiplication computes the convolution | `FFT`: real transform over ℝ/ℂ, pack, dispatch | discrete Fourier algebra by induction over sizes | partial | Exact arithmetic, every digit pattern and every length 9 <= p <= 2^25; any column error below 1/2 is harmless. That the double computation stays below 1/2 is assumption A-FFT. Above 2^25 limbs the code takes the 64-point transform (refuted). |
| C42 | Complex arithmetic | `Complex` generic | ring identities, equality with Mathlib's ℂ | partial | Arithmetic over any ordered field and, over the reals, equal to Mathlib's complex numbers. conj of the code is multiplication by i and does not negate the imaginary part, proj is not the standard one (refuted). |
| C43 | Exponents cannot overflow in any feasible history | machine exponents | induction over histories | proved | all histories of the modelled operations, including moves used in a disciplined way |
| C44 | Addition is monotone | `addAssign` | monotonicity of truncation | proved |  |
| C45 | swap and assignment | machine | case analysis | proved |  |
| C46 | Odd functions keep the sign | `Fn.asin`, `Fn.atan` with e_float arithmetic | branch analysis; witnesses | partial | asin is odd except for nonzero arguments below 10^-max(tolerance/10,6), where it is even; atan is odd except from 10^(max(tolerance/10,6)+1) to 10^(tolerance+1), where atan of a negative number is positive. Parameters: constants and double estimates. |
| C47 | Increment and decrement | `incr`, `decr` | from C07/C08; witness | partial | integers within the storage and non-negative numbers; refuted for -0.99...9 |
| C48 | Root bracketing | `bisectLoop` generic | interval invariant; witness | partial | Given a change of sign: result in the interval, a zero or within the tolerance of a point of opposite sign, success guaranteed for \|hi-lo\| < eps*2^2048. Without a change of sign the code returns 0 with success: refuted. |
| C49 | Linear interpolation | linear interpolation generic | case analysis over the sorted range | proved | std::lower_bound is taken as its specification on a sorted range; exact arithmetic of an ordered field |
| C50 | Coefficient expansion and alternating sum | Horner and alternating sum generic | induction | proved | any commutative ring; also the effect of the start values |
| C51 | Integer arithmetic is exact | integer operations | from C07, C08, C14 | proved |  |
| C52 | Recursive trapezoid rule | trapezoid rule generic | induction over refinements | proved | exact arithmetic of an ordered field |
| C53 | Difference quotient of sixth order | difference quotient generic | polynomial identity | proved | exact arithmetic of an ordered field |
| C54 | Newton root finding | Newton with bisection generic | interval invariant; witness | partial | On success the result lies in the interval. Convergence is not implied: after 256 rounds the code reports success (refuted). |
| C55 | Complex elementary functions | complex functions over exact real functions | identities with Mathlib's complex functions | partial | All functions with exact real component functions, z != 0 where needed. With e_float components sqrt(0) is i (refuted). |
| C56 | Complex inverse functions | complex inverse functions | identities with Mathlib's complex functions | proved | Exact real component functions; branch points excluded. |
| C57 | Complex arithmetic with e_float components | `ComplexE`: e_float components | error propagation from C13 and C21 | proved | Components of full working precision with exponents up to 10^8 (error bounds); Gaussian integers exact. Newton inverse and chopped products of the code included. |
| C58 | Mixed arithmetic with signed integers | `addSigned` … `divSigned` | from C07, C13, C18, C19, C21; witness | partial | All finite operands of full precision; for integers of nine or more digits the bounds of C13 and C21 with their exponent limits. NaN times a signed integer is +inf (refuted). n = -2^63 negates out of range (undefined, see C36/C06). |
| C59 | Field width, sign and text of special values | `wrField`, `wrNotFinite` | string lemmas | proved | All finite objects and all formats; the field width is ignored for inf and nan as in the code. |
| C60 | Floating remainder | `fmod` | from C51, C25; witnesses | partial | Integers of up to half the stored digits with positive divisor: exact remainder when the divisor does not divide, zero or a whole divisor otherwise. Refuted: fmod(6,3)=3, fmod(-9,9)=-18, fmod(-7,-3)=2, fmod(7,-3)=-2. |
| C61 | Elementary functions return valid objects | `Fn.*` with e_float arithmetic | closure of validity under all operations | proved | all functions of functions/elementary; rootn and cbrt may return a zero with sign because calculate_inv may. Constants and double estimates are any valid objects. |
| C62 | Parity of sin, cos and asinh | `Fn.sin`, `Fn.cos`, `Fn.asinh` with e_float arithmetic | branch analysis | proved | exact equality of the stored numbers |
| C63 | Hypergeometric functions return the value of their series | `Fn.hyp*` in exact arithmetic | loop invariant = partial sums; tail estimate | partial | the code of the functions run in exact real arithmetic; the claim for terminating series is false (NaN is returned) and refuted. Rounding of e_float arithmetic is not included. |
| C64 | Sine, cosine and tangent are accurate | `Fn.sin`, `Fn.cos`, `Fn.tan` in exact arithmetic | series + tripling formula + reduction by pi | partial | the code of sin, cos and tan run in exact real arithmetic with exact pi, for tolerances up to 59990; for tolerances of 190000 and more the series limit of 10000 terms makes the result NaN, which is proved. Rounding of e_float arithmetic is not included. |
| C65 | The exponential function is accurate | `Fn.exp` in exact arithmetic | series + 2048-th power + power of two | partial | the code of exp run in exact real arithmetic with exact ln 2 and e, for tolerances up to 29990 and arguments within the exponent limit; multiples of ln 2 give a NaN series in exact arithmetic (proved). Rounding of e_float arithmetic is not included. |
| C66 | The logarithm is accurate | `Fn.log` in exact arithmetic | series near one; Newton recursion | partial | the code of log run in exact real arithmetic; assumes the double precision starting estimate is good to 10^-d (14 digits give full accuracy); excludes arguments near powers of two because of C65_ln2_refuted. |
| C67 | The arc tangent is accurate | `Fn.atan` in exact arithmetic | two series; Newton recursion with the error of sin and cos | partial | the code of atan run in exact real arithmetic; assumes the double precision arc tangent below 100 is good to 10^-15. For negative arguments of orders above max(tolerance/10,6) up to tolerance the result is wrong by pi (proved). |
| C68 | asin and acos are accurate, with the right sign, on [-1,1] | `Fn.asin`, `Fn.acos` in exact arithmetic | arc sine series; Newton recursion; lower bound at the double root | partial | exact arithmetic: error at most 2*10^(9-tol)/sqrt(1-x^2) for 1-x^2 >= 1/1000 or x in the series range near one, assuming the double estimate; refuted for small negatives (sign lost) and at x = 1 (Newton at a double root, off by more than 10^-22 at any digit count); not shown between 1-x^2 = 1/1000 and the series range |
| C69 | Hyperbolic functions are accurate | `Fn.sinh`, `Fn.cosh`, `Fn.tanh` in exact arithmetic | error propagation from C65 | partial | the code of sinh, cosh, tanh run in exact real arithmetic; cosh relative, sinh and tanh only absolute: below 10^-tolerance sinh and tanh return zero (proved). Conditions of C65. |
| C70 | Inverse hyperbolic functions are accurate | `Fn.asinh`, `Fn.acosh`, `Fn.atanh` in exact arithmetic | series of arsinh and artanh; error propagation from C66 | partial | the code of asinh, acosh, atanh run in exact real arithmetic; conditions of C66 on the argument of the logarithm |
| C71 | Powers with real exponents are accurate | `Fn.pow` in exact arithmetic | binomial series: monotone partial sums, geometric tail; error propagation from C65, C66; lower bound of the terms for the refutation | partial | the code of pow run in exact real arithmetic, conditions of C65 and C66 where exp and log are used; refuted: pow(0, a) = 1 for every a, and NaN for bases between 1/10 and 1/9 when the tolerance is at least 570, because the binomial series needs more than 10000 terms |
| C72 | Roots of every index are accurate | `Fn.rootn`, `Fn.rootnInverse`, `Fn.cbrt` in exact arithmetic | Newton recursion for the relative error, Bernoulli's inequality and its converse | partial | the code of the roots run in exact real arithmetic, from a starting estimate of relative error at most 10^-12/(2p); refuted: rootn_inverse(x, 1) = x, cbrt of negative numbers is NaN |
| C73 | atan2 returns the angle of the point | `Fn.atan2` in exact arithmetic | `Complex.arg` by arc sine, quadrants; C67 | partial | the code of atan2 run in exact real arithmetic, with the condition of C67; refuted for steep points in the second and fourth quadrant (off by pi) |
| C74 | The table of Bernoulli numbers is exact in exact arithmetic | `Fn.bernoulliTable` over an abstract arithmetic, in exact arithmetic and over `e_float` | loop invariants for the tangent-number recurrence; derivatives of tanh as polynomials in tanh; power series identity for the Bernoulli numbers | partial | the code of bernoulli_table in exact real arithmetic for 1 <= n < 2^31-1 gives exactly the Bernoulli numbers; with e_float elements validity and length only, not accuracy; refuted for n = 0 and n = 2^32-1, where the code writes outside the table |
| C75 | The mathematical constants are accurate to the last digit | `Const.*`: the strings of constants.cpp, `ofString`; `Const.pi` with its loop | kernel-evaluated fixed-point sums enclosing log 2, log 10 (artanh series), pi (Machin), e, roots; reading of literals (C29) | partial | sqrt2, e, ln2, ln10, phi at all digit counts and pi below 1010 digits; the digits of Euler's, Catalan's, Glaisher's and Khinchin's constant are not checked (only valid objects); refuted from 1104 digits on, where the strings of 1100 digits are too short |
| C76 | The arithmetic-geometric mean loop computes pi | `Fn.piLoop`, `Fn.piAgm` over `realArith` | theta functions: duplication formulas, functional equation at t = 1 and its derivative give the finite form of the Gauss-Legendre formula (Lemmas/Theta, Lemmas/Agm); loop invariant, bounds of the nome for the stopping test | partial | in exact arithmetic: loop ends by its test, error below 10^-(tolerance+14), 32-bit conversions exact; missing: the rounding errors of the e_float operations (validity of the e_float result is C75_valid) |
| C77 | The gamma function is accurate | `Fn.gamma` and its parts over `realArith`, tables as `Tab ℝ` (Model/Gamma.lean) | Stirling's series with remainder below the last term, by Euler-Maclaurin and the bound of the periodic Bernoulli functions (Lemmas/Stirling); size of the Bernoulli numbers from the zeta series; loop invariant for the partial sums; recursion and reflection of the gamma function | partial | the code of gamma run in exact real arithmetic with tables as parameters; missing: rounding, the 20-term series for tiny arguments, the estimates of the Newton iteration of log (a condition, as in C66), the exponents that are multiples of ln 2 (C65_ln2_refuted); the range condition holds up to some 590 digits, above that the least argument 240 is too small and the series diverges before the test is met (text) |
| C78 | The tables of numbers are right | `TabData.a142` … `a7318`: the entries of five tables, as mantissa and power of ten (Model/TabData.lean, generated) | recurrences for factorials, double factorials, Pascal rows and tangent coefficients, proved to give Mathlib's `Nat.factorial`, `Nat.doubleFactorial`, `Nat.choose`, `bernoulli`; comparison of all entries by kernel evaluation (Lemmas/TabCheck, TabBern) | proved | all entries of five tables, transcribed by a script from the sources (Model/TabData) and compared in the kernel with numbers computed by recurrences proved right; the Bernoulli numbers by the tangent recurrence of C74 |
| C79 | Factorials are accurate | `Fn.factorial`, `factInf`, `factLoop` over `realArith` with the tables `tabR` (Model/Gamma.lean) | C78; Stirling's series with 999 terms, loop invariant as in C77 | partial | up to 1000 complete; above that in exact arithmetic, with the conditions of C65 and C66 for exp and log; missing: rounding |
| C80 | Binomial coefficients are accurate | `Fn.binomial` (Model/Gamma.lean) | C78, C79, quotient of three relative errors; `Nat.choose` | partial | false for k > n, where the code gives NaN instead of zero; exact up to row 160, 418 digits up to row 1000; missing: rows above 1000 (through C79), rounding, the overloads with e_float arguments |
| C81 | Pochhammer symbols are accurate | `Fn.pochhammer`, `pochLoop` (Model/Gamma.lean) | induction against Mathlib's `ascPochhammer`; recursion of the gamma function; pole case by C77_gamma_poles | partial | false at the nonpositive integers from 50 factors on, where the code divides by the NaN of gamma at a pole and the value is zero; complete below 50 factors in exact arithmetic; above, errors of gamma carry over tenfold at positive arguments |
| C82 | Double factorials are accurate | `Fn.factorial2` and its parts (Model/Gamma.lean) | C78, C79; for negative numbers any function `D : ℤ → ℝ` with the recurrence | partial | tables and even numbers up to 2000 and the negative numbers down to -1001 complete; large odd numbers relative to the factorial (C79); missing: rounding |
| C83 | Bernoulli numbers are accurate | `Fn.bernoulli`, `bernLoop` (Model/Gamma.lean) | C78; Euler's formula for the zeta function at even integers (`hasSum_zeta_nat`), telescoping bound of the rest of the series | partial | odd indices and even ones up to 2000 complete; above, the error of the factorial (C79) plus 20000 times the tolerance, for tolerances up to 8000 digits; missing: rounding |
| C84 | Powers of integers through prime factors are accurate | `Fn.jPowX`, `jPowLoop`, `powExp`, `primePow` (Model/Zeta.lean) | C38 for the factors; induction over the factors with an invariant of the map; sum of exponents below 32 | partial | exact for integer exponents, independence of the map complete, in exact arithmetic; other exponents with the conditions of C65 and C66; missing: rounding |
| C85 | The zeta function at integers in closed form | `Fn.zetaInt`, `zetaSimple`, `zetaIsOne`, `hasSimple` (Model/Zeta.lean) | Euler's formula `riemannZeta_two_mul_nat`, `riemannZeta_neg_nat_eq_bernoulli`; C83, C79; tail of the series | partial | complete in exact arithmetic, the numbers below -2147483646 overflow; missing: rounding, even numbers between 2002 and the switch to one go through C83 |
| C86 | The alternating series converges to the zeta function | `Fn.zetaAlt`, `zetaLoop` (Model/Zeta.lean) | closed form of the coefficients by induction; the weights are values of a polynomial bounded through an integral for the Dirichlet eta function (Lemmas/Borwein, Eta) | partial | from 15981 digits on the loop overflows an int32_t (undefined); below, the error of the truncated series is at most 2(N+1)/5.82^(N-1), the errors of the powers are added; missing: rounding |
| C87 | The product over primes gives the zeta function | `Fn.primeProd`, `usePrimes` (Model/Zeta.lean) | Euler product over smooth numbers (Lemmas/Euler), tail of the series, bound of the 300th prime by a count in the kernel; e_float evaluation in the kernel for the counterexample | partial | false for huge arguments as 10^12, where the powers overflow and the result is NaN instead of one (proved for the e_float model); complete in exact arithmetic relative to the powers of C84; missing: rounding |
| C88 | The reflection of the zeta function | `Fn.zetaF` (Model/Zeta.lean) | functional equation `riemannZeta_one_sub`, product of relative errors | partial | relative to the errors of gamma (C77), sine (C64), pow (C71) and zeta at 1 - s (C86, C87); missing: rounding |
| C89 | The exponential function is accurate including all rounding | `Fn.exp` over `efArith c T` (the e_float operations), tables from `Const` | an abstract rounded arithmetic (`Rnd`: relative errors of each operation), `e_float` shown to be one, error analysis of series, powers and reduction | partial | the e_float code of exp with every rounding of every operation, for up to 1000 digits, the constants read from the library's strings, and \|x\| <= 10^8; needs that the computed 1/ln 2 is not above the exact one, which is decidable for a digit count and shown for 101 digits. Missing: larger arguments, more digits, reduced precision. |
| C90 | Sine and cosine are accurate including all rounding | `Fn.sin`, `Fn.cos` over `efArith c T`, pi from `Const.pi` | the rounded arithmetic of C89; error propagation through the series, the nine triple angle steps (factor 9.1 per step for the cosine), the reduction modulo pi including a quotient that is off by one | partial | the e_float code of sin and cos with every rounding of every operation (reduction modulo the stored pi, series, triple angle formula), for up to 1000 digits, \|x\| <= 10^8, x zero or above 10^-19000000. Missing: larger and smaller arguments, more digits, reduced precision. |
| C91 | Integer powers are accurate including all rounding | `Fn.pown`, `Fn.powI` over `efArith c T` | error propagation through binary splitting (`NearR.pow`) and the final reciprocal | partial | the e_float code of pown and pow(x, int64) with every rounding, for up to 1000 digits and results within 10^(8*10^8). Missing: larger results, more digits, reduced precision. |
| C92 | Hyperbolic functions are accurate including all rounding | `Fn.sinh`, `Fn.cosh`, `Fn.tanh` over `efArith c T` | C89, the reciprocal, cancellation measured against `cosh x` | partial | the e_float code of sinh, cosh and tanh with every rounding, under the conditions of C89. Missing: larger arguments, more digits, reduced precision. |
| C93 | Tangent, cotangent, secant and cosecant are accurate including all rounding | `Fn.tan`, `Fn.cot`, `Fn.sec`, `Fn.csc` over `efArith c T` | C90 and the quotient of two approximations; the special path of the division for equal magnitudes is excluded or harmless | partial | the e_float code of tan, cot, sec and csc with every rounding, under the conditions of C90, away from zeros and poles by 10^-10, and for negative numerators away from \|tan x\| = 1, where the division defect of C20 could strike. Missing: those neighbourhoods, larger arguments, more digits. |
| C94 | Arc sine and arc cosine are accurate including all rounding | `Fn.asin`, `Fn.acos` over `efArith c T` | Newton's step with separately bounded errors of sine and cosine (`asin_newton`), induction over the digit loop; the rounded series `2F1` (`hyp2f1_acc`) | partial | the e_float code of asin and acos with every rounding (Newton's iteration from a double precision start good to 10^-15, the series for small positive arguments), for up to 1000 digits. Missing: small negative arguments (wrong sign, C68), arguments near 1, more digits, reduced precision. |
| C95 | Arc tangent and the angle of a point are accurate including all rounding | `Fn.atan`, `Fn.atan2` over `efArith c T` | as C94 with `atan_newton`, plus the series at zero and infinity; the quotient of `atan2` enters through `arctan_near`; below the diagonals the angle is refuted for all numbers from `div_same` | partial | the e_float code of atan and atan2 with every rounding in all five branches, for up to 1000 digits. Missing: negative arguments of large order (wrong by pi, C67), equal magnitudes with y < 0 for atan2 (false: C95_atan2_refuted shows pi/4 for y = -x < 0 and -5 pi/4 for y = x < 0, for all such numbers), tiny arguments, the axes for atan2, more digits. |
| C96 | Generic integer power | `Gf.pown` | the doubling loop gives the largest power of two; strong induction over the exponent | partial | any number type with an associative multiplication. Fails only for p = -2^63, where the negation overflows. |
| C97 | Generic square root | `Gf.sqrtStart`, `Gf.sqrtLoop`, `Gf.sqrt` over `realGen E` | error of the start from the assumptions on `double`; the coupled iteration with two relative errors, induction over the digit loop | partial | exact operations; the passages through double and text are parameters with the accuracy stated in GenEnv.Good. Positive arguments below twice the least positive number are taken for zero and returned unchanged (C97_tiny_refuted). Missing: rounding of T. |
| C98 | Generic p-th root | `Gf.alignRoot`, `Gf.rootStart`, `Gf.rootLoop`, `Gf.rootn`, `rootnBuiltin` | error of the start in terms of logarithms; Newton's step `rootStep_near`; induction over the digit loop | partial | exact operations as in C97, indices up to 256. rootn<float>, rootn<double>, rootn<long double> return pow(x, p) (C98_builtin_refuted); p = -2^31 overflows. Missing: rounding of T, larger indices, where the double mantissa underflows. |
| C99 | Generic pi | `Gf.piLoop`, `Gf.pi` over `realGen E` | the invariant of C76 (theta functions); the exponent of `frexp10` is the decimal order up to one | partial | exact operations and an exact square root. Missing: rounding of T. |
| C100 | Generic logarithm | `Gf.bits`, `Gf.agmLoop`, `Gf.ln2`, `Gf.log` over `realGen E` | `agm_log`: the mean of 1 and 4/s is theta(q)^-2 for a nome found by continuity, and the functional equation gives ln s; homogeneity of the mean carries the errors of the square roots | partial | exact operations, square root and pi with given errors, arguments with minv * 10^D * max(x, 1/x) <= 1/2; C100_all_partial uses the square root and ln2 of the templates. Missing: rounding of T, the ends of the range. |
| C101 | Complex exponential, logarithm and sine | `FnC.exp`, `FnC.log`, `FnC.sin` (Model/ComplexFn) | Error bounds of the real functions (C64, C65, C66, C69, C73) combined in the norm of the complex numbers. | partial | exact arithmetic; the rounding of the components is left out, as are the real parts that are multiples of ln 2 and the steep points of atan2 (C65, C73 refutations) |
| C102 | Complex gamma function, integer real part | `FnC.gamma`, `FnC.gammaT` | The branches for integers only look at the real part.  The true modulus is bounded by the integral of the modulus and the functional equation, hence strictly smaller off the axis. | partial | refuted: an integer real part gives the factorial of the real axis or NaN whatever the imaginary part; on the real axis the complex function is the real one |
| C103 | Complex gamma function, accuracy | `FnC.gammaT`, `FnC.gammaPos`, `FnC.gammaStir`, `FnC.gammaLoop`, `FnC.gammaRefl` | Complex Stirling series with remainder (Lemmas/StirlingC: the functional equation makes the remainder a sum of defects, each bounded by an integral), invariant of the loop, errors of log and exp from C101, product of the recursion, reflection formula. | partial | exact arithmetic, arguments beyond the small-argument series; the rounding is left out |
| C104 | Complex Pochhammer symbol | `FnC.pochhammer`, `FnC.pochLoop` | Induction over the loop against Mathlib's `ascPochhammer`; functional equation of the gamma function. | partial | below 50 factors exact; from there the errors of the gamma functions carry over; refuted for integer real parts |
| C105 | Complex zeta function, accuracy of the alternating series | `FnC.zeta`, `FnC.zetaT`, `FnC.zetaAlt`, `FnC.zetaLoop`, `FnC.jPowX`, `FnC.zetaN` | Invariant of the loop against the weights of Borwein's method, moment bound for complex exponents, ratio of the gamma functions on a vertical line, unique factorisation for the powers. | partial | exact arithmetic; imaginary parts that are not zero, real part at most 100 for the combined bound; the rounding is left out, as are the exponents that are multiples of ln 2 (C65) |
| C106 | Complex zeta function, limits and reflection | `FnC.zeta`, `FnC.zetaT`, `FnC.zetaN` | Monotone rounding of doubles gives the number of terms; Mathlib's functional equation; product of relative errors; the modulus of the gamma function off the axis (C102) refutes integers. | partial | refuted: imaginary parts from 21066 to 1000100 overflow an int32_t; negative integer real parts use the gamma function of the real axis; elsewhere on the left the relative errors carry over, in exact arithmetic |
| C107 | Digits the gamma function is good for | `minArgN`, `digitScale`, `interpD`, `Fn.gamma` | Monotone rounding of doubles outside the table, evaluation of all points inside; the condition of C77 for each; no term is below `exp(-2 pi x)`, terms fall and then rise, the last ones by a factor 16 and more. | partial | holds up to 590 digits (exact arithmetic); refuted from 609 digits on, where every argument below 240 that is no integer gives infinity; between 591 and 608 digits nothing is claimed |
| C108 | Reading complex numbers | `CTxt.readComplex`, `CTxt.accept`, `CTxt.matchSeq`, `CTxt.extractWord`, `CTxt.putback` | Backtracking matcher: greedy decomposition is found first, every match is a decomposition; induction over the characters put back; C29 for the parts. | partial | string streams; literals in the three forms are read as in C29, other words set failbit and keep the variable. Refuted: rejected words go back in reversed order (badbit for read-only streams), reading at the end of the stream and words such as 1..5, (1,), e8 use a variable never written, 1-5 is read as -15 |
| C109 | Complex numbers written and read back | `CTxt.writeComplex`, `CTxt.readComplex` | C32 for the parts, the text written is a literal (C31), padding is white space; a letter n rules out the three forms. | partial | scientific format, precision up to max_digits10, any width with white fill; infinite and NaN parts are written but rejected on reading (refuted) |
| C110 | Logarithm with rounding | `Fn.log`, `Fn.logAtOne`, `Fn.logStep` over `efArith` | Series near one with rounding; error of one Newton step at full precision from C89 (exp with rounding); the loop runs to the last step; refutation by kernel evaluation of the whole function at 49 and 100 digits against the checked digits of log 10. | partial | near one, and given the accuracy of the iterate before the last Newton step when that step runs at full precision, the result is accurate to the rounding. Refuted where the last step runs at reduced precision: log(10) is off by more than 2.5e-43 at 49 digits and 3.5e-86 at 100 digits. Missing: the accuracy of the earlier steps (they run at reduced precision) and arguments outside 10^-1000..10^1001 |
| C111 | Working precision of roots | `Fn.rootnInv`, `Fn.rootn`, `Fn.cbrt`, `Fn.rootnInverse`, `setPrecision`, `calculateInv` over `efArith` | The last assignment of the working precision decides; `calculate_inv` keeps it or returns a constant; kernel evaluation of the cube root and its cube. | partial | full precision from 239 digits on; refuted up to 168 digits for all finite arguments that are not negative: rootn_inv ends with precision(tolerance), which is fewer limbs than a number has; the cube of cbrt(2) is off by 5e-41 at 49 digits. Between 169 and 238 digits it depends on the remainder (nothing claimed) |
| C112 | Complex arithmetic with rounding | `CxE.add`, `CxE.sub`, `CxE.mul`, `CxE.norm`, `CxE.div` over the e_float operations | Errors of the component operations (C13, C21, sums), a product lemma that includes underflow, the inequality of Cauchy and Schwarz. | partial | up to 1000 digits, operands up to 10^400000000 and divisors from 10^-400000000 on, full precision; underflow of single products included |
| C113 | Complex exponential, trigonometric and hyperbolic functions with rounding | `FnC.exp`, `FnC.sin`, `FnC.cos`, `FnC.sinh`, `FnC.cosh` over `efArith` | C89, C90 and C92 for the component functions, errors of the products, the addition theorems of Mathlib. | partial | under the conditions of C89 and C90 for the components. Missing: larger arguments, more digits, reduced precision, functions built on the logarithm |
| C114 | Integer powers of complex numbers with rounding | `CxE.pown`, `CxE.pownNat`, `CxE.pownLoop` over `CxE.mul`, `CxE.mulSelf`, `CxE.div` | invariant of the loop over the bits of the exponent with the errors of C112; Bernoulli's inequality for the accumulated factor. | partial | Missing: more than 1000 digits, reduced precision, powers outside 10^±300000000 |
| C115 | Complex tangent, hyperbolic tangent and polar form with rounding | `FnC.tan`, `FnC.tanh`, `FnC.polar` over `efArith` | C113 for sine and cosine, C112 for the quotient, an error bound for quotients of complex numbers; C90 for polar. | partial | Missing: larger arguments, more than 1000 digits, reduced precision, arguments nearer to a pole |
| C116 | Absolute value and square root of complex numbers with rounding | `CxE.abs`, `CxE.sqrt` over the e_float operations | C22 for the real square root, C112 for the norm, quotients with underflow; the identity S - y^2/(4S) = abs x with relative errors. Refuted by computation: sqrt(3-4i) = 2+i. | partial | refuted for the sign of the imaginary part: sqrt(3-4i) is computed as 2+i, because -4/4 is 1 (C20); every other result is shown accurate. Missing: more than 1000 digits, reduced precision, absolute values outside 10^±300000000 |
| C117 | The inverse hyperbolic functions and log1p keep relative accuracy close to their special points, including all rounding | `Fn.acosh`, `Fn.atanh`, `Fn.log1p1m2`, `Fn.log1p`, `Fn.asinh` over `efArith c T` | `sub_one_exact` (the difference to one is exact), `hyp2f1_acc` and the square root for `acosh`; an invariant of the loop (`atanhLoop_acc`) for `atanh`; `logAtOne_acc` for `log1p`; a computed counterexample for `asinh` | partial | the e_float code with every rounding, near one for acosh and near zero for atanh and log1p. Missing: the branches through the logarithm (C110), atanh of zero and below 10^-100000, more digits, reduced precision; false for asinh (C117_asinh_refuted). |
| C118 | The power function with a real exponent is accurate, including all rounding, and the error of the logarithm is not multiplied by the exponent | `Fn.powF`, `Fn.pow` over `efArith c T` | `expMul_acc` (exponential of a rounded product, from C89), C91 for the integer part of the exponent, a quotient for exponents up to -1; the case of an exponent that counts as one separately. C110 near one gives the unconditional version. Refuted for integer exponents above 2^63: `to_int64` saturates (C06), all of them give the same power. | partial | the e_float code with every rounding. Missing: bases between 0.09 and 0.91 (another series), negative bases, more digits, reduced precision; away from one the accuracy of the computed logarithm is an assumption (C110); refuted for exponents above 2^63, which all give the same power, and for infinity to a negative power, which is infinity |
| C119 | The complex logarithm is accurate in both parts, including all rounding, except for the angle below the diagonals | `FnC.log` over `efArith c T` | C112 for the squared modulus, `log_ratio` for its relative error under the logarithm, division by two, C95 for the angle; refuted with `C95_atan2_refuted`. Example log(1+i) with the start value of log 2 and C110. | partial | the e_float code with every rounding; the accuracy of the real logarithm is an assumption (C110). Missing: the angles excluded in C95, numbers beyond 10^(+-1000000); false for im z = -re z < 0 and for im z = re z < 0, where the imaginary part is about -5 pi/4 |
| C120 | Powers of complex numbers are accurate, including all rounding, wherever the complex logarithm is | `FnC.powR`, `FnC.pow` (`Model/ComplexExpon`) over `efArith c T` | `exp_prod`: C113 for the exponential of a product that carries the error of the logarithm and its own rounding (C112 or `mul_any`), against `exp (a L)` for any logarithm `L`; with the principal value this is C120, with its conjugate and `C119_log_refuted` the refutation. Examples (1+i)^1, (1+i)^(1+i), pow(1-i, 1) = 1+i at 101 digits. | partial | the e_float code with every rounding; the accuracy of the computed complex logarithm is an assumption (C119). Missing: products with the exponent beyond 10^7 or with tiny parts that are not zero; false for im z = -re z < 0, where the power of the conjugate number is computed |
