{"id": "C01", "title": "from_bits then to_bits is the identity on bit patterns", "statement": "For every format and every bit pattern of that format's width, to_bits(from_bits(b)) = b. For X87DoubleExtended this holds for every pattern except the unsupported encodings (unnormals) and pseudo-denormals.", "quantifier": "every format (Half, Single, Double, Quad, BFloat, Float8E5M2, Float8E4M3FN, X87DoubleExtended); every bit pattern below 2^BITS", "why_tests_cant": "2^128 patterns for Quad, 2^80 for x87: only samples can be tried", "anchors": ["src/ieee.rs:Semantics::from_bits", "src/ieee.rs:Semantics::to_bits", "src/ieee.rs:X87DoubleExtendedS"]}
{"id": "C02", "title": "from_bits decodes the interchange format", "statement": "from_bits(b) has the sign, category and exact real value that the interchange format assigns to b: sign bit, biased exponent, fraction with hidden (or explicit) integer bit; exponent all ones is infinity/NaN (or, for Float8E4M3FN, only the all-ones pattern is NaN).", "quantifier": "every format (Half, Single, Double, Quad, BFloat, Float8E5M2, Float8E4M3FN, X87DoubleExtended); every bit pattern", "why_tests_cant": "the set of bit patterns is too large to enumerate and the reference value is a real number", "anchors": ["src/ieee.rs:Semantics::from_bits", "src/ieee.rs:X87DoubleExtendedS::from_bits"]}
{"id": "C03", "title": "to_bits then from_bits loses nothing; bitwise_eq is equality of bits", "statement": "For every value obtainable from the API, from_bits(to_bits(x)) is bitwise_eq to x, and bitwise_eq(x, y) holds exactly when to_bits(x) = to_bits(y).", "quantifier": "every value that any sequence of API calls can produce", "why_tests_cant": "quantifies over all reachable values, i.e. over all call histories", "anchors": ["src/ieee.rs:Semantics::to_bits", "src/ieee.rs:bitwise_eq"]}
{"id": "C04", "title": "Addition is correctly rounded", "statement": "For finite x, y and each of the five rounding modes, add_r(x,y) is the unique value prescribed by the rounding mode: the exact real result rounded to the nearest representable number with unbounded exponent (ties to even / away) or in the given direction, then overflow to infinity or the largest finite number. INEXACT is set exactly when the result differs from x+y, OVERFLOW when infinity is delivered for a finite sum, UNDERFLOW exactly when an inexact result is subnormal or zero. (In the format without infinities, the exact results that fall on or next to the NaN pattern with a negative sign and a directed mode are the subject of C47.)", "quantifier": "every format, every pair of finite operands, every rounding mode", "why_tests_cant": "2^256 operand pairs; errors hide at ties, cancellation and binade boundaries", "anchors": ["src/ieee.rs:add_r", "src/ieee.rs:sig::add_or_sub", "src/ieee.rs:normalize"]}
{"id": "C05", "title": "Subtraction is correctly rounded", "statement": "For finite x, y and each rounding mode, sub_r(x,y) is the correctly rounded x-y with the same status rules as addition. (In the format without infinities, the exact results that fall on or next to the NaN pattern with a negative sign and a directed mode are the subject of C47.)", "quantifier": "every format, every pair of finite operands, every rounding mode", "why_tests_cant": "same as addition", "anchors": ["src/ieee.rs:sub_r", "src/ieee.rs:sig::add_or_sub", "src/ieee.rs:normalize"]}
{"id": "C06", "title": "Multiplication is correctly rounded", "statement": "For finite x, y and each rounding mode, mul_r(x,y) is the correctly rounded x*y with the status rules of C04; the sign is the exclusive or of the signs. (In the format without infinities, the exact results that fall on or next to the NaN pattern with a negative sign and a directed mode are the subject of C47.)", "quantifier": "every format, every pair of finite operands, every rounding mode", "why_tests_cant": "2^256 operand pairs", "anchors": ["src/ieee.rs:mul_r", "src/ieee.rs:sig::mul", "src/ieee.rs:sig::widening_mul", "src/ieee.rs:normalize"]}
{"id": "C07", "title": "Division is correctly rounded", "statement": "For finite x and finite non-zero y and each rounding mode, div_r(x,y) is the correctly rounded x/y with the status rules of C04, whichever of the four internal division algorithms is used. (In the format without infinities, the exact results that fall on or next to the NaN pattern with a negative sign and a directed mode are the subject of C47.)", "quantifier": "every format, every pair of finite operands with non-zero divisor, every rounding mode", "why_tests_cant": "2^256 operand pairs, four code paths selected by the divisor", "anchors": ["src/ieee.rs:div_r", "src/ieee.rs:sig::div", "src/ieee.rs:normalize"]}
{"id": "C08", "title": "Fused multiply-add is correctly rounded", "statement": "For finite x, y, z and each rounding mode, mul_add_r(x,y,z) is the correctly rounded x*y+z (one rounding).", "quantifier": "every format, every triple of finite operands, every rounding mode", "why_tests_cant": "2^384 operand triples; the failing triples need a subnormal addend of opposite sign", "anchors": ["src/ieee.rs:mul_add_r", "src/ieee.rs:sig::add_or_sub"]}
{"id": "C09", "title": "Signs of exact zero results", "statement": "An exact zero sum (or difference, or fused multiply-add with an exact zero result) of operands that are not like-signed zeros is +0, or -0 when rounding toward negative; like-signed zeros keep their sign; products and quotients have the exclusive-or sign even when zero or infinite; a result that underflows to zero keeps the sign of the exact result.", "quantifier": "every format, all operands, every rounding mode", "why_tests_cant": "quantifies over all cancelling operand pairs", "anchors": ["src/ieee.rs:add_r", "src/ieee.rs:mul_add_r", "src/ieee.rs:mul_r", "src/ieee.rs:div_r"]}
{"id": "C10", "title": "Infinities, zero divisors and invalid operations", "statement": "inf-inf, 0*inf, 0/0, inf/inf, remainder of inf or by 0 return the constant NAN (a quiet NaN) with INVALID_OP; finite non-zero / 0 returns correctly signed infinity with exactly DIV_BY_ZERO; every other operation with an infinite operand returns the IEEE limit with status OK. (Formats without infinity deliver NaN in its place.)", "quantifier": "every format, every operand of the given class, every rounding mode", "why_tests_cant": "each class contains up to 2^127 operands", "anchors": ["src/ieee.rs:add_r", "src/ieee.rs:mul_r", "src/ieee.rs:div_r", "src/ieee.rs:ieee_rem", "src/ieee.rs:c_fmod"]}
{"id": "C11", "title": "NaN propagation", "statement": "If an operand of add, sub, mul, div, mul_add, remainder, fmod, round_to_integral is NaN, the result is the first NaN operand (same sign and payload) with its quiet bit set, and INVALID_OP is set exactly when one of the operands is a signaling NaN; the result is never signaling (except x87 pseudo-NaNs). For mul_add this holds unless x*m is inf*0 or 0*inf, which is an invalid operation whatever the addend (C10).", "quantifier": "every format, every NaN payload and sign, every other operand", "why_tests_cant": "2^112 payloads, and all values of the other operand", "anchors": ["src/ieee.rs:IeeeDefaultExceptionHandling", "src/ieee.rs:add_r", "src/ieee.rs:mul_r"]}
{"id": "C12", "title": "Status flag discipline", "statement": "In add/sub/mul/div/from_u128/convert on finite operands (and mul_add where it is correctly rounded, see C08): OVERFLOW or UNDERFLOW is only ever raised together with INEXACT; status OK is returned exactly when the result equals the exact mathematical result; INVALID_OP and DIV_BY_ZERO are not raised (division by zero is C10).", "quantifier": "every format, all operands, every rounding mode", "why_tests_cant": "a universally quantified exclusion cannot be tested", "anchors": ["src/ieee.rs:normalize", "src/lib.rs:Status"]}
{"id": "C13", "title": "round_to_integral", "statement": "For finite x, round_to_integral(x, r) is x rounded to an integer in the direction r (ties as r says), keeps the sign of x (also for zero results), returns x itself with status OK if x is an integer, and sets exactly INEXACT otherwise. is_integer(x) holds exactly when x is an integer.", "quantifier": "every format, every value, every rounding mode", "why_tests_cant": "the magic-constant algorithm must be exact for all values", "anchors": ["src/ieee.rs:round_to_integral", "src/lib.rs:is_integer"]}
{"id": "C14", "title": "next_up / next_down are the neighbours", "statement": "next_up(x) is the least representable number greater than x (with -smallest going to -0, largest to infinity, -infinity to -largest), next_down is its mirror image; no representable value lies strictly between; both raise no flag on non-signaling operands and next_down(next_up(x)) = x in value for finite non-extreme x.", "quantifier": "every format, every value", "why_tests_cant": "minimality quantifies over all representable values", "anchors": ["src/ieee.rs:next_up", "src/lib.rs:next_down"]}
{"id": "C15", "title": "Comparison agrees with the order of the real numbers", "statement": "partial_cmp returns None iff an operand is NaN, otherwise the order of the exact real values (±0 equal, infinities at the ends); ==, <, > agree with it and are mutually consistent; cmp_abs_normal orders absolute values.", "quantifier": "every format, every pair of values", "why_tests_cant": "2^256 pairs", "anchors": ["src/ieee.rs:partial_cmp", "src/ieee.rs:cmp_abs_normal", "src/ieee.rs:sig::cmp"]}
{"id": "C16", "title": "min, max, minimum, maximum", "statement": "min/max return the smaller/larger operand and the other operand when one is NaN; minimum/maximum propagate NaN and order -0 before +0; the result is always one of the operands.", "quantifier": "every format, every pair of values", "why_tests_cant": "all pairs, including all NaN payloads", "anchors": ["src/lib.rs:min", "src/lib.rs:max", "src/lib.rs:minimum", "src/lib.rs:maximum"]}
{"id": "C17", "title": "from_u128 / from_i128 are correctly rounded", "statement": "from_u128_r(n) and from_i128_r(n) return the correctly rounded value of the integer n with the status rules of C04; n = 0 gives +0.", "quantifier": "every format, every 128-bit integer, every rounding mode", "why_tests_cant": "2^128 integers", "anchors": ["src/ieee.rs:from_u128_r", "src/lib.rs:from_i128_r", "src/ieee.rs:normalize"]}
{"id": "C18", "title": "to_u128 rounds and saturates", "statement": "For 1 <= width <= 128, to_u128_r(x, width, r) returns the integer obtained by rounding x in mode r when it lies in [0, 2^width), with is_exact and OK iff x is that integer (and not -0), INEXACT otherwise; for NaN it returns 0 with INVALID_OP, and for values out of range the nearest bound with INVALID_OP.", "quantifier": "every format, every value, every width, every rounding mode", "why_tests_cant": "all values and 128 widths", "anchors": ["src/ieee.rs:to_u128_r", "src/ieee.rs:round_away_from_zero"]}
{"id": "C19", "title": "to_i128 rounds and saturates", "statement": "For 2 <= width <= 128, to_i128_r(x, width, r) returns the rounded integer when it lies in [-2^(width-1), 2^(width-1)), otherwise INVALID_OP with the nearest bound; status and is_exact as in C18.", "quantifier": "every format, every value, every width, every rounding mode", "why_tests_cant": "all values and 127 widths", "anchors": ["src/lib.rs:to_i128_r", "src/ieee.rs:to_u128_r"]}
{"id": "C20", "title": "Integers within the precision survive a round trip", "statement": "If |n| <= 2^PRECISION (and n is within range of the format), from_i128(n) is exact and to_i128 of the result is n.", "quantifier": "every format, every such integer, all rounding modes", "why_tests_cant": "up to 2^114 integers", "anchors": ["src/ieee.rs:from_u128_r", "src/ieee.rs:to_u128_r", "src/lib.rs:to_i128_r"]}
{"id": "C21", "title": "Format conversion is correctly rounded", "statement": "For finite x, x.convert_r::<T>(r) is the correctly rounded value of x in format T with the status rules of C04; infinities and signed zeros are preserved where T has them; NaNs become quiet NaNs with the leading payload bits and sign preserved.", "quantifier": "every pair of formats, every value, every rounding mode", "why_tests_cant": "every value of every format pair", "anchors": ["src/ieee.rs:convert_r", "src/ieee.rs:normalize"]}
{"id": "C22", "title": "loses_info tells whether information was lost", "statement": "For non-NaN x, loses_info after convert_r is false exactly when the result has the same real value (or is the same infinity), and then converting back returns x itself. Widening conversions (T has at least the precision and exponent range) never lose information. For NaN x, loses_info is true exactly when payload is dropped (or x is an x87 NaN with no counterpart elsewhere).", "quantifier": "every pair of formats, every value", "why_tests_cant": "every value of every format pair", "anchors": ["src/ieee.rs:convert_r"]}
{"id": "C23", "title": "c_fmod is exact and terminates", "statement": "For finite x and finite non-zero y, c_fmod(x,y) terminates and returns exactly x - n*y with n = trunc(x/y), with the sign of x and status OK (NanOnly formats included).", "quantifier": "every format, every pair of finite operands with non-zero divisor", "why_tests_cant": "unbounded loop; all pairs", "anchors": ["src/ieee.rs:c_fmod"]}
{"id": "C24", "title": "ieee_rem is exact", "statement": "For finite x and finite non-zero y, ieee_rem(x,y) returns exactly x - n*y where n is x/y rounded to nearest, ties to even; a zero result has the sign of x; status OK.", "quantifier": "every format, every pair of finite operands with non-zero divisor", "why_tests_cant": "all pairs; ties are sparse", "anchors": ["src/ieee.rs:ieee_rem", "src/ieee.rs:c_fmod"]}
{"id": "C25", "title": "scalbn multiplies by a power of two", "statement": "For finite x, scalbn_r(x, n, r) is the correctly rounded value of x*2^n for every i32 n (including those far outside the exponent range).", "quantifier": "every format, every value, every 32-bit exponent, every rounding mode", "why_tests_cant": "2^32 exponents for each value", "anchors": ["src/ieee.rs:scalbn_r"]}
{"id": "C26", "title": "ilogb is floor(log2|x|)", "statement": "For finite non-zero x, 2^ilogb(x) <= |x| < 2^(ilogb(x)+1), also for subnormals; NaN, zero and infinity give IEK_NAN, IEK_ZERO, IEK_INF.", "quantifier": "every format, every value", "why_tests_cant": "all values", "anchors": ["src/ieee.rs:ilogb"]}
{"id": "C27", "title": "frexp splits exactly", "statement": "For finite non-zero x, frexp_r(x) = (f, e) with x = f*2^e and 1/2 <= |f| < 1; zeros give themselves and exponent 0; NaNs are quieted; infinities are returned unchanged.", "quantifier": "every format, every value, every rounding mode", "why_tests_cant": "all values", "anchors": ["src/ieee.rs:frexp_r"]}
{"id": "C28", "title": "get_exact_inverse", "statement": "get_exact_inverse(x) = Some(y) exactly when x is a normal power of two whose reciprocal is representable as a normal number, and then x*y = 1 exactly.", "quantifier": "every format, every value", "why_tests_cant": "all values", "anchors": ["src/ieee.rs:get_exact_inverse"]}
{"id": "C29", "title": "No API call panics and the representation invariant is preserved", "statement": "Starting from constants, from_bits, integers, conversions and successful parses, every finite sequence of modelled API calls (with documented-range integer arguments) returns normally: no assertion fails, no arithmetic overflows, no index is out of bounds, and every produced value is again well formed.", "quantifier": "every finite sequence of API calls on every format", "why_tests_cant": "quantifies over call histories", "anchors": ["src/ieee.rs:normalize", "src/ieee.rs:sig", "src/lib.rs:Float"]}
{"id": "C30", "title": "Hexadecimal literals are correctly rounded", "statement": "Parsing a hexadecimal literal of the documented grammar yields the correctly rounded value of the literal, with correct flags, for literals of any length.", "quantifier": "every format, every hexadecimal literal shorter than 2^28 characters (longer ones can saturate the exponent arithmetic), every rounding mode, either sign", "why_tests_cant": "unbounded input length", "anchors": ["src/ieee.rs:from_hexadecimal_string"]}
{"id": "C31", "title": "Decimal literals are correctly rounded to nearest", "statement": "Parsing a decimal literal yields the correctly rounded value of the literal in both round-to-nearest modes, whatever its exponent and its length (below 2^27 characters: beyond 2^31 characters the code misreads positions), with OVERFLOW raised exactly when it should be.", "quantifier": "every format, every decimal literal of fewer than 2^27 characters with any sign and any exponent, both nearest modes", "why_tests_cant": "unbounded input length; hard cases are arbitrarily close to a tie", "anchors": ["src/ieee.rs:from_decimal_string"]}
{"id": "C32", "title": "The parser accepts exactly its grammar and never panics", "statement": "from_str_r returns Err exactly on strings outside the grammar (sign, inf/nan literals, hexadecimal, decimal) and terminates without panicking on every string.", "quantifier": "every string of fewer than 2^27 characters, every format, every mode", "why_tests_cant": "unbounded input", "anchors": ["src/ieee.rs:from_str_r", "src/ieee.rs:from_hexadecimal_string", "src/ieee.rs:from_decimal_string"]}
{"id": "C33", "title": "Display output parses back to the same value", "statement": "Formatting any finite value with {} and parsing the result with round-to-nearest returns the same value bit for bit.", "quantifier": "every format, every finite value", "why_tests_cant": "all values", "anchors": ["src/ieee.rs:Display for IeeeFloat", "src/ieee.rs:from_decimal_string"]}
{"id": "C34", "title": "Display is accurate", "statement": "For every finite non-zero value and every precision P >= 1 with 196 P + 58 < 2^64, whatever width and flags, the text is the sign and a decimal literal whose value is a multiple of the unit of the P-th significant digit of the exact value; it equals the exact value when that fits in P digits; otherwise it is at most half a unit away, or, only when the leading digit is 5 or more, it is the truncated value (less than one unit away). Zeros print as literals denoting 0; infinities as +Inf and -Inf; NaNs as NaN.", "quantifier": "every format, every value, every width, every precision >= 1 whose digit estimate fits a 64-bit usize, both flags", "why_tests_cant": "all values and format parameters", "anchors": ["src/ieee.rs:Display for IeeeFloat"]}
{"id": "C35", "title": "neg, abs, copy_sign only touch the sign", "statement": "neg flips exactly the sign bit of any value (NaN included), abs clears it, copy_sign copies it; all are involutive/idempotent as expected and never change payload, value or category.", "quantifier": "every format, every value", "why_tests_cant": "all values", "anchors": ["src/ieee.rs:Neg for IeeeFloat", "src/lib.rs:abs", "src/lib.rs:copy_sign"]}
{"id": "C36", "title": "Algebraic symmetries of arithmetic", "statement": "add and mul are commutative on non-NaN operands (value and status), negating both operands and the rounding direction negates every non-zero sum and every product, x - x is an exact zero (-0 only toward negative), x + 0 = x.", "quantifier": "every format, all operands, every rounding mode", "why_tests_cant": "all pairs", "anchors": ["src/ieee.rs:add_r", "src/ieee.rs:mul_r"]}
{"id": "C37", "title": "Rounded operations are monotone", "statement": "Rounding is monotone: if the exact result of one operation is at most that of another then so are the delivered results, in each rounding mode (e.g. x <= y implies x+z <= y+z).", "quantifier": "every format, all operands, every rounding mode", "why_tests_cant": "all triples", "anchors": ["src/ieee.rs:normalize", "src/ieee.rs:add_r"]}
{"id": "C38", "title": "Extremal constants are extremal", "statement": "largest() is the greatest finite value, SMALLEST the least positive value, smallest_normalized the least positive normal value; is_largest, is_smallest, is_smallest_normalized recognise exactly these up to sign.", "quantifier": "every format, every value", "why_tests_cant": "extremality quantifies over all values", "anchors": ["src/ieee.rs:largest", "src/ieee.rs:SMALLEST", "src/ieee.rs:smallest_normalized", "src/lib.rs:is_smallest"]}
{"id": "C39", "title": "Classification predicates partition the values", "statement": "Every value is exactly one of NaN, infinite, zero, subnormal, normal; is_denormal holds exactly for 0 < |x| < 2^MIN_EXP; is_normal, is_finite, is_finite_non_zero, is_pos_zero ... agree with the real value.", "quantifier": "every format, every value", "why_tests_cant": "all values", "anchors": ["src/lib.rs:is_normal", "src/ieee.rs:is_denormal", "src/lib.rs:is_finite"]}
{"id": "C40", "title": "NaN constructors", "statement": "qnan(p) is a quiet NaN and snan(p) a signaling NaN (in formats that have them) carrying the payload truncated to the format; they survive to_bits/from_bits.", "quantifier": "every format, every payload", "why_tests_cant": "2^128 payloads", "anchors": ["src/ieee.rs:qnan", "src/ieee.rs:snan", "src/ieee.rs:is_signaling"]}
{"id": "C41", "title": "DoubleDouble bits round trip", "statement": "For DoubleDouble, to_bits(from_bits(b)) = b for every 128-bit pattern, and bitwise_eq is equality of bits.", "quantifier": "every 128-bit pattern", "why_tests_cant": "2^128 patterns", "anchors": ["src/ppc.rs:from_bits", "src/ppc.rs:to_bits", "src/ppc.rs:bitwise_eq"]}
{"id": "C42", "title": "DoubleDouble converts to and from its 106-bit form exactly", "statement": "Converting a finite 106-bit fallback value that does not round beyond the Double range to a DoubleDouble returns a pair with hi = nearest Double to the value and hi + lo equal to the value exactly.", "quantifier": "every fallback value below the overflow threshold", "why_tests_cant": "2^118 values", "anchors": ["src/ppc.rs:From<Fallback<F>> for DoubleFloat<F>", "src/ppc.rs:From<DoubleFloat<F>> for Fallback<F>"]}
{"id": "C43", "title": "DoubleDouble special values", "statement": "add/mul of DoubleDouble on zeros, infinities and NaNs return the documented category (NaN dominates, zero times infinity is NaN, opposite infinities sum to NaN with INVALID_OP); negation of a finite pair negates the represented value, flips the sign and is an involution. (The sign of a product with a zero or infinity is that of the special operand only, the invalid product is not reported and -0 + +0 is -0: shown by witnesses.)", "quantifier": "every pair of DoubleDouble values with a special operand", "why_tests_cant": "all values", "anchors": ["src/ppc.rs:add_r", "src/ppc.rs:mul_r", "src/ppc.rs:Neg for DoubleFloat"]}
{"id": "C44", "title": "DoubleDouble comparison agrees with the represented values", "statement": "For pairs with hi = round-to-nearest(hi+lo), or an infinity or NaN beside a zero, partial_cmp, == and < order DoubleDouble values as the extended real numbers they denote; min, max, minimum and maximum return the corresponding operand.", "quantifier": "every pair of proper DoubleDouble values", "why_tests_cant": "2^256 pairs", "anchors": ["src/ppc.rs:DoubleFloat (derived PartialOrd, PartialEq)", "src/lib.rs:min", "src/lib.rs:minimum"]}
{"id": "C45", "title": "Multi-limb integer primitives compute the integers they claim to", "statement": "The limb-array routines behind string conversion and wide multiplication (add, sub, compare, shifts with lost fraction, multiply, divide, extract, increment, decrement) compute the corresponding integer operations for arrays of every length; observable through parsing/printing of arbitrarily long literals.", "quantifier": "arrays of limbs of every length and content", "why_tests_cant": "unbounded array length", "anchors": ["src/ieee.rs:sig"]}
{"id": "C46", "title": "Directed decimal parsing and the flags of decimal parsing", "statement": "Parsing a decimal literal in a directed mode (toward zero / positive / negative) returns the correctly directed-rounded value of the literal; in every mode INEXACT is raised exactly when the result differs from the literal.", "quantifier": "every format, every decimal literal, the three directed modes", "why_tests_cant": "unbounded input; failures need a literal within a few calculation ulps of a representable value", "anchors": ["src/ieee.rs:from_decimal_string"]}
{"id": "C47", "title": "Directed overflow of negative results in the format without infinities", "statement": "In Float8E4M3FN, a negative exact result beyond the largest magnitude rounds, as a positive one does with the opposite direction: to -448 with INEXACT when rounding toward positive, to NaN with OVERFLOW|INEXACT when rounding toward negative.", "quantifier": "every operation, all operands of Float8E4M3FN, both directed modes", "why_tests_cant": "concerns the set of all operand pairs whose exact result lies in an interval next to -480; the crate's tests of this format only overflow to nearest", "anchors": ["src/ieee.rs:normalize", "src/ieee.rs:overflow_result"]}
{"id": "C48", "title": "Formatting never panics", "statement": "Formatting any value with any width, precision and flag returns; it does not panic.", "quantifier": "every format, every value, every width, precision and flag", "why_tests_cant": "all values and all format parameters; the failing ones are values whose digits are all discarded", "anchors": ["src/ieee.rs:Display for IeeeFloat"]}
{"id": "C49", "title": "DoubleDouble comparison of magnitudes", "statement": "cmp_abs_normal on finite non-zero canonical DoubleDouble values returns the order of the magnitudes of the represented numbers.", "quantifier": "every pair of finite non-zero canonical DoubleDouble values", "why_tests_cant": "2^256 pairs; the failing pairs are those with equal parts up to sign", "anchors": ["src/ppc.rs:cmp_abs_normal"]}
{"id": "C50", "title": "DoubleDouble division rounds correctly to 106 bits", "statement": "Dividing finite DoubleDouble values with a non-zero divisor delivers the exact quotient of the represented numbers rounded to the 106-bit format in the requested mode with the status of that rounding, as a canonical pair, with the sign rule of division; when the rounded quotient is a number too large for the high part the call panics.", "quantifier": "every pair of finite DoubleDouble operands whose high part is the represented number rounded to nearest and whose sum fits 106 bits, every rounding mode", "why_tests_cant": "2^256 operand pairs and five modes", "anchors": ["src/ppc.rs:div_r", "src/ppc.rs:From<Fallback<F>> for DoubleFloat<F>"]}
{"id": "C51", "title": "DoubleDouble fused multiply-add rounds once to 106 bits", "statement": "mul_add on finite DoubleDouble values delivers x*y+z of the represented numbers rounded once to the 106-bit format; when the rounded result is a number too large for the high part the call panics.", "quantifier": "every triple of such operands, every rounding mode", "why_tests_cant": "2^384 operand triples", "anchors": ["src/ppc.rs:mul_add_r"]}
{"id": "C52", "title": "DoubleDouble remainders are exact", "statement": "c_fmod and ieee_rem of finite DoubleDouble values with a non-zero divisor return exactly x - n*y, n being x/y rounded to an integer toward zero, respectively to nearest even, with status OK; c_fmod keeps the sign of x.", "quantifier": "every pair of such operands", "why_tests_cant": "2^256 operand pairs; quotients of up to 2^2000", "anchors": ["src/ppc.rs:c_fmod", "src/ppc.rs:ieee_rem"]}
{"id": "C53", "title": "DoubleDouble rounding to an integral value", "statement": "round_to_integral of a finite DoubleDouble returns the integer selected by the mode from the represented number, with the operand's sign, INEXACT exactly when it differs from the operand.", "quantifier": "every such operand, every rounding mode", "why_tests_cant": "2^128 operands; ties are decided by the low part", "anchors": ["src/ppc.rs:round_to_integral"]}
{"id": "C54", "title": "DoubleDouble integer conversions", "statement": "from_u128 and from_i128 deliver the integer rounded to 106 bits; to_u128 and to_i128 deliver the represented number rounded to an integer in the mode, or the nearest end of the range with INVALID_OP when it does not fit, with a correct is_exact. A quiet NaN gives 0 and an infinity the end of the range on its side, with INVALID_OP; the unsigned conversion of -0 gives 0 and is not exact.", "quantifier": "every 128-bit integer, every such pair, every width, every rounding mode", "why_tests_cant": "2^128 inputs and 128 widths", "anchors": ["src/ppc.rs:from_u128_r", "src/ppc.rs:to_u128_r", "src/lib.rs:from_i128_r", "src/lib.rs:to_i128_r"]}
{"id": "C55", "title": "DoubleDouble text", "statement": "Hexadecimal literals not larger than the largest double parse to the value rounded to 106 bits in every mode, decimal ones in the nearest modes; strings that are not literals are errors; formatting with P digits (P >= 1, 196 P + 58 < 2^64) renders the represented number to P digits; formatting without precision and parsing the text gives the same pair (up to the sign of a zero low part).", "quantifier": "all literals up to 2^27 characters, all finite pairs that fit 106 bits, every precision, width and flag", "why_tests_cant": "unbounded input text, 2^128 values", "anchors": ["src/ppc.rs:from_str_r", "src/ppc.rs:Display for DoubleFloat<F>"]}
{"id": "C56", "title": "DoubleDouble neighbours and exact inverse", "statement": "next_up (next_down) of a finite DoubleDouble is the least 106-bit number above (greatest below) the represented number; it panics when that number is too large for the high part. get_exact_inverse returns the reciprocal exactly when the number and its reciprocal are normal 106-bit numbers, and nothing otherwise.", "quantifier": "every such pair", "why_tests_cant": "2^128 values", "anchors": ["src/ppc.rs:next_up", "src/lib.rs:next_down", "src/ppc.rs:get_exact_inverse"]}
{"id": "C57", "title": "Accuracy of DoubleDouble addition and subtraction", "statement": "Adding or subtracting finite canonical DoubleDouble values whose sum is in range delivers a canonical pair that differs from the exact sum by at most 5*2^-106 of the sum of the magnitudes; it is exact when both operands are doubles. The status says whether the result is exact.", "quantifier": "every pair of finite canonical DoubleDouble values, every rounding mode", "why_tests_cant": "2^256 operand pairs; failures sit at the overflow edge and at coincidences of low parts", "anchors": ["src/ppc.rs:add_r", "src/lib.rs:sub_r"]}
{"id": "C58", "title": "Accuracy of DoubleDouble multiplication", "statement": "Multiplying finite canonical DoubleDouble values whose product is in range delivers a canonical pair with relative error at most 10*2^-106; it is exact when both operands are doubles.", "quantifier": "every pair of finite canonical DoubleDouble values, every rounding mode", "why_tests_cant": "2^256 operand pairs", "anchors": ["src/ppc.rs:mul_r"]}
{"id": "C59", "title": "Layout of formatted numbers", "statement": "Formatting a finite number writes its sign and significant digits in positional notation when that inserts at most `width` zeros (default 3) without exceeding the precision, and in scientific notation otherwise (always at width 0); the `#` flag pads the fraction to the precision, writes a lower-case e and a two-digit exponent. Width and flag never change the digits. Zeros are written 0, 0.0E+0 or 0.0..e+00.", "quantifier": "every format, every finite value, every width, every precision of at least one digit whose digit estimate (196 P + 58) fits a 64-bit usize, both flag settings", "why_tests_cant": "the choice depends on the digits and decimal exponent of every one of up to 2^128 values for every width and precision", "anchors": ["src/ieee.rs:Display::fmt"]}
{"id": "C60", "title": "DoubleDouble constants and integer test", "statement": "largest() is the largest value of the 106-bit format inside the range of doubles (and exceeds the largest double), SMALLEST is the least positive finite value, smallest_normalized() the least value with 106 bits of precision; is_smallest, is_smallest_normalized and is_largest recognise exactly these values up to sign, except that a pair with low part -0 is not taken for the first two. is_integer of a canonical value holds exactly for integers and never for infinities and NaNs.", "quantifier": "every canonical DoubleDouble value (for SMALLEST every finite pair)", "why_tests_cant": "2^128 pairs", "anchors": ["src/ppc.rs:largest", "src/ppc.rs:SMALLEST", "src/ppc.rs:smallest_normalized", "src/ppc.rs:is_integer", "src/lib.rs:is_smallest", "src/lib.rs:is_largest"]}
{"id": "C61", "title": "ilogb of DoubleDouble values", "statement": "ilogb of a non-zero finite canonical DoubleDouble is the exponent e with 2^e <= |x| < 2^(e+1); NaN, zero and infinity give the documented constants.", "quantifier": "every canonical DoubleDouble value", "why_tests_cant": "fails only for values immediately below a power of two", "anchors": ["src/ppc.rs:ilogb"]}
{"id": "C62", "title": "Denormal DoubleDouble values", "statement": "is_denormal holds exactly for the non-zero values below smallest_normalized().", "quantifier": "every finite DoubleDouble value", "why_tests_cant": "2^128 pairs", "anchors": ["src/ppc.rs:is_denormal", "src/ppc.rs:smallest_normalized"]}
{"id": "C63", "title": "scalbn of DoubleDouble values", "statement": "scalbn(x, n) is x * 2^n rounded once: exact and canonical when representable, an infinity on overflow; infinities and NaNs keep their kind.", "quantifier": "every DoubleDouble value, every exponent, every rounding mode", "why_tests_cant": "errors appear only for values whose two parts round against each other near the bottom of the range", "anchors": ["src/ppc.rs:scalbn_r"]}
{"id": "C64", "title": "frexp of DoubleDouble values", "statement": "frexp of a non-zero value of the 106-bit format gives a canonical fraction f and an exponent e with x = f * 2^e exactly and the high part of f in [1/2, 1); zeros give exponent 0 and infinities and NaNs the documented constants.", "quantifier": "every DoubleDouble value of the 106-bit format, every rounding mode", "why_tests_cant": "2^128 pairs", "anchors": ["src/ppc.rs:frexp_r"]}
{"id": "C65", "title": "Operators, compound assignments and default-rounding methods", "statement": "On finite operands + - * / deliver the result correctly rounded to nearest, ties to even, and % the exact remainder of the truncated quotient with the sign of the dividend; the compound assignments store exactly the value the operator returns; the methods without a rounding argument round to nearest-even, except that conversions to integers truncate; parsing through FromStr rounds literals to nearest-even and rejects everything else; the default value is +0.", "quantifier": "every pair of operands of every float type, every literal below the length bound, every integer and width", "why_tests_cant": "2^128 and more operand pairs, unboundedly many strings", "anchors": ["src/lib.rs:float_common_impls", "src/lib.rs:Float::mul_add", "src/lib.rs:Float::scalbn", "src/lib.rs:Float::frexp", "src/lib.rs:Float::from_u128", "src/lib.rs:Float::from_i128", "src/lib.rs:Float::to_u128", "src/lib.rs:Float::to_i128"]}
{"id": "C66", "title": "Exact identities between operations", "statement": "For operands that are not NaN and in every rounding mode: x*1, 1*x and x/1 return x with status OK; x+x and x*2 agree in value, sign and status; x-y agrees with x+(-y); y-x is -(x-y) with the rounding direction mirrored; x/x is 1 with status OK for finite non-zero x; dividing by y agrees with multiplying by get_exact_inverse(y) whenever that returns Some; mul_add(x,1,z) agrees with x+z and mul_add(x,y,0) with x*y; scalbn(x,n) is x times the power 2^n.", "quantifier": "every float type, every operand, every rounding mode, every exponent n", "why_tests_cant": "each identity ranges over all pairs of values and five modes; compilers use them to rewrite programs", "anchors": ["src/ieee.rs:add_r", "src/ieee.rs:sub_r", "src/ieee.rs:mul_r", "src/ieee.rs:div_r", "src/ieee.rs:mul_add_r", "src/ieee.rs:scalbn_r", "src/ieee.rs:get_exact_inverse"]}
{"id": "C67", "title": "The directed modes enclose the exact result tightly", "statement": "For every operation the result rounded toward -inf is at most the exact value and the one toward +inf at least; they are equal exactly when the value is representable, otherwise no representable number lies strictly between them, and the result of every other mode is one of the two. So interval arithmetic with the directed modes is sound and optimal, also when bounds overflow to infinity.", "quantifier": "every format with infinities, all finite operands, add, sub, mul, div, mul_add (outside the known defect), from_u128, from_i128 and conversions, every mode", "why_tests_cant": "soundness of interval arithmetic is a statement about all operands and both directions at once", "anchors": ["src/ieee.rs:add_r", "src/ieee.rs:mul_r", "src/ieee.rs:div_r", "src/ieee.rs:mul_add_r", "src/ieee.rs:from_u128_r", "src/ieee.rs:convert_r", "src/ieee.rs:round_away_from_zero"]}
{"id": "C68", "title": "Error-free transformations", "statement": "x-y is exact when y/2 <= x <= 2y (Sterbenz); TwoSum, FastTwoSum and the fused TwoProduct built from add, sub, mul and mul_add return a rounded result and an error term that together equal the exact sum or product; the remainder x - q*y of a rounded division is computed exactly by one mul_add.", "quantifier": "all finite operands whose results stay in range and whose error terms are representable, every format with infinities", "why_tests_cant": "the algorithms of double-double arithmetic, compensated summation and division by Newton iteration rest on exactness for all operands", "anchors": ["src/ieee.rs:add_r", "src/ieee.rs:sub_r", "src/ieee.rs:mul_r", "src/ieee.rs:mul_add_r", "src/ieee.rs:div_r"]}
{"id": "C69", "title": "Computing in a wider type and converting back is innocuous", "statement": "Converting two Half operands to Single, adding, subtracting, multiplying or dividing there and converting the result back in the same mode gives exactly the value and sign of the Half operation, and the flags of the two steps together report the same inexactness and overflow; likewise Single and BFloat through Double, Double through Quad, and the 8-bit types through Single. It is not so for Double through the x87 type, nor for mul_add.", "quantifier": "all finite operands (divisor not zero), all five rounding modes, every pair of types with at least 2p+2 bits and enough range", "why_tests_cant": "double rounding errors occur for about one operand pair in 2^p; absence over all pairs is a theorem about the formats", "anchors": ["src/ieee.rs:convert_r", "src/ieee.rs:add_r", "src/ieee.rs:sub_r", "src/ieee.rs:mul_r", "src/ieee.rs:div_r"]}
{"id": "C70", "title": "Bit patterns are ordered like the values; next_up and next_down step through consecutive patterns", "statement": "For two values of one type that are not NaN, partial_cmp gives the same answer as comparing the patterns to_bits returns as sign-and-magnitude integers (in every type, the 80-bit x87 one included). In every type whose integer bit is implied, next_up of a finite value has as its bit pattern the operand's pattern plus one if the operand is positive (or +0), minus one if it is negative, and the pattern 1 for -0; the largest number steps to the pattern of +infinity (of the NaN, in Float8E4M3FN). next_down is the mirror image. For the x87 type the successor's pattern is not always the next one.", "quantifier": "every pair of non-NaN values of every type; every finite value of every type with an implied integer bit", "why_tests_cant": "2^32 to 2^128 patterns per type and their pairs; the boundary cases (denormal to normal, binade to binade, largest to infinity, the two zeros) interact with the encoding of each type", "anchors": ["src/ieee.rs: partial_cmp", "src/ieee.rs: next_up", "src/lib.rs: next_down", "src/ieee.rs: to_bits"]}
{"id": "C71", "title": "Conversions, scaling, integral rounding and parsing preserve order", "statement": "If x <= y (as extended real numbers) then the results satisfy the same relation: for convert_r to a type with infinities (all non-NaN operands, infinities included), round_to_integral (likewise, every type), to_i128_r and to_u128_r at every width (likewise, saturation included), scalbn_r (finite operands; also in the exponent, for a non-negative operand), from_i128_r and from_u128_r, sub_r (decreasing in the second operand), mul_add_r in the addend (outside the inputs C08 excludes) and parsing of decimal literals in the nearest modes.", "quantifier": "every pair of ordered operands, every rounding mode, every format with infinities (every format for the integral and integer roundings), every integer width", "why_tests_cant": "monotonicity is a relation between two executions over all ordered pairs of inputs; it breaks at single rounding boundaries", "anchors": ["src/ieee.rs: convert_r", "src/ieee.rs: round_to_integral", "src/ieee.rs: to_u128_r", "src/lib.rs: to_i128_r", "src/ieee.rs: scalbn_r", "src/ieee.rs: from_u128_r", "src/lib.rs: from_i128_r", "src/ieee.rs: from_str_r", "src/ieee.rs: sub_r", "src/ieee.rs: mul_add_r"]}
{"id": "C72", "title": "The operations compose as their definitions promise", "statement": "Converting a finite value to an integer in a mode gives the integer obtained by round_to_integral in that mode followed by a conversion in any mode, is invalid in the same cases, and otherwise has the flags of the rounding step (to_i128_r and to_u128_r). scalbn_r undoes frexp_r bit for bit; frexp_r returns one more than ilogb; ilogb of an exact scaling is ilogb plus the shift; two scalings are one scaling by the sum when the first is exact, and scaling back restores the operand. An integral value that fits an integer type survives the trip through it exactly, without flags (-0 comes back as +0).", "quantifier": "every finite value of every format, every rounding mode (independently chosen for the steps), every width and every scaling exponent", "why_tests_cant": "relations between several executions over unbounded exponents and all values", "anchors": ["src/ieee.rs: round_to_integral", "src/ieee.rs: to_u128_r", "src/lib.rs: to_i128_r", "src/ieee.rs: scalbn_r", "src/ieee.rs: frexp_r", "src/ieee.rs: ilogb", "src/ieee.rs: from_u128_r"]}
{"id": "C73", "title": "Laws of the comparison operators and of min, max, minimum, maximum", "statement": "partial_cmp with the operands exchanged gives the reversed answer; == is reflexive exactly on non-NaN values, symmetric and transitive; <, > and >= are transitive, also in mixed chains; exactly one of <, ==, > holds between non-NaN values and none if one is NaN; values that are == compare alike with every third value. On non-NaN values minimum and maximum are commutative, associative and absorb each other, signed zeros included, and together return the two operands; min and max do so up to ==, and ignore a single NaN operand.", "quantifier": "every two or three values of every format", "why_tests_cant": "laws over all triples of values", "anchors": ["src/ieee.rs: partial_cmp", "src/ieee.rs: eq", "src/lib.rs: min", "src/lib.rs: max", "src/lib.rs: minimum", "src/lib.rs: maximum"]}
{"id": "C74", "title": "NaNs come out quiet, and exactly when they should", "statement": "No arithmetic operation returns a signaling NaN (add_r, sub_r, mul_r, div_r, c_fmod, ieee_rem, mul_add_r, round_to_integral, next_up, next_down, convert_r, scalbn_r, frexp_r), and the result is a NaN exactly if an operand is a NaN or INVALID_OP is raised; in the type whose NaN stands for infinity, also exactly when OVERFLOW or DIV_BY_ZERO is raised. (Outside the x87 pseudo-NaNs of C11 and, for mul_add_r, the operands on which it panics, C76.)", "quantifier": "all operands of every format, every rounding mode", "why_tests_cant": "an equivalence over all operands; a single path that forgets to quiet a NaN or drops the flag breaks it", "anchors": ["src/ieee.rs: add_r", "src/ieee.rs: mul_r", "src/ieee.rs: div_r", "src/ieee.rs: mul_add_r", "src/ieee.rs: c_fmod", "src/ieee.rs: ieee_rem", "src/ieee.rs: round_to_integral", "src/ieee.rs: next_up", "src/ieee.rs: convert_r", "src/ieee.rs: scalbn_r", "src/ieee.rs: frexp_r"]}
{"id": "C75", "title": "When a DoubleDouble call panics", "statement": "Addition, subtraction, sign operations, comparison, min, max, minimum, maximum, scalbn, frexp, ilogb, the predicates, the constants, the bit conversions and the integer constructors return for every pair of parts, canonical or not. Division, remainders, mul_add, round_to_integral, next_up, next_down, to_u128_r, to_i128_r, Display, get_exact_inverse and parsing panic exactly if an operand carries a signaling NaN in its high part or beside a finite non-zero high part, or the result does not round to a finite high part; multiplication and mul_add panic besides exactly on the operands of the panic C76 describes. A program of such calls runs to the end with well-formed registers, or stops at a call for one of those causes; programs without the second group of calls and products always run to the end. Formatting with precision 0 panics besides on the values C79 describes. cmp_abs_normal panics exactly if a part that it compares is not finite and non-zero.", "quantifier": "every pair of well-formed parts (not only canonical ones), every rounding mode, every width and every history of calls", "why_tests_cant": "absence of panics over all histories of calls, including ones that reach non-canonical pairs", "anchors": ["src/ppc.rs: add_r", "src/ppc.rs: mul_r", "src/ppc.rs: div_r", "src/ppc.rs: mul_add_r", "src/ppc.rs: c_fmod", "src/ppc.rs: ieee_rem", "src/ppc.rs: round_to_integral", "src/ppc.rs: next_up", "src/ppc.rs: to_u128_r", "src/ppc.rs: fmt", "src/ppc.rs: from_str_r", "src/ppc.rs: get_exact_inverse", "src/ppc.rs: scalbn_r", "src/ppc.rs: partial_cmp"]}
{"id": "C76", "title": "The exact extent of the fused multiply-add defect", "statement": "mul_add_r on finite operands is correctly rounded except on an explicitly described set of operands (a subnormal addend of the opposite sign, not larger than the product, a product with bits more than p below the last bit of a subnormal, and a difference that falls within the lost bits of a rounding boundary of the mode). On that set, and nowhere else, the call panics (the product, cut off, equals the addend) or the result is not the correct rounding; when it returns it is finite and off by less than two smallest subnormals. A panic depends only on the values of the operands, not on the rounding mode.", "quantifier": "every format, every triple of finite operands, every rounding mode", "why_tests_cant": "an equivalence over all operand triples: each of the wrong operands must be described and each of the others shown correct", "anchors": ["src/ieee.rs: mul_add_r", "src/ieee.rs: sig::add_or_sub", "src/ieee.rs: sig::mul_add"]}
{"id": "C77", "title": "Exactly when the magnitude comparison of DoubleDouble pairs is right", "statement": "For finite non-zero canonical DoubleDouble values, cmp_abs_normal panics iff the high parts are equal in magnitude and a low part is zero; otherwise it returns Equal if the parts agree in magnitude while the represented magnitudes differ (the low parts point in different directions), and the true order of the represented magnitudes in every other case.", "quantifier": "every pair of finite non-zero canonical double-double values (over every format with the properties of double)", "why_tests_cant": "an equivalence over all pairs of pairs: each failing case must be described and every other shown right", "anchors": ["src/ppc.rs: cmp_abs_normal", "src/ieee.rs: cmp_abs_normal"]}
{"id": "C78", "title": "What DoubleDouble scalbn and ilogb deliver where they are not exact", "statement": "For every finite DoubleDouble and every exponent, scalbn_r keeps the signs of the parts and is off by at most two smallest subnormals of double (one in the nearest modes) whenever both scaled parts are in range, and is exact if both are representable; if the scaled high part is out of range, the high part of the result is the overflow result of the mode. ilogb of a canonical non-zero value returns e with |x| < 2^(e+1), and 2^e <= |x| exactly when the high part is not the power 2^e with a low part of the opposite sign.", "quantifier": "every finite pair, every integer exponent, every rounding mode", "why_tests_cant": "error bounds over all pairs, exponents and modes, and an equivalence for ilogb", "anchors": ["src/ppc.rs: scalbn_r", "src/ppc.rs: ilogb"]}
{"id": "C79", "title": "Exactly what formatting with precision 0 does", "statement": "A finite non-zero value x has a unique exact decimal form B/10^t (t = 0 if x is an integer, else the number of decimals). {:.0} panics iff B < 10^floor(59 * bitlength(B) / 196), at every width and with or without #; otherwise it writes the least power of ten above |x|, whatever x is, in the layout of C59. A precision P with 196 P + 58 >= 2^64 panics for every finite non-zero value. Formatting with any other precision, or of a zero, infinity or NaN, never panics.", "quantifier": "every value of every format, every width, precision and flag", "why_tests_cant": "an equivalence over all values: whether a value panics depends on how its bit length compares with its number of decimal digits", "anchors": ["src/ieee.rs: Display for IeeeFloat"]}
{"id": "C80", "title": "How far off a parsed decimal literal can be, in any rounding mode", "statement": "For every decimal literal (shorter than 2^27 characters) of a number v and every rounding mode, the parsed value and its flags are the correct result for a number w of the same sign with |w - v| <= v/2^123. Hence value and flags are right in every mode unless a representable number lies within v/2^123 of v; and in the directed modes the result is always the correct rounding or a representable number adjacent to it.", "quantifier": "every format of at most 120 bits, every literal, every rounding mode", "why_tests_cant": "an error bound over all literals", "anchors": ["src/ieee.rs: from_str_r", "src/ieee.rs: from_decimal_string"]}
{"id": "C81", "title": "DoubleDouble sums in every rounding mode are accurate and stay near-canonical", "statement": "In every rounding mode, adding or subtracting DoubleDouble values whose low part is at most 8 units 2^-53 of the high part, and which are at most 2^1019 in magnitude, delivers such a value again, without OVERFLOW or INVALID_OP, and differs from the exact result by at most 128*2^-106 of the sum of the magnitudes. So any number of additions in mixed modes keeps its accuracy. The directed modes do not, however, bound the exact result in their direction.", "quantifier": "every pair of values with small low part, every rounding mode", "why_tests_cant": "2^256 operand pairs in five modes; a closure property over unbounded sequences of additions", "anchors": ["src/ppc.rs: add_r", "src/lib.rs: sub_r"]}
{"id": "C82", "title": "DoubleDouble products in every rounding mode are accurate and stay near-canonical", "statement": "In every rounding mode, the product of DoubleDouble values whose low part is at most 8 units 2^-53 of the high part, at most 2^1020 in magnitude, panics exactly when the fused multiply-add of the leading parts does; otherwise it is such a value again, without OVERFLOW or INVALID_OP, and differs from the exact product by at most 272*2^-106 of it plus 6 times the smallest subnormal. The directed modes do not bound the exact product in their direction.", "quantifier": "every pair of values with small low part, every rounding mode", "why_tests_cant": "2^256 operand pairs in five modes; failures sit near the smallest subnormal", "anchors": ["src/ppc.rs: mul_r"]}
{"id": "C83", "title": "What out-of-range bit patterns and widths do", "statement": "from_bits ignores the bits of its argument above the width of the format, and so returns a well-formed value for every u128. to_u128_r panics exactly for width 0 or above 128 on values without sign, and on values with sign only when the width claims to hold a number of more than precision+127 bits; to_i128_r panics exactly for width 0, width 1 on values without sign, and widths above 128 (129 without sign). Together with mul_add (C76), {:.0} (C79), precisions P with 196 P + 58 >= 2^64 on finite non-zero values, and cmp_abs_normal on values that are not finite and non-zero these are the only calls, with arguments of any value, that can stop a program; until then every value is well formed. The same holds of programs over DoubleDouble with the causes of C75: its integer conversions panic, for any width, exactly if the pair cannot be read or the conversion of its reading panics.", "quantifier": "every finite program over the API with any arguments of the right types (strings below 2^27 characters)", "why_tests_cant": "all u128 patterns, all widths, all histories", "anchors": ["src/ieee.rs: from_bits", "src/ieee.rs: to_u128_r", "src/lib.rs: to_i128_r"]}
{"id": "C84", "title": "Error of long computations", "statement": "A computation of any length and shape with +, -, *, / and negation, every operation in a rounding mode of its own, whose intermediate values stay in range: no operation panics, the result is finite, and it differs from the exact mathematical value by at most what one relative error of 2^-p (2^(1-p) in a directed mode) per operation, plus half (one) smallest subnormal per product and quotient, can accumulate to. Sums of n terms are off by at most (1+u)^n - 1 of the sum of the absolute values. The collected flags contain neither OVERFLOW nor INVALID_OP nor DIV_BY_ZERO, and if they do not contain INEXACT the result is the exact value.", "quantifier": "all expressions, all operand values, all mixes of rounding modes, all formats", "why_tests_cant": "unboundedly many computations; the exact value of a test computation is itself not a float", "anchors": ["src/lib.rs: trait Float, unpack!", "src/ieee.rs: add_r, sub_r, mul_r, div_r, normalize"]}
{"id": "C85", "title": "Integer and fixed-point arithmetic is exact", "statement": "A computation of any length with +, -, * and negation on integral floats, in any rounding modes, none of whose subexpressions exceeds 2^p in magnitude (taken without cancellation), returns the exact integer and raises no flag; sums and differences of multiples of a unit 2^k are exact as long as the magnitudes add up to at most 2^(p+k). 2^p is the best such bound: 2^p + 1 is not delivered in any mode.", "quantifier": "all expressions on integral operands, all rounding modes, all formats", "why_tests_cant": "unboundedly many computations and operands", "anchors": ["src/lib.rs: trait Float", "src/ieee.rs: add_r, sub_r, mul_r"]}
{"id": "C86", "title": "Error of long DoubleDouble computations", "statement": "A DoubleDouble computation of any length with +, -, * and negation, in any rounding modes, that stays a factor 16 below the top of the range: sums and differences always return; a computation with products returns unless a product panics; the result is a finite pair, neither OVERFLOW nor INVALID_OP is raised, and the result differs from the exact value by at most what a relative error of 272*2^(-2p) per operation, plus 6 smallest subnormals per product, can accumulate to.", "quantifier": "all expressions, all operand pairs with a small low part, all mixes of rounding modes", "why_tests_cant": "unboundedly many computations; the exact value of a test computation needs unbounded precision", "anchors": ["src/ppc.rs: add_r, sub_r, mul_r"]}
{"id": "C87", "title": "Debug output identifies the value", "statement": "{:?} of a well-formed float or pair never panics, and two values with the same text are the same value, bit for bit, including the sign of zero, the sign and payload of a NaN, and both parts of a pair.", "quantifier": "all well-formed values of every format (the second part: all values)", "why_tests_cant": "all pairs of values", "anchors": ["src/ieee.rs: Debug for IeeeFloat", "src/ppc.rs: derive(Debug) for DoubleFloat"]}
{"id": "C88", "title": "unwrap succeeds exactly on exact results", "statement": "StatusAnd::unwrap of a sum, difference, product, quotient, conversion or integer conversion of finite operands, in any rounding mode, returns the exact mathematical result if it is a value of the format and panics otherwise. unwrap of round_to_integral succeeds exactly on integers; unwrap of c_fmod and ieee_rem of finite operands with a nonzero divisor always succeeds. The flags combine like the bits of the u8: |, set difference and equality of statuses are those of the bytes.", "quantifier": "all finite operands, all rounding modes, all formats; all pairs of flag sets", "why_tests_cant": "all operand pairs", "anchors": ["src/lib.rs: StatusAnd::unwrap, Status"]}
{"id": "C89", "title": "Laws of the comparison operators on DoubleDouble", "statement": "On all DoubleDouble pairs of well-formed parts, canonical or not: exchanging the operands of a comparison reverses it; at most one of <, ==, > holds, and exactly one unless the comparison meets a NaN; <= is < or ==, >= is > or ==; ==, <, <= and their combinations are transitive; equal pairs compare alike with everything. On the pairs the library produces the five operators compare the represented numbers, and min, max, minimum, maximum commute and associate up to ==.", "quantifier": "all pairs (triples) of DoubleDouble values", "why_tests_cant": "all triples of operands", "anchors": ["src/ppc.rs: derive(PartialEq, PartialOrd) for DoubleFloat", "src/lib.rs: min, max, minimum, maximum"]}
{"id": "C90", "title": "Interval evaluation of whole computations", "statement": "In the formats with infinities, evaluating a computation of any length and shape with +, -, *, / and negation in interval arithmetic written with the crate (lower bounds rounded toward negative, upper bounds toward positive, min and max of the corner products and quotients, giving up on non-finite bounds and on divisor intervals that contain zero) never panics, and an interval it returns contains the exact mathematical value, and also the result of running the computation itself in any rounding modes, which raises neither OVERFLOW nor INVALID_OP nor DIV_BY_ZERO. In Float8E4M3FN this is false.", "quantifier": "all expressions over +, -, *, /, negation of any size, all literals, all rounding modes of the plain run, all formats with infinities", "why_tests_cant": "expressions of unbounded size; one unlucky rounding direction in one operation breaks the guarantee", "anchors": ["src/ieee.rs: add_r, mul_r, div_r, overflow_result, round_away_from_zero", "src/lib.rs: sub_r, min, max, is_finite"]}
{"id": "C91", "title": "The spelling of a literal does not matter", "statement": "Two decimal literals of the same number and sign (leading or trailing zeros, position of the point, exponent, plus sign, case of e) parse to the same value with the same status in every rounding mode, for IeeeFloat and for DoubleDouble; so do two hexadecimal literals. In the modes rounding to nearest a decimal and a hexadecimal literal of the same number parse to the same value with the same OVERFLOW flag.", "quantifier": "all pairs of literals of fewer than 2^27 characters denoting the same number, all modes, all formats", "why_tests_cant": "infinitely many spellings of every number", "anchors": ["src/ieee.rs: from_str_r, from_decimal_string, from_hexadecimal_string", "src/ppc.rs: from_str_r"]}
{"id": "C92", "title": "Laws of the two remainders", "statement": "C fmod depends only on the magnitude of the divisor and on the dividend up to multiples of it (dividends of the same sign that differ by a multiple of the divisor have bit-identical remainders), is smaller than the divisor and not larger than the dividend, returns the dividend itself exactly when the dividend is smaller than the divisor, is odd in the dividend and even in the divisor, and reducing first by a multiple of the divisor changes nothing. The IEEE remainder is at most half the divisor, returns the dividend itself exactly when it is at most half the divisor, is odd in the dividend and even in the divisor. The IEEE remainder is the fmod when that is below half the divisor, the fmod less one divisor when it is above, of the same magnitude at a tie, and either is zero exactly when the dividend is a multiple of the divisor. All of this exactly, with no flags, in every format.", "quantifier": "all finite dividends, all finite nonzero divisors, all formats", "why_tests_cant": "relations between two or three calls for all pairs of operands at any exponent distance (thousands of reduction steps in X87 and Quad)", "anchors": ["src/ieee.rs: c_fmod, ieee_rem"]}
{"id": "C93", "title": "Which DoubleDouble operations preserve order", "statement": "For DoubleDouble values of the 106-bit format, division (by a positive divisor, and in the divisor for a non-negative dividend), fused multiply-add (outside the operands where it misrounds, C08), round_to_integral, the conversions to and from integers and the parsing of literals in the modes rounding to nearest preserve order, as answered by the comparison of the crate. Addition and multiplication do not: there are x < y with x + z > y + z, and with x * z > y * z for a positive z.", "quantifier": "all pairs the 106-bit format represents, all integers, all literals of fewer than 2^27 characters, all rounding modes, all part formats", "why_tests_cant": "a relation between two results, for all pairs of operands; violations need operands on both sides of a boundary of the high part", "anchors": ["src/ppc.rs: add_r, mul_r, div_r, mul_add_r, round_to_integral, from_u128_r, from_i128_r, to_u128_r, to_i128_r, from_str_r, partial_cmp"]}
{"id": "C94", "title": "Decimal literals of few digits survive parsing and printing", "statement": "A decimal literal in the normal range with at most D significant digits, where 10^D < 2^(p-1) (6 for Single, 15 for Double, 33 for Quad), parsed in a mode rounding to nearest and printed with precision D, comes back as the same number, whatever the width and the # flag. (False of the code: the text can be one unit of the last digit too low.)", "quantifier": "all decimal literals of fewer than 2^27 characters with at most D significant digits in the normal range, both nearest modes, all widths and flags, all formats of precision up to 120", "why_tests_cant": "unboundedly many literals; the failing ones are those whose parsed value lies just below the literal", "anchors": ["src/ieee.rs: from_str_r, from_decimal_string, Display::fmt"]}
{"id": "C95", "title": "Integer division through floats", "statement": "For integers a and b != 0 that the format holds exactly (|b| <= 2^p; |a| <= 2^p with a division rounding to nearest, |a| <= 2^(p-1) with a division in any mode), dividing them as floats and then rounding the quotient toward zero, up or down - with round_to_integral, to_i128_r or to_u128_r - gives the same integer and the same flags as rounding the exact quotient a/b once. In particular from_i128, div, to_i128 toward zero computes a / b as integer division does, reporting an exact result if and only if b divides a. c_fmod computes a % b for all integer-valued floats, and so does x - trunc(x/y)*y, exactly, within those bounds. In a directed mode the bound 2^(p-1) cannot be replaced by 2^p.", "quantifier": "all pairs of integers within the bounds, all formats, all rounding modes of the division", "why_tests_cant": "whether the rounded quotient can cross an integer is a statement about all pairs of integers", "anchors": ["src/ieee.rs: div_r, round_to_integral, to_i128_r, to_u128_r, from_i128_r, c_fmod, mul_r, sub_r"]}
{"id": "C96", "title": "Midpoints stay between", "statement": "For finite x <= y, (x + y) / 2 computed with the crate lies in [x, y] whatever the rounding modes of the two operations, provided the sum is in range. If the addition rounds to nearest and some representable number lies strictly between x and y, the result lies strictly between them, so that a bisection always makes progress. x + (y - x) / 2 lies in [x, y] in all modes when the difference is in range. With an addition rounding in a fixed direction a bisection can get stuck.", "quantifier": "all finite x <= y, every format, all combinations of rounding modes", "why_tests_cant": "termination of a bisection depends on every interval it can meet, subnormal ends included", "anchors": ["src/ieee.rs: add_r, sub_r, div_r, normalize"]}
{"id": "C97", "title": "Compensated summation", "statement": "Adding the numbers of a list one by one while keeping the error of each addition (the six-operation TwoSum) loses nothing: the last sum and the kept errors add up exactly to the exact sum of the list. Adding the sum of the errors to the last sum gives a result that differs from the exact sum T by at most u |T| + (1+u) ((1+u)^n - 1)^2 X, where u = 2^-p, n is the number of additions and X the sum of the magnitudes: as good as summing in twice the precision and rounding once. No operation panics, overflows or gives a NaN, if (1+u)^(2n) X does not exceed a quarter of the largest power of two.", "quantifier": "all finite lists of finite numbers of any length whose magnitudes add up to something in range, every format with infinities", "why_tests_cant": "the length of the list and the cancellations in it are unbounded; the exact sum is not a float", "anchors": ["src/ieee.rs: add_r, sub_r, normalize"]}
{"id": "C98", "title": "is_exact tells whether the way back works", "statement": "The documentation of to_u128_r and to_i128_r says that is_exact is true exactly when converting the integer back gives the original float. For every float, NaNs, infinities and zeros of either sign included, is_exact is true if and only if from_u128_r (from_i128_r) of the returned integer, in any mode, raises no flag and returns the original bit pattern.", "quantifier": "every float of every format, all widths of the integer, all pairs of rounding modes", "why_tests_cant": "two conversions and two rounding modes have to agree on every float, saturated results included", "anchors": ["src/ieee.rs: to_u128_r, from_u128_r", "src/lib.rs: to_i128_r, from_i128_r"]}
{"id": "C99", "title": "Iterating next_up and counting", "statement": "Starting from a finite x and calling next_up again and again visits, in strictly increasing order and leaving none out, all finite numbers of the format up to any finite y >= x; the number of calls needed is the distance of their bit patterns read as sign and magnitude. A counter that starts at zero and repeatedly adds one holds n exactly, with no flag, after n <= 2^p steps in every rounding mode; from then on it stays at 2^p, with INEXACT, when rounding to nearest-even, toward zero or toward negative.", "quantifier": "all finite x <= y, all numbers of steps, all rounding modes; walks for the formats with an implied integer bit", "why_tests_cant": "histories of unbounded length; a walk through a format has up to 2^128 steps", "anchors": ["src/ieee.rs: next_up, add_r, to_bits, normalize"]}
{"id": "C100", "title": "DoubleDouble operations on pairs of more than 106 bits", "statement": "A DoubleDouble can hold numbers of far more than 106 bits (1 - 2^-200 is one subtraction away). Division, mul_add, the remainders, round_to_integral, conversion to integers, next_up, next_down, get_exact_inverse and formatting treat such a pair exactly as the 106-bit pair nearest to it (ties to even), which differs from it by at most 2^-106 relative. Consequently a quotient in range never panics, raises no OVERFLOW or INVALID_OP, and is within 5*2^-106 relative plus one smallest subnormal of the exact quotient; and a computation of any length with all four operations, staying a factor 16 below the top of the range, returns unless a product panics, with the rounding errors accumulating as in C86. Another consequence: the truncation of 1 - 2^-200 to an integer is 1, reported as exact.", "quantifier": "all finite pairs with a small low part (all results of the arithmetic in any mode) up to the largest 106-bit number, all rounding modes, widths and formatting options, all expressions", "why_tests_cant": "the pairs that need more than 106 bits are the ones tests rarely construct; accumulation of errors is over computations of any length", "anchors": ["src/ppc.rs: div_r, mul_add_r, c_fmod, ieee_rem, round_to_integral, to_u128_r, next_up, get_exact_inverse, Display, From<DoubleFloat> for Fallback"]}
{"id": "C101", "title": "Only the bits of a float matter", "statement": "Two floats with the same bits (bitwise_eq) may differ in memory: the exponent field of a zero or infinity is whatever the operation that made it left there (0.0.scalbn(5) is such a zero). No operation can tell them apart: every method of the trait, the conversions between formats and every DoubleDouble operation give the same answer, the same flags, the same panic, and floats with the same bits. Hence a program run on two memories that show the same bits ends in memories that show the same bits, and storing any value as bits (to_bits) and loading it again (from_bits), anywhere in a program, as a compiler does with its constants, changes nothing but the text of Debug.", "quantifier": "all formats, all operands (well-formed or not), modes, widths and precisions; all finite programs of API calls over registers of the eight formats or of DoubleDouble, with values stored and reloaded at any points", "why_tests_cant": "the hidden fields depend on the history of a value; histories are unbounded", "anchors": ["src/ieee.rs: bitwise_eq, to_bits, from_bits, scalbn_r, and all operations", "src/ppc.rs: bitwise_eq, and all operations"]}
{"id": "C102", "title": "Formats that are prefixes of others", "statement": "BFloat is the top half of Single and Float8E5M2 the top half of Half, and conversions between the two can be done on the words. Widening appends zero bits, exactly and without flags. Narrowing drops the last k bits: toward zero b >> k, to nearest even (b + (2^(k-1) - 1) + (b >> k & 1)) >> k, to nearest away (b + 2^(k-1)) >> k, and in the directed modes (b + (2^k - 1)) >> k away from zero, for subnormals, normals, overflow to infinity and infinities alike; it is inexact and loses information exactly when a dropped bit was set. A NaN is shifted the same way and its quiet bit set; the bits dropped decide losing information.", "quantifier": "every pair of formats with IEEE encodings and the same exponent width, one with k more bits of precision; every value; every mode", "why_tests_cant": "2^32 singles times five modes; the rounding constant must work at every exponent and at the carry into the exponent field and into infinity", "anchors": ["src/ieee.rs: convert_r, to_bits, from_bits, BFloat, Single, Half, Float8E5M2"]}
{"id": "C103", "title": "Products and dot products of narrow numbers in a wide type", "statement": "When a type is wide enough to hold every product of two numbers of a narrow type, converting two such numbers and multiplying them in the wide type is exact in every mode, and a fused multiply-add of converted numbers equals the multiplication followed by the addition, bit for bit and in its flags. A dot product of two vectors of narrow numbers accumulated in the wide type, by mul and add or by mul_add, in every mode, is then exact and raises no flag as long as the magnitudes of its terms add up to at most 2^p units, the unit being the square of the smallest subnormal of the narrow type: Float8E4M3FN vectors of up to 2^17 elements in Double, Half vectors of up to 2^33 elements in Quad, whatever the elements and their order.", "quantifier": "every pair of formats where the wide one has IEEE infinities, at least twice the precision and the exponent range of products; every pair of finite numbers; vectors of every length; every mode", "why_tests_cant": "loops of any length over every value; one rounding anywhere in the loop breaks it", "anchors": ["src/ieee.rs: convert_r, mul_r, add_r, mul_add_r"]}
{"id": "C104", "title": "Casts, fractional parts and Euclidean remainders", "statement": "Converting to an integer toward zero is the `as` cast of the Rust language: the integer part of the number, saturated at the ends of the integer type, and 0 for a NaN, with INVALID_OP raised exactly when the integer part is not a number of the type. Floats of two formats holding the same number (or both NaN, or the same infinity) convert to the same integer with the same flags in every mode. The fractional part x - trunc(x) is exact in every mode, raises no flag, is less than 1 in magnitude, and adding it to trunc(x) gives x back exactly. The Euclidean remainder written as the standard library writes it is the nearest float to x - |y| * floor(x / |y|) and lies between 0 and |y|, which it can reach; it is exact and below |y| when x is not negative. On integers of at most p bits the Euclidean quotient and remainder are those of integers.", "quantifier": "every format, every value, every integer width from 1 (unsigned) or 2 (signed) to 128, every mode, every pair of finite numbers with a non-zero divisor", "why_tests_cant": "every value of every format and every width; saturation limits, negative zero and remainders at all exponent distances", "anchors": ["src/ieee.rs: to_u128_r, round_to_integral, add_r, sub_r, div_r, c_fmod, partial_cmp", "src/lib.rs: to_i128_r, abs"]}
{"id": "C105", "title": "Fuzzing test files: serialization", "statement": "Encoding an operation and its inputs writes the number of the operation followed by the inputs, little endian, each in as many bytes as the format has, and decoding these bytes gives the operation and inputs back. Decoding never panics, and succeeds on exactly the byte strings that are the encoding of some case: a byte string decodes to at most one case and only to the one it encodes. Each format has its own tag below 256, so a test file determines format, operation and inputs.", "quantifier": "every format of the tool, every operation, all inputs of the format, every byte string", "why_tests_cant": "every byte string of every length", "anchors": ["fuzz/src/main.rs: FuzzOp::try_decode, encode_into, FloatRepr::from_le_bytes, write_as_le_bytes_into, REPR_TAG, dispatch_any_float_repr_by_repr_tag", "fuzz/ops.rs: OPS, from_tag, tag, map"]}
{"id": "C106", "title": "Fuzzing: what the library answers to a case", "statement": "Evaluating a case with the library yields a bit pattern of the format, except for the multiplications-additions of finite numbers on which the library is known to panic, where it panics. Negation flips the top bit. Addition, subtraction, multiplication and division of finite numbers, and multiplication-addition outside the known defect, answer with the pattern of the correctly rounded result; remainders with the pattern of x - y * trunc(x / y). A binary operation with a NaN input answers with the first NaN input made quiet. Going through i128 or u128 answers with the rounded, saturated integer part (0 for NaN); going through a wider type and back answers with the input.", "quantifier": "every format of the tool, every operation, all inputs of the format", "why_tests_cant": "2^(3w) inputs for a format of w bits", "anchors": ["fuzz/ops.rs: eval_rs_apf", "fuzz/src/main.rs: FuzzOp::eval, FloatRepr::from_bits_u128"]}
{"id": "C107", "title": "Exhaustive search on several threads", "statement": "For the formats of 8 and 16 bits, with any number of threads and in every order in which the messages of the threads can arrive: the search ends, every case is checked exactly once, the mismatches and panics reported are exactly those of the cases, each once, and the search succeeds if and only if every case matches. Each operation with a mismatch has one that is shown. The progress marks stand for consecutive groups of the cases in the order their outcomes arrive, and show the worst outcome of the group. With the library under test the panics reported are exactly the known failures of multiplication-addition; for Float8E4M3FN there always is one, so that search never succeeds. For formats of 64 bits and more the search stops at once with a panic. The subcommand exits with status 1 if and only if some case of a format in the chosen range of widths (up to 16) does not match or panics; with the default range it always does.", "quantifier": "every format, both choices of cases, every number of threads, every behaviour of the code under test, every interleaving of messages", "why_tests_cant": "every schedule of the threads and every number of them", "anchors": ["fuzz/src/main.rs: FuzzOp::bruteforce, main"]}
{"id": "C108", "title": "Fuzzing: comparison with hardware", "statement": "The comparison tolerates a difference between the library and the hardware exactly when both answers are NaNs and: they differ only in the sign; or both are inputs of the operation made quiet; or, on request, the hardware propagates the addend of a multiplication-addition whose factors are not NaNs while the library makes a fresh NaN. The first two tolerances can be switched off. No assertion about the bit patterns fails. For every byte string the fuzz target returns without testing exactly when the bytes are not a test file, passes exactly when all compared answers match, and fails exactly when they do not or the library panics.", "quantifier": "every combination of options, all answers of LLVM and of the hardware, every byte string, all inputs of f32 and f64", "why_tests_cant": "all answers of other implementations, every byte string", "anchors": ["fuzz/src/main.rs: FuzzOp::eval, FuzzOpEvalOutputs::all_match, fuzz_one_op"]}
{"id": "C109", "title": "The build script", "statement": "The package builds if and only if src/lib.rs begins with the two fixed lines and the link to an LLVM commit with a full hash of 40 lower-case hexadecimal digits, and the version of the package ends with +llvm- and the first 12 of these digits. Otherwise the script stops with one of its two messages and for no other reason.", "quantifier": "every content of src/lib.rs and every version string", "why_tests_cant": "every text", "anchors": ["build.rs: main, EXPECTED_SRC_LIB_RS_PREFIX"]}
{"id": "C110", "title": "Splitting and exact products without mul_add", "statement": "Multiplying x by 2^s+1 and three additions and subtractions split x into an upper half of at most p-s significant bits and a lower half of at most s-1, whose sum is exactly x. With s half of the precision, the well-known sequence of products of the halves and sums yields, beside the rounded product x*y, a second number such that both together are exactly the product. Every call except the first product, the scaling and the subtraction after it is exact in every rounding mode.", "quantifier": "all operands in a range that excludes overflow and, for the product, loss of the error below the smallest number; every format with infinities; every s; every rounding mode of the exact calls", "why_tests_cant": "libraries that emulate wider arithmetic rely on it for all operands", "anchors": ["src/ieee.rs: mul_r, add_r, sub_r"]}
{"id": "C111", "title": "Texts written by other programs are read back exactly", "statement": "A decimal text that rounds to a number of the format, as every printer of shortest digits promises, is read as that very number, bit for bit and with its sign; so is any decimal text within one part in 2^(p+1) of it, and in particular any text of P digits that is within half a unit of the last digit, where 10^(P-1) > 2^p (9 digits for single, 17 for double precision).", "quantifier": "all finite numbers of every format including zeros and subnormals, all texts shorter than 2^27 characters, both modes rounding to nearest", "why_tests_cant": "every number and every text close to it", "anchors": ["src/ieee.rs: from_str_r, from_decimal_string"]}
{"id": "C112", "title": "What the fuzzing tool shows of a test file", "statement": "The subcommand decode prints something for every readable file, whatever it contains and even if the library panics on it, so that it gets through the whole list of files. It says 'invalid data' for exactly the files that are no test files. For a test file the first line determines the file: the format, the operation and all bits of all inputs. After it come the answer of the library and those of the other implementations asked for, one per line, and the mark '!!! MISMATCH !!!' appears exactly if the fuzzer would report the file; if the library panics nothing follows the first line.", "quantifier": "all byte strings, all options, with and without terminal colours, all answers of LLVM and of the hardware that are bit patterns of the format", "why_tests_cant": "every file of every length and every answer of the other implementations", "anchors": ["fuzz/src/main.rs: Commands::Decode, print_op_and_eval_outputs, FloatPrintHelper, short_lowercase_name"]}
{"id": "C113", "title": "Scaling by powers of two commutes with arithmetic", "statement": "Multiply the numbers a computation in +, -, *, / and negation starts from by powers of two that fit together (the same power for the terms of a sum). The result is then multiplied by the corresponding power, exactly, and the sign and the accumulated flags do not change; it is the number scalbn makes of the original result. This holds, in any mix of rounding modes, as long as in both runs every intermediate result is finite and below the largest number and every product and quotient is exact or above the smallest normal number; sums and differences may be as small as they like.", "quantifier": "all formats, all expressions of any size, all rounding modes at every step, all exponents", "why_tests_cant": "expressions of every size and every scaling", "anchors": ["src/ieee.rs: add_r, sub_r, mul_r, div_r, scalbn_r", "src/lib.rs: Float, StatusAnd"]}
{"id": "C114", "title": "Where NaNs come from", "statement": "No operation makes up a NaN payload: whatever program is run on whatever registers, the payload of every NaN in a register at its end is that of a NaN that was there at the start, one that a call of the program names (qnan, snan, from_bits, a nan literal), that of the default NaN, or what conversions among the calls make of such a payload (leading bits kept). A signaling NaN moreover has the payload of a signaling NaN of the same format that was there or that a call names: no operation and no conversion makes one. A program that starts without NaNs, names none but the default one and converts nothing from Float8E4M3FN makes only the default NaN of each format, up to its sign.", "quantifier": "all programs of any length over the 43 calls and eight formats, all starting registers, all rounding modes", "why_tests_cant": "programs of every length and every payload", "anchors": ["src/ieee.rs: NAN, qnan, snan, from_bits, convert_r, binop_result_from_either_nan, add_r, mul_r, div_r, mul_add_r, ieee_rem, c_fmod, round_to_integral, next_up, scalbn_r, frexp_r", "src/lib.rs: Float::min, max, minimum, maximum, FloatConvert::convert_r"]}
{"id": "C115", "title": "The fuzzing tool compares like with like", "statement": "The call into the generated C++ code returns LLVM's answer for exactly the operation and the bits given, whatever LLVM computes and whatever lies behind the inputs in memory: every function the Rust side declares is defined exactly once on the C++ side, for the same format and integers of the same size, and no bit is lost on the way in or out. If every function of LLVM (of the hardware) does what the corresponding function of the library does, the answers are the bits the library computes; a difference to LLVM is reported exactly if LLVM's own answer on these bits is different.", "quantifier": "all eight formats, all operations, all bit patterns, all contents of the unused memory, all implementations of the functions of LLVM and of the hardware", "why_tests_cant": "the operands are up to three 128-bit patterns, and LLVM is arbitrary", "anchors": ["fuzz/ops.rs: generate_cxx, generate_rust (eval_hard, eval_rs_apf)", "fuzz/src/main.rs: cxx_apf_eval_fuzz_op, hard_eval_fuzz_op_if_supported, FuzzOp::eval, float_reprs!"]}
{"id": "C116", "title": "The accumulated flags of a computation can be trusted", "statement": "Take any computation with +, -, *, / and negation on finite numbers, with a rounding mode of its own for every operation, and the union of the flags of all steps. It returns; the union is OK exactly if the exact results of all steps are numbers of the format and no divisor is zero, and then the result is the exact value, whatever the modes. The result is a NaN exactly if INVALID_OP is in the union (in a format without infinities also after OVERFLOW or DIV_BY_ZERO), it is not finite only after OVERFLOW, DIV_BY_ZERO or INVALID_OP, and UNDERFLOW and OVERFLOW come with INEXACT.", "quantifier": "all IeeeFloat formats, all expressions of any size over finite numbers, all rounding modes of the single operations", "why_tests_cant": "expressions have unbounded size and the operands up to 128 bits; that one missed flag in the middle cannot happen is a statement on all of them", "anchors": ["src/lib.rs: StatusAnd, Status, Float::add_r, Float::sub_r, Float::mul_r, Float::div_r, Float::neg", "src/ieee.rs: IeeeFloat::add_or_sub, IeeeFloat::mul_r, IeeeFloat::div_r, IeeeFloat::normalize"]}
{"id": "C117", "title": "Dividing and multiplying back", "statement": "If y is ±(2^a + 2^b) (3, 5, 6, 9, 10, 12, 20, 1.5, ...) and x has at least one significant bit less than the format offers, x / y * y is x again, with its sign: the division in either of the nearest modes, the multiplication in the default mode, provided the quotient is in the normal range. Neither the spare bit nor the modes can be dropped.", "quantifier": "all IeeeFloat formats, all finite x with a spare bit and all y of the form ±(2^a + 2^b), both nearest modes of the division", "why_tests_cant": "2^112 values of x in the largest format; whether the quotient comes too close to a midpoint is number theory", "anchors": ["src/ieee.rs: IeeeFloat::div_r, IeeeFloat::mul_r, IeeeFloat::normalize, Sig::div, Sig::mul"]}
{"id": "C118", "title": "Shares, contrasts and interpolated values stay within their bounds", "statement": "For numbers x, y that are not negative, x / (x + y) computed with the crate lies in [0, 1] and (x - y) / (x + y) in [-1, 1], whatever the rounding modes of the operations, provided the sum is in range and not zero. Multiplying by a factor of magnitude at most 1 or dividing by one of magnitude at least 1 never increases a magnitude, and the other way round. x + t * (y - x) with 0 <= t <= 1 lies in [x, y] and grows with t, in all modes of the product and the sum, if the difference is representable or rounded down; with a difference rounded to nearest it can pass y, and (1 - t) * x + t * y can leave [x, y] even for x = y.", "quantifier": "all IeeeFloat formats, all finite operands of the stated signs with the sum or difference in range, all combinations of rounding modes", "why_tests_cant": "the bounds are met or missed by one unit at single operand pairs among 2^32 or more, and every combination of modes matters", "anchors": ["src/ieee.rs: IeeeFloat::add_r, IeeeFloat::mul_r, IeeeFloat::div_r, IeeeFloat::normalize", "src/lib.rs: Float::sub_r"]}
{"id": "C119", "title": "What the exhaustive search prints tells exactly what it found", "statement": "For a format of 8 or 16 bits, whatever the number of threads and the order in which they report, `bruteforce` (without --verbose) prints: the number of cases; one mark per group of cases, the worst outcome of the group; if there are mismatches, their exact number and at least one for each operation that has any; if there are panics, their exact number and all of them; and, exactly if every case has the same answer on both sides, the confirmation that all cases match. Each case shown is printed exactly as `decode` prints the test file that holds it. For Float8E4M3FN it never confirms.", "quantifier": "all formats of at most 16 bits, both sets of cases, all numbers of threads, all interleavings of their messages, all answers of the C++ side, all options", "why_tests_cant": "the text depends on the interleaving of the threads and on the answers of the other implementation; a search of 16 bits has 2^48 cases", "anchors": ["fuzz/src/main.rs: bruteforce, print_op_and_eval_outputs"]}
{"id": "C120", "title": "The fuzzing tool compares with the LLVM revision the sources name", "statement": "Whenever the library's build script accepts the sources and the version, the build script of the fuzzing tool (same version) takes from the version the first 12 digits of exactly the commit hash that src/lib.rs names, or stops; it stops only if `+llvm-` occurs twice in the version, never for a version with a single `+`.", "quantifier": "all texts of src/lib.rs and all version strings", "why_tests_cant": "one pair of file and version exists at a time; the two scripts read the version differently (end of the string, first occurrence)", "anchors": ["fuzz/build.rs: main", "build.rs: main", "fuzz/Cargo.toml: version.workspace"]}
{"id": "C121", "title": "Everyday decimal literals are read correctly, flags included, in every mode", "statement": "A decimal literal of moderate size is parsed with the correctly rounded value and exactly the right flags in all six rounding modes: N * 10^k with N * 5^k < 2^127, and N / 10^k with N < 2^123 and 2^(p+1) * 5^k <= 2^123 (37 digits with up to 29 decimal places for the double format, 42 for single, 47 for half). If the format has the number, it is returned exactly with no flag. Parsing the decimal digits of an integer below 2^127 gives the same bits and flags as converting the integer.", "quantifier": "every format of precision at most 120, every such literal however written, every sign and mode", "why_tests_cant": "about 2^123 numbers for each number of decimal places, six modes and any format; the neighbouring larger literals do get wrong flags (C46), so the boundary matters", "anchors": ["src/ieee.rs:from_decimal_string", "src/ieee.rs:from_str_r", "src/ieee.rs:from_u128_r"]}
{"id": "C122", "title": "Differences of products with mul_add are accurate and have the right sign", "statement": "w = c*d, e = mul_add(c, d, -w), f = mul_add(a, b, -w), x = f - e: x approximates a*b - c*d with relative error at most 2^(2-p) however much cancels, is zero exactly when a*b = c*d and has the sign of a*b - c*d otherwise, provided each product is a multiple of the smallest positive number (zero, or at least 2^(minExp+p), or any integer) and at most 2^(maxExp-2). e may be computed in any rounding mode. The plain expression a*b - c*d has none of these properties.", "quantifier": "every IEEE format of precision at least 4, all finite a, b, c, d in the stated range", "why_tests_cant": "four operands; the hard cases are those where almost everything cancels, and mul_add is known to go wrong on some operands (C08)", "anchors": ["src/ieee.rs:mul_r", "src/ieee.rs:mul_add_r", "src/ieee.rs:sub_r"]}
{"id": "C123", "title": "Numbers of few digits are printed exactly; integers as integers", "statement": "A float whose value has at most P significant decimal digits (P the precision asked for, by default 2 + 59p/196) is printed with exactly those digits and nothing else. An integer of at most P digits ending in at most `width` zeros (by default 3) is printed as its decimal digits. So converting an integer up to 2^p, printing it and parsing the text gives the digits of the integer and back the same float with no flag, in all rounding modes.", "quantifier": "every format, every finite value of at most P digits, every precision, width and form", "why_tests_cant": "all integers up to 2^p and all widths and precisions", "anchors": ["src/ieee.rs:fmt::Display", "src/ieee.rs:from_u128_r", "src/ieee.rs:from_str_r"]}
{"id": "C124", "title": "Conversions and arithmetic in two steps: when the intermediate type does not matter", "statement": "A conversion S to T done in two steps through a type U gives the value, sign, inexactness and overflow report of the direct conversion: always if the first step loses nothing (then all flags and loses_info of the second step are those of the direct one); in the three directed modes whenever every number of T is one of U, overflows of either step included; and to nearest unless the first step is inexact and lands half way between two numbers of T (that exception is real). In any modes, even two different ones, the result in two steps is next to the exact value. In a directed mode the same holds of sums, differences, products and quotients computed in U and converted back, and of integers converted through U. A NaN sent through a type with at least the precision of one of the ends comes out quiet with the sign, payload and flags of the direct conversion (types with infinities).", "quantifier": "every triple of formats as stated (T contained in U), every finite value (infinities too when the first step loses nothing), every pair of finite operands, every 128-bit integer, the stated rounding modes", "why_tests_cant": "all operands of all triples of formats; the exceptions are isolated midpoints", "anchors": ["src/ieee.rs:convert_r", "src/ieee.rs:add_r", "src/ieee.rs:div_r", "src/ieee.rs:from_i128_r", "src/lib.rs:FloatConvert"]}
{"id": "C125", "title": "Text read through a wider type and converted back", "statement": "The text of a finite number printed with the default precision, parsed to nearest in a wider type and then converted to nearest to the type of the number, gives the number back, bit for bit, signed zeros and subnormals included: double precision through x87 or quadruple precision, single through double precision, half precision and the brain float through single precision, the eight-bit types through half or single precision. The same holds of any decimal literal, whoever printed it, within one part in 2*10^(P-1) of the number, for enough digits P, and of any literal within one part in 2^(p+2). Of other literals it is false: the two roundings can differ from the one of parsing directly.", "quantifier": "every finite value of the narrow type, every pair of types of which the wide one has one more bit and half the smallest number, every format width and flag, both round-to-nearest modes in either step, every decimal literal shorter than 2^27 characters close enough to the number", "why_tests_cant": "all values of all pairs of types and all literals near them; double rounding errors are isolated", "anchors": ["src/ieee.rs:from_str_r", "src/ieee.rs:convert_r", "src/ieee.rs:fmt", "src/lib.rs:FloatConvert"]}
{"id": "C126", "title": "Quotients never tie", "statement": "The exact quotient of two finite numbers is never half way between two consecutive numbers of the type, if it is not below the normal range: the number nearest to it is unique, and dividing in the mode ties-to-even or ties-to-away gives the same bits and the same status, overflow included. Below the normal range ties do occur.", "quantifier": "every format, every pair of finite operands with a non-zero divisor whose quotient is at least the smallest normal number in magnitude", "why_tests_cant": "all pairs of operands; near ties are as close as one part in 2^2p", "anchors": ["src/ieee.rs:div_r", "src/ieee.rs:round_away_from_zero"]}
{"id": "C127", "title": "Quotients corrected with fused multiply-adds", "statement": "Let r be the reciprocal of y rounded to nearest and q a number next to the exact quotient x/y, for instance the quotient rounded in any mode. Then e = mul_add(-q, y, x) is exactly x - q*y with no flag raised, and mul_add(e, r, q) is the quotient rounded to nearest: the bits, sign and status of the division. The dividend must be at least 2^(p+1) times the smallest normal number, the quotient and the reciprocal in the normal range; for smaller dividends it may fail.", "quantifier": "every format, both modes to nearest for the reciprocal and the correction, every mode for the first quotient and the residual, every pair of finite operands within the stated ranges", "why_tests_cant": "all pairs of operands: a wrong correction shows only where the exact quotient is within one part in 2^2p of a half-way point", "anchors": ["src/ieee.rs:mul_add_r", "src/ieee.rs:div_r"]}
{"id": "C128", "title": "Which way a product or quotient was rounded", "statement": "For finite x, y and p, mul_add(x, y, -p) is a zero with status OK exactly when p equals the exact product x*y, and otherwise its sign bit tells which is larger, however small the difference; mul_add(-q, y, x) does the same for q and x/y, up to the sign of y. So from a product or quotient rounded in any mode the ones rounded upwards and downwards are known: they are that result or its next_up or next_down, as the residual says. p, respectively x, must not be subnormal.", "quantifier": "every format (for the directed results, every format with infinities), every rounding mode for the first result and for the residual, every triple of finite operands within the stated ranges", "why_tests_cant": "all triples of operands: the residual may be far below the smallest number, where only its sign survives the rounding", "anchors": ["src/ieee.rs:mul_add_r", "src/ieee.rs:mul_r", "src/ieee.rs:div_r", "src/ieee.rs:next_up"]}
{"id": "C129", "title": "Rounding to a multiple by adding and subtracting a large constant", "statement": "Let c be 3*2^(p-2) units, a unit being a power of two, and x a number of at most 2^(p-2) units. Then (x + c) - c is x rounded to a multiple of the unit: to the even neighbour, upwards or downwards as the mode of the addition says; in the mode toward zero it is rounded downwards, and with ties away from zero ties go upwards. The subtraction is exact with status OK, the addition is INEXACT exactly when the value changes, and to_bits(x + c) - to_bits(c) is the number of units. With the unit 1 this is round_to_integral.", "quantifier": "every format, every rounding mode for each of the two operations, every unit in the range of the format, every finite x of at most 2^(p-2) units", "why_tests_cant": "all values, all units: a wrong tie or a wrong carry shows only at the half-way points next to the end of the range", "anchors": ["src/ieee.rs:add_r", "src/ieee.rs:sub_r", "src/ieee.rs:round_to_integral", "src/ieee.rs:to_bits"]}
{"id": "C130", "title": "Units in the last place", "statement": "For every finite x other than the largest magnitude, next_up(abs(x)) - abs(x) is exact in every rounding mode, raises no flag and is the power of two 2^(max(ilogb(x), e_min) - p + 1), zero and subnormal numbers included. The error of a sum, difference, product, quotient or mul_add is less than this distance computed from the result, and at most half of it when rounding to nearest.", "quantifier": "every format, every finite x, y and z (mul_add outside the defect of C76), every rounding mode for the operation and for the subtraction (for the operation, the nearest modes and toward zero in the format without infinities)", "why_tests_cant": "all numbers and pairs of them: the spacing changes at the powers of two and at the border of the subnormal range, where an error bound is first violated", "anchors": ["src/ieee.rs:next_up", "src/ieee.rs:sub_r", "src/ieee.rs:ilogb", "src/ieee.rs:normalize"]}
{"id": "C131", "title": "Adding a number too small to matter", "statement": "Let x be finite and y a non-zero number below a quarter of a unit in the last place of x, that is 4*|y| < 2^(ilogb(x) - p + 1). Rounding to nearest, x + y returns x bit for bit, with INEXACT and no other flag. In the directed modes only the sign of y counts: upwards the sum is next_up(x) if y is positive and x if it is negative, downwards next_down(x) if y is negative and x if it is positive, and toward zero it is the one of these two nearer to zero.", "quantifier": "every format, every finite x and every non-zero finite y below a quarter of a unit of x, all five rounding modes (the directed ones while the exact sum is in range)", "why_tests_cant": "all pairs of operands: the bits of y that are shifted out may lie any number of places below x, and must still decide the direction", "anchors": ["src/ieee.rs:add_r", "src/ieee.rs:add_or_sub", "src/ieee.rs:shift_right", "src/ieee.rs:next_up"]}
{"id": "C132", "title": "Comparing by a difference or by a quotient", "statement": "For finite x and y, the computed x - y compares with zero exactly as x with y, in every rounding mode: it is zero only if x = y, it never has the wrong sign, however small the difference. For y > 0, the computed x / y is below one exactly when x < y, in every rounding mode; to nearest and toward positive it also equals one only if x = y and exceeds one exactly when x > y. Toward zero and toward negative a quotient of different numbers can be one.", "quantifier": "every format, all finite operands, all five rounding modes; the result may overflow in formats with infinities, and may underflow", "why_tests_cant": "all pairs of operands: neighbouring numbers at every exponent, subnormal and normal, and quotients within half a unit of one", "anchors": ["src/ieee.rs:sub_r", "src/ieee.rs:add_or_sub", "src/ieee.rs:div_r", "src/ieee.rs:partial_cmp", "src/ieee.rs:normalize"]}
{"id": "C133", "title": "Comparing DoubleDouble values by a difference or by a quotient", "statement": "The computed difference of canonical DoubleDouble values (default rounding, away from the top of the range) never has the wrong sign. For values of at most 106 bits it compares with zero exactly as the values do with each other; so it does for wider pairs with equal leading parts, or if they differ by more than 5 * 2^-106 of their magnitudes. Wider pairs in general can differ and have the difference zero: 1 + 2^-53 + 2^-106 and 1 + 2^-53. A quotient of values of at most 106 bits by a positive one is, where the division returns, below one exactly when x < y, in every rounding mode; unless rounding down it compares with one exactly as x with y.", "quantifier": "all canonical pairs, of any number of bits, up to a quarter of the top of the range (differences); all pairs the 106-bit format represents, all rounding modes (quotients); all part formats", "why_tests_cant": "all pairs of operands: the exceptions need low parts whose sum falls within half a unit of the difference of the leading parts", "anchors": ["src/ppc.rs: add_r, sub_r, div_r, partial_cmp"]}
{"id": "C134", "title": "A counter kept in a float", "statement": "Starting from zero and adding one n times gives n exactly, with no flag, for n up to 2^p (p the precision), in whatever rounding modes. From then on, unless rounding up or with ties away from zero, the counter stays at 2^p however often one is added, and every addition raises INEXACT; in those two modes it skips 2^p + 1 and goes to 2^p + 2.", "quantifier": "all numbers of additions, all sequences of rounding modes, all formats", "why_tests_cant": "any number of additions: 2^53 and 2^113 of them for the larger formats", "anchors": ["src/ieee.rs: add_r"]}
{"id": "C135", "title": "Repeated halving", "statement": "One divided by two n times is 2^-n exactly, with no flag, in whatever rounding modes, until the smallest positive number is reached. The next division gives zero and raises UNDERFLOW | INEXACT, and further ones leave zero with no flag - unless rounding up or with ties away from zero: in these two modes the value stays at the smallest positive number for ever, so a loop that waits for zero does not end.", "quantifier": "all numbers of divisions, all sequences of rounding modes, all formats", "why_tests_cant": "any number of divisions (the claim that zero is never reached has no bound), any sequence of modes", "anchors": ["src/ieee.rs: div_r, normalize"]}
{"id": "C136", "title": "Repeated doubling", "statement": "One multiplied by two n times is 2^n exactly, with no flag, in whatever rounding modes, while 2^n is in range. In the formats with infinities the next multiplication gives infinity and raises OVERFLOW | INEXACT, and further ones leave infinity with no flag - unless rounding down or toward zero: in these two modes the value stays at the largest finite number for ever, with INEXACT alone, so a loop that waits for infinity does not end.", "quantifier": "all numbers of multiplications, all sequences of rounding modes, all formats (the exact part), all formats with infinities (the rest)", "why_tests_cant": "any number of multiplications (the claim that infinity is never reached has no bound), any sequence of modes", "anchors": ["src/ieee.rs: mul_r, normalize, overflow_result"]}
{"id": "C137", "title": "What can be added to one", "statement": "For a positive y up to one, 1 + y computed with the crate compares equal to or greater than 1; it is greater exactly when y is above 2^-p with ties to even, at least 2^-p with ties away from zero, at least 2^(1-p) rounding toward zero or down, and always rounding up. So a loop that looks for the machine epsilon finds the value that the rounding mode determines.", "quantifier": "all positive y up to one, all rounding modes, all formats", "why_tests_cant": "all operands; the thresholds are ties, decided differently in each mode", "anchors": ["src/ieee.rs: add_r, partial_cmp"]}
{"id": "C138", "title": "The largest and smallest of many, and clamping", "statement": "Carrying max or min through a list of any length gives one of its elements, at least (at most) every element that is not a NaN, and a NaN only if all elements are NaNs. Carrying maximum or minimum through it gives a NaN exactly if there is one, and otherwise an element at least (at most) every other, with -0 below +0. Rearranging the list changes the answer of max and min at most to a number that compares equal, and that of maximum and minimum not at all, apart from which NaN is returned. x.max(lo).min(hi) with lo <= hi is always within the bounds: x if it was, the nearer bound if not, the lower one for a NaN.", "quantifier": "all lists of values of any length and all their rearrangements, all bounds, all formats", "why_tests_cant": "lists of every length in every order, with NaNs, infinities and signed zeros anywhere in them", "anchors": ["src/lib.rs: min, max, minimum, maximum", "src/ieee.rs: partial_cmp"]}
{"id": "C139", "title": "The largest and smallest of many DoubleDouble values, and clamping", "statement": "Carrying max or min through a list of DoubleDouble values as the library produces them gives one of its elements, at least (at most) every element that is not a NaN, and a NaN only if all elements are NaNs; rearranging the list changes the answer at most to a value that compares equal. maximum and minimum give a NaN exactly if there is one, and otherwise an element at least (at most) every other, with -0 below +0. x.max(lo).min(hi) with lo <= hi is always within the bounds: x if it was, the nearer bound if not, the lower one for a NaN.", "quantifier": "all lists of canonical pairs, infinities and NaNs of any length and all their rearrangements, all bounds", "why_tests_cant": "lists of every length in every order; the order of pairs depends on both parts", "anchors": ["src/lib.rs: min, max, minimum, maximum", "src/ppc.rs: partial_cmp"]}
{"id": "C140", "title": "Sorting and searching", "statement": "A list without NaNs sorted by comparing its elements with the crate's operators is a rearrangement in which every element is >= all before it, and any two such arrangements of the same numbers compare equal place by place. In such a list e < y holds for the elements up to some place and for none after it, for every y, so that bisection finds the place.", "quantifier": "all lists of numbers and infinities of any length, all values searched for, all formats", "why_tests_cant": "lists of every length and order; needs transitivity and totality of the comparison for all values", "anchors": ["src/ieee.rs: partial_cmp"]}
{"id": "C141", "title": "Bisection ends, next to the place looked for", "statement": "A bisection that replaces one of two bounds lo < hi by the computed (lo + hi) / 2 until it is no longer strictly between them ends, in all rounding modes and for every condition that is false at lo and true at hi; the condition is false and true at the bounds it ends with, which lie between the given ones. If the sums are rounded to nearest no number of the format lies between the final bounds.", "quantifier": "all bounds in the lower half of the range, all conditions, all rounding modes of sum and quotient, all formats", "why_tests_cant": "all conditions, also ones that change more than once; termination for all bounds", "anchors": ["src/ieee.rs: add_r, div_r, partial_cmp"]}
{"id": "C142", "title": "The digits of an integer held in a float", "statement": "For an integer of at most 2^p, taking c_fmod by a base, subtracting it and dividing by the base, again and again, gives its digits to that base, lowest first, in all rounding modes; Horner's rule puts digits of such an integer together exactly, in all rounding modes; one undoes the other.", "quantifier": "all integers up to 2^p, all bases from two, all rounding modes of every operation, all formats", "why_tests_cant": "all integers and bases; loops of unbounded length", "anchors": ["src/ieee.rs: c_fmod, sub_r, div_r, mul_r, add_r"]}
{"id": "C143", "title": "Euclid's algorithm with floats", "statement": "Replacing (x, y) by (y, c_fmod(x, y)) until y is zero ends and gives the greatest common divisor, exactly, for all non-negative integers of the format, also those beyond 2^p, and for DoubleDouble integers of at most 106 significant bits.", "quantifier": "all pairs of non-negative integers the format holds, all formats and DoubleDouble", "why_tests_cant": "all pairs; a loop whose length depends on the operands", "anchors": ["src/ieee.rs: c_fmod", "src/ppc.rs: c_fmod"]}
{"id": "C144", "title": "The binary digits of a fraction", "statement": "For a number in [0, 1), doubling and taking off one whenever the result is at least one gives the binary digits after the point, in all rounding modes; the digits add up to the number exactly once there are as many as its finest bit needs, and p - 1 - emin digits are enough for every number of the format.", "quantifier": "all numbers in [0, 1), all rounding modes of every step, all formats", "why_tests_cant": "all numbers; a loop of as many steps as the format has places", "anchors": ["src/ieee.rs: mul_r, sub_r, partial_cmp"]}
{"id": "C145", "title": "Running sums never decrease", "statement": "Running sums of numbers that are not negative, computed with the crate in any rounding modes, never decrease, are never below a number already added and never NaN, overflow and infinities included. So a table of them can be searched by bisection.", "quantifier": "all lists of non-negative numbers and infinities of any length, all rounding modes at every step, all formats with infinities", "why_tests_cant": "lists of every length; every step rounds and the next one starts from the rounded result", "anchors": ["src/ieee.rs: add_r, partial_cmp"]}
{"id": "C146", "title": "Running products of factors between zero and one", "statement": "Running products of numbers between zero and one, computed with the crate in any rounding modes, stay between zero and one, never increase, and are never above the factor just multiplied in.", "quantifier": "all lists of numbers between zero and one, of any length, every rounding mode at every step, all formats", "why_tests_cant": "lists of every length; every step rounds, upwards too, and the next one starts from the rounded result", "anchors": ["src/ieee.rs: mul_r, partial_cmp"]}
{"id": "C147", "title": "Polynomials with coefficients that are not negative never decrease", "statement": "A polynomial whose coefficients are not negative, evaluated with the crate by Horner's rule in any rounding modes, gives a value that never decreases when the positive argument or the leading coefficient grows, that is not negative and never NaN, overflow and infinite coefficients included. It is never below the constant coefficient, and at zero, with finite coefficients of any sign, it is the constant coefficient.", "quantifier": "all coefficient lists of any length, all pairs of positive arguments, every rounding mode at every step, all formats with infinities", "why_tests_cant": "polynomials of every degree and all pairs of arguments; every step rounds, and roundings could reverse the order if any one of them were not monotone", "anchors": ["src/ieee.rs: mul_r, add_r, partial_cmp"]}
{"id": "C148", "title": "Powers by repeated multiplication", "statement": "Powers of positive numbers computed with the crate by repeated multiplication, in any rounding modes, keep the order of the numbers, overflow and underflow included, and are never negative or NaN. Powers of integers are exact as long as they are at most 2^precision in size. Multiplying on by a number of at least one never makes the result smaller, by a positive number of at most one never larger.", "quantifier": "all exponents, all pairs of positive numbers, every rounding mode at every step, all formats with infinities; exactness: all non-zero integers, all formats", "why_tests_cant": "every exponent and all pairs of numbers; each multiplication starts from a rounded result", "anchors": ["src/ieee.rs: mul_r, partial_cmp"]}
