# Formal model of rustc_apfloat in Lean 4

## Layout

| Path | Content |
| --- | --- |
| `lean/Verif/Model/Prelude.lean` | Rust primitives (checked/saturating/wrapping integers, slices, panics), `lib.rs` enums |
| `lean/Verif/Model/Sig.lean` | `Loss` and `mod sig` (limb arrays) of `src/ieee.rs` |
| `lean/Verif/Model/Ieee.lean` | `Semantics`, `IeeeFloat<S>` and the `Float` trait defaults |
| `lean/Verif/Model/Str.lean` | string parsing (hexadecimal, decimal, specials) and `Display` |
| `lean/Verif/Model/Ppc.lean` | `DoubleFloat` / `DoubleDouble` |
| `lean/Verif/Model/Api.lean` | `trait Float` and the operators of `lib.rs`, for both implementations |
| `lean/Verif/Conformance/*.lean` | the repository's own unit tests, translated by `tools/tests_to_lean.py` and evaluated on the model. Left out: `float8e4m3fn_exhaustive_pair`, and the four checks of `denormal` that parse literals with exponent -4932 (they pass, but take the kernel 8 GB) |
| `lean/Verif/Spec/*.lean` | the specification: real values, rounding, interchange formats; independent of the model |
| `lean/Verif/Proof/*.lean` | lemmas |
| `lean/Verif/Props/*.lean` | the property theorems (named in `MANIFEST.json`), each with a satisfiability example |

## Modelling decisions

* A Rust panic is a value (`Except Panic`). `i32`/`usize`/`u128` arithmetic is *checked*: overflow is a
  panic. So "returns `.ok`" theorems also rule out overflow in release builds.
* A limb (`u128`) is a `Nat`; wrapping operations are explicit `% 2^128`. `&mut [Limb]` becomes a returned `List Nat`.
* Loops are recursive functions with the same order of in-place updates. Two loops have no syntactic bound
  (`c_fmod`, the decimal retry loop); they take fuel and a separate theorem shows that the fuel cannot run out
  (for decimal literals below `2^27` characters 23 rounds suffice, `C32_rounds`).
* A format is a record `Sem` of the associated constants. Theorems are stated for every `S` with `S.OK`
  (a handful of inequalities), and `S.OK` is proved for all eight public formats and the two internal
  DoubleDouble ones.
* `&mut bool` out-parameters become returned components.
* `Formatter` is reduced to width, precision and `#`; writing always succeeds.
* A `&str` is a list of characters; byte positions and character positions agree where they are used.

## Specification

Real values are rationals (every finite value is rational). `Spec` defines: the value and the set of
representable numbers of a format; `IsRounded mode v r` (r is *the* representable number, with unbounded upper exponent,
prescribed by the mode), as a relation that mentions only the set of representable numbers and the order;
the overflow rule; the flags; the decoding of interchange formats. None of it refers to model functions.

## Trusted base

* Lean 4.33.0's kernel; axioms `propext`, `Classical.choice`, `Quot.sound` only. No `sorry`, no `native_decide`, no `bv_decide`.
* The hand translation from Rust to the model (cited line by line, and exercised by the conformance tests:
  all tests of `tests/ieee.rs`, `tests/ppc.rs` and `tests/downstream.rs`, about 12900 assertions, hold of the model,
  evaluated by the kernel. One test is left out for its size, `float8e4m3fn_exhaustive_pair`).
  They are tests of the model; no property rests on them.
* The reading of Rust primitives in `Prelude.lean`.
* Modelled: all of `src/`, `build.rs`, and of the fuzzing tool `fuzz/src/main.rs` and the code generated by `fuzz/ops.rs` all but its command line and
  the texts `bruteforce` prints with `--verbose` and to standard error (what it prints otherwise is in `Model/FuzzReport.lean`, with the percentage as a parameter). The functions of LLVM and of the hardware are parameters of that model; the C++ code around
  LLVM's is modelled (`Model/FuzzCxx.lean`).
* Not modelled: the derived `Debug` of `Status`, hashing, allocation (`SmallVec` capacity), `fmt` errors, performance; `fuzz/build.rs` beyond the revision it takes from the version, `benches/`.

## Plan per property

| Property | Model | Proof method |
| --- | --- | --- |
| C01 C02 C03 | `fromBits`, `toBits`, `bitwiseEq` | bit-field arithmetic (division with remainder by powers of two); case split on category |
| C04 C05 | `addR`, `subR`, `Sig.addOrSub`, `normalize` | *representation relation* "value = (sig + f)·2^e, loss classifies f"; alignment keeps it; `normalize` turns it into the rounded value |
| C06 | `mulR`, `Sig.mul`, `Sig.wideningMul` | schoolbook product by induction on limbs, then `normalize` |
| C07 | `divR`, `Sig.div` (short and long division) | loop invariants `dividend = q·divisor + r`; lost fraction by comparing 2r with divisor; then `normalize` |
| C08 | `mulAddR` | as C04 at double width. The code is wrong for some subnormal addends: counterexamples, and the exact set of operands on which the property holds (C76) |
| C09–C12 | same functions | corollaries of the case analysis and of the rounding theorem |
| C13 | `roundToIntegral` | the addition theorem on the magic constant |
| C14 C38 | `nextUp`, `nextDown`, constants | successor in the grid of representable numbers |
| C15 C16 | `partialCmp`, `cmpAbsNormal`, `min`… | monotonicity of (exponent, significand) |
| C17–C20 | integer conversions | `normalize` theorem; truncation relation |
| C21 C22 | `convertR` | representation relation across formats |
| C23 C24 | `cFmod`, `ieeeRem` | loop invariant x ≡ x₀ mod y, ilogb decreases, exact subtraction |
| C25–C28 | `scalbnR`, `ilogb`, `frexpR`, `getExactInverse` | `normalize` theorem |
| C29 | every operation | invariant `Valid`: each operation returns `.ok` and preserves it; induction over programs (`List Call`) on registers of all eight formats. The one exception, a panicking `mul_add`, is characterised (`Call.FmaPanics`) and exhibited |
| C30 | `fromHexString` | induction over the digits: representation relation |
| C31 C46 | `fromDecString` | error analysis of the truncated calculation; directed modes: counterexample |
| C32 | `fromStrR` | induction over the characters against a grammar |
| C33 C34 C48 | `display` | digit loop invariant, error bound, spacing argument |
| C35 C36 C37 C39 C40 | small functions | direct |
| C41–C44 C49 | `DoubleFloat` | `Spec/Ppc.lean` reads a pair as the unevaluated sum of its parts; component theorems above; conversion to the 106-bit format and back is exact (Sterbenz-style grid argument), so operations through that format inherit its rounding theorems |
| C50–C56 | `DoubleFloat` operations through the 106-bit format | `Props/PpcOps.lean`: the theorem for the 106-bit format, then the exact conversion back, or the panic of that conversion when the result is too large for the high part |
| C59 | `Display::fmt` (notation and padding) | `Spec/Display.lean` lays out digits and exponent as text without reference to the model; `Props/DisplayLayout.lean` equates it with the model |
| C60 C62 | `DoubleFloat::{largest,SMALLEST,smallest_normalized,is_integer,is_denormal}`, `is_smallest`, `is_largest` | `Props/PpcScale.lean`: the parts are computed with the theorems for `IeeeFloat`; uniqueness of the nearest value turns equality of values into equality of parts |
| C61 C63 C64 | `DoubleFloat::{ilogb,scalbn_r,frexp_r}` | `Props/PpcScale.lean`: scaling keeps a canonical pair canonical as long as both parts stay on the grid (`rn_scale`); the low part of a 106-bit value is a multiple of a unit 2p bits below the high part |
| C57 C58 | `DoubleFloat::{add_r,sub_r,mul_r}` | `Proof/TwoSum.lean`: error-free sums and products over an abstract format (multiples of a unit, half-unit error, Sterbenz), then the error of the rounded low parts; `Proof/OverflowSum.lean` and `Props/PpcRange.lean` carry addition to the end of the range, `Proof/PairProduct.lean` and `Props/PpcMul.lean` multiplication, `Props/PpcMulAll.lean` the operands of the mul_add defect |
| C65 | operators, `*Assign`, `Default`, `FromStr`, methods with default rounding (`Model/Api.lean`) | `Props/Api.lean`: the theorems about the methods with explicit rounding, through the trait instances |
| C66 | the operations already modelled | `Props/Identities.lean`: both sides are roundings of the same exact value, and correct rounding is unique (`Rounds.unique`); infinities and zeros by cases |
| C67 | the same | `Props/Enclosure.lean`: order lemmas of `IsRounded` for the two directed modes, extended to overflow |
| C68 | the same | `Props/ErrorFree.lean`: the exactness lemmas of `Proof/TwoSum.lean` applied to the operations of the model |
| C69 | the same, with `convert_r` | `Proof/DoubleRounding.lean`: a first rounding that does not hit a midpoint from outside is harmless; sums and quotients of p-bit numbers never do so in 2p+2 bits; `Props/DoubleRounding.lean` |
| C70 | `toBits`, `partialCmp`, `nextUp`, `nextDown` | `Props/BitOrder.lean`: the field encoding is strictly increasing in the magnitude; every pattern is a value, so the neighbour found by C14 has the next pattern |
| C71 | the rounding operations already modelled | `Props/Monotone.lean`: correct rounding (C37's lemma) is monotone; so is rounding to an integer; infinities by cases |
| C72 | the same | `Props/Compose.lean`: both sides are determined by the same real number |
| C73 | `partialCmp`, `eq`, `min`, `max`, `minimum`, `maximum` | `Props/Order.lean`: from C15 and C16 and the order of the extended reals |
| C74 | the operations already modelled | `Props/Quiet.lean`: from the theorems on values, NaN propagation and status, operation by operation |
| C75 | all `DoubleFloat` calls | `Props/PpcTotal.lean`: totality of reading and writing the 106-bit format, then operation by operation; induction over programs (`List PCall`) on `DoubleDouble` registers |
| C76 | `mulAddR` | `Spec/FmaExact.lean` describes the operands that fail; `Proof/FmaExcluded.lean` follows the code on them and finds the value it rounds instead; `Props/FmaExact.lean` compares the two roundings, mode by mode |
| C77 C78 | `DoubleFloat::{cmp_abs_normal,scalbn_r,ilogb}` | `Props/PpcExact.lean`: case split on the parts; a part scaled into the subnormal range moves by at most one unit (`scalbn_close`, `IsRounded.dist_sub_nearest`) |
| C79 | `Display::fmt` | `Props/DisplayZero.lean`: with precision 0 the digit loop either drops every digit (`dispDigits_none`, panic) or its result is rounded to no digit at all (`dispRound_zero`) |
| C80 | `from_decimal_string` | `Props/DecimalClose.lean`: an accepted calculation is within 4 units of its at least 127 bits of the literal (`CalcOK.close`); numbers with no representable number between them have the same directed rounding (`Apart.rounded`) |
| C81 | `DoubleFloat::add_r`, `sub_r` | `Spec/PpcNear.lean`, `Proof/Faithful.lean`, `Props/PpcModes.lean`: all that is used of a rounding is that no representable number lies between the exact and the rounded value (`Faith`); the whole chain of steps is bounded from that (`faith_sum`, `faith_end`) |
| C82 | `DoubleFloat::mul_r` | likewise (`faith_prod`), the fused step by C76 |
| C83 | `from_bits`, `to_u128_r`, `to_i128_r`, programs | `Props/Widths.lean`, `Props/PpcWidths.lean`: the extracted fields do not depend on the upper bits; the shift amounts decide the panics; induction over programs as in C29 |
| C84 | `add_r`, `sub_r`, `mul_r`, `div_r`, `neg` in expressions | `Spec/Accumulate.lean`, `Props/Accumulate.lean`: induction over the expression; the inflated computation bounds the size of every operand |
| C85 | the same on integral operands | `Props/Accumulate.lean`: integers up to `2^p` and multiples of `2^k` up to `2^(p+k)` are floats; induction |
| C86 | `DoubleFloat` in expressions | `Props/PpcAccumulate.lean`: induction on top of C81 and C82 |
| C87 | `Debug` of floats and pairs | `Model/Debug.lean`, `Props/Debug.lean`: the text is read back from its end: exponent, significand, sign, category |
| C88 | `StatusAnd::unwrap`, `Status` bits | `Props/Debug.lean`: a correctly rounded result has no flag iff the exact value is in the format; case analysis over the flags |
| C89 | `DoubleFloat` comparison operators | `Props/PpcOrder.lean`: the laws of a three-way comparison pass to the lexicographic comparison of two parts; C44 for the values |
| C90 | directed operations, `min`, `max`, comparisons | `Props/Interval.lean`: the evaluator is `Spec/Interval.lean`; induction over the expression, C67 for one step |
| C91 | `from_str_r` | `Props/Spelling.lean`: the decimal conversion is a function of the number `N * 10^D`, `10 ∤ N` (`decCore`); uniqueness of correct rounding (C30, C31) |
| C92 | `c_fmod`, `ieee_rem` | `Props/RemLaws.lean`: from the exact characterisations C23 and C24 and uniqueness of the remainder |
| C93 | DoubleDouble operations and comparison | `Props/PpcMono.lean`: rounding to 106 bits is monotone (`Delivers.mono`, `PairOutcome.mono`); counterexamples for addition and multiplication |
| C94 | `from_str_r`, `Display` | `Props/DecimalTrip.lean`: relative error of rounding to nearest, then what `Renders` (C34) says about a number that close to one of `D` digits; counterexamples |
| C95 | `div_r`, `to_i128_r`, `to_u128_r`, `round_to_integral`, `c_fmod` | `Props/IntDiv.lean`: integers are grid points, so rounding the quotient cannot cross one; a quotient that is no integer stays away from integers by more than a rounding error |
| C96 | `add_r`, `sub_r`, `div_r` | `Props/Midpoint.lean`: monotonicity of rounding, halving is exact except at the bottom of the range |
| C97 | `add_r`, `sub_r` | `Props/Compensated.lean`, programs in `Spec/Compensated.lean`: induction over the list with C68 and the relative error of each addition |
| C98 | `to_u128_r`, `to_i128_r`, `from_u128_r`, `from_i128_r` | `Props/ExactTrip.lean`: C27/C28 and exactness of rounding on grid points; the failing case (-0) is stated separately |
| C99 | `next_up`, `add_r` | `Props/Iterate.lean`, programs in `Spec/Iterate.lean`: induction over the steps, next_up moves the bit order key by one |
| C100 | `DoubleFloat::{div_r, mul_add_r, c_fmod, ...}` | `Props/PpcWide.lean`, `Spec/PpcTrim.lean`: the conversion to the 106-bit format rounds to nearest-even, so a pair and its rounding convert to the same float; induction over expressions as in C86 |
| C101 | every method of `Float` for both families | `Props/BitsOnly.lean`, `Spec/BitsOnly.lean`: a relation "same bits" is a congruence for every function of the model (by cases on the categories; pairs by composition); histories by induction over the calls of C29 and C75 |
| C102 | `convert_r`, `to_bits` | `Props/Prefix.lean`, `Spec/Prefix.lean`: the magnitude word of a float is (exponent - minimum) * 2^(p-1) + significand, so that the neighbours of a number in the short format are consecutive words; then uniqueness of rounding (C21) |
| C103 | `convert_r`, `mul_r`, `add_r`, `mul_add_r` | `Props/Dot.lean`, `Spec/Dot.lean`: products are multiples of the square of the smallest subnormal; induction over the vector with the invariant that the sum so far is such a multiple and that its magnitude plus the size of the terms left stays in range |
| C104 | `to_u128_r`, `to_i128_r`, `round_to_integral`, `c_fmod`, `div_r`, `add_r`, `sub_r` | `Props/Casts.lean`, `Spec/Casts.lean`: uniqueness of the rounded integer; a fractional part has the exponent of the number and no larger a significand; the truncated remainder plus `|y|` rounded once; uniqueness of Euclidean division |
| C105 | `tryDecode`, `encode`, `fromLeBytes`, `toLeBytes` of the fuzzing tool | `Props/Fuzz.lean`, `Spec/Fuzz.lean`: little-endian numerals; one lemma for each operation |
| C106 | `evalRsApf`, `evalBits` | `Props/FuzzEval.lean`: the theorems on the operations, between the two bit conversions |
| C107 | `bruteforce`: `allOps`, `combinedRange`, `caseOf`, `sizes`, `worker`, `receive`, `dotLoop` | `Props/FuzzAll.lean`: the cases are the digits of a number; slices of a list are a permutation of it; so are merges; invariant of the receiving loop |
| C108 | `masks`, `isNanBits`, `propagated`, `fmaExcuse`, `reconcile`, `eval`, `fuzzOne` | `Props/FuzzHard.lean`: bit operations on patterns of a format with its masks |
| C109 | `Build.main` | `Model/Build.lean`, `Spec/Build.lean`, `Props/Build.lean`: characterization of the string functions |
| C110 | `mulR`, `addR`, `subR` | `Spec/Splitting.lean`, `Proof/Split.lean`, `Props/Splitting.lean`: bounds and multiples of powers of two for each intermediate result |
| C111 | `fromStrR` | `Props/Printers.lean`: C31 and the uniqueness of rounding; the relative gap between numbers of a format |
| C112 | `decodeMain`, `printFile`, `printOp`, `opLine`, `answerLine`, `valueText`, `hexPadded`, `shortName` | `Model/FuzzPrint.lean`, `Props/FuzzPrint.lean`: texts of fixed width and separators that do not occur inside; C34 for the characters of a number; C105, C106, C108 |
| C113 | `Expr.eval`, `addR`, `subR`, `mulR`, `divR`, `scalbnR` | `Spec/Scaling.lean`, `Props/Scaling.lean`: rounding commutes with moving the whole grid, grids of one precision agree above the normal range, small sums are exact; induction on the expression |
| C114 | `Call.run`, `runAll` | `Spec/NanOrigin.lean`, `Props/NanOrigin.lean`: one lemma per operation (a NaN result is an operand, possibly quieted, or the default NaN), a step lemma for the 43 calls, induction on the program |
| C115 | `CxxFormat.*`, `cxxApfEval`, `evalHard`, `hardEval` | `Model/FuzzCxx.lean`, `Spec/FuzzCxx.lean`, `Props/FuzzCxx.lean`: splitting into words and joining them are inverse (induction on the words), the layout in memory read back field by field; agreement from one condition per function of LLVM |
| C116 | `Expr.eval` over `addR`, `subR`, `mulR`, `divR`, `neg` | `Spec/Sticky.lean` (`Steps`), `Props/Sticky.lean`: one step (`FlagStep`) from the rounding theorem and the NaN rule, then induction on the expression; the modes do not occur in the condition |
| C117 | `divR`, `mulR` | `Spec/DivMul.lean`, `Props/DivMul.lean`: the exact quotient by `2^a + 2^b` keeps a distance from the midpoints (parity), so the product is within half a unit of `x`; ties go to `x` because it is even |
| C118 | `addR`, `subR`, `mulR`, `divR` | `Props/Shares.lean`: rounding is monotone and keeps representable numbers, so every bound of the exact value by a representable number survives |
| C119 | `Fuzz.Mark.char`, `Fuzz.reportHeader`, `Fuzz.report`, `Fuzz.Printed` (`Model/FuzzReport.lean`) | `Props/FuzzReport.lean`: from C107 (what the search collects) and C112 (what is printed for a case); the percentage is a parameter, `--verbose` is not modelled |
| C120 | `Build.splitOnceStr`, `Build.fuzzCommit` (`fuzz/build.rs:10-12`) | `Props/Build.lean`: first occurrence of `+llvm-` against the suffix C109 demands |
| C121 | `fromDecString`, `fromStrR` | `Spec/Everyday.lean`, `Props/Everyday.lean`: either both the digits and the power of five fit the calculation with no rounding (`ExactDec` in `Proof/DecConv.lean`), or the fraction is no binary fraction and is then too far from every number of the format for C80 to fail (5 and 2 are coprime) |
| C122 | `mulR`, `mulAddR`, `subR` | `Props/Determinant.lean`: `c*d - w` is exact (C68); either `a*b - w` is representable, or it is so large that at most about half of it cancels in the last subtraction |
| C123 | `display`, `fromU128R`, `fromStrR` | `Props/DisplayExact.lean`: a number of few digits is a multiple of the last place, so C34 gives equality and C59 the text; C121 for the way back |
| C124 | `convertR`, `addR` ... `divR`, `fromU128R`, `fromI128R` | `Spec/Chain.lean`, `Props/Chain.lean`: roundings to nested grids compose in a directed mode, and to nearest unless a midpoint is hit; overflow of the first step case by case; correct rounding of each step (C04-C07, C17, C21) |
| C125 | `display`, `fromStrR`, `convertR` | `Spec/TextWide.lean`, `Props/TextWide.lean`: the error of the text plus that of the rounding to the wide type stays below half the distance to the neighbours of the number; C31, C33, C21 |
| C126 | `divR` | `Spec/Chain.lean` (`Midpoint`), `Props/Ties.lean`: a midpoint has an odd significand of one bit more than the precision, which would divide that of the dividend; C07 |
| C127 | `mulAddR`, `divR` | `Spec/Markstein.lean` (`NextTo`), `Proof/Markstein.lean`, `Props/Markstein.lean`: the quotient keeps a distance from every number and half-way point larger than the error of the correction; C07, C08 |
| C128 | `mulAddR`, `mulR`, `divR`, `nextUp` | `Props/Residual.lean`: the residual is the rounding of the exact difference, whose sign survives; the directed results are the neighbours of C14; C06, C07, C08 |
| C129 | `addR`, `subR`, `toBits` | `Proof/Shifter.lean`, `Props/Shifter.lean`: the sum lies where one unit is the last place, so its rounding is a rounding to whole units; C04, C05, C13, C70 |
| C130 | `nextUp`, `subR`, `ilogb` and the rounded operations | `Props/Ulp.lean`: no number lies within one unit above, and every rounding is within a unit of its result; C04 to C08, C14, C26 |
| C131 | `addR`, `ilogb`, `nextUp`, `nextDown` | `Props/Absorb.lean`: every other number is at least half a unit away from `x`; the directed results from the one to nearest as in C128; C04, C14, C26 |
| C132 | `subR`, `divR`, `partialCmp` | `Props/CompareBy.lean`: differences are multiples of the smallest number; a quotient of different numbers is at most `1 - 2^-p` or above `1 + 2^-p`; C05, C07, C15 |
| C133 | `DoubleFloat.addR`, `subR`, `divR`, `partialCmp` | `Props/PpcCompareBy.lean`: if the leading parts cancel, their difference is exact and rounding the low parts' sum does not cross it; with 106 bits that sum is exact where it matters; otherwise the error bound C57 decides; C44, C50 |
| C134 | `addR` iterated (`Spec/Counter.lean`) | `Props/Counter.lean`: induction on the number of additions; integers up to `2^p` are exact, and `2^p + 1` lies halfway between two numbers of the format; C04, C85 |
| C135 | `divR` iterated (`Spec/Halving.lean`) | `Props/Halving.lean`: induction on the number of divisions; powers of two are exact down to the smallest number, and half of it is a tie between zero and it; C07, C12 |
| C136 | `mulR` iterated (`Spec/Doubling.lean`) | `Props/Doubling.lean`: induction on the number of multiplications; the double of a number of the format is exact but for the range; C06, C09, C10 |
| C137 | `addR`, `partialCmp` | `Props/Epsilon.lean`: the number after one is `1 + 2^(1-p)`, with an odd significand; C04, C15 |
| C138 | `min`, `max`, `minimum`, `maximum`, `partialCmp` | `Props/Extremes.lean`: induction on the list for any function that picks one of its operands; C16, C73 |
| C139 | `DoubleFloat.min`, `max`, `minimum`, `maximum`, `partialCmp` | `Props/PpcExtremes.lean`: the induction of C138; C44, C89 |
| C140 | `partialCmp` | `Props/Sorting.lean`: insertion sort by induction; the values are placed on the extended number line, where sorted lists are unique; C15 |
| C141 | `addR`, `divR`, `partialCmp` | `Props/Bisect.lean`: the distance of the bounds, counted in the smallest numbers, decreases; C96 |
| C142 | `cFmod`, `subR`, `divR`, `mulR`, `addR` | `Props/Digits.lean`: induction on the number and on the digits, every step exact; C04-C07, C95 |
| C143 | `cFmod`, `DoubleFloat.cFmod` | `Props/Euclid.lean`, `Props/EuclidPair.lean`: induction on the steps, each remainder exact; C52, C95 |
| C144 | `mulR`, `subR`, `partialCmp` | `Props/Expansion.lean`: induction on the digits, every step exact; C05, C06, C15 |
| C145 | `addR`, `partialCmp` | `Props/Running.lean`: induction on the list; each sum is the rounding of something not below the numbers added, which round to themselves; C04, C10, C37, C140 |
| C146 | `mulR`, `partialCmp` | `Props/RunningProduct.lean`: induction on the list; each product is the rounding of something not above either factor, and both factors round to themselves; C04, C10 |
| C147 | `mulR`, `addR`, `partialCmp` | `Props/Horner.lean`: induction on the coefficients with both evaluations side by side; each step keeps their order because rounding is monotone; C10, C37, C145 |
| C148 | `mulR`, `partialCmp` | `Props/Power.lean`: induction on the exponent, both powers side by side; each product keeps their order; integers of at most `p` bits round to themselves; C10, C37, C147 |
| C45 | `Sig.*` | induction on limb lists against `val : List Nat → Nat` |

`Props/Cases.lean` applies theorems to concrete operands where no such case stands beside them, to show that their hypotheses can be met.

## Findings in the code while modelling

1. Float8E4M3FN: overflow of negative values ignores the sign of the value in directed modes (`normalize` calls
   `overflow_result(round)` without negating `round`), e.g. -480 toward positive gives NaN. `C47_operations_partial` describes what
   the code does in all cases, the failing ones included.
2. Overflow toward zero delivers the largest finite number with INEXACT only (no OVERFLOW flag).
3. `mul_add_r` with a subnormal addend of opposite sign: the addend is widened without being normalized, so bits of the larger
   operand are shifted out. The result can be wrong (`C08_wrong_value`, `C08_wrong_zero`) and the code can panic (`C08_panic`).
   `Spec/FmaExact.lean` describes the failing operands exactly (`C76_correct_iff`, `C76_panics_iff`).
4. `to_i128_r` on -0 reports `is_exact = true`, although the documentation and the code intend false.
5. `to_i128_r` with width 1 on non-negative values, and `to_u128_r` with width 0, panic (shift by 128).
6. x87 unnormals and pseudo-denormals do not survive `from_bits`/`to_bits`; quieting a pseudo-NaN leaves it signaling.
7. Decimal parsing in directed modes can return the neighbour of the correct value: `C46_directed_counterexample` (the code
   checks the distance of its approximation to the boundary below only). In nearest modes the INEXACT flag can be spurious or
   missing: `C46_spurious_inexact`, `C46_missing_inexact`. The value is right in the nearest modes (`C31_nearest`).
8. `{:.0}` prints a wrong value (`1` prints as `1.0E+1`) or panics (`8`), although the documentation says that precision 0
   means natural precision (`C48_counterexample`, `C48_zero_precision`).  `{:.1}` prints 8999 as `8.0E+3`: when discarding
   leaves exactly the wanted digits, what was discarded is not rounded (`C34_truncates`).
9. DoubleDouble: operations routed through the fallback format panic on signaling NaNs and when a result rounds to a value
   beyond the range of the high part; `cmp_abs_normal` panics when the low parts are zero; products with a zero or an infinity
   ignore the sign of the other operand (`C43_mul_sign_wrong`), zero times infinity raises no flag and -0 + +0 is -0
   (`C43_unlike_double`); `cmp_abs_normal` takes 1+2^-60 and 1-2^-60 for equal (`C49_cmp_abs_normal_wrong`).  Concrete panics: `next_up` of the largest value
   (`C56_next_up_panics`), parsing `1.79769313486231580794e308` to nearest or `1e309` toward zero (`C55_panics`), parsing `sNaN`,
   formatting or dividing a signaling NaN (`C55_snan_panics`).
10. DoubleDouble addition: -3*2^970 + (largest double) is NaN with INVALID_OP because an intermediate difference overflows, while the
   operands in the other order give the right sum (`C57_add_nan`); (2^-54 + 2^-150) + (1 - 2^-54) returns 1 with status OK, in the
   other order 1 + 2^-150, which is exact, with INEXACT (`C57_status_wrong`); rounding toward zero, largest + largest and
   largest * largest return the pair (largest, largest) (`C57_toward_zero`, `C58_toward_zero`).
   `C57_add_range_nan` states exactly when the NaN appears; in every other case the sum is right (`C57_add_range_partial`).
   DoubleDouble multiplication uses `mul_add_r` of the double format for its error term and inherits defect 3: a product of two
   ordinary doubles that is subnormal can panic (`C58_mul_panics`) or be wrong by a factor two (`C58_mul_wrong`).
11. DoubleDouble exponents: ilogb(1 - 2^-60) is 0 (`C61_ilogb_wrong`); 2^-1022 is not denormal but smaller than
   smallest_normalized() (`C62_denormal_inconsistent`); largest().scalbn(1) has an infinite high part but is not equal to INFINITY
   and compares greater (`C63_scalbn_overflow`); scalbn rounds twice on underflow (`C63_scalbn_double_rounding`).
12. Decimal literals of more than 2^31 characters: the distance between the decimal point and the last digit is cast to `i32`, so `1` followed
   by 2^32 zeros parses as exactly 1 with status OK, and `1` followed by 2^31 zeros as 0 with UNDERFLOW (`C31_length_needed`, `C31_length_needed'`).
   The theorems about literals therefore bound the length.
13. The directed rounding modes of DoubleDouble addition and multiplication give no bounds: the result of rounding toward negative can be above the exact
   sum or product, toward positive below, toward zero larger in magnitude (`C81_toward_negative_above`, `C81_toward_positive_below`,
   `C81_toward_zero_larger`, `C82_not_directed`).
14. Addition and multiplication of DoubleDouble values do not preserve order: there are `x < y` with `x + z > y + z`, and a positive `z` with
   `x * z > y * z` (`C93_add_not_monotone`, `C93_mul_not_monotone`).
15. Interval arithmetic written with the directed modes is unsound in Float8E4M3FN, because directed overflow there is wrong in both directions
   (`C90_counterexample`).
16. A consequence of the missing rounding in finding 8: decimal literals within the guaranteed digits of the format do not survive. `0.7` parsed as a double
   and printed with `{:.15}` gives `0.699999999999999`, `1e-6` gives `9.99999999999999E-7` (`C94_counterexample`).
17. A precision of about 2^64/196 or more overflows the `usize` digit estimate in `Display`; with overflow checks on, every finite non-zero value panics
   (`C79_huge_precision`).
18. DoubleDouble operations that convert to the 106-bit format first round the operand to nearest before doing anything else. For a pair of more than 106
   bits this defeats truncation: 1 - 2^-200, the result of one subtraction, truncates to 1 with `is_exact`, `round_to_integral` toward zero gives 1 with
   status OK, `c_fmod` by 1 gives 0, while `is_integer` is false and the pair compares less than 1 (`C100_truncation_wrong`).
19. `scalbn` on a zero or an infinity changes its stored exponent: `0.0.scalbn(5)` prints as `0(Zero | +[0] * 2^-122)` with `{:?}`, `0.0` as
   `0(Zero | +[0] * 2^-127)` (`C101_debug_shows_more`). Nothing else in the API shows it (C101).
20. The exhaustive search of the fuzzing tool can only be run for formats up to 42 bits: for 64 bits and more `checked_shl(..).unwrap()` panics before
   the first case (`C107_wide`).
21. The exhaustive search of `Float8E4M3FN` (part of the default range) always ends with failures: the library panics on `5·2^-9 * 13·2^-6 - 2^-9`
   (`C107_e4m3fn`), defect 3. So the subcommand with its default options always exits with status 1 (`C107_default_fails`).
22. `--only-non-trivial-fma` is documented as `addend != 0.0`; it leaves out the addend +0.0 only, not -0.0 (`Covered`, `C107_bruteforce`).
