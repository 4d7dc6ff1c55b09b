{
 "claims": [
  {
   "property": "C01",
   "status": "proved",
   "theorems": [
    "Apf.C01_bits_round_trip_iff",
    "Apf.C01_bits_round_trip_all",
    "Apf.C01_to_bits_canonical",
    "Apf.C01_bits_round_trip",
    "Apf.C01_x87_exceptions"
   ],
   "note": "For every format satisfying Sem.OK/Sem.Enc (proved for all eight) and every pattern. C01_bits_round_trip_iff: the non-canonical x87 patterns (NonCanonical, Spec/Bits.lean) are exactly the ones that come back changed."
  },
  {
   "property": "C02",
   "status": "proved",
   "theorems": [
    "Apf.C02_from_bits_decodes"
   ],
   "note": "For every format satisfying Sem.OK/Sem.Enc (proved for all eight) and every value or pattern. The decoding is specified in Spec/Bits by exponent and significand fields alone."
  },
  {
   "property": "C03",
   "status": "proved",
   "theorems": [
    "Apf.C03_value_round_trip",
    "Apf.C03_bitwise_eq_iff_bits",
    "Apf.C03_bitwise_eq_iff_datum"
   ],
   "note": "For every format satisfying Sem.OK/Sem.Enc (proved for all eight) and every value or pattern. "
  },
  {
   "property": "C04",
   "status": "proved",
   "theorems": [
    "Apf.C04_add_correctly_rounded"
   ],
   "note": "For every Sem.OK format (proved for all eight), all valid finite operands, all five modes, no bounds. DirectedOK excludes only the negative directed results of the infinity-less format that the code gets wrong (C47)."
  },
  {
   "property": "C05",
   "status": "proved",
   "theorems": [
    "Apf.C05_sub_correctly_rounded"
   ],
   "note": "For every Sem.OK format (proved for all eight), all valid finite operands, all five modes, no bounds. DirectedOK excludes only the negative directed results of the infinity-less format that the code gets wrong (C47)."
  },
  {
   "property": "C06",
   "status": "proved",
   "theorems": [
    "Apf.C06_mul_correctly_rounded"
   ],
   "note": "For every Sem.OK format (proved for all eight), all valid finite operands, all five modes, no bounds. DirectedOK excludes only the negative directed results of the infinity-less format that the code gets wrong (C47)."
  },
  {
   "property": "C07",
   "status": "proved",
   "theorems": [
    "Apf.C07_div_correctly_rounded"
   ],
   "note": "For every Sem.OK format (proved for all eight), all valid finite operands, all five modes, no bounds. DirectedOK excludes only the negative directed results of the infinity-less format that the code gets wrong (C47)."
  },
  {
   "property": "C08",
   "status": "partial",
   "theorems": [
    "Apf.C76_correct_iff",
    "Apf.C08_mul_add_partial",
    "Apf.C76_excluded",
    "Apf.C76_panics_iff",
    "Apf.C76_close",
    "Apf.C08_wrong_value",
    "Apf.C08_wrong_zero",
    "Apf.C08_panic",
    "Apf.fma_not_excluded",
    "Apf.fma_not_excluded_of_exp"
   ],
   "note": "FALSE of the code for some subnormal addends of opposite sign (three machine-checked counterexamples: wrong rounding, wrong tiny result, panic). C76_correct_iff: the property holds of exactly the finite operands outside FmaWrong (Spec/FmaExact.lean); the others panic (C76_panics_iff) or are off by less than two smallest subnormals (C76_close)."
  },
  {
   "property": "C09",
   "status": "proved",
   "theorems": [
    "Apf.C09_add_zero_sign",
    "Apf.C09_sub_zero_sign",
    "Apf.C09_mul_sign",
    "Apf.C09_div_sign",
    "Apf.C09_underflow_sign",
    "Apf.C09_mul_add_zero_sign"
   ],
   "note": ""
  },
  {
   "property": "C10",
   "status": "proved",
   "theorems": [
    "Apf.C10_add_inf_inf",
    "Apf.C10_add_inf_finite",
    "Apf.C10_sub",
    "Apf.C10_mul_inf",
    "Apf.C10_div_special",
    "Apf.C10_rem_special",
    "Apf.C10_mul_add_inf"
   ],
   "note": ""
  },
  {
   "property": "C100",
   "status": "proved",
   "theorems": [
    "Apf.C100_trim",
    "Apf.C100_unary",
    "Apf.C100_binary",
    "Apf.C100_div",
    "Apf.C100_expression",
    "Apf.C100_truncation_wrong"
   ],
   "note": "Trimmed and InRange are in Spec/PpcTrim.lean. Together with C50-C56 this describes those operations on all such pairs. C100_truncation_wrong is finding 18."
  },
  {
   "property": "C101",
   "status": "proved",
   "theorems": [
    "Apf.C101_ieee",
    "Apf.C101_pair",
    "Apf.C101_convert",
    "Apf.C101_histories",
    "Apf.C101_pair_histories",
    "Apf.C101_stored",
    "Apf.C101_pair_stored",
    "Apf.C101_kept_as_bits",
    "Apf.C101_pairs_kept_as_bits",
    "Apf.C101_debug_shows_more"
   ],
   "note": "OnlyBits, Alike and stored are in Spec/BitsOnly.lean. C101_debug_shows_more is finding 19: Debug does show the hidden fields."
  },
  {
   "property": "C102",
   "status": "proved",
   "theorems": [
    "Apf.C102_narrow_bits",
    "Apf.C102_narrow_nan",
    "Apf.C102_widen_bits",
    "Apf.C102_widen_nan"
   ],
   "note": "Sem.Prefix and roundOff are in Spec/Prefix.lean, where bfloat_prefix and float8E5M2_prefix show that the two pairs of formats of the crate are instances."
  },
  {
   "property": "C103",
   "status": "proved",
   "theorems": [
    "Apf.C103_product",
    "Apf.C103_mul_add",
    "Apf.C103_dot",
    "Apf.C103_dot_length",
    "Apf.C103_dot_e4m3fn",
    "Apf.C103_dot_half"
   ],
   "note": "The loops and their exact results are in Spec/Dot.lean."
  },
  {
   "property": "C104",
   "status": "proved",
   "theorems": [
    "Apf.C104_cast_signed",
    "Apf.C104_cast_unsigned",
    "Apf.C104_cast_same",
    "Apf.C104_fract",
    "Apf.C104_rem_euclid",
    "Apf.C104_rem_euclid_touches",
    "Apf.C104_euclid_integers"
   ],
   "note": "The cast and the client programs are in Spec/Casts.lean. The remainder that reaches |y| is exhibited by C104_rem_euclid_touches."
  },
  {
   "property": "C105",
   "status": "proved",
   "theorems": [
    "Apf.C105_decode_total",
    "Apf.C105_encode",
    "Apf.C105_decode_iff",
    "Apf.C105_format_tags"
   ],
   "note": "The file format is defined in Spec/Fuzz.lean (caseBytes, IsTestFile)."
  },
  {
   "property": "C106",
   "status": "proved",
   "theorems": [
    "Apf.C106_eval",
    "Apf.C106_neg",
    "Apf.C106_arith",
    "Apf.C106_mul_add",
    "Apf.C106_via_wider",
    "Apf.C106_rem",
    "Apf.C106_via_int",
    "Apf.C106_nan"
   ],
   "note": "FmaStops and FmaWrong are the exact sets of C76. Negation is stated for canonical patterns (every pattern except the non-canonical ones of x87)."
  },
  {
   "property": "C107",
   "status": "proved",
   "theorems": [
    "Apf.C107_bruteforce",
    "Apf.C107_exists",
    "Apf.C107_search",
    "Apf.C107_e4m3fn",
    "Apf.C107_wide",
    "Apf.C107_main",
    "Apf.C107_default_fails",
    "Apf.C107_main_exists"
   ],
   "note": "A schedule is an interleaving of the messages of the threads (Merge). The 32-bit format is not covered: the counts exceed usize there; no such run would end in practice."
  },
  {
   "property": "C108",
   "status": "proved",
   "theorems": [
    "Apf.C108_reconcile",
    "Apf.C108_eval",
    "Apf.C108_fuzz_one"
   ],
   "note": "LLVM and the hardware are arbitrary functions. Tolerated and Matches in Spec/Fuzz.lean define the tolerance independently of the masks of the code."
  },
  {
   "property": "C109",
   "status": "proved",
   "theorems": [
    "Apf.C109_build"
   ],
   "note": "Texts are lists of characters; the length test and the slice are those of the UTF-8 encoding."
  },
  {
   "property": "C11",
   "status": "proved",
   "theorems": [
    "Apf.C11_nan_propagation",
    "Apf.C11_quiet",
    "Apf.C11_pseudo_nan_stays_signaling",
    "Apf.C11_rem_nan",
    "Apf.C11_mul_add_nan",
    "Apf.C13_specials",
    "Apf.C11_nan_bits",
    "Apf.C11_rem_nan_bits",
    "Apf.C11_mul_add_nan_bits"
   ],
   "note": "The x87 pseudo-NaN exception is proved necessary."
  },
  {
   "property": "C110",
   "status": "proved",
   "theorems": [
    "Apf.C110_split",
    "Apf.C110_product"
   ],
   "note": "halves and dekker in Spec/Splitting.lean are client programs. The range of C110_split is |x| <= 2^(maxExp-s-1)."
  },
  {
   "property": "C111",
   "status": "proved",
   "theorems": [
    "Apf.C111_rounds_to",
    "Apf.C111_close",
    "Apf.C111_digits"
   ],
   "note": "Precision up to 120 bits, which every format has."
  },
  {
   "property": "C112",
   "status": "proved",
   "theorems": [
    "Apf.C112_total",
    "Apf.C112_first_line",
    "Apf.C112_mismatch",
    "Apf.C112_answers",
    "Apf.C112_files"
   ],
   "note": "The text the standard library prints for f32 and f64 is a parameter, assumed to contain no line break and no exclamation mark."
  },
  {
   "property": "C113",
   "status": "proved",
   "theorems": [
    "Apf.C113_scaling",
    "Apf.C113_products_below_normal"
   ],
   "note": "The second theorem shows that the condition on products is needed."
  },
  {
   "property": "C114",
   "status": "proved",
   "theorems": [
    "Apf.C114_payloads",
    "Apf.C114_signaling",
    "Apf.C114_default",
    "Apf.C114_payload_bits",
    "Apf.C114_samples"
   ],
   "note": "C114_payload_bits ties the payload to the bit pattern; C114_samples runs two programs that meet the hypotheses."
  },
  {
   "property": "C115",
   "status": "proved",
   "theorems": [
    "Apf.C115_symbols",
    "Apf.C115_llvm_answer",
    "Apf.C115_llvm_agrees",
    "Apf.C115_hardware_agrees",
    "Apf.C115_report"
   ],
   "note": "LLVM and the hardware are parameters; that the names of the semantics in LLVM denote the formats is part of the model. libraryLlvm and libraryHardware meet the hypotheses."
  },
  {
   "property": "C116",
   "status": "proved",
   "theorems": [
    "Apf.C116_flags",
    "Apf.C116_modes",
    "Apf.C116_samples"
   ],
   "note": "Every expression over finite operands; FlagsTell is the list of what the flags tell."
  },
  {
   "property": "C117",
   "status": "proved",
   "theorems": [
    "Apf.C117_divide_multiply",
    "Apf.C117_spare_bit",
    "Apf.C117_modes_matter"
   ],
   "note": "The two further theorems are concrete witnesses that the hypotheses are needed."
  },
  {
   "property": "C118",
   "status": "proved",
   "theorems": [
    "Apf.C118_share",
    "Apf.C118_contrast",
    "Apf.C118_factor",
    "Apf.C118_interpolate",
    "Apf.C118_overshoot",
    "Apf.C118_weighted"
   ],
   "note": "The last two theorems are concrete witnesses for the formulas that do leave the interval."
  },
  {
   "property": "C119",
   "status": "proved",
   "theorems": [
    "Apf.C119_report",
    "Apf.C119_verdict",
    "Apf.C119_e4m3fn",
    "Apf.C119_exists"
   ],
   "note": "Standard output without --verbose; the percentage printed from f64 numbers is a parameter."
  },
  {
   "property": "C12",
   "status": "proved",
   "theorems": [
    "Apf.C12_status_discipline",
    "Apf.C12_operations",
    "Apf.C12_mul_add"
   ],
   "note": "For all finite operands and modes, without the DirectedOK restriction: even the wrong results of C47 carry consistent flags."
  },
  {
   "property": "C120",
   "status": "proved",
   "theorems": [
    "Apf.C120_revision"
   ],
   "note": "The shell script that fetches the revision is not modelled."
  },
  {
   "property": "C121",
   "status": "proved",
   "theorems": [
    "Apf.C121_literal",
    "Apf.C121_exact",
    "Apf.C121_point",
    "Apf.C121_integer",
    "Apf.C121_negative",
    "Apf.C121_pair"
   ],
   "note": "The part of C46 that holds; beyond the bounds C46_missing_inexact and C46_spurious_inexact are counterexamples. C121_pair: the same for DoubleDouble with its 106 bits."
  },
  {
   "property": "C122",
   "status": "proved",
   "theorems": [
    "Apf.C122_difference",
    "Apf.C122_in_range",
    "Apf.C122_integers",
    "Apf.C122_plain_is_wrong",
    "Apf.C122_underflow"
   ],
   "note": "The operands on which mul_add fails (C76) are excluded by the range: the product is a multiple of the smallest positive number. C122_plain_is_wrong and C122_underflow show that the sequence and the range are needed."
  },
  {
   "property": "C123",
   "status": "proved",
   "theorems": [
    "Apf.C123_exact",
    "Apf.C123_integer",
    "Apf.C123_integer_trip"
   ],
   "note": "The layout of the text is that of Spec/Display.lean (C59)."
  },
  {
   "property": "C124",
   "status": "proved",
   "theorems": [
    "Apf.C124_lossless",
    "Apf.C124_directed",
    "Apf.C124_nearest",
    "Apf.C124_faithful",
    "Apf.C124_arithmetic",
    "Apf.C124_from_int",
    "Apf.C124_nan",
    "Apf.C124_double_rounding"
   ],
   "note": "ModeOK leaves out the two directed modes toward Float8E4M3FN (finding 1, C47). StrictlyNarrower is proved for seven pairs of the crate's types. To nearest, arithmetic needs more than twice the precision: C69."
  },
  {
   "property": "C125",
   "status": "proved",
   "theorems": [
    "Apf.C125_close",
    "Apf.C125_digits",
    "Apf.C125_display",
    "Apf.C125_types",
    "Apf.C125_double_rounding"
   ],
   "note": "The wider type has precision at most 120, as for C31. C125_types lists the pairs of the crate to which C125_display applies."
  },
  {
   "property": "C126",
   "status": "proved",
   "theorems": [
    "Apf.C126_never_half_way",
    "Apf.C126_modes_agree",
    "Apf.C126_subnormal_tie"
   ],
   "note": ""
  },
  {
   "property": "C127",
   "status": "proved",
   "theorems": [
    "Apf.C127_corrected",
    "Apf.C127_any_mode",
    "Apf.C127_small_dividend"
   ],
   "note": ""
  },
  {
   "property": "C128",
   "status": "proved",
   "theorems": [
    "Apf.C128_product",
    "Apf.C128_quotient",
    "Apf.C128_directed_product",
    "Apf.C128_directed_quotient"
   ],
   "note": ""
  },
  {
   "property": "C129",
   "status": "proved",
   "theorems": [
    "Apf.C129_round_to_multiple",
    "Apf.C129_bits",
    "Apf.C129_integral"
   ],
   "note": ""
  },
  {
   "property": "C13",
   "status": "proved",
   "theorems": [
    "Apf.C13_round_to_integral",
    "Apf.C13_integers_unchanged",
    "Apf.C13_specials",
    "Apf.C13_is_integer"
   ],
   "note": "For every format satisfying Sem.OK/Sem.Enc (proved for all eight) and every value. Rounding to an integer is specified in Spec/Int."
  },
  {
   "property": "C130",
   "status": "proved",
   "theorems": [
    "Apf.C130_spacing",
    "Apf.C130_error"
   ],
   "note": ""
  },
  {
   "property": "C131",
   "status": "proved",
   "theorems": [
    "Apf.C131_nearest",
    "Apf.C131_directed"
   ],
   "note": ""
  },
  {
   "property": "C132",
   "status": "proved",
   "theorems": [
    "Apf.C132_difference",
    "Apf.C132_quotient",
    "Apf.C132_quotient_down"
   ],
   "note": ""
  },
  {
   "property": "C133",
   "status": "proved",
   "theorems": [
    "Apf.C133_difference",
    "Apf.C133_zero_difference",
    "Apf.C133_quotient"
   ],
   "note": ""
  },
  {
   "property": "C134",
   "status": "proved",
   "theorems": [
    "Apf.C134_exact",
    "Apf.C134_stuck",
    "Apf.C134_skips"
   ],
   "note": ""
  },
  {
   "property": "C135",
   "status": "proved",
   "theorems": [
    "Apf.C135_exact",
    "Apf.C135_zero",
    "Apf.C135_never_zero"
   ],
   "note": ""
  },
  {
   "property": "C136",
   "status": "proved",
   "theorems": [
    "Apf.C136_exact",
    "Apf.C136_infinite",
    "Apf.C136_never_infinite"
   ],
   "note": ""
  },
  {
   "property": "C137",
   "status": "proved",
   "theorems": [
    "Apf.C137_epsilon"
   ],
   "note": ""
  },
  {
   "property": "C138",
   "status": "proved",
   "theorems": [
    "Apf.C138_max",
    "Apf.C138_min",
    "Apf.C138_maximum",
    "Apf.C138_minimum",
    "Apf.C138_order",
    "Apf.C138_clamp"
   ],
   "note": ""
  },
  {
   "property": "C139",
   "status": "proved",
   "theorems": [
    "Apf.C139_max_min",
    "Apf.C139_maximum_minimum",
    "Apf.C139_order",
    "Apf.C139_clamp"
   ],
   "note": "Proper (Spec/Ppc.lean) describes the pairs the library produces."
  },
  {
   "property": "C14",
   "status": "proved",
   "theorems": [
    "Apf.C14_next_up",
    "Apf.C14_next_up_specials",
    "Apf.C14_next_down",
    "Apf.C14_next_down_specials",
    "Apf.C14_inverse"
   ],
   "note": "For every format satisfying Sem.OK/Sem.Enc (proved for all eight) and every value. Neighbours are specified against all grid values of the format."
  },
  {
   "property": "C140",
   "status": "proved",
   "theorems": [
    "Apf.C140_sort",
    "Apf.C140_unique",
    "Apf.C140_search"
   ],
   "note": "The client program sortFloats (insertion sort) is in Spec/Sorting.lean; C140_unique is about the result of any sorting program."
  },
  {
   "property": "C141",
   "status": "proved",
   "theorems": [
    "Apf.C141_bisection"
   ],
   "note": "The client program bisect is in Spec/Bisect.lean. That directed rounding of the sums can stop early is C96_directed_stuck."
  },
  {
   "property": "C142",
   "status": "proved",
   "theorems": [
    "Apf.C142_digits",
    "Apf.C142_horner",
    "Apf.C142_round_trip"
   ],
   "note": "The client programs peelDigits and fromDigits are in Spec/Digits.lean; Nat.digits and Nat.ofDigits are Mathlib's."
  },
  {
   "property": "C143",
   "status": "proved",
   "theorems": [
    "Apf.C143_gcd",
    "Apf.C143_gcd_pair"
   ],
   "note": "The client programs euclid and euclidPair are in Spec/Euclid.lean and Spec/EuclidPair.lean. Fits (Spec/Ppc.lean) describes the canonical pairs of 106 bits."
  },
  {
   "property": "C144",
   "status": "proved",
   "theorems": [
    "Apf.C144_bits",
    "Apf.C144_complete"
   ],
   "note": "The client program peelBits and the value binaryFraction of a digit list are in Spec/Expansion.lean."
  },
  {
   "property": "C145",
   "status": "proved",
   "theorems": [
    "Apf.C145_running",
    "Apf.C145_lookup"
   ],
   "note": "The client program runningSums is in Spec/Running.lean. The format without infinities is left out because its overflow gives a NaN."
  },
  {
   "property": "C146",
   "status": "proved",
   "theorems": [
    "Apf.C146_products"
   ],
   "note": "The client program runningProducts is in Spec/RunningProduct.lean."
  },
  {
   "property": "C147",
   "status": "proved",
   "theorems": [
    "Apf.C147_horner",
    "Apf.C147_constant",
    "Apf.C147_at_zero"
   ],
   "note": "The client program horner is in Spec/Horner.lean. Argument zero is treated apart, for finite coefficients, because zero times an infinite coefficient is NaN; the order theorems leave out the format without infinities because its overflow gives a NaN."
  },
  {
   "property": "C148",
   "status": "proved",
   "theorems": [
    "Apf.C148_monotone",
    "Apf.C148_onwards",
    "Apf.C148_exact"
   ],
   "note": "The client program power is in Spec/Power.lean. The order theorems leave out the format without infinities because its overflow gives a NaN."
  },
  {
   "property": "C15",
   "status": "proved",
   "theorems": [
    "Apf.C15_partial_cmp",
    "Apf.C15_operators",
    "Apf.C15_finite",
    "Apf.C15_cmp_abs_normal",
    "Apf.C15_le"
   ],
   "note": "For every format satisfying Sem.OK/Sem.Enc (proved for all eight) and every value or pattern. "
  },
  {
   "property": "C16",
   "status": "proved",
   "theorems": [
    "Apf.C16_min",
    "Apf.C16_max",
    "Apf.C16_minimum",
    "Apf.C16_maximum"
   ],
   "note": "For every format satisfying Sem.OK/Sem.Enc (proved for all eight) and every value or pattern. "
  },
  {
   "property": "C17",
   "status": "proved",
   "theorems": [
    "Apf.C17_from_u128",
    "Apf.C17_from_i128"
   ],
   "note": "For every format satisfying Sem.OK/Sem.Enc (proved for all eight) and every value. "
  },
  {
   "property": "C18",
   "status": "proved",
   "theorems": [
    "Apf.C18_to_u128",
    "Apf.C18_to_u128_specials",
    "Apf.C18_width_zero_panics"
   ],
   "note": "For every format satisfying Sem.OK/Sem.Enc (proved for all eight) and every value. Width 0 is outside the documented range; the code panics there, which is proved."
  },
  {
   "property": "C19",
   "status": "proved",
   "theorems": [
    "Apf.C19_to_i128",
    "Apf.C19_to_i128_specials",
    "Apf.C19_width_one_panics"
   ],
   "note": "For every format satisfying Sem.OK/Sem.Enc (proved for all eight) and every value. Width 1 panics for every value out of range (proved)."
  },
  {
   "property": "C20",
   "status": "proved",
   "theorems": [
    "Apf.C20_int_round_trip",
    "Apf.C20_uint_round_trip"
   ],
   "note": "For every format satisfying Sem.OK/Sem.Enc (proved for all eight) and every value. "
  },
  {
   "property": "C21",
   "status": "proved",
   "theorems": [
    "Apf.C21_convert_finite",
    "Apf.C21_convert_infinity",
    "Apf.C21_convert_nan"
   ],
   "note": "For every pair of formats satisfying Sem.OK (proved for all eight) and every value. DirectedOK excludes only the Float8E4M3FN directed overflows of C47."
  },
  {
   "property": "C22",
   "status": "proved",
   "theorems": [
    "Apf.C22_loses_info",
    "Apf.C22_round_trip",
    "Apf.C22_widening",
    "Apf.C22_nan"
   ],
   "note": "For every pair of formats satisfying Sem.OK (proved for all eight), every value and every rounding mode, without exception."
  },
  {
   "property": "C23",
   "status": "proved",
   "theorems": [
    "Apf.C23_c_fmod",
    "Apf.C10_rem_special",
    "Apf.C11_rem_nan"
   ],
   "note": "For every format satisfying Sem.OK (proved for all eight) and every pair of valid finite operands, divisor not zero; the model's loop fuel is proved sufficient. "
  },
  {
   "property": "C24",
   "status": "proved",
   "theorems": [
    "Apf.C24_ieee_rem",
    "Apf.C10_rem_special",
    "Apf.C11_rem_nan"
   ],
   "note": "For every format satisfying Sem.OK (proved for all eight) and every pair of valid finite operands, divisor not zero; the model's loop fuel is proved sufficient. "
  },
  {
   "property": "C25",
   "status": "proved",
   "theorems": [
    "Apf.C25_scalbn",
    "Apf.C25_specials"
   ],
   "note": "For every format satisfying Sem.OK (proved for all eight) and every value. For every integer exponent, beyond the i32 range too; scalbn_r returns no status, so the theorem says that some status makes the result correctly rounded. DirectedOK excludes only the Float8E4M3FN directed overflows of C47."
  },
  {
   "property": "C26",
   "status": "proved",
   "theorems": [
    "Apf.C26_ilogb",
    "Apf.C26_specials"
   ],
   "note": "For every format satisfying Sem.OK (proved for all eight) and every value. "
  },
  {
   "property": "C27",
   "status": "proved",
   "theorems": [
    "Apf.C27_frexp",
    "Apf.C27_specials"
   ],
   "note": "For every format satisfying Sem.OK (proved for all eight) and every value. "
  },
  {
   "property": "C28",
   "status": "proved",
   "theorems": [
    "Apf.C28_get_exact_inverse"
   ],
   "note": "For every format satisfying Sem.OK (proved for all eight) and every value. "
  },
  {
   "property": "C29",
   "status": "partial",
   "theorems": [
    "Apf.C29_histories_partial",
    "Apf.C29_panics_iff_partial",
    "Apf.C29_without_mul_add_partial",
    "Apf.C29_panic",
    "Apf.C83_histories",
    "Apf.C83_panics_iff"
   ],
   "note": "Every finite program of 43 kinds of API calls over registers of the eight formats runs to its end with every register well formed, unless it reaches a call that Call.StopsTyped describes, which does panic (C83_panics_iff, arguments of any value, strings shorter than 2^27): a mul_add on operands described by FmaPanics, a {:.0} of a value described by DisplayPanics, a formatting precision P with 196 P + 58 >= 2^64 of a finite non-zero value, a cmp_abs_normal of values that are not finite and non-zero (its documented contract), or an integer conversion with a width outside its documented range. With in-range arguments only mul_add, {:.0} and cmp_abs_normal remain (C29_panics_iff_partial). Missing: those operands, for which the property is false (C29_panic exhibits a program that panics). DoubleFloat is covered by C75."
  },
  {
   "property": "C30",
   "status": "proved",
   "theorems": [
    "Apf.C30_hex"
   ],
   "note": "Every literal of Spec.IsHex, with any sign, in any mode: value, flags, sign. Formats of at most 125 bits of precision (all those of the crate)."
  },
  {
   "property": "C31",
   "status": "proved",
   "theorems": [
    "Apf.C31_nearest",
    "Apf.C31_length_needed",
    "Apf.C31_length_needed'"
   ],
   "note": "All literals below 2^27 characters (the analysis of the unbounded retry loop shows that 23 rounds suffice). A bound is needed: C31_length_needed shows, for every k, that 1 followed by k*2^32 zeros parses as exactly 1, because the code casts positions to i32. INEXACT and UNDERFLOW may deviate: see C46."
  },
  {
   "property": "C32",
   "status": "proved",
   "theorems": [
    "Apf.C32_accepts_iff",
    "Apf.C32_reject",
    "Apf.C32_inf",
    "Apf.C32_nan",
    "Apf.C32_decimal",
    "Apf.C32_rounds",
    "Apf.C30_hex"
   ],
   "note": "Strings below 2^27 characters; Denotes in Spec/Parse.lean is the grammar. C32_rounds: the fuel of the model is no restriction."
  },
  {
   "property": "C33",
   "status": "proved",
   "theorems": [
    "Apf.C33_round_trip",
    "Apf.C33_enough_digits",
    "Apf.C33_infinity"
   ],
   "note": "Every finite value of every format (precision <= 120, which all public formats meet), any width and flag, default precision: formatting and parsing to nearest gives the same value bit for bit. C33_enough_digits: the same with any explicit precision P with 2^p < 10^(P-1)."
  },
  {
   "property": "C34",
   "status": "proved",
   "theorems": [
    "Apf.C34_accuracy",
    "Apf.C34_zero",
    "Apf.C34_special",
    "Apf.C34_truncates"
   ],
   "note": "Renders is defined in Spec/Display.lean. C34_truncates shows the exception in it is real: {:.1} prints 8999 as 8.0E+3. Precisions with 196 P + 58 >= 2^64 are excluded: they panic (C79_huge_precision)."
  },
  {
   "property": "C35",
   "status": "proved",
   "theorems": [
    "Apf.C35_neg_bits",
    "Apf.C35_abs_bits",
    "Apf.C35_copy_sign_bits",
    "Apf.C35_sign_ops"
   ],
   "note": "For every format satisfying Sem.OK/Sem.Enc (proved for all eight) and every value or pattern. "
  },
  {
   "property": "C36",
   "status": "proved",
   "theorems": [
    "Apf.C36_add_comm",
    "Apf.C36_mul_comm",
    "Apf.C36_add_neg",
    "Apf.C36_mul_neg",
    "Apf.C36_sub_self",
    "Apf.C36_add_zero"
   ],
   "note": ""
  },
  {
   "property": "C37",
   "status": "proved",
   "theorems": [
    "Apf.C37_rounding_monotone",
    "Apf.C37_all_formats",
    "Apf.C37_add_monotone",
    "Apf.C37_mul_monotone",
    "Apf.C37_div_monotone"
   ],
   "note": "C37_all_formats: every format, mode and finite operands, the results of C47 included, as long as neither result is NaN (in a format without infinities an overflow is NaN). With infinities no result is NaN (C37_add_monotone, C37_mul_monotone, C37_div_monotone)."
  },
  {
   "property": "C38",
   "status": "proved",
   "theorems": [
    "Apf.C38_largest",
    "Apf.C38_smallest",
    "Apf.C38_smallest_normalized",
    "Apf.C38_tests",
    "Apf.C38_values"
   ],
   "note": "For every format satisfying Sem.OK/Sem.Enc (proved for all eight) and every value or pattern. "
  },
  {
   "property": "C39",
   "status": "proved",
   "theorems": [
    "Apf.C39_partition",
    "Apf.C39_categories",
    "Apf.C39_denormal"
   ],
   "note": "For every format satisfying Sem.OK/Sem.Enc (proved for all eight) and every value or pattern. "
  },
  {
   "property": "C40",
   "status": "proved",
   "theorems": [
    "Apf.C40_qnan",
    "Apf.C40_snan",
    "Apf.C40_round_trip"
   ],
   "note": "For every format satisfying Sem.OK/Sem.Enc (proved for all eight) and every value or pattern. "
  },
  {
   "property": "C41",
   "status": "proved",
   "theorems": [
    "Apf.C41_bits_round_trip",
    "Apf.C41_double_double",
    "Apf.C41_bitwise_eq"
   ],
   "note": "Every 128-bit pattern; also says which half is which part."
  },
  {
   "property": "C42",
   "status": "proved",
   "theorems": [
    "Apf.C42_from_fallback",
    "Apf.C42_from_fallback_panics",
    "Apf.C42_to_fallback",
    "Apf.C42_round_trip",
    "Apf.C42_specials",
    "Apf.C42_largest_panics"
   ],
   "note": "Both directions, both round trips, specials; the bound is sharp: at or beyond it the conversion panics."
  },
  {
   "property": "C43",
   "status": "proved",
   "theorems": [
    "Apf.C43_add_special",
    "Apf.C43_mul_special",
    "Apf.C43_mul_sign_wrong",
    "Apf.C43_unlike_double",
    "Apf.C43_neg",
    "Apf.C43_copy_sign",
    "Apf.C43_abs"
   ],
   "note": "Witnesses record where DoubleDouble departs from IEEE signs and flags."
  },
  {
   "property": "C44",
   "status": "proved",
   "theorems": [
    "Apf.C44_partial_cmp",
    "Apf.C44_order",
    "Apf.C44_eq",
    "Apf.C44_min_max",
    "Apf.C44_minimum_maximum",
    "Apf.C44_noncanonical"
   ],
   "note": "A witness shows the order is wrong on non-canonical pairs."
  },
  {
   "property": "C45",
   "status": "proved",
   "theorems": [
    "Apf.C45_add",
    "Apf.C45_sub",
    "Apf.C45_cmp",
    "Apf.C45_bits",
    "Apf.C45_shift_left",
    "Apf.C45_shift_right",
    "Apf.C45_increment",
    "Apf.C45_decrement",
    "Apf.C45_mul",
    "Apf.C45_div",
    "Apf.C45_extract",
    "Apf.C45_widening_mul"
   ],
   "note": "Arrays of every length, integers read with Mathlib's Nat.ofDigits. Lengths, shift counts and exponents are bounded only so that the i32 exponent the routines carry cannot overflow (shift counts < 2^31, products < 10^6 limbs)."
  },
  {
   "property": "C46",
   "status": "partial",
   "theorems": [
    "Apf.C46_directed_partial",
    "Apf.C46_directed_counterexample",
    "Apf.C46_missing_inexact",
    "Apf.C46_spurious_inexact",
    "Apf.C80_correct",
    "Apf.C80_adjacent"
   ],
   "note": "The code violates the full statement: counterexamples proved. Proved for directed modes and numbers N*10^D with N < 2^127 and |D| <= 54 (C46_directed_partial), and for all modes, flags included, whenever no representable number is within one part in 2^123 of the literal (C80_correct); in the remaining cases the directed result is the correct number or an adjacent one (C80_adjacent)."
  },
  {
   "property": "C47",
   "status": "partial",
   "theorems": [
    "Apf.C47_operations_partial",
    "Apf.C47_counterexample_toward_positive",
    "Apf.C47_counterexample_toward_negative"
   ],
   "note": "FALSE of the code: both directed modes have machine-checked counterexamples. C47_operations_partial says exactly what the code does for every operation, operand and mode: the correct result outside the failing interval (DirectedOK), and inside it NaN with OVERFLOW (toward positive) or the most negative number with INEXACT (toward negative)."
  },
  {
   "property": "C48",
   "status": "partial",
   "theorems": [
    "Apf.C48_display_total_partial",
    "Apf.C48_counterexample",
    "Apf.C48_zero_precision",
    "Apf.C79_panics_iff",
    "Apf.C79_huge_precision"
   ],
   "note": "Proved for every precision P except 0 and those with 196 P + 58 >= 2^64. False for {:.0}: 8 panics (and 1 prints as 10); C79_panics_iff describes exactly the values that panic. False for the huge precisions: every finite non-zero value panics (C79_huge_precision)."
  },
  {
   "property": "C49",
   "status": "partial",
   "theorems": [
    "Apf.C49_cmp_abs_normal_partial",
    "Apf.C49_cmp_abs_normal_wrong",
    "Apf.C49_cmp_abs_normal_panics",
    "Apf.C77_cmp_abs_normal"
   ],
   "note": "Proved when all four parts are non-zero and the pairs do not differ only in the sign of the low part; in the excluded cases the code returns Equal for 1+2^-60 and 1-2^-60 and panics when the high parts agree and a low part is zero (witnesses). C77 describes the excluded cases exactly."
  },
  {
   "property": "C50",
   "status": "proved",
   "theorems": [
    "Apf.C50_div",
    "Apf.PairOutcome.in_range",
    "Apf.PairRounds.fits"
   ],
   "note": "PairOutcome (Spec/Ppc.lean) spells out both outcomes; PairOutcome.in_range: no panic when the exact quotient is at most the largest number of the parts' format"
  },
  {
   "property": "C51",
   "status": "partial",
   "theorems": [
    "Apf.C51_mul_add_partial",
    "Apf.C51_mul_add_all",
    "Apf.C51_mul_add_defect",
    "Apf.C51_mul_add_panics"
   ],
   "note": "Excluded are exactly the operands on which mul_add_r of the 106-bit format is wrong (FmaWrong, see C08). For those the outcome is described too (C51_mul_add_all): a panic exactly under FmaPanics (reached: C51_mul_add_panics), otherwise a result off by less than two smallest subnormals."
  },
  {
   "property": "C52",
   "status": "proved",
   "theorems": [
    "Apf.C52_c_fmod",
    "Apf.C52_ieee_rem"
   ],
   "note": ""
  },
  {
   "property": "C53",
   "status": "proved",
   "theorems": [
    "Apf.C53_round_to_integral"
   ],
   "note": ""
  },
  {
   "property": "C54",
   "status": "proved",
   "theorems": [
    "Apf.C54_from_u128",
    "Apf.C54_from_i128",
    "Apf.C54_to_u128",
    "Apf.C54_to_i128",
    "Apf.C54_to_int_specials"
   ],
   "note": "to_u128 of a negative zero (value 0, OK, reported as not exact), NaNs and infinities are in C54_to_int_specials; signed conversions for widths from 2 (width 1 is C79)"
  },
  {
   "property": "C55",
   "status": "proved",
   "theorems": [
    "Apf.C55_hex",
    "Apf.C55_decimal",
    "Apf.C55_reject",
    "Apf.C55_display",
    "Apf.C55_round_trip",
    "Apf.C55_panics",
    "Apf.C55_snan_panics"
   ],
   "note": "literals between the largest double and the overflow threshold of the 106-bit format panic: C55_panics; the literal sNaN panics: C55_snan_panics; the status of decimal parsing is as for the other formats (C46); precisions with 196 P + 58 >= 2^64 are excluded (C79_huge_precision)"
  },
  {
   "property": "C56",
   "status": "proved",
   "theorems": [
    "Apf.C56_next_up",
    "Apf.C56_next_down",
    "Apf.C56_next_up_panics",
    "Apf.C56_get_exact_inverse"
   ],
   "note": "C56_next_up_panics: next_up of the largest DoubleDouble panics"
  },
  {
   "property": "C57",
   "status": "partial",
   "theorems": [
    "Apf.C57_add_partial",
    "Apf.C57_sub_partial",
    "Apf.C57_add_nan",
    "Apf.C57_status_wrong",
    "Apf.C57_toward_zero",
    "Apf.C57_add_range_partial",
    "Apf.C57_add_range_nan",
    "Apf.C57_add_below_largest_partial",
    "Apf.C57_sub_below_largest_partial",
    "Apf.C81_add",
    "Apf.C81_sub"
   ],
   "note": "The default rounding mode is settled over the whole range: the sum is canonical within the error bound, or a flagged infinity of a sum at least the largest number (C57_add_range_partial), or, exactly when an intermediate difference overflows, NaN (C57_add_range_nan, witness C57_add_nan); it is never NaN when the second operand's high part is below the largest number (C57_add_below_largest_partial, C57_sub_below_largest_partial). False of the code, and missing: the status is wrong in both directions and addition is not commutative (C57_status_wrong), rounding toward zero gives non-canonical pairs (C57_toward_zero). What holds in every mode is C81."
  },
  {
   "property": "C58",
   "status": "partial",
   "theorems": [
    "Apf.C58_mul_partial",
    "Apf.C58_toward_zero",
    "Apf.C58_mul_panics",
    "Apf.C58_mul_wrong",
    "Apf.C58_mul_range_partial",
    "Apf.C58_mul_in_range_partial",
    "Apf.C58_status_wrong",
    "Apf.C58_mul_all_partial",
    "Apf.C58_mul_defect",
    "Apf.C82_mul"
   ],
   "note": "The default rounding mode is settled for all canonical operands (C58_mul_all_partial): the product panics exactly when the fused multiply-add of the leading parts does (FmaPanics), is a flagged infinity only at the end of the range, and is otherwise canonical within the error bound plus four smallest subnormals (two outside the defect: C58_mul_range_partial; products in the normal range: C58_mul_in_range_partial). False of the code, and missing: for subnormal products the defect of C08 makes the multiplication panic (C58_mul_panics) or deliver twice the product (C58_mul_wrong); the status does not tell exactness (C58_status_wrong); rounding toward zero gives non-canonical pairs (C58_toward_zero). What holds in every mode is C82."
  },
  {
   "property": "C59",
   "status": "proved",
   "theorems": [
    "Apf.C59_layout",
    "Apf.C59_zero"
   ],
   "note": "the digits and exponent are those of a rendering in the sense of C34; a precision of 0 is described by C79, precisions with 196 P + 58 >= 2^64 panic (C79_huge_precision)"
  },
  {
   "property": "C60",
   "status": "proved",
   "theorems": [
    "Apf.C60_is_integer",
    "Apf.C60_is_integer_specials",
    "Apf.C60_largest",
    "Apf.C60_smallest",
    "Apf.C60_smallest_normalized",
    "Apf.C60_tests"
   ],
   "note": "generic over the pair format; `Fits` means canonical and representable in 106 bits"
  },
  {
   "property": "C61",
   "status": "partial",
   "theorems": [
    "Apf.C61_ilogb_partial",
    "Apf.C61_ilogb_specials",
    "Apf.C61_ilogb_wrong",
    "Apf.C78_ilogb"
   ],
   "note": "The code violates the property just below a power of two (C61_ilogb_wrong: ilogb(1-2^-60) = 0); proved: right otherwise, and at most 2^(e-53) off there. C78_ilogb: right iff not in that case."
  },
  {
   "property": "C62",
   "status": "partial",
   "theorems": [
    "Apf.C62_is_denormal_partial",
    "Apf.C62_denormal_inconsistent"
   ],
   "note": "The code violates the property: its threshold is 2^-1022, not smallest_normalized() = 2^-969. Proved: the exact condition is_denormal decides."
  },
  {
   "property": "C63",
   "status": "partial",
   "theorems": [
    "Apf.C63_scalbn_partial",
    "Apf.C63_scalbn_grid_partial",
    "Apf.C63_scalbn_specials",
    "Apf.C63_scalbn_overflow",
    "Apf.C63_scalbn_double_rounding",
    "Apf.C78_scalbn"
   ],
   "note": "Exactness proved away from overflow and underflow; on overflow the result is not INFINITY and on underflow it is rounded twice (witnesses). C78_scalbn bounds the error for all finite pairs and exponents."
  },
  {
   "property": "C64",
   "status": "proved",
   "theorems": [
    "Apf.C64_frexp",
    "Apf.C64_frexp_specials",
    "Apf.C64_frexp_parts",
    "Apf.C64_frexp_mode"
   ],
   "note": ""
  },
  {
   "property": "C65",
   "status": "proved",
   "theorems": [
    "Apf.C65_operators",
    "Apf.C65_assignments",
    "Apf.C65_assignment_is_operator",
    "Apf.C65_default",
    "Apf.C65_from_str",
    "Apf.C65_shorthands",
    "Apf.C65_pair_operators",
    "Apf.C65_pair_shorthands"
   ],
   "note": "For IeeeFloat every clause; mul_add outside the operands of C08. For DoubleFloat the operators satisfy C50, C52, C57, C58 (C65_pair_operators) and C65_assignment_is_operator holds for every type. Literals of fewer than 2^27 (decimal) and 2^28 (hexadecimal) characters."
  },
  {
   "property": "C66",
   "status": "proved",
   "theorems": [
    "Apf.C66_one",
    "Apf.C66_double",
    "Apf.C66_sub",
    "Apf.C66_sub_swap",
    "Apf.C66_div_self",
    "Apf.C66_exact_inverse",
    "Apf.C66_mul_add_one",
    "Apf.C66_mul_add_zero",
    "Apf.C66_scalbn"
   ],
   "note": "All formats. C66_sub_swap and the mul_add and scalbn identities are for finite operands; C66_sub_swap asks that the difference is not zero (zero signs follow the mode) and, for E4M3FN, that neither direction is the one of finding 1 (DirectedOK)."
  },
  {
   "property": "C67",
   "status": "proved",
   "theorems": [
    "Apf.C67_enclosure",
    "Apf.C67_operations"
   ],
   "note": "C67_operations states the enclosure for eight operations; mul_add under the hypothesis that the operands are outside finding 2 (FmaExcluded)."
  },
  {
   "property": "C68",
   "status": "proved",
   "theorems": [
    "Apf.C68_sterbenz",
    "Apf.C68_two_sum",
    "Apf.C68_fast_two_sum",
    "Apf.C68_two_product",
    "Apf.C68_division_residual"
   ],
   "note": "The hypotheses are the classical ones: no overflow (operands at most 2^(emax-2)), and for products and residuals an exponent large enough for the error term to be representable."
  },
  {
   "property": "C69",
   "status": "proved",
   "theorems": [
    "Apf.C69_add_mul",
    "Apf.C69_div",
    "Apf.C69_x87_double_rounding",
    "Apf.C69_mul_add_double_rounding"
   ],
   "note": "The format pairs are the theorems half_via_single, bfloat_via_double, single_via_double, double_via_quad, e5m2_via_single, e4m3fn_via_single (the last in the modes other than the two directed ones, finding 1). The two counterexamples are concrete computations on the model."
  },
  {
   "property": "C70",
   "status": "proved",
   "theorems": [
    "Apf.C70_partial_cmp_bits",
    "Apf.C70_next_up_bits",
    "Apf.C70_next_down_bits",
    "Apf.C70_x87_next_up_bits"
   ],
   "note": "The x87 theorem is the counterexample that shows why next_up is stated for the formats with an implied integer bit."
  },
  {
   "property": "C71",
   "status": "proved",
   "theorems": [
    "Apf.C71_sub",
    "Apf.C71_convert",
    "Apf.C71_scalbn",
    "Apf.C71_scalbn_exponent",
    "Apf.C71_from_int",
    "Apf.C71_round_to_integral",
    "Apf.C71_to_int",
    "Apf.C71_mul_add",
    "Apf.C71_from_str"
   ],
   "note": ""
  },
  {
   "property": "C72",
   "status": "proved",
   "theorems": [
    "Apf.C72_to_i128_via_integral",
    "Apf.C72_to_u128_via_integral",
    "Apf.C72_frexp_scalbn",
    "Apf.C72_frexp_ilogb",
    "Apf.C72_ilogb_scalbn",
    "Apf.C72_scalbn_scalbn",
    "Apf.C72_int_trip"
   ],
   "note": ""
  },
  {
   "property": "C73",
   "status": "proved",
   "theorems": [
    "Apf.C73_swap",
    "Apf.C73_eq",
    "Apf.C73_transitive",
    "Apf.C73_trichotomy",
    "Apf.C73_congruence",
    "Apf.C73_minimum_maximum",
    "Apf.C73_min_max",
    "Apf.C73_min_max_laws"
   ],
   "note": ""
  },
  {
   "property": "C74",
   "status": "proved",
   "theorems": [
    "Apf.C74_binary",
    "Apf.C74_mul_add",
    "Apf.C74_unary"
   ],
   "note": "mul_add_r: wherever it returns (FmaPanics of C08 describes the panics)."
  },
  {
   "property": "C75",
   "status": "proved",
   "theorems": [
    "Apf.C75_read",
    "Apf.C75_write",
    "Apf.C75_division",
    "Apf.C75_unary",
    "Apf.C75_mul_add",
    "Apf.C75_add_sub",
    "Apf.C75_mul",
    "Apf.C75_to_int",
    "Apf.C75_display",
    "Apf.C75_from_str",
    "Apf.C75_get_exact_inverse",
    "Apf.C75_total",
    "Apf.C75_histories",
    "Apf.C75_panics_iff",
    "Apf.C75_mul_panics",
    "Apf.C75_direct_histories",
    "Apf.C75_causes_occur"
   ],
   "note": "cmp_abs_normal stops exactly if a part that it compares is zero, infinite or NaN; literals shorter than 2^27 characters; widths 2 to 128 here, any width in C83."
  },
  {
   "property": "C76",
   "status": "proved",
   "theorems": [
    "Apf.C76_excluded",
    "Apf.C76_correct_iff",
    "Apf.C76_panics_iff",
    "Apf.C76_close"
   ],
   "note": "FmaWrong and FmaPanics in Spec/FmaExact.lean describe the operands."
  },
  {
   "property": "C77",
   "status": "proved",
   "theorems": [
    "Apf.C77_cmp_abs_normal"
   ],
   "note": "Three clauses that cover every case; witnesses for the two failing ones beside it."
  },
  {
   "property": "C78",
   "status": "proved",
   "theorems": [
    "Apf.C78_scalbn",
    "Apf.C78_ilogb"
   ],
   "note": "Completes C61 and C63, which the code violates in the corner cases described here."
  },
  {
   "property": "C79",
   "status": "proved",
   "theorems": [
    "Apf.C79_zero_precision",
    "Apf.C79_panics_iff",
    "Apf.DecimalForm.unique",
    "Apf.C79_huge_precision"
   ],
   "note": "DecimalForm and dropped in Spec/DecimalForm.lean. C79_huge_precision: when 196 * precision + 58 reaches 2^64 the digit estimate overflows a 64-bit usize and finite non-zero values panic (overflow checks on)."
  },
  {
   "property": "C80",
   "status": "proved",
   "theorems": [
    "Apf.C80_close",
    "Apf.C80_correct",
    "Apf.C80_adjacent"
   ],
   "note": "Completes C46, whose full statement the code violates. C80_close needs no bound on the precision."
  },
  {
   "property": "C81",
   "status": "proved",
   "theorems": [
    "Apf.C81_add",
    "Apf.C81_sub",
    "Apf.C81_toward_negative_above",
    "Apf.C81_toward_positive_below",
    "Apf.C81_toward_zero_larger"
   ],
   "note": "For every format with at least 10 bits of precision used as part of a pair. The last three theorems are counterexamples to the directed reading, for canonical operands."
  },
  {
   "property": "C82",
   "status": "proved",
   "theorems": [
    "Apf.C82_mul",
    "Apf.C82_not_directed"
   ],
   "note": "For every format with at least 10 bits of precision used as part of a pair. C82_not_directed gives counterexamples to the directed reading, for canonical operands."
  },
  {
   "property": "C83",
   "status": "proved",
   "theorems": [
    "Apf.C83_from_bits",
    "Apf.C83_from_bits_decodes",
    "Apf.C83_to_u128_positive",
    "Apf.C83_to_u128_negative",
    "Apf.C83_to_i128",
    "Apf.C83_to_i128_width_one",
    "Apf.C83_histories",
    "Apf.C83_panics_iff",
    "Apf.C83_negative_witness",
    "Apf.C83_pair_to_u128",
    "Apf.C83_pair_to_i128",
    "Apf.C83_pair_histories",
    "Apf.C83_pair_panics_iff",
    "Apf.C83_display",
    "Apf.C83_pair_display"
   ],
   "note": "With the overflow checks of a debug build. Width 1 on a negative normal number converts correctly. Formatting with any usize precision, including huge ones: C83_display, C83_pair_display."
  },
  {
   "property": "C84",
   "status": "proved",
   "theorems": [
    "Apf.C84_expression",
    "Apf.C84_sums",
    "Apf.C84_list"
   ],
   "note": "Induction over the expression. \"In range\" is stated with the inflated values, so that it is a condition on the exact computation only."
  },
  {
   "property": "C85",
   "status": "proved",
   "theorems": [
    "Apf.C85_integers",
    "Apf.C85_fixed_point",
    "Apf.C85_sharp"
   ],
   "note": "Induction over the expression."
  },
  {
   "property": "C86",
   "status": "proved",
   "theorems": [
    "Apf.C86_expression",
    "Apf.C86_sums"
   ],
   "note": "Induction over the expression on top of C81 and C82. Which products panic is settled by C82."
  },
  {
   "property": "C87",
   "status": "proved",
   "theorems": [
    "Apf.C87_debug_total",
    "Apf.C87_debug_injective",
    "Apf.C87_pair_debug",
    "Apf.C87_pair_debug_pretty"
   ],
   "note": "{:#?} of a pair (the multi-line layout of the standard library): C87_pair_debug_pretty. Injectivity holds for all values, well-formed or not."
  },
  {
   "property": "C88",
   "status": "proved",
   "theorems": [
    "Apf.C88_unwrap_add",
    "Apf.C88_unwrap_sub",
    "Apf.C88_unwrap_mul",
    "Apf.C88_unwrap_div",
    "Apf.C88_unwrap_convert",
    "Apf.C88_status_bits",
    "Apf.C88_status_of_bits",
    "Apf.C88_unwrap_from_u128",
    "Apf.C88_unwrap_from_i128",
    "Apf.C88_unwrap_integral",
    "Apf.C88_unwrap_rem"
   ],
   "note": "For the fused multiply-add see C88_unwrap_mul_add_partial: it holds outside the operands of C08/C76 on which the code is wrong."
  },
  {
   "property": "C89",
   "status": "proved",
   "theorems": [
    "Apf.C89_swap",
    "Apf.C89_trichotomy",
    "Apf.C89_transitive",
    "Apf.C89_congruence",
    "Apf.C89_values",
    "Apf.C89_min_max"
   ],
   "note": ""
  },
  {
   "property": "C90",
   "status": "proved",
   "theorems": [
    "Apf.C90_interval",
    "Apf.C90_counterexample"
   ],
   "note": "The interval evaluator is Spec/Interval.lean. C90_counterexample: in Float8E4M3FN (whose directed overflow is wrong, C47) the interval of ((1/3)*-448)*3.25 has the lower bound -448, above the exact value."
  },
  {
   "property": "C91",
   "status": "proved",
   "theorems": [
    "Apf.C91_decimal",
    "Apf.C91_decimal_pair",
    "Apf.C91_hex",
    "Apf.C91_nearest",
    "Apf.C91_directed_differs",
    "Apf.C91_hex_pair",
    "Apf.C91_nearest_pair"
   ],
   "note": "C91_directed_differs: in directed modes a decimal and a hexadecimal literal of the same number can differ, because of C46."
  },
  {
   "property": "C92",
   "status": "proved",
   "theorems": [
    "Apf.C92_fmod_periodic",
    "Apf.C92_fmod_bounds",
    "Apf.C92_fmod_signs",
    "Apf.C92_fmod_fmod",
    "Apf.C92_rem_bounds",
    "Apf.C92_rem_signs",
    "Apf.C92_rem_of_fmod"
   ],
   "note": ""
  },
  {
   "property": "C93",
   "status": "proved",
   "theorems": [
    "Apf.C93_div",
    "Apf.C93_mul_add",
    "Apf.C93_round_to_integral",
    "Apf.C93_to_int",
    "Apf.C93_from_int",
    "Apf.C93_decimal",
    "Apf.C93_add_not_monotone",
    "Apf.C93_mul_not_monotone"
   ],
   "note": "AtMost is the answer of partial_cmp. Division and the conversions of u128 are stated for the calls that return (near the end of the range they may panic, C57). C93_add_not_monotone and C93_mul_not_monotone are findings with concrete operands."
  },
  {
   "property": "C94",
   "status": "partial",
   "theorems": [
    "Apf.C94_within_one_unit",
    "Apf.C94_survives_partial",
    "Apf.C94_counterexample"
   ],
   "note": "C94_within_one_unit is the full description for all such literals: the text denotes the literal, or one unit of the last digit less, the latter only if the parsed value is below the literal and the first digit of the parsed value is at least 5. C94_survives_partial: literals with first digit 1 to 4 other than powers of ten do survive. C94_counterexample: 0.7 in Double with {:.15} prints 0.699999999999999, 1e-6 prints 9.99999999999999E-7 (finding 8: discarded digits are not rounded)."
  },
  {
   "property": "C95",
   "status": "proved",
   "theorems": [
    "Apf.C95_quotient",
    "Apf.C95_int_div",
    "Apf.C95_remainder",
    "Apf.C95_directed_sharp"
   ],
   "note": "to_u128 is stated for positive a and b. C95_directed_sharp: 1538/513 in Half, divided toward positive, truncates to 3."
  },
  {
   "property": "C96",
   "status": "proved",
   "theorems": [
    "Apf.C96_midpoint",
    "Apf.C96_offset",
    "Apf.C96_directed_stuck"
   ],
   "note": "The constant 2 is any valid float with the value 2."
  },
  {
   "property": "C97",
   "status": "proved",
   "theorems": [
    "Apf.C97_split",
    "Apf.C97_compensated"
   ],
   "note": "The client programs (twoSum, vecSum, plainSum, compensatedSum) are written out in Spec/Compensated.lean; all operations round to nearest, ties to even."
  },
  {
   "property": "C98",
   "status": "partial",
   "theorems": [
    "Apf.C98_to_u128",
    "Apf.C98_to_i128_partial",
    "Apf.C98_to_i128_neg_zero",
    "Apf.C98_saturated_trip"
   ],
   "note": "Complete for to_u128_r. For to_i128_r the claim fails for negative zero, and only there (C98_to_i128_neg_zero, finding 4): is_exact is true although +0 comes back. C98_saturated_trip shows why the flag on the way back has to be part of the statement."
  },
  {
   "property": "C99",
   "status": "proved",
   "theorems": [
    "Apf.C99_walk",
    "Apf.C99_count",
    "Apf.C99_stuck"
   ],
   "note": "The client programs walkUp and countUp are in Spec/Iterate.lean. The x87 format is left out of C99_walk because its bit patterns have gaps."
  }
 ]
}
