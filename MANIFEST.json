{
 "claims": [
  {
   "property": "C21",
   "status": "proved",
   "theorems": [
    "FastPrintf.C21_rope_denotes_string"
   ],
   "note": "All finite histories of leaf constructions and combinators."
  },
  {
   "property": "C22",
   "status": "proved",
   "theorems": [
    "FastPrintf.C22_subSequence"
   ],
   "note": "Exact condition under which the reported length is right."
  },
  {
   "property": "C03",
   "status": "proved",
   "theorems": [
    "FastPrintf.C03_compile_accepts_exactly_the_grammar"
   ],
   "note": "The grammar is in Verif/Spec/Grammar.lean; which date patterns the JDK accepts is a parameter."
  },
  {
   "property": "C04",
   "status": "proved",
   "theorems": [
    "FastPrintf.C04_compile_failures_are_located"
   ],
   "note": "The Java parser recurses once per piece; its open calls are counted in C72."
  },
  {
   "property": "C08",
   "status": "proved",
   "theorems": [
    "FastPrintf.C08_flag_order_irrelevant",
    "FastPrintf.C08_repeated_flag_rejected"
   ],
   "note": "Same compiled pieces, hence same behaviour."
  },
  {
   "property": "C11",
   "status": "proved",
   "theorems": [
    "FastPrintf.C11_pattern_round_trip",
    "FastPrintf.C11_width_zero_not_faithful"
   ],
   "note": ""
  },
  {
   "property": "C39",
   "status": "proved",
   "theorems": [
    "FastPrintf.C39_date_pattern_brace"
   ],
   "note": ""
  },
  {
   "property": "C01",
   "status": "proved",
   "theorems": [
    "FastPrintf.C01_literal_verbatim"
   ],
   "note": ""
  },
  {
   "property": "C02",
   "status": "proved",
   "theorems": [
    "FastPrintf.C02_escape_complete"
   ],
   "note": ""
  },
  {
   "property": "C05",
   "status": "proved",
   "theorems": [
    "FastPrintf.C05_compositional",
    "FastPrintf.C05_printf_append"
   ],
   "note": ""
  },
  {
   "property": "C06",
   "status": "proved",
   "theorems": [
    "FastPrintf.C06_consumption_fixed"
   ],
   "note": ""
  },
  {
   "property": "C07",
   "status": "proved",
   "theorems": [
    "FastPrintf.C07_surplus_ignored",
    "FastPrintf.C07_missing_reported"
   ],
   "note": ""
  },
  {
   "property": "C09",
   "status": "proved",
   "theorems": [
    "FastPrintf.C09_star_width_written",
    "FastPrintf.C09_star_width_negative",
    "FastPrintf.C09_star_width_refused",
    "FastPrintf.C09_star_width_zero",
    "FastPrintf.C09_star_width_minValue",
    "FastPrintf.C09_star_width_unreadable",
    "FastPrintf.C09_star_precision_written",
    "FastPrintf.C09_star_precision_negative",
    "FastPrintf.C09_star_precision_refused",
    "FastPrintf.C09_star_precision_unreadable",
    "FastPrintf.C09_every_number_can_be_written"
   ],
   "note": "The cases w = 0 and w = MIN_VALUE ask that sequences report their own length and that integer digits are not empty."
  },
  {
   "property": "C10",
   "status": "proved",
   "theorems": [
    "FastPrintf.C10_width_and_precision_capped"
   ],
   "note": ""
  },
  {
   "property": "C34",
   "status": "proved",
   "theorems": [
    "FastPrintf.C34_targets_agree",
    "FastPrintf.C34_partial_output",
    "FastPrintf.C34_library_arguments"
   ],
   "note": "For arguments whose sequences report their own length. An Appendable is any state machine."
  },
  {
   "property": "C38",
   "status": "proved",
   "theorems": [
    "FastPrintf.C38_n_and_decorated_percent"
   ],
   "note": ""
  },
  {
   "property": "C12",
   "status": "proved",
   "theorems": [
    "FastPrintf.C12_d_is_C"
   ],
   "note": ""
  },
  {
   "property": "C13",
   "status": "proved",
   "theorems": [
    "FastPrintf.C13_d_reads_back"
   ],
   "note": ""
  },
  {
   "property": "C14",
   "status": "proved",
   "theorems": [
    "FastPrintf.C14_unsigned_reads_back",
    "FastPrintf.C14_negative_big_rejected"
   ],
   "note": ""
  },
  {
   "property": "C15",
   "status": "proved",
   "theorems": [
    "FastPrintf.C15_unsigned_is_C"
   ],
   "note": ""
  },
  {
   "property": "C18",
   "status": "proved",
   "theorems": [
    "FastPrintf.C18_s",
    "FastPrintf.C18_rope",
    "FastPrintf.C18_rope_overpads"
   ],
   "note": ""
  },
  {
   "property": "C19",
   "status": "proved",
   "theorems": [
    "FastPrintf.C19_upper_case"
   ],
   "note": ""
  },
  {
   "property": "C20",
   "status": "proved",
   "theorems": [
    "FastPrintf.C20_c",
    "FastPrintf.C20_c_rejects"
   ],
   "note": ""
  },
  {
   "property": "C37",
   "status": "proved",
   "theorems": [
    "FastPrintf.C37_null_shown",
    "FastPrintf.C37_null_rejected",
    "FastPrintf.C37_p"
   ],
   "note": ""
  },
  {
   "property": "C40",
   "status": "proved",
   "theorems": [
    "FastPrintf.C40_timestamps",
    "FastPrintf.C40_not_monotonic",
    "FastPrintf.C52_t",
    "FastPrintf.C52_no_time"
   ],
   "note": ""
  },
  {
   "property": "C41",
   "status": "proved",
   "theorems": [
    "FastPrintf.C41_declared_length"
   ],
   "note": ""
  },
  {
   "property": "C16",
   "status": "proved",
   "theorems": [
    "FastPrintf.C16_width_is_minimum",
    "FastPrintf.C16_general_overpads"
   ],
   "note": "For arguments in Exact (see C29 for the rest)."
  },
  {
   "property": "C17",
   "status": "proved",
   "theorems": [
    "FastPrintf.C17_spaces",
    "FastPrintf.C17_zeros"
   ],
   "note": "For arguments in Exact; %#0x and %#0o of zero are described, not padded with zeros only."
  },
  {
   "property": "C42",
   "status": "proved",
   "theorems": [
    "FastPrintf.C42_multiplyHigh"
   ],
   "note": ""
  },
  {
   "property": "C43",
   "status": "proved",
   "theorems": [
    "FastPrintf.C43_message",
    "FastPrintf.C43_pieces",
    "FastPrintf.C43_keeps_arguments",
    "FastPrintf.C43_null"
   ],
   "note": ""
  },
  {
   "property": "C44",
   "status": "proved",
   "theorems": [
    "FastPrintf.C44_rope_join",
    "FastPrintf.C44_join_array",
    "FastPrintf.C44_join_iterator",
    "FastPrintf.C44_join_other",
    "FastPrintf.C44_object_array"
   ],
   "note": "Finding: joining an iterable lets an exception of the first element's toString() escape, while later elements are shown leniently."
  },
  {
   "property": "C45",
   "status": "proved",
   "theorems": [
    "FastPrintf.C45_debug_literal_reads_back",
    "FastPrintf.C45_debug_literal_injective",
    "FastPrintf.C45_no_control"
   ],
   "note": ""
  },
  {
   "property": "C47",
   "status": "proved",
   "theorems": [
    "FastPrintf.C47_message_points_at_error"
   ],
   "note": ""
  },
  {
   "property": "C31",
   "status": "proved",
   "theorems": [
    "FastPrintf.C31_cache_invisible",
    "FastPrintf.C31_oversized_replaced",
    "FastPrintf.C31_start_capacity"
   ],
   "note": "A builder above 65536 is replaced at the next call, not at the end of the call. Finding: a reused builder may start at a capacity up to 131074, because growing it to the configured capacity doubles it."
  },
  {
   "property": "C32",
   "status": "proved",
   "theorems": [
    "FastPrintf.C32_not_reentrant"
   ],
   "note": "The code violates re-entrancy; the theorem states the corrupted result for every prefix that fits the builder. Without the cache, C33_calls_do_not_interfere applies."
  },
  {
   "property": "C33",
   "status": "proved",
   "theorems": [
    "FastPrintf.C33_calls_do_not_interfere",
    "FastPrintf.C33_no_blocking"
   ],
   "note": "Calls may nest calls on other instances; calls that re-enter the same cached instance are excluded (C32)."
  },
  {
   "property": "C35",
   "status": "proved",
   "theorems": [
    "FastPrintf.C35_configuration_invisible",
    "FastPrintf.C35_configuration",
    "FastPrintf.C35_initial_capacity"
   ],
   "note": ""
  },
  {
   "property": "C36",
   "status": "proved",
   "theorems": [
    "FastPrintf.C36_values",
    "FastPrintf.C36_supplied_unique",
    "FastPrintf.C36_read_in_order",
    "FastPrintf.C36_of",
    "FastPrintf.C36_expected_size"
   ],
   "note": "A FormatTraits object given to put stands for the value it wraps."
  },
  {
   "property": "C26",
   "status": "proved",
   "theorems": [
    "FastPrintf.C26_decimal",
    "FastPrintf.C26_unique",
    "FastPrintf.C26_roundtrip",
    "FastPrintf.C26_injective",
    "FastPrintf.C26_special",
    "FastPrintf.C26_split"
   ],
   "note": ""
  },
  {
   "property": "C23",
   "status": "proved",
   "theorems": [
    "FastPrintf.C23_f",
    "FastPrintf.C23_error",
    "FastPrintf.C23_determined"
   ],
   "note": "Every directive without a star, every finite double (primitive or boxed). Uses C26 for the decimal. Stars reduce to written numbers by C09, upper case by C19."
  },
  {
   "property": "C24",
   "status": "proved",
   "theorems": [
    "FastPrintf.C24_e",
    "FastPrintf.C24_determined",
    "FastPrintf.C24_exponent_determined"
   ],
   "note": "Every directive without a star, every finite double. The significant digits and the exponent are unique, so the text is determined."
  },
  {
   "property": "C25",
   "status": "proved",
   "theorems": [
    "FastPrintf.C25_g",
    "FastPrintf.C25_determined"
   ],
   "note": "Every directive without a star, every finite double, with and without '#'. The '#' exponent style is stated as the code has it: up to P digits, and no point for P = 1; both departures from C are shown by examples."
  },
  {
   "property": "C27",
   "status": "proved",
   "theorems": [
    "FastPrintf.C27_exact",
    "FastPrintf.C27_exact_padded",
    "FastPrintf.C27_rounded",
    "FastPrintf.C27_rounded_determined",
    "FastPrintf.C27_digits_determined",
    "FastPrintf.C27_big"
   ],
   "note": "Upper case by C19."
  },
  {
   "property": "C30",
   "status": "proved",
   "theorems": [
    "FastPrintf.C30_nonfinite",
    "FastPrintf.C30_sign"
   ],
   "note": "Upper case by C19."
  },
  {
   "property": "C28",
   "status": "proved",
   "theorems": [
    "FastPrintf.C28_f",
    "FastPrintf.C28_error",
    "FastPrintf.C28_zero_negative_scale",
    "FastPrintf.C28_zero_witness"
   ],
   "note": "Every directive without a star, every BigDecimal or BigInteger whose scale satisfies ScaleOk (no int overflow when locating the first digit). Upper case by C19."
  },
  {
   "property": "C29",
   "status": "proved",
   "theorems": [
    "FastPrintf.C29_e",
    "FastPrintf.C29_e_zero",
    "FastPrintf.C29_g",
    "FastPrintf.C29_g_zero",
    "FastPrintf.C29_exponent_witness",
    "FastPrintf.C29_zero_witness",
    "FastPrintf.C29_style_witness"
   ],
   "note": "Same range as C28. The defects are stated as the code has them and shown by witnesses."
  },
  {
   "property": "C46",
   "status": "proved",
   "theorems": [
    "FastPrintf.C46_documented_failures",
    "FastPrintf.C46_without_dates",
    "FastPrintf.C46_targets",
    "FastPrintf.C46_scale_witness"
   ],
   "note": "Every format string and every list of ordinary arguments (all but user FormatTraits; toString works, ropes consistent, temporals countable in milliseconds, big numbers within ScaleOk). Memory and stack exhaustion are not modelled."
  },
  {
   "property": "C48",
   "status": "proved",
   "theorems": [
    "FastPrintf.C48_read_as_integer",
    "FastPrintf.C48_no_integer",
    "FastPrintf.C48_complete"
   ],
   "note": "Every directive without a star, every argument but a user FormatTraits. Character.digit is an arbitrary function; Instant.from too."
  },
  {
   "property": "C49",
   "status": "proved",
   "theorems": [
    "FastPrintf.C49_read_as_double",
    "FastPrintf.C49_read_as_bigDecimal",
    "FastPrintf.C49_no_double",
    "FastPrintf.C49_complete"
   ],
   "note": "Same range. Double.parseDouble is an arbitrary function; rounding to the nearest double is modelled and proved. NaNs count as equal."
  },
  {
   "property": "C50",
   "status": "proved",
   "theorems": [
    "FastPrintf.C50_read_under_star",
    "FastPrintf.C50_not_under_star",
    "FastPrintf.C50_second_star",
    "FastPrintf.C50_complete",
    "FastPrintf.C50_silent_narrowing"
   ],
   "note": "Every directive with a star in the width, the precision or both."
  },
  {
   "property": "C51",
   "status": "proved",
   "theorems": [
    "FastPrintf.C51_c",
    "FastPrintf.C51_complete"
   ],
   "note": "Every %c directive without a star; %C by C19."
  },
  {
   "property": "C52",
   "status": "proved",
   "theorems": [
    "FastPrintf.C52_t",
    "FastPrintf.C52_no_formatter",
    "FastPrintf.C52_no_time",
    "FastPrintf.C52_complete"
   ],
   "note": "Every %t directive without a star; the JDK formatters are arbitrary functions. %T by C19."
  },
  {
   "property": "C53",
   "status": "proved",
   "theorems": [
    "FastPrintf.C53_double_text",
    "FastPrintf.C53_append",
    "FastPrintf.C53_unique",
    "FastPrintf.C53_injective"
   ],
   "note": "Every double; the StringBuilder and StringBuffer branches of appendDecimalTo."
  },
  {
   "property": "C54",
   "status": "proved",
   "theorems": [
    "FastPrintf.C54_s",
    "FastPrintf.C54_rope",
    "FastPrintf.C54_rope_exact",
    "FastPrintf.C54_complete",
    "FastPrintf.C54_p"
   ],
   "note": "Every %s and %p directive without a star and every argument type; %S by C19."
  },
  {
   "property": "C55",
   "status": "proved",
   "theorems": [
    "FastPrintf.C55_directive",
    "FastPrintf.C55_semantics"
   ],
   "note": "Every compiled format string and every argument list, ropes sliced by hand excluded (their length can be wrong, see C22) and user implementations of FormatTraits excluded."
  },
  {
   "property": "C56",
   "status": "proved",
   "theorems": [
    "FastPrintf.C56_sound",
    "FastPrintf.C56_iff",
    "FastPrintf.C56_determined",
    "FastPrintf.C56_directive"
   ],
   "note": "Soundness of the relation of C55; with C55 it gives the equivalence."
  },
  {
   "property": "C57",
   "status": "proved",
   "theorems": [
    "FastPrintf.C57_hash",
    "FastPrintf.C57_equals",
    "FastPrintf.C57_other",
    "FastPrintf.C57_contract"
   ],
   "note": "The array is not changed after it was wrapped."
  },
  {
   "property": "C58",
   "status": "proved",
   "theorems": [
    "FastPrintf.C58_race",
    "FastPrintf.C58_finishes",
    "FastPrintf.C58_lazy",
    "FastPrintf.C58_hash"
   ],
   "note": "Reads may return any value written so far or the default, which allows more than the Java memory model does."
  },
  {
   "property": "C59",
   "status": "proved",
   "theorems": [
    "FastPrintf.C59_reads_back",
    "FastPrintf.C59_e",
    "FastPrintf.C59_g",
    "FastPrintf.C59_f",
    "FastPrintf.C59_a",
    "FastPrintf.C59_injective",
    "FastPrintf.C59_determined"
   ],
   "note": "The grammar of Double.parseDouble is a definition of the specification (Spec/ReadBack.lean)."
  },
  {
   "property": "C60",
   "status": "proved",
   "theorems": [
    "FastPrintf.C60_decimal",
    "FastPrintf.C60_f",
    "FastPrintf.C60_e",
    "FastPrintf.C60_g",
    "FastPrintf.C60_integer"
   ],
   "note": ""
  },
  {
   "property": "C61",
   "status": "proved",
   "theorems": [
    "FastPrintf.C61_decimal",
    "FastPrintf.C61_f",
    "FastPrintf.C61_e",
    "FastPrintf.C61_g"
   ],
   "note": ""
  },
  {
   "property": "C62",
   "status": "proved",
   "theorems": [
    "FastPrintf.C62_number",
    "FastPrintf.C62_total",
    "FastPrintf.C62_big"
   ],
   "note": ""
  },
  {
   "property": "C63",
   "status": "proved",
   "theorems": [
    "FastPrintf.C63_array",
    "FastPrintf.C63_defined",
    "FastPrintf.C63_injective",
    "FastPrintf.C63_ambiguous"
   ],
   "note": ""
  },
  {
   "property": "C64",
   "status": "proved",
   "theorems": [
    "FastPrintf.C64_builder",
    "FastPrintf.C64_buffer",
    "FastPrintf.C64_defined",
    "FastPrintf.C64_unaliased",
    "FastPrintf.C64_star_width",
    "FastPrintf.C64_star_width_negative",
    "FastPrintf.C64_star_precision",
    "FastPrintf.C64_star_precision_negative",
    "FastPrintf.C64_compositional"
   ],
   "note": "The target is shown by %s and %S only; directives with * are reduced to written ones."
  },
  {
   "property": "C65",
   "status": "proved",
   "theorems": [
    "FastPrintf.C65_monotone"
   ],
   "note": "Every directive without a star; upper case by C19."
  },
  {
   "property": "C66",
   "status": "proved",
   "theorems": [
    "FastPrintf.C66_sort_d",
    "FastPrintf.C66_sort_unsigned",
    "FastPrintf.C66_sort_f",
    "FastPrintf.C66_sort_big"
   ],
   "note": "Every directive without a star. BigDecimals within ScaleOk, as in C28."
  },
  {
   "property": "C67",
   "status": "proved",
   "theorems": [
    "FastPrintf.C67_same_answers",
    "FastPrintf.C67_refusal",
    "FastPrintf.C67_first_question"
   ],
   "note": "Every FormatTraits. C67_refusal is about the first question of a directive: its conversion if it has no star, else the first star."
  },
  {
   "property": "C68",
   "status": "proved",
   "theorems": [
    "FastPrintf.C68_characters",
    "FastPrintf.C68_s",
    "FastPrintf.C68_toString",
    "FastPrintf.C68_consistent",
    "FastPrintf.C68_exceptions",
    "FastPrintf.C68_witness"
   ],
   "note": "The answers of the three methods are taken to be the same at every call. What a charAt that throws leaves in the target is C74."
  },
  {
   "property": "C69",
   "status": "proved",
   "theorems": [
    "FastPrintf.C69_create",
    "FastPrintf.C69_pattern_round_trip",
    "FastPrintf.C69_width_zero",
    "FastPrintf.C69_percent",
    "FastPrintf.C69_describe",
    "FastPrintf.C69_describe_injective"
   ],
   "note": ""
  },
  {
   "property": "C70",
   "status": "proved",
   "theorems": [
    "FastPrintf.C70_list",
    "FastPrintf.C70_texts"
   ],
   "note": "Arguments other than user implementations of FormatTraits; ropes must be consistent."
  },
  {
   "property": "C71",
   "status": "proved",
   "theorems": [
    "FastPrintf.C71_bound",
    "FastPrintf.C71_exact",
    "FastPrintf.C71_step",
    "FastPrintf.C71_prepend",
    "FastPrintf.C71_append",
    "FastPrintf.C71_rearranging",
    "FastPrintf.C71_capacity"
   ],
   "note": "The three theorems on appending refute the comments at Concat.java:30-32 and 56-59. Lengths and counts are unbounded integers."
  },
  {
   "property": "C72",
   "status": "proved",
   "theorems": [
    "FastPrintf.C72_frames",
    "FastPrintf.C72_bound",
    "FastPrintf.C72_reached"
   ],
   "note": "Counts the calls of the three mutually recursive methods; the stack limit of the JVM is not modelled."
  },
  {
   "property": "C73",
   "status": "proved",
   "theorems": [
    "FastPrintf.C73_at_rest",
    "FastPrintf.C73_range",
    "FastPrintf.C73_view",
    "FastPrintf.C73_snapshot",
    "FastPrintf.C73_equals",
    "FastPrintf.C73_hash",
    "FastPrintf.C73_stale"
   ],
   "note": "C73_stale is a negated claim: equal sequences with different hash codes. The arrays change only between calls, not during one."
  },
  {
   "property": "C74",
   "status": "proved",
   "theorems": [
    "FastPrintf.C74_in_general",
    "FastPrintf.C74_builder",
    "FastPrintf.C74_appendable",
    "FastPrintf.C74_lazy",
    "FastPrintf.C74_foreign"
   ],
   "note": "How much of a foreign CharSequence the JDK's StringBuilder.append keeps when charAt throws is a parameter."
  },
  {
   "property": "C75",
   "status": "proved",
   "theorems": [
    "FastPrintf.C75_syntax_errors",
    "FastPrintf.C75_cap",
    "FastPrintf.C75_one_of_three",
    "FastPrintf.C75_index",
    "FastPrintf.C75_description",
    "FastPrintf.C75_description_names_the_fault",
    "FastPrintf.C75_message"
   ],
   "note": ""
  },
  {
   "property": "C76",
   "status": "proved",
   "theorems": [
    "FastPrintf.C76_refusals",
    "FastPrintf.C76_star",
    "FastPrintf.C76_time",
    "FastPrintf.C76_numbers",
    "FastPrintf.C76_others",
    "FastPrintf.C76_missing"
   ],
   "note": "The texts of the DateTimeException and of the RefSlot are parameters."
  },
  {
   "property": "C77",
   "status": "proved",
   "theorems": [
    "FastPrintf.C77_agree",
    "FastPrintf.C77_left",
    "FastPrintf.C77_same",
    "FastPrintf.C77_f_fits",
    "FastPrintf.C77_f_refused",
    "FastPrintf.C77_f_blanks",
    "FastPrintf.C77_f_bounds",
    "FastPrintf.C77_ten_power",
    "FastPrintf.C77_stored_length",
    "FastPrintf.C77_written",
    "FastPrintf.C77_join",
    "FastPrintf.C77_indexOf",
    "FastPrintf.C77_append",
    "FastPrintf.C77_doubled"
   ],
   "note": "All arguments but user FormatTraits; ropes must report their true length and leaf count. The overflow is worked out for %f without flags and width. Running out of memory is not modelled."
  },
  {
   "property": "C78",
   "status": "proved",
   "theorems": [
    "FastPrintf.C78_reference",
    "FastPrintf.C78_f",
    "FastPrintf.C78_e",
    "FastPrintf.C78_g",
    "FastPrintf.C78_few",
    "FastPrintf.C78_fifteen",
    "FastPrintf.C78_unit",
    "FastPrintf.C78_exact",
    "FastPrintf.C78_all"
   ],
   "note": "%g with # is covered by C25 only (its exponent style may have fewer digits than C prints). The upper-case twins follow by C19; infinities and NaN by C30."
  },
  {
   "property": "C79",
   "status": "proved",
   "theorems": [
    "FastPrintf.C79_integers",
    "FastPrintf.C79_big",
    "FastPrintf.C79_double",
    "FastPrintf.C79_nonfinite",
    "FastPrintf.C79_toString",
    "FastPrintf.C79_layout"
   ],
   "note": "The contract fails at -0.0 and for NaN; the theorems say what happens there."
  },
  {
   "property": "C80",
   "status": "proved",
   "theorems": [
    "FastPrintf.C80_directive",
    "FastPrintf.C80_lines",
    "FastPrintf.C80_printable",
    "FastPrintf.C80_numbers",
    "FastPrintf.C80_join",
    "FastPrintf.C80_columns",
    "FastPrintf.C80_integers"
   ],
   "note": ""
  },
  {
   "property": "C81",
   "status": "proved",
   "theorems": [
    "FastPrintf.C81_e",
    "FastPrintf.C81_g",
    "FastPrintf.C81_f",
    "FastPrintf.C81_injective",
    "FastPrintf.C81_written_e",
    "FastPrintf.C81_written_g",
    "FastPrintf.C81_written_f",
    "FastPrintf.C81_eight_witness"
   ],
   "note": ""
  },
  {
   "property": "C82",
   "status": "proved",
   "theorems": [
    "FastPrintf.C82_g",
    "FastPrintf.C82_a",
    "FastPrintf.C82_nonfinite",
    "FastPrintf.C82_nonfinite_upper"
   ],
   "note": ""
  },
  {
   "property": "C83",
   "status": "proved",
   "theorems": [
    "FastPrintf.C83_d",
    "FastPrintf.C83_unsigned",
    "FastPrintf.C83_f",
    "FastPrintf.C83_e",
    "FastPrintf.C83_g",
    "FastPrintf.C83_g_big",
    "FastPrintf.C83_upper",
    "FastPrintf.C83_unsigned_witness",
    "FastPrintf.C83_scale_witness",
    "FastPrintf.C83_carry_witness",
    "FastPrintf.C83_long_witness"
   ],
   "note": ""
  },
  {
   "property": "C84",
   "status": "proved",
   "theorems": [
    "FastPrintf.C84_d",
    "FastPrintf.C84_float",
    "FastPrintf.C84_infinite",
    "FastPrintf.C84_upper",
    "FastPrintf.C84_unsigned_witness"
   ],
   "note": ""
  },
  {
   "property": "C85",
   "status": "proved",
   "theorems": [
    "FastPrintf.C85_ignored",
    "FastPrintf.C85_normal",
    "FastPrintf.C85_heeded",
    "FastPrintf.C85_cut_away"
   ],
   "note": ""
  },
  {
   "property": "C86",
   "status": "proved",
   "theorems": [
    "FastPrintf.C86_double",
    "FastPrintf.C86_again",
    "FastPrintf.C86_capitals",
    "FastPrintf.C86_string",
    "FastPrintf.C86_integer",
    "FastPrintf.C86_unsigned",
    "FastPrintf.C86_integer_double"
   ],
   "note": "The documented behaviour of Double.parseDouble, Double.toString and Character.digit is a hypothesis (Spec/GiveBack.lean), shown to be satisfiable."
  },
  {
   "property": "C87",
   "status": "proved",
   "theorems": [
    "FastPrintf.C87_flog10pow2",
    "FastPrintf.C87_flog10threeQuartersPow2",
    "FastPrintf.C87_flog2pow10",
    "FastPrintf.C87_limits",
    "FastPrintf.C87_g",
    "FastPrintf.C87_outside",
    "FastPrintf.C87_pow10",
    "FastPrintf.C87_constants"
   ],
   "note": ""
  },
  {
   "property": "C88",
   "status": "proved",
   "theorems": [
    "FastPrintf.C88_rope",
    "FastPrintf.C88_slice",
    "FastPrintf.C88_print",
    "FastPrintf.C88_other",
    "FastPrintf.C88_library"
   ],
   "note": "The contract of a leaf class is a hypothesis (Spec/OwnSeq.lean, Faithful), met by the library's leaves and by the sample class in Props/OwnSeq.lean."
  },
  {
   "property": "C89",
   "status": "proved",
   "theorems": [
    "FastPrintf.C89_history",
    "FastPrintf.C89_exact",
    "FastPrintf.C89_whole",
    "FastPrintf.C89_print",
    "FastPrintf.C89_reads",
    "FastPrintf.C89_examples"
   ],
   "note": "Slices of several pieces report a wrong length; the theorems say which (DESIGN.md, findings 1 and 44)."
  },
  {
   "property": "C90",
   "status": "proved",
   "theorems": [
    "FastPrintf.C90_charAt",
    "FastPrintf.C90_subSequence",
    "FastPrintf.C90_same",
    "FastPrintf.C90_null",
    "FastPrintf.C90_numbers",
    "FastPrintf.C90_bounds",
    "FastPrintf.C90_unchecked",
    "FastPrintf.C90_together"
   ],
   "note": ""
  },
  {
   "property": "C91",
   "status": "proved",
   "theorems": [
    "FastPrintf.C91_decimals",
    "FastPrintf.C91_doubles",
    "FastPrintf.C91_numbers",
    "FastPrintf.C91_dates",
    "FastPrintf.C91_moments",
    "FastPrintf.C91_shortest",
    "FastPrintf.C91_nearest",
    "FastPrintf.C91_moments_witness",
    "FastPrintf.C91_mixed_witness"
   ],
   "note": ""
  },
  {
   "property": "C92",
   "status": "proved",
   "theorems": [
    "FastPrintf.C92_line",
    "FastPrintf.C92_determined",
    "FastPrintf.C92_concat",
    "FastPrintf.C92_fixed",
    "FastPrintf.C92_fixed_determined"
   ],
   "note": ""
  },
  {
   "property": "C93",
   "status": "proved",
   "theorems": [
    "FastPrintf.C93_s",
    "FastPrintf.C93_read",
    "FastPrintf.C93_value",
    "FastPrintf.C93_unique",
    "FastPrintf.C93_integer",
    "FastPrintf.C93_back",
    "FastPrintf.C93_injective",
    "FastPrintf.C93_as_text",
    "FastPrintf.C93_plain"
   ],
   "note": ""
  },
  {
   "property": "C94",
   "status": "proved",
   "theorems": [
    "FastPrintf.C94_one",
    "FastPrintf.C94_put",
    "FastPrintf.C94_typed",
    "FastPrintf.C94_text",
    "FastPrintf.C94_answer",
    "FastPrintf.C94_printf",
    "FastPrintf.C94_raises",
    "FastPrintf.C94_complete",
    "FastPrintf.C94_throws",
    "FastPrintf.C94_plain",
    "FastPrintf.C94_container"
   ],
   "note": ""
  },
  {
   "property": "C95",
   "status": "proved",
   "theorems": [
    "FastPrintf.C95_builder",
    "FastPrintf.C95_sink",
    "FastPrintf.C95_text",
    "FastPrintf.C95_throws",
    "FastPrintf.C95_malformed",
    "FastPrintf.C95_steady"
   ],
   "note": "The methods may change anything but the Args object of the call itself; for that see C106, where C106_unchanged joins the two."
  },
  {
   "property": "C96",
   "status": "proved",
   "theorems": [
    "FastPrintf.C96_one_method",
    "FastPrintf.C96_text",
    "FastPrintf.C96_throws",
    "FastPrintf.C96_message"
   ],
   "note": ""
  },
  {
   "property": "C97",
   "status": "proved",
   "theorems": [
    "FastPrintf.C97_in_reach",
    "FastPrintf.C97_promised",
    "FastPrintf.C97_f",
    "FastPrintf.C97_nothing_lost",
    "FastPrintf.C97_others",
    "FastPrintf.C97_integer",
    "FastPrintf.C97_count",
    "FastPrintf.C97_witness"
   ],
   "note": "The JDK limit is a parameter; BigDecimal.compareTo is not limited (it needs no number above the unscaled values)."
  },
  {
   "property": "C98",
   "status": "proved",
   "theorems": [
    "FastPrintf.C98_directive",
    "FastPrintf.C98_determined",
    "FastPrintf.C98_format",
    "FastPrintf.C98_sharp",
    "FastPrintf.C98_hex",
    "FastPrintf.C98_hex_text"
   ],
   "note": "The rules are those of the Javadoc of java.util.Formatter; Formattable arguments, arrays, %a with a precision, %t and the BigDecimals of %g are left out."
  },
  {
   "property": "C99",
   "status": "proved",
   "theorems": [
    "FastPrintf.C99_default",
    "FastPrintf.C99_exists",
    "FastPrintf.C99_distinct",
    "FastPrintf.C99_number",
    "FastPrintf.C99_units",
    "FastPrintf.C99_sorted",
    "FastPrintf.C99_not_sorted",
    "FastPrintf.C99_upper"
   ],
   "note": "Relative to the documentation of the ISO formatters (IsoFormats); isoEnv shows that it can be met."
  },
  {
   "property": "C100",
   "status": "proved",
   "theorems": [
    "FastPrintf.C100_observed",
    "FastPrintf.C100_slice",
    "FastPrintf.C100_print",
    "FastPrintf.C100_two_readings",
    "FastPrintf.C100_count",
    "FastPrintf.C100_nothing",
    "FastPrintf.C100_shown"
   ],
   "note": "An own composite is modelled by what it answers; unfold does not throw and the answers do not change."
  },
  {
   "property": "C101",
   "status": "proved",
   "theorems": [
    "FastPrintf.C101_prints",
    "FastPrintf.C101_missing",
    "FastPrintf.C101_instants",
    "FastPrintf.C101_numbers",
    "FastPrintf.C101_upper",
    "FastPrintf.C101_sorted"
   ],
   "note": "java.time is a parameter; PatternFormats says what its documentation says about these patterns (Spec/Patterns.lean). Offsets are whole minutes; text fields such as MMM or a, and optional sections, are left out."
  },
  {
   "property": "C102",
   "status": "proved",
   "theorems": [
    "FastPrintf.C102_calls",
    "FastPrintf.C102_parts",
    "FastPrintf.C102_literal",
    "FastPrintf.C102_upper",
    "FastPrintf.C102_text",
    "FastPrintf.C102_seq",
    "FastPrintf.C102_others",
    "FastPrintf.C102_decimal",
    "FastPrintf.C102_unsigned",
    "FastPrintf.C102_double",
    "FastPrintf.C102_nonfinite"
   ],
   "note": "append(char), append(CharSequence) and append(CharSequence, int, int) are one operation that is given a text; C104 tells them apart. Zero under precision 0 is excluded in C102_decimal and C102_unsigned: it prints no digits."
  },
  {
   "property": "C103",
   "status": "proved",
   "theorems": [
    "FastPrintf.C103_builder",
    "FastPrintf.C103_appendable",
    "FastPrintf.C103_same_length",
    "FastPrintf.C103_width"
   ],
   "note": "One directive measures its argument once and reads it once at most. A read that throws is C74."
  },
  {
   "property": "C104",
   "status": "proved",
   "theorems": [
    "FastPrintf.C104_texts",
    "FastPrintf.C104_calls",
    "FastPrintf.C104_literal",
    "FastPrintf.C104_string",
    "FastPrintf.C104_upper"
   ],
   "note": "The calls on a StringBuilder are not told apart; its three methods agree."
  },
  {
   "property": "C105",
   "status": "proved",
   "theorems": [
    "FastPrintf.C105_refusals",
    "FastPrintf.C105_star",
    "FastPrintf.C105_bald",
    "FastPrintf.C105_syntax"
   ],
   "note": "Exceptions of the JDK and of the user's own code pass through unchanged and are not described. What stands in a stack trace is not modelled."
  },
  {
   "property": "C106",
   "status": "proved",
   "theorems": [
    "FastPrintf.C106_same",
    "FastPrintf.C106_unchanged",
    "FastPrintf.C106_fails",
    "FastPrintf.C106_values",
    "FastPrintf.C106_toString"
   ],
   "note": "The fail-fast check is that of java.util.ArrayList as its source has it; its documentation promises it only on a best-effort basis. One thread."
  },
  {
   "property": "C107",
   "status": "proved",
   "theorems": [
    "FastPrintf.C107_calls",
    "FastPrintf.C107_list",
    "FastPrintf.C107_arrayList",
    "FastPrintf.C107_null",
    "FastPrintf.C107_ignored",
    "FastPrintf.C107_iterator"
   ],
   "note": "In C107_arrayList the ConcurrentModificationException is one of the exceptions of foreign code."
  },
  {
   "property": "C108",
   "status": "proved",
   "theorems": [
    "FastPrintf.C108_compile",
    "FastPrintf.C108_same",
    "FastPrintf.C108_exact",
    "FastPrintf.C108_dates",
    "FastPrintf.C108_alone"
   ],
   "note": "What the argument's own methods return (toString() of an object, the readings of a FormatTraits of the user, getTime() of a date) belongs to the argument."
  },
  {
   "property": "C109",
   "status": "proved",
   "theorems": [
    "FastPrintf.C109_calls",
    "FastPrintf.C109_same",
    "FastPrintf.C109_sign",
    "FastPrintf.C109_null",
    "FastPrintf.C109_defaults"
   ],
   "note": "FloatLayout has no public constructor, so layouts are the library's, whose mantissa is not null. If the text of a layout cannot be formed (a scientific layout without exponent), the call for the sign is left out."
  },
  {
   "property": "C110",
   "status": "proved",
   "theorems": [
    "FastPrintf.C110_calls",
    "FastPrintf.C110_prints",
    "FastPrintf.C110_star",
    "FastPrintf.C110_same",
    "FastPrintf.C110_toString"
   ],
   "note": "The floating-point conversions, which hand the object to the JDK, are outside the statement."
  },
  {
   "property": "C111",
   "status": "proved",
   "theorems": [
    "FastPrintf.C111_decimal",
    "FastPrintf.C111_scientific",
    "FastPrintf.C111_general",
    "FastPrintf.C111_zero",
    "FastPrintf.C111_nonFinite",
    "FastPrintf.C111_hex",
    "FastPrintf.C111_not_padded",
    "FastPrintf.C111_big",
    "FastPrintf.C111_big_scientific",
    "FastPrintf.C111_big_general",
    "FastPrintf.C111_big_hex"
   ],
   "note": "The plain layout of a BigDecimal is for every precision from -2147483646 on, its general layout for those from -2147483647 to 2147483640. hexLayout of NaN and the infinities, and of a negative precision, is in C112."
  },
  {
   "property": "C112",
   "status": "proved",
   "theorems": [
    "FastPrintf.C112_masks",
    "FastPrintf.C112_format",
    "FastPrintf.C112_builder",
    "FastPrintf.C112_appendable",
    "FastPrintf.C112_slice",
    "FastPrintf.C112_hex",
    "FastPrintf.C112_hex_enabled",
    "FastPrintf.C112_hex_disabled",
    "FastPrintf.C112_hex_negative"
   ],
   "note": "The assertion of Repeated.java:43 says that StringBuilder.repeat returns its own builder, as the JDK documents; it is not modelled."
  },
  {
   "property": "C113",
   "status": "proved",
   "theorems": [
    "FastPrintf.C113_like",
    "FastPrintf.C113_same",
    "FastPrintf.C113_toString",
    "FastPrintf.C113_hex",
    "FastPrintf.C113_calls",
    "FastPrintf.C113_throws",
    "FastPrintf.C113_star"
   ],
   "note": "The BigIntegers that the methods return are of the JDK's own class; for others see C110."
  },
  {
   "property": "C114",
   "status": "proved",
   "theorems": [
    "FastPrintf.C114_numbers",
    "FastPrintf.C114_format",
    "FastPrintf.C114_builder",
    "FastPrintf.C114_appendable",
    "FastPrintf.C114_padding",
    "FastPrintf.C114_versions"
   ],
   "note": "Math.multiplyHigh, StringBuilder.repeat and the room of a builder are as the JDK documents them. Whole calls are on a builder without limit, with characters of sixteen bits."
  },
  {
   "property": "C115",
   "status": "proved",
   "theorems": [
    "FastPrintf.C115_primitive",
    "FastPrintf.C115_null",
    "FastPrintf.C115_object",
    "FastPrintf.C115_each"
   ],
   "note": "Code outside the package has no references but those that calls give it or that it creates; reflection is not modelled."
  },
  {
   "property": "C116",
   "status": "proved",
   "theorems": [
    "FastPrintf.C116_prints",
    "FastPrintf.C116_fails",
    "FastPrintf.C116_g_fails",
    "FastPrintf.C116_zero",
    "FastPrintf.C116_f_below_one",
    "FastPrintf.C116_f_refused",
    "FastPrintf.C116_f_witness"
   ],
   "note": "%e and %g with unbounded lengths (C77 carries them over); %f with int lengths, as in C77. With C77 it covers every negative scale under %.pf, p >= 1. Running out of memory is not modelled."
  },
  {
   "property": "C117",
   "status": "proved",
   "theorems": [
    "FastPrintf.C117_negative",
    "FastPrintf.C117_special",
    "FastPrintf.C117_form",
    "FastPrintf.C117_layouts",
    "FastPrintf.C117_rounded",
    "FastPrintf.C117_rounded_g",
    "FastPrintf.C117_rounded_f",
    "FastPrintf.C117_zero"
   ],
   "note": "valueOf is public but printf only calls it with the absolute value. The texts of the layouts are described by C23-C25 and C111."
  }
 ]
}