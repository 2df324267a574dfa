{
 "claims": [
  {
   "property": "C01",
   "status": "proved",
   "theorems": [
    "Verif.C01_r_trig_rising_edge"
   ],
   "note": ""
  },
  {
   "property": "C02",
   "status": "proved",
   "theorems": [
    "Verif.C02_f_trig_falling_edge",
    "Verif.C02_first_call"
   ],
   "note": ""
  },
  {
   "property": "C03",
   "status": "proved",
   "theorems": [
    "Verif.C03_pulse_balance",
    "Verif.C03_never_both",
    "Verif.C03_no_consecutive_pulses"
   ],
   "note": ""
  },
  {
   "property": "C04",
   "status": "proved",
   "theorems": [
    "Verif.C04_sr_set_dominant"
   ],
   "note": ""
  },
  {
   "property": "C05",
   "status": "proved",
   "theorems": [
    "Verif.C05_rs_reset_dominant"
   ],
   "note": ""
  },
  {
   "property": "C06",
   "status": "proved",
   "theorems": [
    "Verif.C06_ctu_counts_rising_edges"
   ],
   "note": ""
  },
  {
   "property": "C07",
   "status": "proved",
   "theorems": [
    "Verif.C07_ctu_q_and_no_overflow"
   ],
   "note": ""
  },
  {
   "property": "C08",
   "status": "proved",
   "theorems": [
    "Verif.C08_ctd_counts_down"
   ],
   "note": ""
  },
  {
   "property": "C09",
   "status": "proved",
   "theorems": [
    "Verif.C09_ctud_net_edges"
   ],
   "note": ""
  },
  {
   "property": "C10",
   "status": "partial",
   "theorems": [
    "Verif.C10_refuted",
    "Verif.C10_partial",
    "Verif.C10_partial_ctd",
    "Verif.C10_refuted_ctd",
    "Verif.C10_refuted_ctud",
    "Verif.C10_partial_ctud"
   ],
   "note": "False of the code: the edge memory is not updated while R/LD is TRUE, so an edge during reset/load is counted in the first call after it (C10_refuted, witnesses for CTU, CTD and CTUD). C10_partial and C10_partial_ctd give the exact behaviour."
  },
  {
   "property": "C11",
   "status": "proved",
   "theorems": [
    "Verif.C11_ton_output"
   ],
   "note": ""
  },
  {
   "property": "C12",
   "status": "proved",
   "theorems": [
    "Verif.C12_ton_elapsed_time",
    "Verif.C12_ton_elapsed_bounds",
    "Verif.C12_ton_elapsed_monotone"
   ],
   "note": ""
  },
  {
   "property": "C13",
   "status": "proved",
   "theorems": [
    "Verif.C13_tof_output",
    "Verif.C13_tof_elapsed_time"
   ],
   "note": ""
  },
  {
   "property": "C14",
   "status": "partial",
   "theorems": [
    "Verif.C14_refuted",
    "Verif.C14_partial"
   ],
   "note": "False of the code: TP panics (unreachable!) when called idle with IN = FALSE, e.g. in its first call (C14_refuted). C14_partial is the exact panic condition over all histories."
  },
  {
   "property": "C15",
   "status": "proved",
   "theorems": [
    "Verif.C15_tp_pulse",
    "Verif.C15_tp_start"
   ],
   "note": ""
  },
  {
   "property": "C16",
   "status": "partial",
   "theorems": [
    "Verif.C16_refuted",
    "Verif.C16_partial",
    "Verif.C16_partial_iff"
   ],
   "note": "False of the code when IN falls while the pulse is running: the timer is never re-armed by that fall and the next rising edge is lost (C16_refuted). C16_partial proves re-triggering when IN falls after expiry, and C16_partial_iff that this is exactly when the next rising edge starts a pulse."
  },
  {
   "property": "C17",
   "status": "proved",
   "theorems": [
    "Verif.C17_ton_tof_never_abort",
    "Verif.C17_q_implies_et",
    "Verif.C17_q_true_with_et_below_pt"
   ],
   "note": ""
  },
  {
   "property": "C18",
   "status": "proved",
   "theorems": [
    "Verif.C18_max_int",
    "Verif.C18_min_int",
    "Verif.C18_rejects"
   ],
   "note": ""
  },
  {
   "property": "C19",
   "status": "proved",
   "theorems": [
    "Verif.C19_limit_clamps",
    "Verif.C19_limit_closest",
    "Verif.C19_limit_idempotent_monotone",
    "Verif.C19_limit_reversed",
    "Verif.C19_limit_in_type"
   ],
   "note": ""
  },
  {
   "property": "C20",
   "status": "proved",
   "theorems": [
    "Verif.C20_max_float",
    "Verif.C20_min_float",
    "Verif.C20_max_min_permutation"
   ],
   "note": ""
  },
  {
   "property": "C21",
   "status": "partial",
   "theorems": [
    "Verif.C21_refuted",
    "Verif.C21_partial"
   ],
   "note": "False of the code for floats: LIMIT returns a NaN input unchanged although it is not between MIN and MAX (C21_refuted). C21_partial gives the exact behaviour for NaN operands."
  },
  {
   "property": "C22",
   "status": "proved",
   "theorems": [
    "Verif.C22_shl_shr"
   ],
   "note": ""
  },
  {
   "property": "C23",
   "status": "partial",
   "theorems": [
    "Verif.C23_refuted",
    "Verif.C23_partial"
   ],
   "note": "False of the code: a count of the width or more panics in debug builds and shifts by the count modulo the width in release builds (C23_refuted for all four widths and both profiles). C23_partial is the exact outcome."
  },
  {
   "property": "C24",
   "status": "proved",
   "theorems": [
    "Verif.C24_rol_bits",
    "Verif.C24_ror_bits",
    "Verif.C24_ror_rol",
    "Verif.C24_rotations_compose",
    "Verif.C24_popcount"
   ],
   "note": ""
  },
  {
   "property": "C25",
   "status": "proved",
   "theorems": [
    "Verif.C25_bcd_digits",
    "Verif.C25_bcd_encoding",
    "Verif.C25_bcd_count"
   ],
   "note": ""
  },
  {
   "property": "C26",
   "status": "proved",
   "theorems": [
    "Verif.C26_is_valid"
   ],
   "note": ""
  },
  {
   "property": "C27",
   "status": "proved",
   "theorems": [
    "Verif.C27_swap",
    "Verif.C27_roles",
    "Verif.C27_memory"
   ],
   "note": ""
  },
  {
   "property": "C28",
   "status": "partial",
   "theorems": [
    "Verif.C28_refuted",
    "Verif.C28_partial"
   ],
   "note": "False of the code: FROM_BIG_ENDIAN calls to_le and FROM_LITTLE_ENDIAN calls to_be, so FROM after TO is a byte swap on every host (C28_refuted). C28_partial is the exact outcome."
  },
  {
   "property": "C29",
   "status": "partial",
   "theorems": [
    "Verif.C29_partial",
    "Verif.C29_refuted"
   ],
   "note": "False of the code: the four REAL/LREAL functions are the identity (C29_refuted, C29_partial)."
  },
  {
   "property": "C30",
   "status": "proved",
   "theorems": [
    "Verif.C30_split_date",
    "Verif.C30_split_dt",
    "Verif.C30_calendar"
   ],
   "note": ""
  },
  {
   "property": "C31",
   "status": "proved",
   "theorems": [
    "Verif.C31_split_total"
   ],
   "note": ""
  },
  {
   "property": "C32",
   "status": "partial",
   "theorems": [
    "Verif.C32_refuted",
    "Verif.C32_split_concat_partial",
    "Verif.C32_concat_split",
    "Verif.C32_any_type_partial"
   ],
   "note": "CONCAT after SPLIT is proved in full (C32_concat_split). SPLIT after CONCAT is false for LINT/ULINT, whose arguments are truncated to 32 bits (C32_refuted), and proved for the 16- and 32-bit types (C32_split_concat_partial); C32_any_type_partial says for all types what comes back: the low 32 bits."
  },
  {
   "property": "C33",
   "status": "proved",
   "theorems": [
    "Verif.C33_concat_date",
    "Verif.C33_valid_dates"
   ],
   "note": ""
  },
  {
   "property": "C34",
   "status": "proved",
   "theorems": [
    "Verif.C34_date",
    "Verif.C34_time_of_day",
    "Verif.C34_concat",
    "Verif.C34_recombine",
    "Verif.C34_conversions"
   ],
   "note": ""
  },
  {
   "property": "C35",
   "status": "partial",
   "theorems": [
    "Verif.C35_refuted",
    "Verif.C35_partial"
   ],
   "note": "False of the code: chrono's leap-second convention makes CONCAT_TOD accept 1000..1999 ms in second 59 (C35_refuted). C35_partial is the exact outcome for all arguments and the inverse laws for ms < 1000."
  },
  {
   "property": "C36",
   "status": "partial",
   "theorems": [
    "Verif.C36_refuted",
    "Verif.C36_partial"
   ],
   "note": "False of the code for LINT/ULINT (only the low 32 bits count) and for the leap-second milliseconds (C36_refuted). C36_partial: exact restriction for all types up to 32 bits, and dependence on the low 32 bits only."
  },
  {
   "property": "C37",
   "status": "proved",
   "theorems": [
    "Verif.C37_day_of_week"
   ],
   "note": ""
  },
  {
   "property": "C38",
   "status": "proved",
   "theorems": [
    "Verif.C38_add_sub_time"
   ],
   "note": ""
  },
  {
   "property": "C39",
   "status": "proved",
   "theorems": [
    "Verif.C39_datetime_arithmetic",
    "Verif.C39_add_sub_cancel"
   ],
   "note": ""
  },
  {
   "property": "C40",
   "status": "proved",
   "theorems": [
    "Verif.C40_mul",
    "Verif.C40_div",
    "Verif.C40_variants_agree"
   ],
   "note": ""
  },
  {
   "property": "C41",
   "status": "partial",
   "theorems": [
    "Verif.C41_refuted",
    "Verif.C41_partial"
   ],
   "note": "False of the code: a ULINT operand of 2^63 or more always panics, even for MUL(T#0, x) and DIV(t, x) whose exact results fit (C41_refuted). C41_partial is the exact outcome for all operands."
  },
  {
   "property": "C42",
   "status": "proved",
   "theorems": [
    "Verif.C42_negate_time",
    "Verif.C42_negate_factor",
    "Verif.C42_sign",
    "Verif.C42_special"
   ],
   "note": ""
  },
  {
   "property": "C43",
   "status": "proved",
   "theorems": [
    "Verif.C43_len_panics_iff",
    "Verif.C43_malformed_panics",
    "Verif.C43_malformed_panics_second",
    "Verif.C43_wellformed",
    "Verif.C43_malformed_panics_concat"
   ],
   "note": ""
  },
  {
   "property": "C44",
   "status": "proved",
   "theorems": [
    "Verif.C44_len_string",
    "Verif.C44_len_wstring",
    "Verif.C44_len_wstring_text",
    "Verif.C44_tail_irrelevant"
   ],
   "note": ""
  },
  {
   "property": "C45",
   "status": "proved",
   "theorems": [
    "Verif.C45_left",
    "Verif.C45_right",
    "Verif.C45_mid"
   ],
   "note": ""
  },
  {
   "property": "C46",
   "status": "proved",
   "theorems": [
    "Verif.C46_insert",
    "Verif.C46_delete",
    "Verif.C46_replace"
   ],
   "note": ""
  },
  {
   "property": "C47",
   "status": "partial",
   "theorems": [
    "Verif.C47_refuted",
    "Verif.C47_delete_partial",
    "Verif.C47_replace_partial"
   ],
   "note": "False of the code in release builds: DELETE('abc', -1, 3) succeeds and doubles a character, because the negative length wraps in the usize addition (C47_refuted, same for REPLACE). C47_delete_partial and C47_replace_partial give the exact outcome for every negative length: debug always panics, release panics unless P + L >= 1."
  },
  {
   "property": "C48",
   "status": "proved",
   "theorems": [
    "Verif.C48_concat",
    "Verif.C48_concat_none",
    "Verif.C48_concat_null"
   ],
   "note": ""
  },
  {
   "property": "C49",
   "status": "proved",
   "theorems": [
    "Verif.C49_store",
    "Verif.C49_writers",
    "Verif.C49_concat"
   ],
   "note": ""
  },
  {
   "property": "C50",
   "status": "proved",
   "theorems": [
    "Verif.C50_found",
    "Verif.C50_not_found",
    "Verif.C50_total"
   ],
   "note": ""
  },
  {
   "property": "C51",
   "status": "proved",
   "theorems": [
    "Verif.C51_found",
    "Verif.C51_not_found",
    "Verif.C51_total"
   ],
   "note": ""
  },
  {
   "property": "C52",
   "status": "proved",
   "theorems": [
    "Verif.C52_gt",
    "Verif.C52_ge",
    "Verif.C52_eq",
    "Verif.C52_le",
    "Verif.C52_lt",
    "Verif.C52_too_few",
    "Verif.C52_ne",
    "Verif.C52_trichotomy"
   ],
   "note": ""
  },
  {
   "property": "C53",
   "status": "partial",
   "theorems": [
    "Verif.C53_refuted",
    "Verif.C53_string_partial",
    "Verif.C53_wstring_partial",
    "Verif.C53_wstring_codepoint_partial"
   ],
   "note": "True for STRING (C53_string_partial). False for WSTRING, where units are compared, so U+10000 orders below U+E000 (C53_refuted). C53_wstring_partial is the exact order; C53_wstring_codepoint_partial says when it is code point order."
  },
  {
   "property": "C54",
   "status": "partial",
   "theorems": [
    "Verif.C54_string_roundtrip_partial",
    "Verif.C54_refuted",
    "Verif.C54_wstring_roundtrip"
   ],
   "note": "STRING_TO_WSTRING writes no terminator, so the round trip from STRING fails when the WSTRING buffer is not zero behind the text (C54_refuted); C54_string_roundtrip_partial assumes that zero. The round trip from WSTRING is proved (C54_wstring_roundtrip)."
  },
  {
   "property": "C55",
   "status": "proved",
   "theorems": [
    "Verif.C55_wstring_to_string",
    "Verif.C55_every_wstring",
    "Verif.C55_never_panics"
   ],
   "note": ""
  },
  {
   "property": "C56",
   "status": "partial",
   "theorems": [
    "Verif.C56_numbers_refuted",
    "Verif.C56_numbers_partial",
    "Verif.C56_string_to_wstring_refuted",
    "Verif.C56_string_to_wstring_partial",
    "Verif.C56_wstring_to_string",
    "Verif.C56_times_refuted",
    "Verif.C56_times_partial",
    "Verif.C56_time_exact_partial",
    "Verif.C56_time_success_partial"
   ],
   "note": "False of the code: STRING_TO_WSTRING and all number, duration and date conversions write no terminator (C56_string_to_wstring_refuted, C56_numbers_refuted, C56_times_refuted). The _partial theorems say exactly when the result is right (the unit behind it was zero before; for TIME_TO_STRING the byte behind each component with its unit: C56_time_exact_partial, and then the call also succeeds: C56_time_success_partial). WSTRING_TO_STRING always terminates (C56_wstring_to_string)."
  },
  {
   "property": "C57",
   "status": "partial",
   "theorems": [
    "Verif.C57_char_to_wchar",
    "Verif.C57_wchar_to_char",
    "Verif.C57_refuted",
    "Verif.C57_roundtrip_partial"
   ],
   "note": "CHAR_TO_WCHAR is proved. The round trip is false for most bytes from 16#80, where WCHAR_TO_CHAR returns a UTF-8 lead byte (C57_refuted); C57_wchar_to_char and C57_roundtrip_partial are exact for all inputs."
  },
  {
   "property": "C58",
   "status": "proved",
   "theorems": [
    "Verif.C58_find_mid",
    "Verif.C58_left_right",
    "Verif.C58_delete_insert",
    "Verif.C58_replace",
    "Verif.C58_mid_left",
    "Verif.C58_len_concat"
   ],
   "note": ""
  },
  {
   "property": "C59",
   "status": "proved",
   "theorems": [
    "Verif.C59_unsigned",
    "Verif.C59_signed",
    "Verif.C59_roundtrip"
   ],
   "note": ""
  },
  {
   "property": "C60",
   "status": "proved",
   "theorems": [
    "Verif.C60_value",
    "Verif.C60_otherwise_panics",
    "Verif.C60_unambiguous"
   ],
   "note": ""
  },
  {
   "property": "C61",
   "status": "proved",
   "theorems": [
    "Verif.C61_decomposition",
    "Verif.C61_text",
    "Verif.C61_injective"
   ],
   "note": ""
  },
  {
   "property": "C62",
   "status": "partial",
   "theorems": [
    "Verif.C62_refuted",
    "Verif.C62_text_partial",
    "Verif.C62_collisions_partial"
   ],
   "note": "False of the code: T#-1ns gives the text of T#23h59m59s999ms999us999ns (C62_refuted). C62_text_partial is the exact text of every negative duration; C62_collisions_partial says exactly which durations share a text."
  },
  {
   "property": "C63",
   "status": "proved",
   "theorems": [
    "Verif.C63_date",
    "Verif.C63_tod",
    "Verif.C63_dt",
    "Verif.C63_recoverable"
   ],
   "note": ""
  },
  {
   "property": "C64",
   "status": "proved",
   "theorems": [
    "Verif.C64_value",
    "Verif.C64_round_trip"
   ],
   "note": ""
  },
  {
   "property": "C65",
   "status": "partial",
   "theorems": [
    "Verif.C65_refuted",
    "Verif.C65_partial"
   ],
   "note": "False of the code at the smallest value of each signed type, which ABS returns unchanged (C65_refuted). C65_partial: correct everywhere else."
  },
  {
   "property": "C66",
   "status": "proved",
   "theorems": [
    "Verif.C66_reinterpret"
   ],
   "note": ""
  },
  {
   "property": "C67",
   "status": "proved",
   "theorems": [
    "Verif.C67_time"
   ],
   "note": ""
  },
  {
   "property": "C68",
   "status": "proved",
   "theorems": [
    "Verif.C68_nearest",
    "Verif.C68_integers_monotone",
    "Verif.C68_odd"
   ],
   "note": ""
  },
  {
   "property": "C69",
   "status": "proved",
   "theorems": [
    "Verif.C69_negative_preset_never_expires"
   ],
   "note": ""
  },
  {
   "property": "C70",
   "status": "partial",
   "theorems": [
    "Verif.C70_refuted",
    "Verif.C70_partial"
   ],
   "note": "False of the code: the bit-string conversions test only bit 0, e.g. WORD_TO_BOOL(2) is FALSE (C70_refuted). C70_partial is the exact behaviour of all six conversions."
  },
  {
   "property": "C71",
   "status": "partial",
   "theorems": [
    "Verif.C71_refuted",
    "Verif.C71_partial",
    "Verif.C71_any_type_partial"
   ],
   "note": "False of the code: CONCAT_DT(2000,1,1,23,59,59,1500) is the start of the same day (C71_refuted). C71_partial: holds for 16- and 32-bit types with ms < 1000; C71_any_type_partial is the exact result for all types and milliseconds."
  },
  {
   "property": "C72",
   "status": "proved",
   "theorems": [
    "Verif.C72_mul_accuracy"
   ],
   "note": ""
  },
  {
   "property": "C73",
   "status": "proved",
   "theorems": [
    "Verif.C73_div_accuracy"
   ],
   "note": ""
  },
  {
   "property": "C74",
   "status": "proved",
   "theorems": [
    "Verif.C74_select",
    "Verif.C74_insert_replace"
   ],
   "note": ""
  },
  {
   "property": "C75",
   "status": "partial",
   "theorems": [
    "Verif.C75_partial",
    "Verif.C75_refuted"
   ],
   "note": "False of the code: WSTRING_TO_DINT truncates numbers that STRING_TO_DINT rejects, and a text of more than 80 UTF-8 bytes overflows the temporary STRING (C75_refuted). C75_partial is the exact outcome for all texts."
  },
  {
   "property": "C76",
   "status": "proved",
   "theorems": [
    "Verif.C76_nearest"
   ],
   "note": ""
  },
  {
   "property": "C77",
   "status": "partial",
   "theorems": [
    "Verif.C77_refuted",
    "Verif.C77_partial"
   ],
   "note": "False of the code for every one of these conversions: the rounded value is cast without a range check, which is undefined for NaN, infinities and out-of-range numbers (C77_refuted). C77_partial is the exact condition."
  },
  {
   "property": "C78",
   "status": "proved",
   "theorems": [
    "Verif.C78_nearest",
    "Verif.C78_monotone"
   ],
   "note": ""
  },
  {
   "property": "C79",
   "status": "partial",
   "theorems": [
    "Verif.C79_refuted",
    "Verif.C79_partial",
    "Verif.C79_exact_partial",
    "Verif.C79_small_types"
   ],
   "note": "False for 64-bit integers through LREAL and 32/64-bit integers through REAL (C79_refuted). C79_partial: holds up to 2^53 resp. 2^24; C79_small_types: for all values of the smaller types. C79_exact_partial: a number comes back exactly when it is a number of the float type."
  },
  {
   "property": "C80",
   "status": "proved",
   "theorems": [
    "Verif.C80_nearest",
    "Verif.C80_exact"
   ],
   "note": ""
  },
  {
   "property": "C81",
   "status": "proved",
   "theorems": [
    "Verif.C81_truncates",
    "Verif.C81_undefined"
   ],
   "note": ""
  },
  {
   "property": "C82",
   "status": "partial",
   "theorems": [
    "Verif.C82_value",
    "Verif.C82_sign_refuted"
   ],
   "note": "The value is proved (C82_value). The sign bit is not cleared for -0.0, because -0.0 < 0 is false (C82_sign_refuted)."
  },
  {
   "property": "C83",
   "status": "proved",
   "theorems": [
    "Verif.C83_lreal",
    "Verif.C83_real_ext",
    "Verif.C83_real",
    "Verif.C83_unique"
   ],
   "note": ""
  },
  {
   "property": "C84",
   "status": "proved",
   "theorems": [
    "Verif.C84_accuracy",
    "Verif.C84_monotone"
   ],
   "note": ""
  },
  {
   "property": "C85",
   "status": "partial",
   "theorems": [
    "Verif.C85_refuted",
    "Verif.C85_partial",
    "Verif.C85_real"
   ],
   "note": "False of the code: a finite LREAL of -10^73 or below has a text of more than 81 bytes, because scientific notation is chosen only for large positive numbers (C85_refuted). C85_partial is the exact condition; C85_real: REAL_TO_STRING never aborts."
  },
  {
   "property": "C86",
   "status": "proved",
   "theorems": [
    "Verif.C86_decimal",
    "Verif.C86_words",
    "Verif.C86_otherwise_panics",
    "Verif.C86_unambiguous"
   ],
   "note": ""
  },
  {
   "property": "C87",
   "status": "partial",
   "theorems": [
    "Verif.C87_refuted",
    "Verif.C87_partial",
    "Verif.C87_real_partial"
   ],
   "note": "False of the code: six decimals, or seven digits from 10^14 on, do not determine the number (C87_refuted). C87_partial: the number that comes back is the one nearest to the text; exact for infinities, whole multiples of a millionth, and from 2^33 to 10^14 (REAL: from 16, C87_real_partial)."
  },
  {
   "property": "C88",
   "status": "partial",
   "theorems": [
    "Verif.C88_refuted",
    "Verif.C88_partial"
   ],
   "note": "False of the code for texts of more than 80 UTF-8 bytes, which overflow the temporary STRING (C88_refuted). C88_partial is the exact outcome."
  },
  {
   "property": "C89",
   "status": "proved",
   "theorems": [
    "Verif.C89_nearest",
    "Verif.C89_special",
    "Verif.C89_square",
    "Verif.C89_monotone",
    "Verif.C89_accuracy"
   ],
   "note": ""
  },
  {
   "property": "C90",
   "status": "proved",
   "theorems": [
    "Verif.C90_constants"
   ],
   "note": ""
  },
  {
   "property": "C91",
   "status": "proved",
   "theorems": [
    "Verif.C91_exact",
    "Verif.C91_integers",
    "Verif.C91_special"
   ],
   "note": ""
  },
  {
   "property": "C92",
   "status": "proved",
   "theorems": [
    "Verif.C92_accuracy"
   ],
   "note": ""
  },
  {
   "property": "C93",
   "status": "partial",
   "theorems": [
    "Verif.C93_refuted",
    "Verif.C93_partial"
   ],
   "note": "False of the code: the exponent is passed to a DINT parameter and cut to 32 bits, so EXPT(2.0, ULINT#4294967296) is 1 and EXPT(2.0, UDINT#4294967295) is 0.5 (C93_refuted). C93_partial: right for exponents in the range of DINT; exact dependence on the exponent modulo 2^32 otherwise."
  },
  {
   "property": "C94",
   "status": "proved",
   "theorems": [
    "Verif.C94_unsigned",
    "Verif.C94_signed",
    "Verif.C94_calendar",
    "Verif.C94_time",
    "Verif.C94_float"
   ],
   "note": ""
  },
  {
   "property": "C95",
   "status": "partial",
   "theorems": [
    "Verif.C95_select",
    "Verif.C95_string_to_wstring",
    "Verif.C95_refuted",
    "Verif.C95_grow_partial",
    "Verif.C95_concat_partial",
    "Verif.C95_wstring_to_string_partial"
   ],
   "note": "False of the code: INSERT, REPLACE, CONCAT and WSTRING_TO_STRING write past the result variable when the result has more than 2048 units (C95_refuted). The _partial theorems give the exact condition. LEFT, RIGHT, MID, DELETE and STRING_TO_WSTRING always fit (C95_select, C95_string_to_wstring)."
  },
  {
   "property": "C96",
   "status": "partial",
   "theorems": [
    "Verif.C96_first_80_partial",
    "Verif.C96_short_partial",
    "Verif.C96_refuted"
   ],
   "note": "False of the code: the operators take STRING parameters of 80 units by value, so only the first 80 units count (C96_refuted). C96_first_80_partial is the exact outcome for all strings; C96_short_partial: right up to 80 units."
  },
  {
   "property": "C97",
   "status": "partial",
   "theorems": [
    "Verif.C97_string_to_char",
    "Verif.C97_refuted",
    "Verif.C97_char_to_string_partial"
   ],
   "note": "False of the code: CHAR_TO_STRING reads a whole STRING from the address of a one-unit variable (C97_refuted). C97_char_to_string_partial: if that memory can be read, the result is right iff the next unit is 0. STRING_TO_CHAR is proved (C97_string_to_char)."
  },
  {
   "property": "C98",
   "status": "proved",
   "theorems": [
    "Verif.C98_real",
    "Verif.C98_lreal"
   ],
   "note": "The math library is a parameter of the model: the theorems assume its relative accuracy (Libm.Accurate) and say which function with which arguments reaches the user. exists_accurate: a correctly rounding library meets the assumption."
  },
  {
   "property": "C99",
   "status": "proved",
   "theorems": [
    "Verif.C99_lreal_real",
    "Verif.C99_real_lreal"
   ],
   "note": "Same assumption about the library as C98."
  },
  {
   "property": "C100",
   "status": "partial",
   "theorems": [
    "Verif.C100_refuted",
    "Verif.C100_tagged_partial",
    "Verif.C100_ton_partial",
    "Verif.C100_tof_partial",
    "Verif.C100_tp_partial"
   ],
   "note": "Depends on how the toolchain stores None in Option<Instant>. False when a non-zero value of the nanoseconds stands for None, as zero bytes then mean started at the origin of the clock: TON switches on at once, TP loses its first pulse (C100_refuted). C100_tagged_partial: true with a tag of its own, the case C11-C17 are about. C100_ton_partial, C100_tof_partial and C100_tp_partial are the exact behaviour otherwise, and say from which call on it is right."
  },
  {
   "property": "C101",
   "status": "proved",
   "theorems": [
    "Verif.Abi.C101_struct",
    "Verif.Abi.C101_function_blocks"
   ],
   "note": "The table of declarations is generated from the sources by tools/gen_abi.py. Assumes C struct layout on both sides (repr(C) and LLVM struct types) and that Option<Instant> has at most 24 bytes; an example shows that the bound is needed."
  },
  {
   "property": "C102",
   "status": "partial",
   "theorems": [
    "Verif.Abi.C102_refuted",
    "Verif.Abi.C102_partial"
   ],
   "note": "False of the code: SPLIT_LDT for every type (marked external although it has a body), ABS of unsigned integers, byte order functions of TIME and others have no implementation (C102_refuted). C102_partial: exactly the listed 69 names, all other functions have an implementation with the declared signature."
  },
  {
   "property": "C103",
   "status": "partial",
   "theorems": [
    "Verif.C103_flanks_latches",
    "Verif.C103_counters",
    "Verif.C103_ton_tof",
    "Verif.C103_tp_refuted",
    "Verif.C103_tp_partial"
   ],
   "note": "False of TP: the call that finds a pulse over with the input still set re-arms the block, and repeating it aborts the program (C103_tp_refuted; the cause is C14). C103_tp_partial: true as long as the extended history does not abort. True for all other blocks (C103_flanks_latches, C103_counters, C103_ton_tof)."
  },
  {
   "property": "C104",
   "status": "proved",
   "theorems": [
    "Verif.C104_clock_origin"
   ],
   "note": "C104_clock_origin for all three timers."
  },
  {
   "property": "C105",
   "status": "partial",
   "theorems": [
    "Verif.C105_refuted",
    "Verif.C105_shift_partial",
    "Verif.C105_counters",
    "Verif.C105_delete_replace_partial",
    "Verif.C105_mid_find",
    "Verif.C105_time"
   ],
   "note": "False of the code: a shift by the width or more aborts in debug and shifts by the count modulo the width in release; DELETE and REPLACE with a negative length abort in debug only (C105_refuted). C105_shift_partial and C105_delete_replace_partial give the arguments for which both builds agree. True for counters, MID, FIND and TIME (C105_counters, C105_mid_find, C105_time)."
  },
  {
   "property": "C106",
   "status": "proved",
   "theorems": [
    "Verif.C106_ton_reaction",
    "Verif.C106_tof_reaction",
    "Verif.C106_tp_reaction"
   ],
   "note": "C106_ton_reaction, C106_tof_reaction, C106_tp_reaction. The times are those of the clock readings that the block takes in its calls."
  },
  {
   "property": "C107",
   "status": "proved",
   "theorems": [
    "Verif.C107_tof_is_dual_of_ton",
    "Verif.C107_f_trig_is_dual_of_r_trig",
    "Verif.C107_rs_is_dual_of_sr",
    "Verif.C107_ctud_is_ctu",
    "Verif.C107_ctud_is_ctd",
    "Verif.C107_edge_before_counter"
   ],
   "note": "One theorem for each relation."
  },
  {
   "property": "C108",
   "status": "proved",
   "theorems": [
    "Verif.C108_time",
    "Verif.C108_grouping_may_abort",
    "Verif.C108_points",
    "Verif.C108_order",
    "Verif.C108_mul",
    "Verif.C108_div_mul"
   ],
   "note": "One theorem for each group of rules. C108_grouping_may_abort: whether a sum of three aborts does depend on the grouping."
  },
  {
   "property": "C109",
   "status": "proved",
   "theorems": [
    "Verif.C109_mul_magnitude",
    "Verif.C109_mul_time",
    "Verif.C109_mul_factor",
    "Verif.C109_div_magnitude",
    "Verif.C109_div_time",
    "Verif.C109_div_divisor"
   ],
   "note": "Order with respect to both operands and both signs, and no abort below a result that exists. The values are those of Spec/Float (floatValue), NaN and infinity are covered by C42_special."
  },
  {
   "property": "C110",
   "status": "proved",
   "theorems": [
    "Verif.C110_date",
    "Verif.C110_tod",
    "Verif.C110_dt"
   ],
   "note": "For zeroed result buffers, as ST provides them (over old content the writers leave rubbish behind, C56). Durations do not sort (an example beside the theorems)."
  },
  {
   "property": "C111",
   "status": "proved",
   "theorems": [
    "Verif.C111_same_results",
    "Verif.C111_conversion"
   ],
   "note": "Step-by-step simulation for programs with arbitrary control flow; also that STRING_TO_WSTRING of the variables gives corresponding starts and ends. Order comparisons are excluded, they differ (C53)."
  },
  {
   "property": "C112",
   "status": "partial",
   "theorems": [
    "Verif.C112_not_found_partial",
    "Verif.C112_string_partial",
    "Verif.C112_wstring_partial",
    "Verif.C112_elements",
    "Verif.C112_refuted"
   ],
   "note": "False of the code: FIND validates only the bytes before the occurrence, so it accepts malformed strings, and panics on the well-formed \u00e9 if the lone byte A9 is searched; on WSTRING it finds the second half of a surrogate pair at a position beyond LEN (C112_refuted). The _partial theorems give the exact outcome for every pair of unit sequences."
  },
  {
   "property": "C113",
   "status": "proved",
   "theorems": [
    "Verif.C113_wide",
    "Verif.C113_same_result",
    "Verif.C113_value"
   ],
   "note": "C113_same_result compares two ways, C113_wide relates the result to the value, C113_value is the lossless case."
  },
  {
   "property": "C114",
   "status": "proved",
   "theorems": [
    "Verif.C114_float_float",
    "Verif.C114_float_int",
    "Verif.C114_trunc",
    "Verif.C114_text"
   ],
   "note": "ROUND, SQRT and integer to float are in C68, C89 and C78."
  },
  {
   "property": "C115",
   "status": "partial",
   "theorems": [
    "Verif.C115_select",
    "Verif.C115_insert",
    "Verif.C115_delete_replace_partial",
    "Verif.C115_refuted",
    "Verif.C115_delete_replace_any_partial",
    "Verif.C115_concat",
    "Verif.C115_convert",
    "Verif.C115_read",
    "Verif.C115_compare",
    "Verif.C115_behind_terminator",
    "Verif.C115_behind_terminators"
   ],
   "note": "Proved for all functions except DELETE and REPLACE with a negative length in release builds, where the code overruns the destination (C115_refuted); for these C115_delete_replace_any_partial bounds the output by twice the source."
  },
  {
   "property": "C116",
   "status": "proved",
   "theorems": [
    "Verif.C116_one_scan",
    "Verif.C116_apart",
    "Verif.C116_first",
    "Verif.C116_next",
    "Verif.C116_rate"
   ],
   "note": "The program is one call of TON per scan with the negated output as input."
  },
  {
   "property": "C117",
   "status": "proved",
   "theorems": [
    "Verif.C117_not_early",
    "Verif.C117_not_late"
   ],
   "note": "Exact up to one scan."
  },
  {
   "property": "C118",
   "status": "partial",
   "theorems": [
    "Verif.C118_refuted",
    "Verif.C118_partial",
    "Verif.C118_any_signal_partial"
   ],
   "note": "False of the code if x is FALSE for a single scan only: the edge after it is lost (C118_refuted). C118_partial proves it for signals that stay FALSE for at least two scans; C118_any_signal_partial is the exact behaviour for every signal."
  },
  {
   "property": "C119",
   "status": "proved",
   "theorems": [
    "Verif.C119_add_days",
    "Verif.C119_sub_days",
    "Verif.C119_days_between",
    "Verif.C119_order",
    "Verif.C119_lengths",
    "Verif.C119_leap_day"
   ],
   "note": "Dates are related by the calendar successor only (Date.later iterates Date.next)."
  },
  {
   "property": "C120",
   "status": "proved",
   "theorems": [
    "Verif.C120_nested",
    "Verif.C120_same_values",
    "Verif.C120_min_le_max",
    "Verif.C120_monotone",
    "Verif.C120_limit",
    "Verif.C120_limit_limit",
    "Verif.C120_lattice",
    "Verif.C120_limit_float",
    "Verif.C120_nested_float",
    "Verif.C120_same_values_float",
    "Verif.C120_min_le_max_float",
    "Verif.C120_monotone_float",
    "Verif.C120_lattice_float"
   ],
   "note": ""
  },
  {
   "property": "C121",
   "status": "proved",
   "theorems": [
    "Verif.C121_shift_twice",
    "Verif.C121_shift_back",
    "Verif.C121_rotate_by_shifts",
    "Verif.C121_rol_ror",
    "Verif.C121_full_turn",
    "Verif.C121_bcd_shift",
    "Verif.C121_bcd_rotate",
    "Verif.C121_word_swap"
   ],
   "note": "Counts of the width or more are the subject of C23."
  },
  {
   "property": "C122",
   "status": "proved",
   "theorems": [
    "Verif.C122_mid",
    "Verif.C122_concat_parts",
    "Verif.C122_replace",
    "Verif.C122_replace_self",
    "Verif.C122_delete_insert",
    "Verif.C122_first",
    "Verif.C122_absent",
    "Verif.C122_append",
    "Verif.C122_trans",
    "Verif.C122_left",
    "Verif.C122_remove_all"
   ],
   "note": "For texts of fewer than 2^31 characters without NUL. `removeAll` is the loop written with the modelled calls."
  },
  {
   "property": "C123",
   "status": "proved",
   "theorems": [
    "Verif.C123_no_abort",
    "Verif.C123_no_glitch",
    "Verif.C123_stays",
    "Verif.C123_follows"
   ],
   "note": "Readings of the clock differ within a scan; the bounds are from the first to the last reading (not early) and from the last to the first (not late)."
  },
  {
   "property": "C124",
   "status": "proved",
   "theorems": [
    "Verif.C124_sign",
    "Verif.C124_monotone",
    "Verif.C124_reciprocal",
    "Verif.C124_square",
    "Verif.C124_root_of_square",
    "Verif.C124_square_of_root"
   ],
   "note": "the root of a square needs the square in the normal range: examples show that it fails outside."
  },
  {
   "property": "C125",
   "status": "proved",
   "theorems": [
    "Verif.C125_day_number",
    "Verif.C125_weekday",
    "Verif.C125_weekday_of_timestamp",
    "Verif.C125_400_years",
    "Verif.C125_28_years",
    "Verif.C125_next_year"
   ],
   "note": ""
  },
  {
   "property": "C126",
   "status": "proved",
   "theorems": [
    "Verif.C126_product",
    "Verif.C126_order",
    "Verif.C126_single"
   ],
   "note": "The signal must stay FALSE for two scans, as for C118 (there the claim for shorter gaps is refuted)."
  },
  {
   "property": "C127",
   "status": "proved",
   "theorems": [
    "Verif.C127_toggle",
    "Verif.C127_binary_counter"
   ],
   "note": ""
  },
  {
   "property": "C128",
   "status": "partial",
   "theorems": [
    "Verif.C128_refuted",
    "Verif.C128_concat",
    "Verif.C128_no_result_partial",
    "Verif.C128_empty_partial",
    "Verif.C128_time_partial",
    "Verif.C128_compare_partial",
    "Verif.C128_list_partial",
    "Verif.C128_text_partial"
   ],
   "note": "True of CONCAT (C128_concat), MAX and MIN (C18). False of the other functions: LEN, FIND, comparisons and conversions make a slice of a null pointer, and results are written through a null pointer (C128_refuted). The _partial theorems: apart from two exceptions no such call returns a result, so null is never silently taken for an empty string; a comparison with a null pointer further back in the list can only be FALSE, decided by the strings in front of it (C128_list_partial). Exceptions: STRING_TO_WSTRING of an empty string and TIME_TO_STRING of T#0s write nothing and return although the destination is null (C128_empty_partial, C128_time_partial)."
  },
  {
   "property": "C129",
   "status": "proved",
   "theorems": [
    "Verif.C129_on_at_least",
    "Verif.C129_off_at_least",
    "Verif.C129_first",
    "Verif.C129_on",
    "Verif.C129_off"
   ],
   "note": "Times are those of the clock readings in the scans in which the lamp changes."
  },
  {
   "property": "C130",
   "status": "partial",
   "theorems": [
    "Verif.C130_refuted",
    "Verif.C130_mul_partial",
    "Verif.C130_div_partial",
    "Verif.C130_mul_seconds",
    "Verif.C130_div_seconds"
   ],
   "note": "False of the code, because the time is first converted to a float number of seconds: T#123.456789123s * REAL#1.0 is 123.456787109 s, (2^60+1) ns * LREAL#1.0 is 2^60 ns (C130_refuted). C130_mul_partial and C130_div_partial: true below 10.4 days with LREAL and below 1.6 ms with REAL (one nanosecond off at most with an old standard library, which truncates). C130_mul_seconds and C130_div_seconds: true, whatever the standard library, for whole seconds if the number of seconds and the result in seconds are numbers of the format."
  },
  {
   "property": "C131",
   "status": "proved",
   "theorems": [
    "Verif.C131_int",
    "Verif.C131_float"
   ],
   "note": ""
  },
  {
   "property": "C132",
   "status": "proved",
   "theorems": [
    "Verif.C132_step",
    "Verif.C132_constant_input",
    "Verif.C132_reaches"
   ],
   "note": "The sums are those of the type (they wrap around); an example shows that the condition is needed: close to the end of the type the bounds are reversed and the output jumps to the other end."
  },
  {
   "property": "C133",
   "status": "proved",
   "theorems": [
    "Verif.C133_split",
    "Verif.C133_join_split"
   ],
   "note": "The field variables must be at least as large as the variable that is taken apart; strings have fewer than 2^31 characters."
  },
  {
   "property": "C134",
   "status": "proved",
   "theorems": [
    "Verif.C134_padded",
    "Verif.C134_read_back",
    "Verif.C134_order"
   ],
   "note": "An example shows that negative numbers must be excluded: the minus sign stays between the zeros and the digits."
  },
  {
   "property": "C135",
   "status": "proved",
   "theorems": [
    "Verif.C135_watchdog",
    "Verif.C135_change"
   ],
   "note": ""
  },
  {
   "property": "C136",
   "status": "proved",
   "theorems": [
    "Verif.C136_running_light",
    "Verif.C136_shift_register"
   ],
   "note": ""
  },
  {
   "property": "C137",
   "status": "proved",
   "theorems": [
    "Verif.C137_locked",
    "Verif.C137_pause",
    "Verif.C137_stop",
    "Verif.C137_starts"
   ],
   "note": ""
  },
  {
   "property": "C138",
   "status": "proved",
   "theorems": [
    "Verif.C138_int",
    "Verif.C138_float"
   ],
   "note": "with a NaN in the array a number takes its place: see the example beside C138_float."
  },
  {
   "property": "C139",
   "status": "proved",
   "theorems": [
    "Verif.C139_replace_all",
    "Verif.C139_replace_char",
    "Verif.C139_reverse"
   ],
   "note": ""
  },
  {
   "property": "C140",
   "status": "proved",
   "theorems": [
    "Verif.C140_hour_meter",
    "Verif.C140_appointments",
    "Verif.C140_never_early"
   ],
   "note": ""
  },
  {
   "property": "C141",
   "status": "proved",
   "theorems": [
    "Verif.C141_filter",
    "Verif.C141_short_pulses",
    "Verif.C141_gaps_bridged"
   ],
   "note": ""
  },
  {
   "property": "C142",
   "status": "proved",
   "theorems": [
    "Verif.C142_write",
    "Verif.C142_read_back"
   ],
   "note": ""
  },
  {
   "property": "C143",
   "status": "partial",
   "theorems": [
    "Verif.C143_separate",
    "Verif.C143_left",
    "Verif.C143_right",
    "Verif.C143_mid",
    "Verif.C143_delete",
    "Verif.C143_insert_partial",
    "Verif.C143_replace_partial",
    "Verif.C143_insert_repeats",
    "Verif.C143_replace_repeats",
    "Verif.C143_insert_of_self",
    "Verif.C143_replace_by_self",
    "Verif.C143_delete_negative",
    "Verif.C143_delete_partial",
    "Verif.C143_replace_negative",
    "Verif.C143_replace_by_self_negative",
    "Verif.C143_insert_both",
    "Verif.C143_replace_both",
    "Verif.C143_concat_exact",
    "Verif.C143_concat_partial",
    "Verif.C143_refuted"
   ],
   "note": "True of LEFT, RIGHT and MID, and of DELETE except with a negative length in a release build (C143_left, C143_right, C143_mid, C143_delete, C143_delete_partial). There a piece is repeated (C143_delete_negative). False of INSERT, REPLACE and CONCAT (C143_refuted). INSERT: right if nothing is inserted or behind the last character (C143_insert_partial); for characters of one unit the inserted text is repeated over everything behind the position (C143_insert_repeats). With the destination as the text to insert or to put in: right at the very beginning, otherwise the characters in front are repeated in its place (C143_insert_of_self, C143_replace_by_self). REPLACE: right if the new characters are no more than the old ones and take as many units as those they overwrite (C143_replace_partial). If they are more, the surplus is repeated (C143_replace_repeats, characters of one unit). Negative lengths: C143_replace_negative, C143_replace_by_self_negative. The destination as both texts: C143_insert_both, C143_replace_both, right only at the very beginning. CONCAT: right if the destination is only the first argument (C143_concat_partial); as a later argument it stands for everything in front of it (C143_concat_exact). C143_separate: with arguments elsewhere the step by step model agrees with the one C45 to C48 are about."
  },
  {
   "property": "C144",
   "status": "partial",
   "theorems": [
    "Verif.C144_ton_refuted",
    "Verif.C144_ton_exact",
    "Verif.C144_ton_partial",
    "Verif.C144_ton_forgets",
    "Verif.C144_tof_refuted",
    "Verif.C144_tof_exact",
    "Verif.C144_tof_partial",
    "Verif.C144_tof_forgets",
    "Verif.C144_tp_refuted",
    "Verif.C144_tp_exact",
    "Verif.C144_tp_partial"
   ],
   "note": "False of all three (C144_ton_refuted, C144_tof_refuted, C144_tp_refuted): the start time is a reading of the old clock, and the run time stays 0 until the new clock has passed it. C144_ton_exact, C144_tof_exact, C144_tp_exact: the interval ends when the new clock has passed the old reading by more than PT. C144_ton_partial, C144_tof_partial, C144_tp_partial: the claim holds if nothing was being timed at the failure or if the old reading is not above the first new one. C144_ton_forgets, C144_tof_forgets: after a call with IN FALSE (TRUE) since the restart the timer is as one cleared at the restart. Assumes Instant::elapsed saturates at 0 (Rust 1.60 and later)."
  },
  {
   "property": "C145",
   "status": "proved",
   "theorems": [
    "Verif.Abi.C145_independent",
    "Verif.Abi.C145_outside",
    "Verif.Abi.C145_copy",
    "Verif.Abi.C145_alone",
    "Verif.Abi.C145_zeroed"
   ],
   "note": "C145_alone: the instance alone is the run of calls that C01 to C17 are about. C145_zeroed: zeroed memory holds a new instance (of a timer if zero bytes mean not started, C100). Assumes one thread; two threads that call the same instance are a data race."
  },
  {
   "property": "C146",
   "status": "proved",
   "theorems": [
    "Verif.Abi.C146_r_trig",
    "Verif.Abi.C146_f_trig",
    "Verif.Abi.C146_sr",
    "Verif.Abi.C146_rs",
    "Verif.Abi.C146_ctu",
    "Verif.Abi.C146_ctd",
    "Verif.Abi.C146_ctud",
    "Verif.Abi.C146_tp",
    "Verif.Abi.C146_ton",
    "Verif.Abi.C146_tof",
    "Verif.Abi.C146_ton_delay"
   ],
   "note": "One theorem per block, e.g. C146_ctu for the six up counters; C146_ton_delay combines it with C11 as an example. Assumes a toolchain that stores a timer that is not started as zero bytes (C100 is about the others)."
  },
  {
   "property": "C147",
   "status": "partial",
   "theorems": [
    "Verif.C147_within_81",
    "Verif.C147_shorter",
    "Verif.C147_refuted",
    "Verif.C147_time_partial",
    "Verif.C147_time_zero_partial"
   ],
   "note": "True of all but TIME_TO_STRING (C147_within_81); all 81 bytes are needed even for a short text, so a STRING[10] must not be passed (C147_shorter). TIME_TO_STRING takes a slice of 81 bytes at the beginning of each component and so leaves the destination whenever there are two (C147_refuted). C147_time_zero_partial: how many bytes it needs in zeroed memory, for every duration; C147_time_partial: 561 are enough for every earlier content, and an example shows that 560 are not."
  },
  {
   "property": "C148",
   "status": "partial",
   "theorems": [
    "Verif.C148_flanks_latches",
    "Verif.C148_refuted",
    "Verif.C148_ton_partial",
    "Verif.C148_tof_partial",
    "Verif.C148_tp_partial",
    "Verif.C148_ctud_partial",
    "Verif.C148_ctud_failures_partial",
    "Verif.C148_ctud_order_partial",
    "Verif.C148_ctu_partial",
    "Verif.C148_ctu_failures_partial",
    "Verif.C148_ctu_never_more_partial",
    "Verif.C148_ctd_partial",
    "Verif.C148_ctd_failures_partial",
    "Verif.C148_ctd_never_less_partial"
   ],
   "note": "True of R_TRIG, F_TRIG, SR, RS (C148_flanks_latches); false of the counters and timers, which store the memory of the edge first (C148_refuted). Exactly what a failure leaves: CTU, CTD, CTUD lose an edge (C148_ctu_partial, C148_ctd_partial, C148_ctud_partial); TON leaves out its delay (C148_ton_partial); TOF leaves out its delay or resets ET late (C148_tof_partial); TP ends the program in the next call or is not ready for the next pulse (C148_tp_partial). Any number of failures, outside calls with R and LD, take CV away from the count of the completed calls by at most their number (CTU, CTD) or twice their number (CTUD), whatever the order of the stores is; in the order of the program no edge is counted twice."
  },
  {
   "property": "C149",
   "status": "partial",
   "theorems": [
    "Verif.C149_one_output",
    "Verif.C149_refuted",
    "Verif.C149_order_partial",
    "Verif.C149_tp_partial",
    "Verif.C149_q_first_partial"
   ],
   "note": "True of R_TRIG, F_TRIG, SR, RS, which have one output (C149_one_output). False of the counters and timers (C149_refuted): outputs are stored one after the other, and TP stores ET twice in the call that ends its cycle. Exactly what can be seen: CV or ET changes once, then Q (QU before QD), each from the old to the new value (C149_order_partial; TP: C149_tp_partial). A reader that reads Q first and CV or ET afterwards never combines a new Q with an old value (C149_q_first_partial)."
  },
  {
   "property": "C150",
   "status": "partial",
   "theorems": [
    "Verif.C150_refuted",
    "Verif.C150_latches_partial",
    "Verif.C150_flanks_partial",
    "Verif.C150_ctu_partial",
    "Verif.C150_ctd_partial"
   ],
   "note": "False of every block (C150_refuted): both tasks can be told of one edge, a call that is to keep the output of a latch undoes a set of the other task, both tasks can count one edge, timers can work with the inputs of the other task, and TON can give TRUE at once. If both tasks pass the same inputs: true of SR and RS (C150_latches_partial); R_TRIG and F_TRIG: all later outputs are those of the calls one after the other (C150_flanks_partial); CTU, CTD: an edge is counted once or twice and not missed, nothing overflows (C150_ctu_partial, C150_ctd_partial). CTUD: bounds in C151_ctud_partial. Instances of their own for each task are the subject of C145."
  },
  {
   "property": "C151",
   "status": "partial",
   "theorems": [
    "Verif.C151_flanks_latches",
    "Verif.C151_flanks_latches_always",
    "Verif.C151_refuted",
    "Verif.C151_release_refuted",
    "Verif.C151_ctu_partial",
    "Verif.C151_ctd_partial",
    "Verif.C151_ctud_partial",
    "Verif.C151_ton_partial",
    "Verif.C151_tof_partial",
    "Verif.C151_tp_partial"
   ],
   "note": "True of R_TRIG, F_TRIG, SR, RS (C151_flanks_latches; interrupted again and again: C151_flanks_latches_always). False of the others (C151_refuted): counters overflow and panic in the debug profile, TP panics with `unreachable!`, TON and TOF with `Timer should be running`. In the release profile a counter jumps from one limit to the other (C151_release_refuted). True of CTU interrupted by one call, of CTD by one call without LD, of CTUD by one call without R and LD, with bounds for the value (C151_ctu_partial, C151_ctd_partial, C151_ctud_partial); of TON and TOF interrupted by any calls with the same IN (C151_ton_partial, C151_tof_partial); of a running TP if all calls have IN = TRUE (C151_tp_partial)."
  },
  {
   "property": "C152",
   "status": "partial",
   "theorems": [
    "Verif.C152_flanks_latches",
    "Verif.C152_refuted",
    "Verif.C152_release_refuted",
    "Verif.C152_ton_partial",
    "Verif.C152_tof_partial",
    "Verif.C152_tp_partial",
    "Verif.C152_ctu_partial",
    "Verif.C152_ctd_partial",
    "Verif.C152_ctud_partial"
   ],
   "note": "True of R_TRIG, F_TRIG, SR, RS (C152_flanks_latches). False of counters in the debug profile and of timers, with two calls on two cores (C152_refuted); in the release profile the value of CTU jumps from the largest but one to the smallest (C152_release_refuted). True of counters whose value (and PV) is away from the limits by at least the number of calls, with bounds for the value, in both profiles (C152_ctu_partial, C152_ctd_partial, C152_ctud_partial); of TON and TOF if all calls have the same IN (C152_ton_partial, C152_tof_partial); of a running TP if all calls have IN = TRUE (C152_tp_partial). Every core sees the stores of the others at once and in the same order; delayed stores are the subject of C156."
  },
  {
   "property": "C153",
   "status": "proved",
   "theorems": [
    "Verif.C153_exact"
   ],
   "note": "C153 and C153_exact (no smaller number will do). Calls that panic are the subject of C152. The numbers count the loads and stores of the fields in the program; the compiler may leave some out."
  },
  {
   "property": "C154",
   "status": "partial",
   "theorems": [
    "Verif.C154_refuted",
    "Verif.C154_partial",
    "Verif.C154_doors_partial"
   ],
   "note": "False in the first scan, as QD is FALSE in a new instance although CV is 0 (C154_refuted): a thing is taken out of the empty store. C154_partial: true for all signals if nothing is to be taken out in the first scan. C154_doors_partial: what the doors do, in every scan but the first."
  },
  {
   "property": "C155",
   "status": "proved",
   "theorems": [
    "Verif.C155_latches"
   ],
   "note": "C155. C155_latches: with SR for all steps, or RS for all steps, it is false for every number of steps."
  },
  {
   "property": "C156",
   "status": "partial",
   "theorems": [
    "Verif.C156_not_delayed",
    "Verif.C156_refuted",
    "Verif.C156_flanks_latches",
    "Verif.C156_ton_partial",
    "Verif.C156_tof_partial",
    "Verif.C156_tp_partial",
    "Verif.C156_ctu_partial",
    "Verif.C156_ctd_partial",
    "Verif.C156_ctud_partial",
    "Verif.C156_latch_forgets"
   ],
   "note": "True of R_TRIG, F_TRIG, SR, RS (C156_flanks_latches). False of counters in the debug profile and of timers (C156_refuted), because the schedules of C152 are those in which no store is delayed (C156_not_delayed). What C152 says of counters far from their limits and of timers whose calls have the same IN is true with delays as well, with the same bounds (C156_ctu_partial, C156_ctd_partial, C156_ctud_partial, C156_ton_partial, C156_tof_partial, C156_tp_partial). C156_latch_forgets: delays have effects that no order of the loads and stores without delays has, an SR can forget that it was set. Memory orders weaker than that of x86 are not modelled."
  },
  {
   "property": "C157",
   "status": "proved",
   "theorems": [
    "Verif.C157_unique",
    "Verif.C157_week",
    "Verif.C157_week_panics",
    "Verif.C157_long_years",
    "Verif.C157_last",
    "Verif.C157_first"
   ],
   "note": "C157_week (the calendar week, at most 53), C157_week_panics (the exact beginning of the range), C157_unique (the specification determines the week), C157_long_years (which years have a week 53), C157_last, C157_first."
  },
  {
   "property": "C158",
   "status": "partial",
   "theorems": [
    "Verif.C158_same_call",
    "Verif.C158_moments",
    "Verif.C158_terminated_partial",
    "Verif.C158_reader_partial",
    "Verif.C158_reads_partial",
    "Verif.C158_fresh_partial",
    "Verif.C158_single_units_partial",
    "Verif.C158_refuted",
    "Verif.C158_malformed",
    "Verif.C158_again",
    "Verif.C158_any_order",
    "Verif.C158_text_any_order",
    "Verif.C158_time_refuted",
    "Verif.C158_panic_partial",
    "Verif.C158_panic_refuted",
    "Verif.C158_length"
   ],
   "note": "False for readers: C158_refuted, C158_malformed (text that is not well-formed, or no terminator, in the middle of a call). Exact: C158_same_call (the calls store by store are the calls), C158_moments (every moment is the new text up to some unit and the old contents behind it), C158_terminated_partial (if the last unit is zero before the call, there is always a terminator), C158_reader_partial (a reader that walks from unit to unit during the call stays within the variable and finds only old and new units), C158_reads_partial (over zeros behind the old text: the first part of the new text and the rest of the old one), C158_fresh_partial, C158_single_units_partial, C158_length. Power failures: C158_again holds without restriction, C158_any_order and C158_text_any_order also if the order of the stores is changed; TIME_TO_STRING_EXT is the exception (C158_time_refuted). Panics: C158_panic_partial (STRING, other than CONCAT), C158_panic_refuted."
  },
  {
   "property": "C159",
   "status": "partial",
   "theorems": [
    "Verif.C159_delayed",
    "Verif.C159_refuted",
    "Verif.C159_flanks_latches",
    "Verif.C159_release",
    "Verif.C159_ctu_partial",
    "Verif.C159_ctd_partial",
    "Verif.C159_ctud_partial"
   ],
   "note": "False for counters in a debug build and for timers (C159_refuted; everything of C156 is included, C159_delayed). True for R_TRIG, F_TRIG, SR, RS (C159_flanks_latches) and for counters in a release build (C159_release); C159_ctu_partial, C159_ctd_partial, C159_ctud_partial: counters that are away from their limits by the number of calls, with bounds for every memory. A load that sees a store that depends on it is not in the model; timers whose calls have the same IN are left to C156."
  },
  {
   "property": "C160",
   "status": "partial",
   "theorems": [
    "Verif.C160_found",
    "Verif.C160_swapped_partial",
    "Verif.C160_right_partial",
    "Verif.C160_refuted",
    "Verif.C160_float_partial"
   ],
   "note": "False for all hosts (C160_refuted): the values arrive with their bytes in the opposite order (C160_swapped_partial). A receiver that applies TO_..._ENDIAN again gets the values (C160_right_partial). REAL and LREAL arrive exactly between hosts of the same byte order (C160_float_partial). C160_found: the values that a receiver finds exist and are determined by the telegram."
  },
  {
   "property": "C161",
   "status": "partial",
   "theorems": [
    "Verif.C161_stores",
    "Verif.C161_independent",
    "Verif.C161_units",
    "Verif.C161_end",
    "Verif.C161_any_mixture",
    "Verif.C161_text",
    "Verif.C161_same_text",
    "Verif.C161_terminated_partial",
    "Verif.C161_single_units_partial",
    "Verif.C161_refuted",
    "Verif.C161_malformed"
   ],
   "note": "False (C161_refuted): 'ab' and 'cd' can leave 'cb'; C161_malformed: what remains need not be well-formed. Exact: C161_end (each unit is the final one of a call that writes it) and C161_any_mixture (every such mixture occurs). C161_text: when all calls are done there is a text, no shorter than the shortest and no longer than the longest of theirs; C161_same_text: calls with the same text leave it. In the middle: C161_units, C161_terminated_partial (without STRING_TO_WSTRING, which writes no terminator), C161_single_units_partial. C161_stores and C161_independent: the stores are those of the calls alone, whatever the others have stored."
  },
  {
   "property": "C162",
   "status": "partial",
   "theorems": [
    "Verif.C162_unchanged_partial",
    "Verif.C162_concat_unchanged_partial",
    "Verif.C162_single_units_partial",
    "Verif.C162_concat_single_units_partial",
    "Verif.C162_bounds_partial",
    "Verif.C162_concat_bounds_partial",
    "Verif.C162_refuted",
    "Verif.C162_right",
    "Verif.C162_malformed",
    "Verif.C162_overrun"
   ],
   "note": "False (C162_refuted: LEFT(s, 2) leaves '' while 'ab' becomes '', where LEFT of '' panics; C162_right: RIGHT(s, 1) leaves three characters; C162_malformed: bytes that were checked are no longer UTF-8 when they are read, which is undefined; C162_overrun: DELETE writes beyond a destination of the size of its argument, although all states are well-formed). True: C162_unchanged_partial, C162_concat_unchanged_partial (nobody changes the arguments: the ordinary call); C162_single_units_partial, C162_concat_single_units_partial (ASCII or no surrogates at any time: a panic or a text within the size, each unit from an argument); C162_bounds_partial, C162_concat_bounds_partial (LEFT, RIGHT, MID, CONCAT with any characters stay within the size, if what is read is still well-formed)."
  },
  {
   "property": "C163",
   "status": "partial",
   "theorems": [
    "Verif.C163_time",
    "Verif.C163_modulo",
    "Verif.C163_same_day_partial",
    "Verif.C163_over_midnight",
    "Verif.C163_offset_change",
    "Verif.C163_refuted",
    "Verif.C163_meter"
   ],
   "note": "The first part is false (C163_refuted: over midnight the difference is negative). C163_time: TIME() is the time since the last local midnight. C163_modulo: the difference is right apart from whole days and changes of the offset, and never aborts. C163_same_day_partial: right if no midnight passes and the offset stays. The second part holds: C163_over_midnight, C163_meter (any number of scans, with the number of midnights); C163_offset_change: a change to or from summer time goes into the result."
  },
  {
   "property": "C164",
   "status": "proved",
   "theorems": [
    "Verif.C164_sort",
    "Verif.C164_sort_text",
    "Verif.C164_search"
   ],
   "note": "C164_sort (order of the units, nothing lost, stable, no abort), C164_sort_text (for STRINGs it is the order of the code points; for WSTRINGs see C53), C164_search (found or not, place, number of calls of LT, no access beside the array)."
  },
  {
   "property": "C165",
   "status": "partial",
   "theorems": [
    "Verif.C165_exact",
    "Verif.C165_partial",
    "Verif.C165_refuted",
    "Verif.C165_too_fast"
   ],
   "note": "C165_refuted: an encoder that stands in the first quarter of a cycle when the program starts is counted one cycle too far, because R_TRIG reports an edge for an input that is TRUE in the first call.  C165_exact: the count in every case; C165_partial: the claim for every other first position, with the distance up to less than a cycle; C165_too_fast: the limit of a quarter is needed."
  },
  {
   "property": "C166",
   "status": "partial",
   "theorems": [
    "Verif.C166_compare_unchanged_partial",
    "Verif.C166_unequal_unchanged_partial",
    "Verif.C166_len_unchanged_partial",
    "Verif.C166_find_unchanged_partial",
    "Verif.C166_one_unit_partial",
    "Verif.C166_front_partial",
    "Verif.C166_len_single_units_partial",
    "Verif.C166_find_single_units_partial",
    "Verif.C166_find_lasting_partial",
    "Verif.C166_refuted_equal",
    "Verif.C166_refuted_len",
    "Verif.C166_refuted_find"
   ],
   "note": "C166_refuted_equal: EQ is TRUE for texts that have never been equal; C166_refuted_len: LEN of no state; C166_refuted_find: FIND misses a text that every state contains.  What holds: arguments that nobody changes (C166_compare_unchanged_partial, C166_unequal_unchanged_partial, C166_len_unchanged_partial, C166_find_unchanged_partial), one changing unit in each argument (C166_one_unit_partial), texts that differ in front of what changes (C166_front_partial), the length and the hits for characters of one unit (C166_len_single_units_partial, C166_find_single_units_partial), and a text that stays where it is is found (C166_find_lasting_partial)."
  },
  {
   "property": "C167",
   "status": "proved",
   "theorems": [
    "Verif.C167_round_trip",
    "Verif.C167_neighbours",
    "Verif.C167_reading",
    "Verif.C167_binary"
   ],
   "note": "C167_round_trip (both directions, no panic), C167_neighbours (one bit, also from the last position to the first), C167_reading (old or new), C167_binary (plain binary numbers have no such property)."
  },
  {
   "property": "C168",
   "status": "proved",
   "theorems": [
    "Verif.C168_total",
    "Verif.C168_burst",
    "Verif.C168_one_bit",
    "Verif.C168_limits"
   ],
   "note": "C168_total (no panic), C168_burst (the claim), C168_one_bit (a single bit), C168_limits (one bit more can remain unnoticed; the polynomial has to be odd).  Telegrams are lists of bytes, their highest bits come first."
  },
  {
   "property": "C169",
   "status": "partial",
   "theorems": [
    "Verif.C169_date_partial",
    "Verif.C169_tod",
    "Verif.C169_dt_partial",
    "Verif.C169_refuted_first_day",
    "Verif.C169_typed_partial",
    "Verif.C169_refuted"
   ],
   "note": "C169_tod (every time of day), C169_date_partial and C169_dt_partial (every day but the first of the range; there the reading program stops), C169_typed_partial (digits in the right places: accepted exactly if there is such a date in the range, and then DATE_TO_STRING gives the text back).  False for the first day of the range (C169_refuted_first_day) and for typed strings with a sign in the place of a digit (C169_refuted: '2000-+1-01').  STRING only."
  },
  {
   "property": "C170",
   "status": "proved",
   "theorems": [
    "Verif.C170_on_not_early",
    "Verif.C170_on_not_late",
    "Verif.C170_off_not_early",
    "Verif.C170_off_not_late"
   ],
   "note": "C170_on_not_early, C170_on_not_late, C170_off_not_early, C170_off_not_late.  Preset times are non-negative.  C117 is the case of two on-delays."
  },
  {
   "property": "C171",
   "status": "proved",
   "theorems": [
    "Verif.C171_first",
    "Verif.C171_total",
    "Verif.C171_starts",
    "Verif.C171_lasts",
    "Verif.C171_ends"
   ],
   "note": "C171_first, C171_total, C171_starts, C171_lasts, C171_ends.  Preset times are non-negative.  It is what C14 and C16 ask of TP and TP does not do."
  },
  {
   "property": "C172",
   "status": "proved",
   "theorems": [
    "Verif.C172_queue",
    "Verif.C172_fifo",
    "Verif.C172_log",
    "Verif.C172_bound_sharp"
   ],
   "note": "C172_queue, C172_fifo, C172_log, C172_bound_sharp (the limit 512 cannot be raised)."
  },
  {
   "property": "C173",
   "status": "proved",
   "theorems": [
    "Verif.C173_left_right",
    "Verif.C173_mid",
    "Verif.C173_insert",
    "Verif.C173_delete",
    "Verif.C173_replace"
   ],
   "note": "C173_left_right, C173_mid, C173_insert, C173_delete, C173_replace.  Objects have less than 2^31 units, as the language guarantees on 32-bit targets.  All properties of these functions above are about 64-bit addresses and carry over."
  },
  {
   "property": "C174",
   "status": "partial",
   "theorems": [
    "Verif.C174_refuted",
    "Verif.C174_refuted_bound",
    "Verif.C174_same_high_partial",
    "Verif.C174_error_partial",
    "Verif.C174_short_partial",
    "Verif.C174_double_read_partial"
   ],
   "note": "False when the upper half changes in the call (C174_refuted: 2^32 to 2^32 - 1 is read as 2^33 - 1 or 0; C174_refuted_bound: ET above PT).  Proved: it holds in every call that leaves the upper half as it is (C174_same_high_partial), a bound for the error otherwise (C174_error_partial), it always holds for presets below 2^32 ns (C174_short_partial), and a task that loads the upper half twice and finds it unchanged has a true ET if it does not itself interrupt the call (C174_double_read_partial)."
  },
  {
   "property": "C175",
   "status": "proved",
   "theorems": [
    "Verif.C175_median_int",
    "Verif.C175_median_float",
    "Verif.C175_one_defective",
    "Verif.C175_nan",
    "Verif.C175_filter_int",
    "Verif.C175_filter_float",
    "Verif.C175_filter_monotone"
   ],
   "note": "C175_median_int, C175_median_float, C175_one_defective, C175_nan (the result is a NaN only if all three are), C175_filter_int, C175_filter_float, C175_filter_monotone."
  },
  {
   "property": "C176",
   "status": "proved",
   "theorems": [
    "Verif.C176_equal_parts",
    "Verif.C176_mul_first",
    "Verif.C176_mul_first_aborts",
    "Verif.C176_mean",
    "Verif.C176_mean_aborts"
   ],
   "note": "C176_equal_parts, C176_mul_first, C176_mul_first_aborts (spans that only the first version can divide), C176_mean, C176_mean_aborts."
  },
  {
   "property": "C177",
   "status": "proved",
   "theorems": [
    "Verif.C177_output",
    "Verif.C177_band",
    "Verif.C177_switching",
    "Verif.C177_reacts"
   ],
   "note": "C177_output, C177_band, C177_switching, C177_reacts."
  },
  {
   "property": "C178",
   "status": "proved",
   "theorems": [
    "Verif.C178_total",
    "Verif.C178_running",
    "Verif.C178_resting",
    "Verif.C178_guarantee"
   ],
   "note": "C178_total, C178_running, C178_resting, C178_guarantee."
  },
  {
   "property": "C179",
   "status": "proved",
   "theorems": [
    "Verif.C179_ton",
    "Verif.C179_tof",
    "Verif.C179_tp_lasting",
    "Verif.C179_ctu",
    "Verif.C179_ctd",
    "Verif.C179_ctud",
    "Verif.C179_load_lasting"
   ],
   "note": "C179_ton, C179_tof, C179_ctu, C179_ctd, C179_ctud. C179_tp_lasting and C179_load_lasting show that TP, and calls that load, are rightly excluded."
  },
  {
   "property": "C180",
   "status": "proved",
   "theorems": [
    "Verif.C180_ton",
    "Verif.C180_tof",
    "Verif.C180_sr",
    "Verif.C180_rs",
    "Verif.C180_ctu_extra_reset"
   ],
   "note": "C180_ton, C180_tof, C180_sr, C180_rs; C180_ctu_extra_reset is the last sentence. Presets from 0 on and a clock that does not go backwards are assumed of the timers, as in C11."
  },
  {
   "property": "C181",
   "status": "proved",
   "theorems": [
    "Verif.C181_total",
    "Verif.C181_safe",
    "Verif.C181_starts",
    "Verif.C181_tied"
   ],
   "note": "C181_total, C181_safe, C181_starts, C181_tied (which assumes that the clock does not go backwards; the others do not)."
  },
  {
   "property": "C182",
   "status": "proved",
   "theorems": [
    "Verif.C182_lamp",
    "Verif.C182_none_lost",
    "Verif.C182_later_alarms"
   ],
   "note": "C182_lamp, C182_none_lost, C182_later_alarms."
  },
  {
   "property": "C183",
   "status": "proved",
   "theorems": [
    "Verif.C183_voting",
    "Verif.C183_one_defective",
    "Verif.C183_no_false_alarm"
   ],
   "note": "C183_voting, C183_one_defective, C183_no_false_alarm."
  },
  {
   "property": "C184",
   "status": "proved",
   "theorems": [
    "Verif.C184_held",
    "Verif.C184_next",
    "Verif.C184_all_steps"
   ],
   "note": "C184_held, C184_next, C184_all_steps."
  },
  {
   "property": "C185",
   "status": "proved",
   "theorems": [
    "Verif.Abi.C185_kept",
    "Verif.Abi.C185_left_out"
   ],
   "note": "C185_kept, C185_left_out."
  },
  {
   "property": "C186",
   "status": "proved",
   "theorems": [
    "Verif.Abi.C186_held",
    "Verif.Abi.C186_order"
   ],
   "note": "C186_held, C186_order."
  },
  {
   "property": "C187",
   "status": "proved",
   "theorems": [
    "Verif.Abi.C187_r_trig",
    "Verif.Abi.C187_f_trig",
    "Verif.Abi.C187_sr",
    "Verif.Abi.C187_rs",
    "Verif.Abi.C187_ctu",
    "Verif.Abi.C187_ctd",
    "Verif.Abi.C187_ctud",
    "Verif.Abi.C187_tp",
    "Verif.Abi.C187_ton",
    "Verif.Abi.C187_tof",
    "Verif.Abi.C187_ton_delay"
   ],
   "note": "C187_r_trig, C187_f_trig, C187_sr, C187_rs, C187_ctu, C187_ctd, C187_ctud, C187_tp, C187_ton, C187_tof, C187_ton_delay."
  }
 ]
}