# Status and note per property; everything not listed is "proved" with an empty note.
NOTES.update({
"C10": ("partial", "False of the code: the edge memory is not updated while R/LD is TRUE, so an edge during reset/load is counted in the first call after it (C10_refuted, witnesses for CTU, CTD and CTUD). C10_partial and C10_partial_ctd give the exact behaviour."),
"C14": ("partial", "False of the code: TP panics (unreachable!) when called idle with IN = FALSE, e.g. in its first call (C14_refuted). C14_partial is the exact panic condition over all histories."),
"C16": ("partial", "False of the code when IN falls while the pulse is running: the timer is never re-armed by that fall and the next rising edge is lost (C16_refuted). C16_partial proves re-triggering when IN falls after expiry, and C16_partial_iff that this is exactly when the next rising edge starts a pulse."),
"C21": ("partial", "False of the code for floats: LIMIT returns a NaN input unchanged although it is not between MIN and MAX (C21_refuted). C21_partial gives the exact behaviour for NaN operands."),
"C23": ("partial", "False of the code: a count of the width or more panics in debug builds and shifts by the count modulo the width in release builds (C23_refuted for all four widths and both profiles). C23_partial is the exact outcome."),
"C28": ("partial", "False of the code: FROM_BIG_ENDIAN calls to_le and FROM_LITTLE_ENDIAN calls to_be, so FROM after TO is a byte swap on every host (C28_refuted). C28_partial is the exact outcome."),
"C29": ("partial", "False of the code: the four REAL/LREAL functions are the identity (C29_refuted, C29_partial)."),
"C65": ("partial", "False of the code at the smallest value of each signed type, which ABS returns unchanged (C65_refuted). C65_partial: correct everywhere else."),
"C70": ("partial", "False of the code: the bit-string conversions test only bit 0, e.g. WORD_TO_BOOL(2) is FALSE (C70_refuted). C70_partial is the exact behaviour of all six conversions."),
"C32": ("partial", "CONCAT after SPLIT is proved in full (C32_concat_split). SPLIT after CONCAT is false for LINT/ULINT, whose arguments are truncated to 32 bits (C32_refuted), and proved for the 16- and 32-bit types (C32_split_concat_partial); C32_any_type_partial says for all types what comes back: the low 32 bits."),
"C35": ("partial", "False of the code: chrono's leap-second convention makes CONCAT_TOD accept 1000..1999 ms in second 59 (C35_refuted). C35_partial is the exact outcome for all arguments and the inverse laws for ms < 1000."),
"C36": ("partial", "False of the code for LINT/ULINT (only the low 32 bits count) and for the leap-second milliseconds (C36_refuted). C36_partial: exact restriction for all types up to 32 bits, and dependence on the low 32 bits only."),
"C71": ("partial", "False of the code: CONCAT_DT(2000,1,1,23,59,59,1500) is the start of the same day (C71_refuted). C71_partial: holds for 16- and 32-bit types with ms < 1000; C71_any_type_partial is the exact result for all types and milliseconds."),
"C41": ("partial", "False of the code: a ULINT operand of 2^63 or more always panics, even for MUL(T#0, x) and DIV(t, x) whose exact results fit (C41_refuted). C41_partial is the exact outcome for all operands."),
"C47": ("partial", "False of the code in release builds: DELETE('abc', -1, 3) succeeds and doubles a character, because the negative length wraps in the usize addition (C47_refuted, same for REPLACE). C47_delete_partial and C47_replace_partial give the exact outcome for every negative length: debug always panics, release panics unless P + L >= 1."),
"C53": ("partial", "True for STRING (C53_string_partial). False for WSTRING, where units are compared, so U+10000 orders below U+E000 (C53_refuted). C53_wstring_partial is the exact order; C53_wstring_codepoint_partial says when it is code point order."),
"C54": ("partial", "STRING_TO_WSTRING writes no terminator, so the round trip from STRING fails when the WSTRING buffer is not zero behind the text (C54_refuted); C54_string_roundtrip_partial assumes that zero. The round trip from WSTRING is proved (C54_wstring_roundtrip)."),
"C56": ("partial", "False of the code: STRING_TO_WSTRING and all number, duration and date conversions write no terminator (C56_string_to_wstring_refuted, C56_numbers_refuted, C56_times_refuted). The _partial theorems say exactly when the result is right (the unit behind it was zero before; for TIME_TO_STRING the byte behind each component with its unit: C56_time_exact_partial, and then the call also succeeds: C56_time_success_partial). WSTRING_TO_STRING always terminates (C56_wstring_to_string)."),
"C57": ("partial", "CHAR_TO_WCHAR is proved. The round trip is false for most bytes from 16#80, where WCHAR_TO_CHAR returns a UTF-8 lead byte (C57_refuted); C57_wchar_to_char and C57_roundtrip_partial are exact for all inputs."),
"C62": ("partial", "False of the code: T#-1ns gives the text of T#23h59m59s999ms999us999ns (C62_refuted). C62_text_partial is the exact text of every negative duration; C62_collisions_partial says exactly which durations share a text."),
"C75": ("partial", "False of the code: WSTRING_TO_DINT truncates numbers that STRING_TO_DINT rejects, and a text of more than 80 UTF-8 bytes overflows the temporary STRING (C75_refuted). C75_partial is the exact outcome for all texts."),
"C77": ("partial", "False of the code for every one of these conversions: the rounded value is cast without a range check, which is undefined for NaN, infinities and out-of-range numbers (C77_refuted). C77_partial is the exact condition."),
"C79": ("partial", "False for 64-bit integers through LREAL and 32/64-bit integers through REAL (C79_refuted). C79_partial: holds up to 2^53 resp. 2^24; C79_small_types: for all values of the smaller types. C79_exact_partial: a number comes back exactly when it is a number of the float type."),
"C82": ("partial", "The value is proved (C82_value). The sign bit is not cleared for -0.0, because -0.0 < 0 is false (C82_sign_refuted)."),
"C85": ("partial", "False of the code: a finite LREAL of -10^73 or below has a text of more than 81 bytes, because scientific notation is chosen only for large positive numbers (C85_refuted). C85_partial is the exact condition; C85_real: REAL_TO_STRING never aborts."),
"C87": ("partial", "False of the code: six decimals, or seven digits from 10^14 on, do not determine the number (C87_refuted). C87_partial: the number that comes back is the one nearest to the text; exact for infinities, whole multiples of a millionth, and from 2^33 to 10^14 (REAL: from 16, C87_real_partial)."),
"C88": ("partial", "False of the code for texts of more than 80 UTF-8 bytes, which overflow the temporary STRING (C88_refuted). C88_partial is the exact outcome."),
"C93": ("partial", "False of the code: the exponent is passed to a DINT parameter and cut to 32 bits, so EXPT(2.0, ULINT#4294967296) is 1 and EXPT(2.0, UDINT#4294967295) is 0.5 (C93_refuted). C93_partial: right for exponents in the range of DINT; exact dependence on the exponent modulo 2^32 otherwise."),
"C95": ("partial", "False of the code: INSERT, REPLACE, CONCAT and WSTRING_TO_STRING write past the result variable when the result has more than 2048 units (C95_refuted). The _partial theorems give the exact condition. LEFT, RIGHT, MID, DELETE and STRING_TO_WSTRING always fit (C95_select, C95_string_to_wstring)."),
"C96": ("partial", "False of the code: the operators take STRING parameters of 80 units by value, so only the first 80 units count (C96_refuted). C96_first_80_partial is the exact outcome for all strings; C96_short_partial: right up to 80 units."),
"C97": ("partial", "False of the code: CHAR_TO_STRING reads a whole STRING from the address of a one-unit variable (C97_refuted). C97_char_to_string_partial: if that memory can be read, the result is right iff the next unit is 0. STRING_TO_CHAR is proved (C97_string_to_char)."),
"C98": ("proved", "The math library is a parameter of the model: the theorems assume its relative accuracy (Libm.Accurate) and say which function with which arguments reaches the user. exists_accurate: a correctly rounding library meets the assumption."),
"C99": ("proved", "Same assumption about the library as C98."),
"C100": ("partial", "Depends on how the toolchain stores None in Option<Instant>. False when a non-zero value of the nanoseconds stands for None, as zero bytes then mean started at the origin of the clock: TON switches on at once, TP loses its first pulse (C100_refuted). C100_tagged_partial: true with a tag of its own, the case C11-C17 are about. C100_ton_partial, C100_tof_partial and C100_tp_partial are the exact behaviour otherwise, and say from which call on it is right."),
"C101": ("proved", "The table of declarations is generated from the sources by tools/gen_abi.py. Assumes C struct layout on both sides (repr(C) and LLVM struct types) and that Option<Instant> has at most 24 bytes; an example shows that the bound is needed."),
"C102": ("partial", "False of the code: SPLIT_LDT for every type (marked external although it has a body), ABS of unsigned integers, byte order functions of TIME and others have no implementation (C102_refuted). C102_partial: exactly the listed 69 names, all other functions have an implementation with the declared signature."),
"C103": ("partial", "False of TP: the call that finds a pulse over with the input still set re-arms the block, and repeating it aborts the program (C103_tp_refuted; the cause is C14). C103_tp_partial: true as long as the extended history does not abort. True for all other blocks (C103_flanks_latches, C103_counters, C103_ton_tof)."),
"C104": ("proved", "C104_clock_origin for all three timers."),
"C105": ("partial", "False of the code: a shift by the width or more aborts in debug and shifts by the count modulo the width in release; DELETE and REPLACE with a negative length abort in debug only (C105_refuted). C105_shift_partial and C105_delete_replace_partial give the arguments for which both builds agree. True for counters, MID, FIND and TIME (C105_counters, C105_mid_find, C105_time)."),
"C106": ("proved", "C106_ton_reaction, C106_tof_reaction, C106_tp_reaction. The times are those of the clock readings that the block takes in its calls."),
"C107": ("proved", "One theorem for each relation."),
"C108": ("proved", "One theorem for each group of rules. C108_grouping_may_abort: whether a sum of three aborts does depend on the grouping."),
"C109": ("proved", "Order with respect to both operands and both signs, and no abort below a result that exists. The values are those of Spec/Float (floatValue), NaN and infinity are covered by C42_special."),
"C110": ("proved", "For zeroed result buffers, as ST provides them (over old content the writers leave rubbish behind, C56). Durations do not sort (an example beside the theorems)."),
"C111": ("proved", "Step-by-step simulation for programs with arbitrary control flow; also that STRING_TO_WSTRING of the variables gives corresponding starts and ends. Order comparisons are excluded, they differ (C53)."),
"C112": ("partial", "False of the code: FIND validates only the bytes before the occurrence, so it accepts malformed strings, and panics on the well-formed \u00e9 if the lone byte A9 is searched; on WSTRING it finds the second half of a surrogate pair at a position beyond LEN (C112_refuted). The _partial theorems give the exact outcome for every pair of unit sequences."),
"C113": ("proved", "C113_same_result compares two ways, C113_wide relates the result to the value, C113_value is the lossless case."),
"C114": ("proved", "ROUND, SQRT and integer to float are in C68, C89 and C78."),
"C115": ("partial", "Proved for all functions except DELETE and REPLACE with a negative length in release builds, where the code overruns the destination (C115_refuted); for these C115_delete_replace_any_partial bounds the output by twice the source."),
"C116": ("proved", "The program is one call of TON per scan with the negated output as input."),
"C117": ("proved", "Exact up to one scan."),
"C118": ("partial", "False of the code if x is FALSE for a single scan only: the edge after it is lost (C118_refuted). C118_partial proves it for signals that stay FALSE for at least two scans; C118_any_signal_partial is the exact behaviour for every signal."),
"C119": ("proved", "Dates are related by the calendar successor only (Date.later iterates Date.next)."),
"C120": ("proved", ""),
"C121": ("proved", "Counts of the width or more are the subject of C23."),
"C122": ("proved", "For texts of fewer than 2^31 characters without NUL. `removeAll` is the loop written with the modelled calls."),
"C123": ("proved", "Readings of the clock differ within a scan; the bounds are from the first to the last reading (not early) and from the last to the first (not late)."),
"C124": ("proved", "the root of a square needs the square in the normal range: examples show that it fails outside."),
"C125": ("proved", ""),
"C126": ("proved", "The signal must stay FALSE for two scans, as for C118 (there the claim for shorter gaps is refuted)."),
"C127": ("proved", ""),
"C128": ("partial", "True of CONCAT (C128_concat), MAX and MIN (C18). False of the other functions: LEN, FIND, comparisons and conversions make a slice of a null pointer, and results are written through a null pointer (C128_refuted). The _partial theorems: apart from two exceptions no such call returns a result, so null is never silently taken for an empty string; a comparison with a null pointer further back in the list can only be FALSE, decided by the strings in front of it (C128_list_partial). Exceptions: STRING_TO_WSTRING of an empty string and TIME_TO_STRING of T#0s write nothing and return although the destination is null (C128_empty_partial, C128_time_partial)."),
"C129": ("proved", "Times are those of the clock readings in the scans in which the lamp changes."),
"C130": ("partial", "False of the code, because the time is first converted to a float number of seconds: T#123.456789123s * REAL#1.0 is 123.456787109 s, (2^60+1) ns * LREAL#1.0 is 2^60 ns (C130_refuted). C130_mul_partial and C130_div_partial: true below 10.4 days with LREAL and below 1.6 ms with REAL (one nanosecond off at most with an old standard library, which truncates). C130_mul_seconds and C130_div_seconds: true, whatever the standard library, for whole seconds if the number of seconds and the result in seconds are numbers of the format."),
"C131": ("proved", ""),
"C132": ("proved", "The sums are those of the type (they wrap around); an example shows that the condition is needed: close to the end of the type the bounds are reversed and the output jumps to the other end."),
"C133": ("proved", "The field variables must be at least as large as the variable that is taken apart; strings have fewer than 2^31 characters."),
"C134": ("proved", "An example shows that negative numbers must be excluded: the minus sign stays between the zeros and the digits."),
"C135": ("proved", ""),
"C136": ("proved", ""),
"C137": ("proved", ""),
"C138": ("proved", "with a NaN in the array a number takes its place: see the example beside C138_float."),
"C139": ("proved", ""),
"C140": ("proved", ""),
"C141": ("proved", ""),
"C142": ("proved", ""),
"C143": ("partial", "True of LEFT, RIGHT and MID, and of DELETE except with a negative length in a release build (C143_left, C143_right, C143_mid, C143_delete, C143_delete_partial). There a piece is repeated (C143_delete_negative). False of INSERT, REPLACE and CONCAT (C143_refuted). INSERT: right if nothing is inserted or behind the last character (C143_insert_partial); for characters of one unit the inserted text is repeated over everything behind the position (C143_insert_repeats). With the destination as the text to insert or to put in: right at the very beginning, otherwise the characters in front are repeated in its place (C143_insert_of_self, C143_replace_by_self). REPLACE: right if the new characters are no more than the old ones and take as many units as those they overwrite (C143_replace_partial). If they are more, the surplus is repeated (C143_replace_repeats, characters of one unit). Negative lengths: C143_replace_negative, C143_replace_by_self_negative. The destination as both texts: C143_insert_both, C143_replace_both, right only at the very beginning. CONCAT: right if the destination is only the first argument (C143_concat_partial); as a later argument it stands for everything in front of it (C143_concat_exact). C143_separate: with arguments elsewhere the step by step model agrees with the one C45 to C48 are about."),
"C144": ("partial", "False of all three (C144_ton_refuted, C144_tof_refuted, C144_tp_refuted): the start time is a reading of the old clock, and the run time stays 0 until the new clock has passed it. C144_ton_exact, C144_tof_exact, C144_tp_exact: the interval ends when the new clock has passed the old reading by more than PT. C144_ton_partial, C144_tof_partial, C144_tp_partial: the claim holds if nothing was being timed at the failure or if the old reading is not above the first new one. C144_ton_forgets, C144_tof_forgets: after a call with IN FALSE (TRUE) since the restart the timer is as one cleared at the restart. Assumes Instant::elapsed saturates at 0 (Rust 1.60 and later)."),
"C145": ("proved", "C145_alone: the instance alone is the run of calls that C01 to C17 are about. C145_zeroed: zeroed memory holds a new instance (of a timer if zero bytes mean not started, C100). Assumes one thread; two threads that call the same instance are a data race."),
"C146": ("proved", "One theorem per block, e.g. C146_ctu for the six up counters; C146_ton_delay combines it with C11 as an example. Assumes a toolchain that stores a timer that is not started as zero bytes (C100 is about the others)."),
"C147": ("partial", "True of all but TIME_TO_STRING (C147_within_81); all 81 bytes are needed even for a short text, so a STRING[10] must not be passed (C147_shorter). TIME_TO_STRING takes a slice of 81 bytes at the beginning of each component and so leaves the destination whenever there are two (C147_refuted). C147_time_zero_partial: how many bytes it needs in zeroed memory, for every duration; C147_time_partial: 561 are enough for every earlier content, and an example shows that 560 are not."),
"C148": ("partial", "True of R_TRIG, F_TRIG, SR, RS (C148_flanks_latches); false of the counters and timers, which store the memory of the edge first (C148_refuted). Exactly what a failure leaves: CTU, CTD, CTUD lose an edge (C148_ctu_partial, C148_ctd_partial, C148_ctud_partial); TON leaves out its delay (C148_ton_partial); TOF leaves out its delay or resets ET late (C148_tof_partial); TP ends the program in the next call or is not ready for the next pulse (C148_tp_partial). Any number of failures, outside calls with R and LD, take CV away from the count of the completed calls by at most their number (CTU, CTD) or twice their number (CTUD), whatever the order of the stores is; in the order of the program no edge is counted twice."),
"C149": ("partial", "True of R_TRIG, F_TRIG, SR, RS, which have one output (C149_one_output). False of the counters and timers (C149_refuted): outputs are stored one after the other, and TP stores ET twice in the call that ends its cycle. Exactly what can be seen: CV or ET changes once, then Q (QU before QD), each from the old to the new value (C149_order_partial; TP: C149_tp_partial). A reader that reads Q first and CV or ET afterwards never combines a new Q with an old value (C149_q_first_partial)."),
"C150": ("partial", "False of every block (C150_refuted): both tasks can be told of one edge, a call that is to keep the output of a latch undoes a set of the other task, both tasks can count one edge, timers can work with the inputs of the other task, and TON can give TRUE at once. If both tasks pass the same inputs: true of SR and RS (C150_latches_partial); R_TRIG and F_TRIG: all later outputs are those of the calls one after the other (C150_flanks_partial); CTU, CTD: an edge is counted once or twice and not missed, nothing overflows (C150_ctu_partial, C150_ctd_partial). CTUD: bounds in C151_ctud_partial. Instances of their own for each task are the subject of C145."),
"C151": ("partial", "True of R_TRIG, F_TRIG, SR, RS (C151_flanks_latches; interrupted again and again: C151_flanks_latches_always). False of the others (C151_refuted): counters overflow and panic in the debug profile, TP panics with `unreachable!`, TON and TOF with `Timer should be running`. In the release profile a counter jumps from one limit to the other (C151_release_refuted). True of CTU interrupted by one call, of CTD by one call without LD, of CTUD by one call without R and LD, with bounds for the value (C151_ctu_partial, C151_ctd_partial, C151_ctud_partial); of TON and TOF interrupted by any calls with the same IN (C151_ton_partial, C151_tof_partial); of a running TP if all calls have IN = TRUE (C151_tp_partial)."),
"C152": ("partial", "True of R_TRIG, F_TRIG, SR, RS (C152_flanks_latches). False of counters in the debug profile and of timers, with two calls on two cores (C152_refuted); in the release profile the value of CTU jumps from the largest but one to the smallest (C152_release_refuted). True of counters whose value (and PV) is away from the limits by at least the number of calls, with bounds for the value, in both profiles (C152_ctu_partial, C152_ctd_partial, C152_ctud_partial); of TON and TOF if all calls have the same IN (C152_ton_partial, C152_tof_partial); of a running TP if all calls have IN = TRUE (C152_tp_partial). Every core sees the stores of the others at once and in the same order; delayed stores are the subject of C156."),
"C153": ("proved", "C153 and C153_exact (no smaller number will do). Calls that panic are the subject of C152. The numbers count the loads and stores of the fields in the program; the compiler may leave some out."),
"C154": ("partial", "False in the first scan, as QD is FALSE in a new instance although CV is 0 (C154_refuted): a thing is taken out of the empty store. C154_partial: true for all signals if nothing is to be taken out in the first scan. C154_doors_partial: what the doors do, in every scan but the first."),
"C155": ("proved", "C155. C155_latches: with SR for all steps, or RS for all steps, it is false for every number of steps."),
"C156": ("partial", "True of R_TRIG, F_TRIG, SR, RS (C156_flanks_latches). False of counters in the debug profile and of timers (C156_refuted), because the schedules of C152 are those in which no store is delayed (C156_not_delayed). What C152 says of counters far from their limits and of timers whose calls have the same IN is true with delays as well, with the same bounds (C156_ctu_partial, C156_ctd_partial, C156_ctud_partial, C156_ton_partial, C156_tof_partial, C156_tp_partial). C156_latch_forgets: delays have effects that no order of the loads and stores without delays has, an SR can forget that it was set. Memory orders weaker than that of x86 are not modelled."),
"C157": ("proved", "C157_week (the calendar week, at most 53), C157_week_panics (the exact beginning of the range), C157_unique (the specification determines the week), C157_long_years (which years have a week 53), C157_last, C157_first."),
"C158": ("partial", "False for readers: C158_refuted, C158_malformed (text that is not well-formed, or no terminator, in the middle of a call). Exact: C158_same_call (the calls store by store are the calls), C158_moments (every moment is the new text up to some unit and the old contents behind it), C158_terminated_partial (if the last unit is zero before the call, there is always a terminator), C158_reader_partial (a reader that walks from unit to unit during the call stays within the variable and finds only old and new units), C158_reads_partial (over zeros behind the old text: the first part of the new text and the rest of the old one), C158_fresh_partial, C158_single_units_partial, C158_length. Power failures: C158_again holds without restriction, C158_any_order and C158_text_any_order also if the order of the stores is changed; TIME_TO_STRING_EXT is the exception (C158_time_refuted). Panics: C158_panic_partial (STRING, other than CONCAT), C158_panic_refuted."),
"C159": ("partial", "False for counters in a debug build and for timers (C159_refuted; everything of C156 is included, C159_delayed). True for R_TRIG, F_TRIG, SR, RS (C159_flanks_latches) and for counters in a release build (C159_release); C159_ctu_partial, C159_ctd_partial, C159_ctud_partial: counters that are away from their limits by the number of calls, with bounds for every memory. A load that sees a store that depends on it is not in the model; timers whose calls have the same IN are left to C156."),
"C160": ("partial", "False for all hosts (C160_refuted): the values arrive with their bytes in the opposite order (C160_swapped_partial). A receiver that applies TO_..._ENDIAN again gets the values (C160_right_partial). REAL and LREAL arrive exactly between hosts of the same byte order (C160_float_partial). C160_found: the values that a receiver finds exist and are determined by the telegram."),
"C161": ("partial", "False (C161_refuted): 'ab' and 'cd' can leave 'cb'; C161_malformed: what remains need not be well-formed. Exact: C161_end (each unit is the final one of a call that writes it) and C161_any_mixture (every such mixture occurs). C161_text: when all calls are done there is a text, no shorter than the shortest and no longer than the longest of theirs; C161_same_text: calls with the same text leave it. In the middle: C161_units, C161_terminated_partial (without STRING_TO_WSTRING, which writes no terminator), C161_single_units_partial. C161_stores and C161_independent: the stores are those of the calls alone, whatever the others have stored."),
"C162": ("partial", "False (C162_refuted: LEFT(s, 2) leaves '' while 'ab' becomes '', where LEFT of '' panics; C162_right: RIGHT(s, 1) leaves three characters; C162_malformed: bytes that were checked are no longer UTF-8 when they are read, which is undefined; C162_overrun: DELETE writes beyond a destination of the size of its argument, although all states are well-formed). True: C162_unchanged_partial, C162_concat_unchanged_partial (nobody changes the arguments: the ordinary call); C162_single_units_partial, C162_concat_single_units_partial (ASCII or no surrogates at any time: a panic or a text within the size, each unit from an argument); C162_bounds_partial, C162_concat_bounds_partial (LEFT, RIGHT, MID, CONCAT with any characters stay within the size, if what is read is still well-formed)."),
"C163": ("partial", "The first part is false (C163_refuted: over midnight the difference is negative). C163_time: TIME() is the time since the last local midnight. C163_modulo: the difference is right apart from whole days and changes of the offset, and never aborts. C163_same_day_partial: right if no midnight passes and the offset stays. The second part holds: C163_over_midnight, C163_meter (any number of scans, with the number of midnights); C163_offset_change: a change to or from summer time goes into the result."),
"C164": ("proved", "C164_sort (order of the units, nothing lost, stable, no abort), C164_sort_text (for STRINGs it is the order of the code points; for WSTRINGs see C53), C164_search (found or not, place, number of calls of LT, no access beside the array)."),
"C165": ("partial", "C165_refuted: an encoder that stands in the first quarter of a cycle when the program starts is counted one cycle too far, because R_TRIG reports an edge for an input that is TRUE in the first call.  C165_exact: the count in every case; C165_partial: the claim for every other first position, with the distance up to less than a cycle; C165_too_fast: the limit of a quarter is needed."),
"C166": ("partial", "C166_refuted_equal: EQ is TRUE for texts that have never been equal; C166_refuted_len: LEN of no state; C166_refuted_find: FIND misses a text that every state contains.  What holds: arguments that nobody changes (C166_compare_unchanged_partial, C166_unequal_unchanged_partial, C166_len_unchanged_partial, C166_find_unchanged_partial), one changing unit in each argument (C166_one_unit_partial), texts that differ in front of what changes (C166_front_partial), the length and the hits for characters of one unit (C166_len_single_units_partial, C166_find_single_units_partial), and a text that stays where it is is found (C166_find_lasting_partial)."),
"C167": ("proved", "C167_round_trip (both directions, no panic), C167_neighbours (one bit, also from the last position to the first), C167_reading (old or new), C167_binary (plain binary numbers have no such property)."),
"C168": ("proved", "C168_total (no panic), C168_burst (the claim), C168_one_bit (a single bit), C168_limits (one bit more can remain unnoticed; the polynomial has to be odd).  Telegrams are lists of bytes, their highest bits come first."),
"C169": ("partial", "C169_tod (every time of day), C169_date_partial and C169_dt_partial (every day but the first of the range; there the reading program stops), C169_typed_partial (digits in the right places: accepted exactly if there is such a date in the range, and then DATE_TO_STRING gives the text back).  False for the first day of the range (C169_refuted_first_day) and for typed strings with a sign in the place of a digit (C169_refuted: '2000-+1-01').  STRING only."),
"C170": ("proved", "C170_on_not_early, C170_on_not_late, C170_off_not_early, C170_off_not_late.  Preset times are non-negative.  C117 is the case of two on-delays."),
"C171": ("proved", "C171_first, C171_total, C171_starts, C171_lasts, C171_ends.  Preset times are non-negative.  It is what C14 and C16 ask of TP and TP does not do."),
"C172": ("proved", "C172_queue, C172_fifo, C172_log, C172_bound_sharp (the limit 512 cannot be raised)."),
"C173": ("proved", "C173_left_right, C173_mid, C173_insert, C173_delete, C173_replace.  Objects have less than 2^31 units, as the language guarantees on 32-bit targets.  All properties of these functions above are about 64-bit addresses and carry over."),
"C174": ("partial", "False when the upper half changes in the call (C174_refuted: 2^32 to 2^32 - 1 is read as 2^33 - 1 or 0; C174_refuted_bound: ET above PT).  Proved: it holds in every call that leaves the upper half as it is (C174_same_high_partial), a bound for the error otherwise (C174_error_partial), it always holds for presets below 2^32 ns (C174_short_partial), and a task that loads the upper half twice and finds it unchanged has a true ET if it does not itself interrupt the call (C174_double_read_partial)."),
"C175": ("proved", "C175_median_int, C175_median_float, C175_one_defective, C175_nan (the result is a NaN only if all three are), C175_filter_int, C175_filter_float, C175_filter_monotone."),
"C176": ("proved", "C176_equal_parts, C176_mul_first, C176_mul_first_aborts (spans that only the first version can divide), C176_mean, C176_mean_aborts."),
"C177": ("proved", "C177_output, C177_band, C177_switching, C177_reacts."),
"C178": ("proved", "C178_total, C178_running, C178_resting, C178_guarantee."),
"C179": ("proved", "C179_ton, C179_tof, C179_ctu, C179_ctd, C179_ctud. C179_tp_lasting and C179_load_lasting show that TP, and calls that load, are rightly excluded."),
"C180": ("proved", "C180_ton, C180_tof, C180_sr, C180_rs; C180_ctu_extra_reset is the last sentence. Presets from 0 on and a clock that does not go backwards are assumed of the timers, as in C11."),
"C181": ("proved", "C181_total, C181_safe, C181_starts, C181_tied (which assumes that the clock does not go backwards; the others do not)."),
"C182": ("proved", "C182_lamp, C182_none_lost, C182_later_alarms."),
"C183": ("proved", "C183_voting, C183_one_defective, C183_no_false_alarm."),
"C184": ("proved", "C184_held, C184_next, C184_all_steps."),
"C185": ("proved", "C185_kept, C185_left_out."),
"C186": ("proved", "C186_held, C186_order."),
"C187": ("proved", "C187_r_trig, C187_f_trig, C187_sr, C187_rs, C187_ctu, C187_ctd, C187_ctud, C187_tp, C187_ton, C187_tof, C187_ton_delay."),
})
