#!/usr/bin/env python3
"""Writes /verif/properties.jsonl (one JSON object per property)."""
import json, os
P = []
def p(title, statement, quantifier, why, anchors):
    P.append(dict(id="C%02d" % (len(P)+1), title=title, statement=statement,
                  quantifier=quantifier, why_tests_cant=why, anchors=anchors))

HIST = "A test fixes one finite call sequence; the claim is about every call history of every length."
ALL64 = "The input domain has 2^64 (or more) points; tests sample a handful."
ANYSTR = "Strings are unbounded and every mix of 1-4 byte characters matters; tests use a few literals."

# --- edge detection / bistables
p("R_TRIG fires exactly on rising edges",
  "After each call of an R_TRIG instance, Q is TRUE iff CLK is TRUE in this call and was FALSE in the previous call (or this is the first call).",
  "every finite sequence of CLK values fed to a fresh instance, every position in it", HIST,
  ["src/flanks.rs:R_TRIG", "src/utils.rs:Signal::rising_edge"])
p("F_TRIG fires exactly on falling edges",
  "After each call of an F_TRIG instance, Q is TRUE iff CLK is FALSE in this call and was TRUE in the previous call; in particular the first call never fires.",
  "every finite sequence of CLK values fed to a fresh instance, every position in it", HIST,
  ["src/flanks.rs:F_TRIG", "src/utils.rs:Signal::falling_edge"])
p("Edge accounting between R_TRIG and F_TRIG",
  "Fed with the same CLK sequence, an R_TRIG and an F_TRIG never fire in the same call, neither fires in two consecutive calls, and the number of rising pulses minus the number of falling pulses equals the current level of CLK (0 or 1).",
  "every finite sequence of CLK values", HIST, ["src/flanks.rs:R_TRIG", "src/flanks.rs:F_TRIG"])
p("SR is a set-dominant latch",
  "After any call history of an SR block, Q1 is TRUE iff some call had SET1 TRUE and no later call had RESET TRUE with SET1 FALSE.",
  "every finite sequence of (SET1, RESET) inputs", HIST, ["src/bistable_functionblocks.rs:SR"])
p("RS is a reset-dominant latch",
  "After any call history of an RS block, Q1 is TRUE iff some call had SET TRUE with RESET1 FALSE and neither that call nor any later call had RESET1 TRUE.",
  "every finite sequence of (SET, RESET1) inputs", HIST, ["src/bistable_functionblocks.rs:RS"])
# --- counters
p("CTU counts rising edges since the last reset, saturating",
  "After any call history of a CTU block, CV equals the number of CU rising edges after the last R=TRUE call (rising edges taken between consecutive calls with R=FALSE), capped at the largest value of the counter type.",
  "every finite sequence of (CU, R, PV) inputs, every counter type INT/DINT/UDINT/LINT/ULINT", HIST + " Saturation needs up to 2^64-1 calls.",
  ["src/counters.rs:ctu", "src/counters.rs:CTUParams"])
p("CTU output Q and freedom from overflow",
  "After every CTU call Q is TRUE iff CV >= PV of that call, CV stays within the type's range, and no call ever hits an arithmetic overflow.",
  "every reachable state, every input, every counter type", HIST, ["src/counters.rs:ctu"])
p("CTD counts down from the last loaded preset, saturating",
  "After any call history of a CTD block, CV equals PV of the last LD=TRUE call (0 if none) minus the number of CD rising edges after it, floored at the smallest value of the counter type; Q is TRUE iff CV <= 0; no call overflows.",
  "every finite sequence of (CD, LD, PV) inputs, every counter type", HIST, ["src/counters.rs:ctd", "src/counters.rs:CTDParams"])
p("CTUD counts net edges with saturation, reset over load",
  "After any call history of a CTUD block, CV is obtained from the last reset/load value (R wins over LD) by applying, call by call, +1 for a lone CU rising edge, -1 for a lone CD rising edge, 0 for none or both, saturating at the type bounds; QU iff CV >= PV, QD iff CV <= 0; no call overflows.",
  "every finite sequence of (CU, CD, R, LD, PV) inputs, every counter type", HIST, ["src/counters.rs:ctud", "src/counters.rs:CTUDParams"])
p("An edge that happens while R/LD is active is not counted later",
  "If the counting input rises during a call with R (or LD) TRUE, that edge is discarded: holding the input TRUE after the reset is released does not change CV.",
  "every counter history", HIST, ["src/counters.rs:ctu", "src/counters.rs:ctd", "src/counters.rs:ctud"])
# --- timers
p("TON output",
  "For TON with a preset PT>=0, after any call history Q is TRUE iff IN is TRUE, IN was TRUE in every call since some earlier call, and strictly more than PT has elapsed between the first call of that run of TRUE inputs and the present call.",
  "every finite sequence of (IN, PT, clock readings) with a non-decreasing clock", "Behaviour depends on call timing; tests try a few instants of a mock clock.",
  ["src/timers.rs:TON", "src/timers.rs:TimerParams"])
p("TON elapsed time",
  "After any TON call ET is 0 when IN is FALSE or in the call that starts the timer, otherwise min(PT, time since the start); hence 0 <= ET <= PT whenever PT >= 0, and ET never decreases while IN stays TRUE with constant PT.",
  "every finite sequence of (IN, PT, clock readings) with a non-decreasing clock shorter than 2^63 ns", "Behaviour depends on call timing; tests try a few instants of a mock clock.",
  ["src/timers.rs:TON", "src/timers.rs:TimerParams::update_elapsed_time"])
p("TOF output and elapsed time",
  "After any TOF history Q is TRUE iff IN is TRUE, or IN was TRUE at some earlier call and at most PT has elapsed since the first FALSE call after the last TRUE one (that first FALSE call itself included); ET is 0 while IN is TRUE and min(PT, time since the fall) afterwards.",
  "every finite sequence of (IN, PT, clock readings) with a non-decreasing clock", "Behaviour depends on call timing; tests try a few instants of a mock clock.",
  ["src/timers.rs:TOF", "src/timers.rs:TimerParams"])
p("TP never aborts the program",
  "Calling a TP timer cyclically with any inputs never panics.",
  "every finite sequence of (IN, PT, clock readings)", HIST, ["src/timers.rs:TP"])
p("TP pulse has length PT and is not disturbed by IN",
  "Once TP has been started by a call at time t0, every later call before re-arming yields Q=TRUE iff at most PT has elapsed since t0, whatever IN does meanwhile, and ET = min(PT, elapsed) until the timer is re-armed.",
  "every finite sequence of (IN, PT, clock readings) after the start", "Behaviour depends on call timing and on arbitrary glitches of IN.",
  ["src/timers.rs:TP", "src/timers.rs:TimerParams"])
p("TP can be re-triggered by the next rising edge after the pulse",
  "After a pulse has expired and IN has returned to FALSE, the next rising edge of IN starts a new pulse.",
  "every history of a TP instance", HIST, ["src/timers.rs:TP"])
p("TON/TOF never abort and Q/ET agree up to the clock reads of one call",
  "TON and TOF never panic, and after each call ET and Q are consistent: for TON Q=TRUE implies the second clock reading of that call is more than PT after the start; when the two clock readings of a call coincide, TON Q=TRUE implies ET=PT.",
  "every reachable state of TON/TOF, every clock schedule (the clock may advance between the two readings inside one call)",
  "The race between two clock readings inside one call cannot be scheduled by a test using the real clock.", ["src/timers.rs:TON", "src/timers.rs:TOF", "src/timers.rs:TimerParams::is_in_preset_range"])
# --- selectors
p("MAX and MIN of integer-like types",
  "MAX (MIN) of a non-empty vector returns one of its elements that is >= (<=) all the others; on an empty vector or null pointer it panics.",
  "every vector length and every element value, all integer-represented types", "Unbounded vector length.", ["src/types.rs:define_order_type", "iec61131-st/selectors.st:MAX", "iec61131-st/selectors.st:MIN"])
p("LIMIT clamps",
  "For MN <= MX, LIMIT(MN, IN, MX) lies in [MN, MX], equals IN if IN is in the range, is the closest bound otherwise, is idempotent and monotone in IN; for MN > MX it returns MN when IN < MN and MX otherwise.",
  "every MN, IN, MX of every integer-represented type", ALL64, ["src/types.rs:limit", "iec61131-st/selectors.st:LIMIT"])
p("MAX and MIN of REAL/LREAL ignore NaN",
  "MAX (MIN) of a non-empty REAL/LREAL vector returns an element of the vector; if at least one element is not NaN the result is not NaN and is >= (<=) every non-NaN element, in any order of the elements.",
  "every vector of bit patterns (NaN, infinities, signed zeros, subnormals included)", "Unbounded vectors over 2^32/2^64 bit patterns.", ["src/types.rs:define_float_type"])
p("LIMIT on REAL/LREAL always returns a value within the bounds",
  "For ordered, non-NaN bounds MN <= MX, LIMIT(MN, IN, MX) for REAL/LREAL is a value between MN and MX.",
  "every triple of REAL/LREAL bit patterns", ALL64, ["src/types.rs:limit", "src/types.rs:define_float_type"])
# --- bit ops
p("SHL/SHR are multiplication/division by 2^n inside the word",
  "For n smaller than the word width, SHL(x,n) = x*2^n mod 2^width and SHR(x,n) = x div 2^n, on BYTE/WORD/DWORD/LWORD, with no panic.",
  "every word value and every n below the width", ALL64, ["src/bit_shift_functions.rs:SHL__BYTE", "src/bit_shift_functions.rs:SHR__LWORD"])
p("Shift counts of the width or more shift everything out",
  "SHL/SHR by n >= width return 0 (the vacated positions are filled with zeros).",
  "every word value and every n up to 2^32-1", ALL64, ["src/bit_shift_functions.rs:SHL__BYTE", "iec61131-st/bit_shift_functions.st"])
p("ROL/ROR are exact rotations",
  "Bit i of the input appears at position (i+n) mod width of ROL(x,n) and (i-n) mod width of ROR(x,n); hence ROR undoes ROL, rotations compose additively, depend only on n mod width and preserve the number of set bits.",
  "every word value, every n up to 2^32-1, every width", ALL64, ["src/bit_shift_functions.rs:ROL__BYTE", "src/bit_shift_functions.rs:ROR__LWORD"])
p("IS_VALID_BCD",
  "IS_VALID_BCD(x) is TRUE iff every 4-bit digit of x is at most 9, i.e. iff x is the BCD encoding of some decimal number with width/4 digits; exactly 10^(width/4) words are valid.",
  "every BYTE/WORD/DWORD/LWORD value", ALL64, ["src/validation_functions.rs:is_valid_bcd"])
p("IS_VALID for REAL/LREAL",
  "IS_VALID is TRUE iff the bit pattern denotes a finite number, i.e. its exponent field is not all ones.",
  "every REAL/LREAL bit pattern", ALL64, ["src/validation_functions.rs:IS_VALID__REAL", "src/validation_functions.rs:IS_VALID__LREAL"])
p("Endianness functions are byte swaps or identities depending on the host",
  "On a little-endian host TO_BIG_ENDIAN and FROM_LITTLE_ENDIAN reverse the bytes and TO_LITTLE_ENDIAN and FROM_BIG_ENDIAN are the identity; on a big-endian host the roles are exchanged; byte reversal is an involution that maps byte k to byte n-1-k.",
  "every integer-represented value of every width, both host byte orders", ALL64, ["src/endianness_conversion_functions.rs:define_endianness_for_int_types"])
p("FROM_x_ENDIAN undoes TO_x_ENDIAN",
  "FROM_BIG_ENDIAN(TO_BIG_ENDIAN(x)) = x and FROM_LITTLE_ENDIAN(TO_LITTLE_ENDIAN(x)) = x.",
  "every value of every supported type", ALL64, ["src/endianness_conversion_functions.rs:define_endianness_for_int_types"])
p("Endianness conversion of REAL/LREAL reorders bytes like the integer version",
  "TO_BIG_ENDIAN on a REAL/LREAL produces the byte-reversed bit pattern on a little-endian host.",
  "every REAL/LREAL bit pattern", ALL64, ["src/endianness_conversion_functions.rs:TO_BIG_ENDIAN__REAL", "src/endianness_conversion_functions.rs:TO_BIG_ENDIAN__LREAL"])
# --- date and time
p("SPLIT_DATE follows the Gregorian calendar",
  "The (year, month, day) computed for a timestamp is 1970-01-01 for day 0 and advances by exactly one calendar day (month lengths and leap years of the proleptic Gregorian calendar) from each day to the next, on every timestamp; time of day does not matter.",
  "every 64-bit nanosecond timestamp", "213504 days and 2^64 timestamps; tests try a few dates.", ["src/date_time_extra_functions.rs:SPLIT_DATE__INT", "src/date_time_extra_functions.rs:SPLIT_DT__INT"])
p("SPLIT functions never panic and fill all outputs in range",
  "SPLIT_DATE, SPLIT_TOD and SPLIT_DT of every integer type succeed on every timestamp (the year always fits), return 0 and yield year in 1677..2262, month 1..12, day 1..31, hour 0..23, minute/second 0..59, millisecond 0..999.",
  "every 64-bit nanosecond timestamp, every output type", ALL64, ["src/date_time_extra_functions.rs:SPLIT_DATE__UINT", "src/date_time_extra_functions.rs:SPLIT_DT__ULINT"])
p("CONCAT_DATE and SPLIT_DATE are inverse",
  "SPLIT_DATE(CONCAT_DATE(y,m,d)) = (y,m,d) whenever CONCAT_DATE succeeds, and CONCAT_DATE(SPLIT_DATE(t)) is midnight of t's day whenever that midnight is representable.",
  "every calendar date and every timestamp", "Tests try a few dates.", ["src/date_time_extra_functions.rs:concat_date", "src/date_time_extra_functions.rs:SPLIT_DATE__DINT"])
p("CONCAT_DATE rejects exactly the invalid or unrepresentable dates",
  "concat_date(y,m,d) succeeds iff (y,m,d) is a real calendar date whose midnight is representable as a 64-bit nanosecond timestamp; otherwise it panics.",
  "every (i32,u32,u32)", "2^96 inputs.", ["src/date_time_extra_functions.rs:concat_date"])
p("DATE_AND_TIME = DATE + TIME_OF_DAY",
  "DATE_AND_TIME_TO_DATE rounds down to midnight, DATE_AND_TIME_TO_TIME_OF_DAY is the remainder in [0, 24h), and CONCAT_DATE_TOD of the two gives back the original; CONCAT_DATE_TOD uses only the day of its first and only the time of day of its second argument.",
  "every 64-bit nanosecond timestamp (negative ones included)", ALL64, ["src/date_time_conversion.rs:DATE_AND_TIME_TO_DATE", "src/date_time_conversion.rs:DATE_AND_TIME_TO_TIME_OF_DAY", "src/date_time_extra_functions.rs:CONCAT_DATE_TOD"])
p("CONCAT_TOD and SPLIT_TOD are inverse; CONCAT_TOD rejects exactly invalid times",
  "concat_tod(h,m,s,ms) equals ((h*60+m)*60+s)*1000+ms milliseconds and succeeds iff h<24, m<60, s<60, ms<1000; SPLIT_TOD inverts it.",
  "every (u32,u32,u32,u32)", "2^128 inputs.", ["src/date_time_extra_functions.rs:concat_tod", "src/date_time_extra_functions.rs:SPLIT_TOD__UDINT"])
p("CONCAT_DATE/CONCAT_TOD reject out-of-range arguments for every integer type",
  "For every ANY_INT instantiation an argument outside its legal range makes the function panic rather than produce a date or time.",
  "every argument of every integer type", ALL64, ["src/date_time_extra_functions.rs:CONCAT_DATE__LINT", "src/date_time_extra_functions.rs:CONCAT_TOD__LINT", "src/date_time_extra_functions.rs:CONCAT_TOD__SINT"])
p("DAY_OF_WEEK",
  "DAY_OF_WEEK is in 0..6, is 4 (Thursday, Sunday=0) on 1970-01-01, is constant within a day and advances by one modulo 7 each day.",
  "every 64-bit nanosecond timestamp", ALL64, ["src/date_time_extra_functions.rs:DAY_OF_WEEK"])
p("ADD_TIME/SUB_TIME are exact or panic",
  "ADD_TIME(a,b) (SUB_TIME) returns the exact sum (difference) if it fits in 64 bits and panics otherwise.",
  "every pair of 64-bit durations", ALL64, ["src/date_time_numeric_functions.rs:ADD_TIME", "src/date_time_numeric_functions.rs:SUB_TIME"])
p("Date/time arithmetic is exact or panics",
  "ADD_DT_TIME, ADD_TOD_TIME, SUB_DT_TIME, SUB_TOD_TIME, SUB_DT_DT, SUB_TOD_TOD, SUB_DATE_DATE return the exact integer result if it is representable and panic otherwise; ADD then SUB of the same duration is the identity.",
  "every pair of 64-bit operands", ALL64, ["src/date_time_numeric_functions.rs:add_datetime_time", "src/date_time_numeric_functions.rs:sub_datetimes", "src/date_time_numeric_functions.rs:sub_datetime_duration"])
p("MUL/DIV of TIME by an integer are exact or panic",
  "MUL of TIME by a signed integer returns the exact product or panics on overflow; DIV returns the quotient truncated toward zero and panics exactly on a zero divisor or on MIN/-1; unsigned operands up to 2^63-1 behave alike; all width variants agree.",
  "every TIME value and every integer operand of every type", ALL64, ["src/date_time_numeric_functions.rs:checked_mul_time_with_signed_int", "src/date_time_numeric_functions.rs:checked_div_time_by_signed_int"])
p("MUL/DIV of TIME by ULINT panics only when the exact result does not fit",
  "MUL/DIV of TIME by a ULINT returns the exact result whenever that result is representable (and the divisor is not 0).",
  "every TIME value and every ULINT", ALL64, ["src/date_time_numeric_functions.rs:checked_mul_time_with_unsigned_int", "src/date_time_numeric_functions.rs:checked_div_time_by_unsigned_int"])
p("MUL/DIV of TIME by REAL/LREAL: sign rule, zero and non-finite operands",
  "Negating either operand negates the result (up to panics), the result sign is the product of the operand signs, division by zero, division by NaN and multiplication by NaN or an infinity panic; multiplication by zero and division by an infinity give 0.",
  "every TIME value and every REAL/LREAL bit pattern", ALL64, ["src/date_time_numeric_functions.rs:checked_mul_time_with_f32", "src/date_time_numeric_functions.rs:checked_div_time_by_f64"])
# --- strings
p("STRING arguments are accepted iff they are well-formed UTF-8",
  "A STRING function that decodes its argument panics iff the bytes before the terminator are not well-formed UTF-8, and otherwise sees exactly the characters whose UTF-8 encoding they are.",
  "every byte string of every length", ANYSTR, ["src/string_functions.rs:EncodedCharsIter", "src/string_functions.rs:ptr_to_slice"])
p("LEN counts characters before the first terminator",
  "LEN of a STRING is the number of Unicode characters it encodes, not the number of bytes; LEN of a WSTRING counts a surrogate pair once and every unpaired surrogate once; bytes after the first NUL are irrelevant.",
  "every string content of length below 2^31 and every buffer tail", ANYSTR, ["src/string_functions.rs:LEN__STRING", "src/string_functions.rs:LEN__WSTRING"])
p("LEFT/RIGHT/MID return the right characters or panic",
  "LEFT(s,L)/RIGHT(s,L)/MID(s,L,P) write exactly the first L / last L / L characters from 1-based position P, followed by a terminator, when 0<=L and the range lies inside s; in every other case they panic.",
  "every string, every L and P in i32", ANYSTR, ["src/string_functions.rs:LEFT_EXT__STRING", "src/string_functions.rs:RIGHT_EXT__STRING", "src/string_functions.rs:MID_EXT__STRING"])
p("INSERT/DELETE/REPLACE edit at character positions or panic",
  "INSERT(a,b,P), DELETE(s,L,P), REPLACE(a,b,L,P) write exactly the edited character sequence followed by a terminator when L>=0 and the positions are inside the string, and panic when a position is out of bounds or too many characters are addressed.",
  "every string pair, every non-negative L and every P in i32", ANYSTR, ["src/string_functions.rs:INSERT_EXT__STRING", "src/string_functions.rs:DELETE_EXT__STRING", "src/string_functions.rs:REPLACE_EXT__STRING"])
p("DELETE/REPLACE reject negative lengths",
  "DELETE and REPLACE with a negative number of characters panic, in every build profile.",
  "every string, every negative L, every P, debug and release builds", ANYSTR, ["src/string_functions.rs:DELETE_EXT__STRING", "src/string_functions.rs:REPLACE_EXT__STRING"])
p("CONCAT concatenates in order",
  "CONCAT of n>=1 strings writes the concatenation of their characters in argument order followed by a single terminator.",
  "every number of arguments and every string", ANYSTR, ["src/string_functions.rs:CONCAT_EXT__STRING", "src/string_functions.rs:CONCAT_EXT__WSTRING"])
p("Writers touch only the result and its terminator",
  "A successful LEFT/RIGHT/MID/INSERT/DELETE/REPLACE/CONCAT/WSTRING_TO_STRING modifies exactly the encoded result and one terminator in the destination; everything beyond keeps its value; the call stays inside the buffer iff the encoded result plus terminator fits.",
  "every string, every destination buffer content and size", ANYSTR, ["src/string_functions.rs:CharsEncoder"])
p("FIND on STRING returns the character index of the first occurrence",
  "For well-formed strings FIND(a,b) is 1 + the least character index at which b occurs in a, and 0 if b does not occur or is empty; it never panics, although it searches bytes.",
  "every pair of well-formed UTF-8 strings", ANYSTR, ["src/string_functions.rs:FIND__STRING"])
p("FIND on WSTRING returns the character index of the first occurrence",
  "For well-formed UTF-16 strings FIND(a,b) is 1 + the least character index at which b occurs in a, and 0 if b does not occur or is empty.",
  "every pair of well-formed UTF-16 strings", ANYSTR, ["src/string_functions.rs:FIND__WSTRING"])
p("Variadic string comparison is a chain of pairwise comparisons",
  "GT/GE/EQ/LE/LT of n>=2 strings is TRUE iff the relation holds between every two strings taken in argument order; fewer than two arguments panic; NE(a,b) iff not EQ(a,b); exactly one of LT/EQ/GT holds for two strings.",
  "every number of arguments and every string content", ANYSTR, ["src/string_functions.rs:compare", "src/string_functions.rs:NE__STRING"])
p("String order is code point order",
  "For well-formed strings LT/GT order strings lexicographically by Unicode code point.",
  "every pair of well-formed STRINGs / WSTRINGs", ANYSTR, ["src/string_functions.rs:compare", "iec61131-st/string_functions.st:GT"])
p("STRING <-> WSTRING conversions are inverse on well-formed text",
  "STRING_TO_WSTRING then WSTRING_TO_STRING reproduces a well-formed STRING, and the other way round for a well-formed WSTRING.",
  "every well-formed string", ANYSTR, ["src/string_conversion.rs:WSTRING_TO_STRING_EXT", "src/string_conversion.rs:STRING_TO_WSTRING_EXT"])
p("WSTRING_TO_STRING never panics and replaces unpaired surrogates",
  "WSTRING_TO_STRING succeeds on every WSTRING: well-formed parts are transcoded and each unpaired surrogate becomes U+FFFD; the output is always well-formed UTF-8.",
  "every sequence of 16-bit units", ANYSTR, ["src/string_conversion.rs:WSTRING_TO_STRING_EXT"])
p("Conversions leave a terminated string in the destination",
  "After STRING_TO_WSTRING_EXT, BYTE/LWORD/LINT_TO_STRING_EXT, DATE/TOD/DT/TIME_TO_STRING_EXT the destination contains exactly the result as a NUL-terminated string, whatever it contained before.",
  "every input and every previous destination content", ANYSTR, ["src/string_conversion.rs:STRING_TO_WSTRING_EXT", "src/extra_functions.rs:LINT_TO_STRING_EXT"])
p("CHAR <-> WCHAR",
  "CHAR_TO_WCHAR maps byte c to code unit c; WCHAR_TO_CHAR(CHAR_TO_WCHAR(c)) = c.",
  "every CHAR and every WCHAR", "65536 inputs; tests try a few.", ["src/string_conversion.rs:WCHAR_TO_CHAR", "src/string_conversion.rs:CHAR_TO_WCHAR"])
p("Algebra of string operations",
  "CONCAT(LEFT(s,L), RIGHT(s,LEN(s)-L)) = s; DELETE(INSERT(a,b,P), LEN(b), P+1) = a; REPLACE(a,b,L,P) = INSERT(DELETE(a,L,P), b, P-1); MID(s,L,1)=LEFT(s,L); LEN(CONCAT(a,b)) = LEN(a)+LEN(b); FIND(s, MID(s,L,P)) <= P.",
  "every well-formed string and every legal position/length", ANYSTR, ["src/string_functions.rs"])
# --- number <-> string
p("Integer to string to integer round trip",
  "STRING_TO_LINT(LINT_TO_STRING(x)) = x for every LINT, likewise DINT; LWORD/BYTE_TO_STRING print the unsigned decimal value without leading zeros.",
  "every 64-bit value", ALL64, ["src/extra_functions.rs:LINT_TO_STRING_EXT", "src/extra_functions.rs:LWORD_TO_STRING_EXT", "src/extra_functions.rs:string_to_int"])
p("STRING_TO_LINT/DINT accept exactly the in-range literals",
  "STRING_TO_LINT/DINT return the value of an optionally signed literal in base 10, 16 (16#, 0x, 0X), 8 (8#) or 2 (2#, 0b, 0B) if it fits the type, and panic on every other string (empty, bad digit, overflow).",
  "every byte string of every length", ANYSTR, ["src/extra_functions.rs:string_to_int", "src/extra_functions.rs:STRING_TO_LINT", "src/extra_functions.rs:STRING_TO_DINT"])
p("TIME_TO_STRING shows the duration",
  "For a non-negative duration, TIME_TO_STRING writes the non-zero components of the unique decomposition into d/h/m/s/ms/us/ns, from which the duration can be recovered; different durations give different strings.",
  "every non-negative 64-bit duration", ALL64, ["src/extra_functions.rs:TIME_TO_STRING_EXT", "src/extra_functions.rs:parse_timestamp"])
p("TIME_TO_STRING of negative durations",
  "The text produced for a negative duration denotes that duration (with a sign) and differs from that of every other duration.",
  "every negative 64-bit duration", ALL64, ["src/extra_functions.rs:parse_timestamp"])
p("DATE/TOD/DT_TO_STRING are faithful ISO-style text",
  "DATE_TO_STRING writes YYYY-MM-DD of the timestamp's calendar date, TOD_TO_STRING HH:MM:SS with a 0/3/6/9 digit fraction, DT_TO_STRING both joined by '-'; the date and the time of day can be recovered from the text.",
  "every 64-bit nanosecond timestamp", ALL64, ["src/extra_functions.rs:DATE_TO_STRING_EXT", "src/extra_functions.rs:TOD_TO_STRING_EXT", "src/extra_functions.rs:DT_TO_STRING_EXT"])
# --- ST layer
p("Integer and bit-string conversions are value-preserving or modular",
  "x_TO_y between integer/bit-string types yields the same number when it is representable in y and otherwise the number congruent modulo 2^width(y); converting to a type at least as wide and back is the identity.",
  "every value of every source type, every pair of types", ALL64, ["iec61131-st/num_conversion.st", "iec61131-st/bit_conversion.st", "iec61131-st/bit_num_conversion.st"])
p("ABS is the absolute value",
  "ABS of a signed integer is its absolute value.",
  "every value of SINT/INT/DINT/LINT", ALL64, ["iec61131-st/numerical_functions.st:ABS__DINT", "iec61131-st/numerical_functions.st:ABS__SINT"])
p("Bit reinterpretation of REAL/LREAL is lossless",
  "REAL_TO_DWORD(DWORD_TO_REAL(x)) = x and LREAL_TO_LWORD(LWORD_TO_LREAL(x)) = x, and vice versa.",
  "every bit pattern (NaN payloads included)", ALL64, ["src/bit_num_conversion.rs"])
p("TIME() is the time since local midnight",
  "TIME() is between 0 and 24h (25 h bound not needed; one extra second allowed for a leap second), is 0 at midnight and grows by the elapsed time between two calls on the same day.",
  "every wall-clock reading", "Depends on the wall clock.", ["src/extra_functions.rs:TIME"])
p("ROUND rounds half away from zero",
  "ROUND of a finite REAL/LREAL is the nearest integer, ties away from zero; it is the identity on integers, odd, monotone, and keeps NaN and infinities.",
  "every REAL/LREAL bit pattern", ALL64, ["src/numerical_functions.rs:ROUND__REAL", "src/numerical_functions.rs:ROUND__LREAL"])

# --- found while building the model
p("A negative preset time never expires",
  "With PT < 0 a TON never switches Q on, and a TOF never switches Q off after a fall (the preset is reinterpreted as about 584 years), on any clock that runs for less than 2^63 ns.",
  "every finite sequence of (IN, PT, clock readings) and every negative PT in the last call", HIST,
  ["src/timers.rs:TimerParams::is_in_preset_range"])

p("Conversions to BOOL test for non-zero",
  "Every x_TO_BOOL conversion yields TRUE exactly for non-zero values.",
  "all x_TO_BOOL functions and all values of their input type",
  "2^64 input values; tests try 0 and 1",
  ["iec61131-st/bit_conversion.st:WORD_TO_BOOL", "iec61131-st/extra_functions.st:LINT_TO_BOOL", "iec61131-st/extra_functions.st:DINT_TO_BOOL"])
p("CONCAT_DT combines all seven parts and SPLIT_DT inverts it",
  "Whenever CONCAT_DT(y,m,d,h,mi,s,ms) succeeds, SPLIT_DT of the result is (y,m,d,h,mi,s,ms).",
  "all seven arguments of every integer type", "Seven independent wide integers.",
  ["iec61131-st/date_time_extra_functions.st:CONCAT_DT__INT", "src/date_time_extra_functions.rs:CONCAT_DATE_TOD", "src/date_time_extra_functions.rs:SPLIT_DT__INT"])
p("MUL of TIME by REAL/LREAL is accurate",
  "MUL(t, x) for finite x differs from the exact product by at most 5 * 2^-24 (REAL) or 5 * 2^-53 (LREAL) of its magnitude plus half a nanosecond (one nanosecond with a standard library that truncates), and returns a value whenever the exact product, enlarged by that error, fits in 64 bits.",
  "every TIME and every finite REAL/LREAL bit pattern", ALL64, ["src/date_time_numeric_functions.rs:checked_mul_time_with_f32", "src/date_time_numeric_functions.rs:checked_mul_time_with_f64"])
p("DIV of TIME by REAL/LREAL is accurate",
  "DIV(t, x) for finite non-zero x differs from the exact quotient by at most 5 * 2^-24 (REAL) or 5 * 2^-53 (LREAL) of its magnitude plus half a nanosecond (one nanosecond with a standard library that truncates), and returns a value whenever the exact quotient, enlarged by that error, fits in 64 bits.",
  "every TIME and every finite non-zero REAL/LREAL bit pattern", ALL64, ["src/date_time_numeric_functions.rs:checked_div_time_by_f32", "src/date_time_numeric_functions.rs:checked_div_time_by_f64"])
p("WSTRING functions on unpaired surrogates",
  "LEFT, RIGHT, MID, DELETE, INSERT and REPLACE accept a WSTRING with unpaired surrogates: each counts as one character, and with legal parameters and enough room the call succeeds exactly if no unpaired surrogate is part of the result.",
  "every sequence of 16-bit units and all legal parameters", "Sequences of units are unbounded; unit tests use well-formed literals.",
  ["src/string_functions.rs:LEFT_EXT__WSTRING", "src/string_functions.rs:RIGHT_EXT__WSTRING", "src/string_functions.rs:MID_EXT__WSTRING", "src/string_functions.rs:INSERT_EXT__WSTRING", "src/string_functions.rs:DELETE_EXT__WSTRING", "src/string_functions.rs:REPLACE_EXT__WSTRING"])
p("WSTRING_TO_LINT/DINT agree with STRING_TO_LINT/DINT",
  "WSTRING_TO_LINT and WSTRING_TO_DINT of a text give the same outcome as STRING_TO_LINT and STRING_TO_DINT of that text.",
  "every well-formed text", "Texts are unbounded; the difference shows only for out-of-range numbers and for long texts.",
  ["iec61131-st/extra_functions.st:WSTRING_TO_LINT", "iec61131-st/extra_functions.st:WSTRING_TO_DINT", "src/string_conversion.rs:WSTRING_TO_STRING_EXT"])
NC = "iec61131-st/num_conversion.st:"
p("REAL/LREAL to integer conversions round to nearest",
  "Every REAL/LREAL to integer conversion (and LREAL_TO_TIME/LTIME) gives the integer nearest to its argument, halves away from zero, whenever that integer belongs to the result type.",
  "all such functions and all finite bit patterns", ALL64, [NC + "LREAL_TO_INT", NC + "REAL_TO_DINT", "iec61131-st/extra_functions.st:LREAL_TO_TIME", "src/numerical_functions.rs:ROUND__LREAL"])
p("REAL/LREAL to integer conversions always have a defined result",
  "A REAL/LREAL to integer conversion yields some value of the result type for every argument, including NaN, infinities and numbers that are too large.",
  "all such functions and all bit patterns", "The repository's tests exclude out-of-range values (num_conversion_tests.rs:115).", [NC + "LREAL_TO_LINT", NC + "REAL_TO_USINT"])
p("Integer to REAL/LREAL conversions give the nearest float",
  "Every integer to REAL/LREAL conversion (and TIME/LTIME_TO_LREAL) gives the nearest float, ties to even; it is finite, keeps the sign, is monotone, and exact up to 2^24 (REAL) or 2^53 (LREAL).",
  "all such functions and all integers of the input type", ALL64, [NC + "LINT_TO_REAL", NC + "ULINT_TO_LREAL", "iec61131-st/extra_functions.st:TIME_TO_LREAL"])
p("Integer to float to integer round trip",
  "Converting an integer to REAL or LREAL and back gives the integer again.",
  "all pairs of such functions and all integers of the type", "Fails only for a sparse set of large numbers.", [NC + "LINT_TO_LREAL", NC + "LREAL_TO_LINT", NC + "DINT_TO_REAL", NC + "REAL_TO_DINT"])
p("REAL <-> LREAL conversion",
  "LREAL_TO_REAL gives the nearest REAL, ties to even, and keeps sign, NaN and infinities; REAL_TO_LREAL is exact and LREAL_TO_REAL undoes it bit for bit (a NaN stays a NaN).",
  "all bit patterns", ALL64, [NC + "LREAL_TO_REAL", NC + "REAL_TO_LREAL"])
p("TRUNC cuts off the fraction",
  "TRUNC of a REAL or LREAL is the integer part, rounded towards zero, whenever that fits a LINT; exactly for NaN, infinities and larger magnitudes the result is undefined.",
  "all bit patterns", ALL64, ["iec61131-st/extra_functions.st:TRUNC__REAL", "iec61131-st/extra_functions.st:TRUNC__LREAL"])
p("ABS of REAL/LREAL",
  "ABS of a finite REAL or LREAL is finite, its value is the absolute value, and its sign bit is clear.",
  "all finite bit patterns", ALL64, ["iec61131-st/numerical_functions.st:ABS__REAL", "iec61131-st/numerical_functions.st:ABS__LREAL"])
EF = "src/extra_functions.rs:"
EST = "iec61131-st/extra_functions.st:"
p("REAL/LREAL as text",
  "LREAL_TO_STRING writes the value rounded to six decimals, from 10^14 on rounded to seven significant digits in scientific notation, ties to even, with a minus sign for a set sign bit; infinities are inf/-inf, NaN is NaN. REAL_TO_STRING writes the text of the REAL in the same way.",
  "all bit patterns", ALL64, [EF + "LREAL_TO_STRING_EXT", EF + "REAL_TO_STRING_EXT", EST + "REAL_TO_STRING"])
p("Accuracy and order of the text of a float",
  "The number shown for a finite REAL/LREAL differs from the value by at most half a millionth, from the scientific limit on by at most half a millionth of the value; of two floats the larger never shows a smaller number.",
  "all finite bit patterns and all pairs of them", ALL64, [EF + "LREAL_TO_STRING_EXT", EF + "REAL_TO_STRING_EXT"])
p("LREAL_TO_STRING and REAL_TO_STRING never abort",
  "LREAL_TO_STRING and REAL_TO_STRING return normally for every number.",
  "all bit patterns", "The abort needs a huge negative number; tests use ordinary values.", [EF + "LREAL_TO_STRING_EXT", EST + "LREAL_TO_STRING", EST + "REAL_TO_STRING"])
p("STRING_TO_LREAL and STRING_TO_REAL accept decimal literals and round correctly",
  "STRING_TO_LREAL/REAL accept exactly an optional sign followed by a decimal number (point and exponent optional), inf, infinity or nan in any case; the result is the float nearest to the number, ties to even, with the sign of the text; any other string aborts the program.",
  "all strings, also those that are not UTF-8", "Strings and numbers are unbounded; rounding errors show for rare inputs only.", [EF + "STRING_TO_LREAL", EF + "STRING_TO_REAL"])
p("Float to text round trip",
  "STRING_TO_LREAL/REAL of the text written by LREAL_TO_STRING/REAL_TO_STRING gives the number back.",
  "all finite bit patterns", ALL64, [EF + "LREAL_TO_STRING_EXT", EF + "STRING_TO_LREAL", EST + "REAL_TO_STRING", EF + "STRING_TO_REAL"])
p("WSTRING_TO_LREAL/REAL agree with STRING_TO_LREAL/REAL",
  "WSTRING_TO_LREAL and WSTRING_TO_REAL of a text give the same outcome as STRING_TO_LREAL and STRING_TO_REAL of that text.",
  "every well-formed text", "Texts are unbounded; the difference shows only for long texts.", [EST + "WSTRING_TO_LREAL", EST + "WSTRING_TO_REAL"])
AR = "src/arithmetic_functions.rs:"
AST = "iec61131-st/arithmetic_functions.st:"
p("SQRT",
  "SQRT of a finite REAL/LREAL that is not negative is the float nearest to the square root, ties to even, and finite, with a relative error of at most 2^-24 (REAL) or 2^-53 (LREAL) for every positive number; the root of a float that is exactly the square of a positive float is that float; larger numbers have no smaller roots; NaN and negative numbers give NaN, zeros and infinity themselves.",
  "all bit patterns and all pairs of them", ALL64, [AR + "SQRT__REAL", AR + "SQRT__LREAL"])
p("Constants",
  "PI, FRAC_PI_2, FRAC_PI_4 and E as REAL and LREAL are the floats nearest to the real numbers pi, pi/2, pi/4 and e.",
  "all floats as competitors for being nearest", "A test compares with another rounded constant; nearness is a statement about a real number and all floats.", [AR + "PI_LREAL", AR + "PI_REAL", AR + "E_LREAL", AR + "E_REAL"])
p("EXPT with an integer exponent: exact and special cases",
  "EXPT(x, n) of a finite REAL/LREAL x and a DINT n is exactly x^n whenever the powers of x up to |n| (and, for negative n, the result) are floats, e.g. for whole numbers with x^n at most 2^24 resp. 2^53; x^0 is 1 and x^1 is x; the result is NaN only for x NaN and n not 0; it is negative exactly for negative x and odd n.",
  "all bit patterns and all integer exponents", ALL64, [AR + "EXPT__REAL__DINT", AR + "EXPT__LREAL__DINT"])
p("EXPT with an integer exponent: accuracy",
  "Away from overflow and underflow, EXPT(x, n) for n > 0 is x^n times a factor between (1-u)^(n-1) and (1+u)^(n-1), u being half a unit in the last place; for negative exponents one more rounding is added.",
  "all finite bit patterns and all integer exponents within range", ALL64, [AR + "EXPT__REAL__DINT", AR + "EXPT__LREAL__DINT"])
p("EXPT with other integer exponents",
  "EXPT(x, n) with an exponent of any integer type gives what the exact exponent n asks for.",
  "all bit patterns and all exponents of the eight integer types", "The deviation needs exponents beyond 2^31, which no test uses.", [AST + "EXPT__REAL__LINT", AST + "EXPT__LREAL__ULINT", AST + "EXPT__LREAL__UDINT"])
SF = "iec61131-st/string_functions.st:"
SC = "iec61131-st/string_conversion.st:"
p("Conversions to WSTRING give the text of the conversion to STRING",
  "For BYTE, DWORD, LWORD, DINT, LINT, TIME, DATE, TOD, DT, REAL and LREAL, x_TO_WSTRING returns a terminated WSTRING with exactly the text that x_TO_STRING returns (the decimal notation, components, date and time, or float text), or both abort.",
  "all values of the input types", ALL64, [EST + "LINT_TO_WSTRING", EST + "DT_TO_WSTRING", EST + "REAL_TO_WSTRING", EST + "TIME_TO_WSTRING"])
p("String functions stay inside their 2048-unit result",
  "LEFT, RIGHT, MID, DELETE, INSERT, REPLACE, CONCAT, STRING_TO_WSTRING and WSTRING_TO_STRING of strings of at most 2048 units return a terminated string inside the result variable.",
  "all texts of at most 2048 units and all legal parameters", "Tests use short strings; the overrun needs long ones.", [SF + "LEFT__STRING", SF + "INSERT__STRING", SF + "REPLACE__STRING", SF + "CONCAT__STRING", SC + "WSTRING_TO_STRING"])
p("Comparison operators on strings",
  "The operators =, < and > on STRING and WSTRING (STRING_EQUAL, STRING_LESS, STRING_GREATER and the WSTRING ones) are equality and lexicographic order of the strings.",
  "all pairs of strings", "Strings are unbounded; the difference shows only beyond 80 units.", [SF + "STRING_EQUAL", SF + "STRING_LESS", SF + "WSTRING_GREATER"])
p("Single characters and strings",
  "STRING_TO_CHAR/WSTRING_TO_WCHAR give the first unit of the string; CHAR_TO_STRING/WCHAR_TO_WSTRING give the string that consists of that character.",
  "all strings, all characters, and all contents of the memory behind the parameter", "What lies behind the parameter in memory is not under the control of a test.", [SC + "STRING_TO_CHAR", SC + "CHAR_TO_STRING", SC + "WCHAR_TO_WSTRING"])
p("Logarithms, exponential and trigonometric functions",
  "With a math library of relative accuracy eps, LN, LOG, EXP, SIN, COS, TAN, ASIN, ACOS, ATAN, ATAN2(y, x) and EXPT of REAL/LREAL are within eps of the natural and decimal logarithm, e^x, the trigonometric functions in radians and their inverses, the angle of the point (x, y), and the power.",
  "all finite arguments in the domain of the function, all accuracies and all math libraries of that accuracy", "Tests compare with the same library's results at a few points.", [AR + "LN__REAL", AR + "LOG__LREAL", AR + "ATAN2__REAL", AR + "EXPT__REAL__REAL"])
p("EXPT with base and exponent of different float types",
  "EXPT of an LREAL with a REAL exponent takes the exponent exactly; EXPT of a REAL with an LREAL exponent rounds the exponent to the nearest REAL (infinite of the same sign on overflow), so exponents that are REAL numbers are taken exactly.",
  "all finite positive bases, all finite exponents, all math libraries of a given accuracy", ALL64, [AR + "EXPT__REAL__LREAL", AR + "EXPT__LREAL__REAL"])
p("A new timer in zeroed memory is idle",
  "A TP, TON or TOF instance declared in Structured Text, whose memory is all zero, behaves like a timer that has never been started, whatever toolchain the library was built with.",
  "every call history of a new instance, every stored form of an unset start time", HIST, ["src/timers.rs:TimerParams", "iec61131-st/timers.st:TP", "iec61131-st/timers.st:TON", "iec61131-st/timers.st:TOF"])
p("Function block instances and native code share their memory correctly",
  "For every function block of the library, the native code reads every input and writes every output where the ST compiler places it, with the same type, never touches memory outside the instance, and keeps its own state apart from the inputs and outputs.",
  "every function block, every alignment of 64-bit numbers (4 or 8), every size and alignment of the native start time that fits the declared 24-byte buffer", "Memory layouts differ between platforms and toolchains; a test sees one of them.", ["iec61131-st/timers.st:TON", "iec61131-st/counters.st:CTUD", "src/timers.rs:TimerParams", "src/counters.rs:CTUDParams", "src/flanks.rs:Trigger", "src/bistable_functionblocks.rs:SetResetParams"])
p("Every declared function can be called",
  "Every function declared in the ST files, for every type that its declaration admits, has an implementation that takes the declared parameters in the declared order and returns the declared type.",
  "every function and every admitted choice of types", "Tests call a selection of functions; a declaration without implementation shows only when it is linked.", ["iec61131-st/date_time_extra_functions.st:SPLIT_LDT", "iec61131-st/numerical_functions.st:ABS", "iec61131-st/endianness_conversion_functions.st:TO_BIG_ENDIAN", "iec61131-st/selectors.st:MAX"])
p("How often a block is called does not matter",
  "Calling R_TRIG, F_TRIG, SR, RS, CTU, CTD, CTUD, TON, TOF or TP once more with the inputs of the call before changes no output of any later call: programs do not depend on how many scans pass while the inputs stay the same.",
  "all call histories, all positions of the repeated call, all later calls, all clock readings", HIST, ["src/flanks.rs:R_TRIG", "src/bistable_functionblocks.rs:SR", "src/counters.rs:CTU_INT", "src/timers.rs:TON", "src/timers.rs:TP"])
p("Timers depend on clock differences only",
  "Shifting all clock readings of a history by the same amount changes no output of TP, TON or TOF, nor whether the program aborts.",
  "all call histories and all shifts", HIST, ["src/timers.rs:TP", "src/timers.rs:TON", "src/timers.rs:TOF"])
p("Debug and release builds give the same results",
  "A debug build of the library, which checks integer overflow, and a release build give the same results for shifts, counters, string functions and the clock.",
  "all arguments and call histories", "Tests run with one build profile.", ["src/bit_shift_functions.rs:SHL__BYTE", "src/counters.rs:CTU_INT", "src/string_functions.rs:DELETE_EXT__STRING", "src/string_functions.rs:FIND__STRING"])
p("Timers react within one scan",
  "If a timer is called cyclically, so that at most D passes from the start of one call to the end of the next, with a constant PT >= 0: the output of TON comes more than PT and at most PT + D after IN became TRUE, and then stays; the output of TOF goes more than PT and at most PT + D after IN fell, and then stays; a pulse of TP is longer than PT and at most D longer, whatever IN does.",
  "all call histories, presets, clock readings and scan times D", HIST, ["src/timers.rs:TON", "src/timers.rs:TOF", "src/timers.rs:TP"])
p("Relations between the function blocks",
  "From the first IN = TRUE on, TOF is TON on the inverted input with inverted output and the same ET. From the second call on, F_TRIG is R_TRIG on the inverted input. Once an input was TRUE, RS is SR with exchanged inputs and inverted output. CTUD with CD and LD FALSE is CTU, with CU and R FALSE it is CTD. An R_TRIG in front of the CU of a CTU that is not reset changes nothing.",
  "all call histories, presets, clock readings, counter types and builds", HIST, ["src/timers.rs:TOF", "src/flanks.rs:F_TRIG", "src/bistable_functionblocks.rs:RS", "src/counters.rs:ctud"])
p("Time arithmetic obeys the rules of arithmetic",
  "Whenever no step aborts: ADD of TIMEs is commutative and may be regrouped, ADD and SUB undo each other, adding durations to a DT one after the other is adding their sum, the difference of two DTs is the duration that leads from one to the other and differences add up along chains of points, addition keeps the order, MUL distributes over sums, DIV undoes MUL, and MUL after DIV loses less than one divisor.",
  "all TIME, DT and integer values of all types", ALL64, ["src/date_time_numeric_functions.rs:ADD_TIME", "src/date_time_numeric_functions.rs:SUB_TIME", "src/date_time_numeric_functions.rs:ADD_DT_TIME", "src/date_time_numeric_functions.rs:SUB_DT_DT", "src/date_time_numeric_functions.rs:MUL__TIME__SINT", "src/date_time_numeric_functions.rs:DIV__TIME__SINT"])
p("Scaling TIME by REAL or LREAL keeps the order",
  "Multiplying TIME by a REAL or LREAL and dividing by it is monotone despite the roundings: a longer duration times a factor >= 0 is not shorter, a larger factor gives a result that is not shorter, with a factor or a duration of the other sign the order is reversed; the same holds for quotients, where a larger divisor of the same sign gives a result nearer to zero. If a product or quotient does not abort, none with smaller duration and smaller factor (larger divisor) in magnitude aborts.",
  "all TIME values, all REAL and LREAL values, both ways of rounding to nanoseconds", ALL64, ["src/date_time_numeric_functions.rs:MUL__TIME__REAL", "src/date_time_numeric_functions.rs:MUL__TIME__LREAL", "src/date_time_numeric_functions.rs:DIV__TIME__REAL", "src/date_time_numeric_functions.rs:DIV__TIME__LREAL"])
p("Texts of dates and times sort chronologically",
  "Comparing the texts of two dates (DATE_TO_STRING), times of day (TOD_TO_STRING) or date-times (DT_TO_STRING) with LT, EQ and GT gives the same answer as comparing the days, times of day or timestamps themselves, whatever fractions of a second they show.",
  "all DATE, TOD and DT values, all result buffers of 81 characters or more that are initially empty", ALL64, ["iec61131-st/extra_functions.st:DT_TO_STRING", "src/extra_functions.rs:DT_TO_STRING_EXT", "src/string_functions.rs:GT__STRING", "src/string_functions.rs:LT__STRING"])
p("A program does the same with STRING and with WSTRING",
  "A program that edits texts with LEFT, RIGHT, MID, INSERT, DELETE, REPLACE and CONCAT, inspects them with LEN, FIND and equality, and branches and loops on the results in any way, computes the same numbers and texts and aborts at the same place whether its texts are STRING[2048] or WSTRING[2048] - provided the STRING version does not overrun a string.",
  "all programs (any control flow), all numbers of steps, all well-formed texts, all DINT values, debug and release builds", "No test can run all programs on all texts.", ["src/string_functions.rs:LEFT_EXT__STRING", "src/string_functions.rs:LEFT_EXT__WSTRING", "src/string_functions.rs:FIND__WSTRING", "src/string_functions.rs:REPLACE_EXT__WSTRING", "iec61131-st/string_conversion.st:STRING_TO_WSTRING"])
p("FIND on strings that are not well-formed",
  "FIND panics on a STRING that is not well-formed UTF-8, as the other STRING functions do, and on a WSTRING with unpaired surrogates returns the position of an element (an unpaired surrogate counting as one character) or 0.",
  "every pair of byte strings and every pair of sequences of 16-bit units, both build profiles", ANYSTR, ["src/string_functions.rs:FIND__STRING", "src/string_functions.rs:FIND__WSTRING"])
p("Conversions in several steps",
  "Converting a value through any number of intermediate integer, bit-string, character or date/time types gives the same result as every other way from the same type to the same type, as long as no type on the way is narrower than the target; a value that all types on the way can represent arrives unchanged.",
  "every chain of conversion functions of the library, of any length, without BOOL, and every value of the first type", "Chains are unbounded and values have up to 64 bits; tests check single conversions of a few values.", ["iec61131-st/num_conversion.st", "iec61131-st/bit_conversion.st", "iec61131-st/bit_num_conversion.st"])
p("Conversions of REAL and LREAL keep the order",
  "For two numbers x <= y, LREAL_TO_REAL, REAL_TO_LREAL, the conversions to integer types and TIME, and TRUNC give results in the same order (where both results are defined), and STRING_TO_REAL and STRING_TO_LREAL never read the text of a larger number as a smaller one.",
  "every pair of finite numbers, every pair of decimal texts of any length", "The pairs of floats are 2^128 and texts are unbounded; tests convert single values.", ["iec61131-st/num_conversion.st", "iec61131-st/extra_functions.st", "src/extra_functions.rs:STRING_TO_LREAL", "src/extra_functions.rs:STRING_TO_REAL"])
p("String functions stay inside the memory they are given",
  "For strings with any contents, text or not: LEN, FIND and the comparisons read nothing beyond the terminators of their arguments, and what lies there influences no result; LEFT, RIGHT, MID, INSERT, DELETE, REPLACE, CONCAT and the conversions between STRING and WSTRING with any numbers either abort the program or write a string and its terminator inside a destination that has room for the units of the arguments (three bytes per unit for WSTRING to STRING), and leave the rest of the destination as it was.",
  "all unit sequences (valid text or not), all lengths and positions, both build profiles, any number of arguments", ANYSTR, ["src/string_functions.rs: ptr_to_slice, encode loops of LEFT_EXT, RIGHT_EXT, MID_EXT, INSERT_EXT, DELETE_EXT, REPLACE_EXT, CONCAT, compare", "src/string_conversion.rs: STRING_TO_WSTRING_EXT, WSTRING_TO_STRING_EXT"])
p("The clock generator `ton(IN := NOT ton.Q, PT := T)`",
  "A TON that resets itself never aborts the program; its output is TRUE for exactly one scan at a time; two pulses are more than T apart; with scans of at most D the first pulse comes within T + D, the next one within T + 3 D, and in any time W there are at most W / T and at least W / (T + 3 D) - 1 pulses.",
  "all presets, all sequences of scans and clock readings", HIST, ["src/timers.rs:TON", "iec61131-st/timers.st:TON"])
p("Two on-delays in series add up",
  "Of the program t1(IN := x, PT := T1); t2(IN := t1.Q, PT := T2): it never aborts; t2.Q is TRUE only after x has been TRUE for more than T1 + T2; with scans of at most D, t2.Q is TRUE whenever x has been TRUE for more than T1 + T2 + D.",
  "all presets, all sequences of inputs, scans and clock readings", HIST, ["src/timers.rs:TON", "iec61131-st/timers.st:TON"])
p("A self-resetting counter divides the number of edges",
  "The program ctu(CU := x, R := ctu.Q, PV := N) never aborts and its output is TRUE exactly in the scans with the N-th, 2N-th, ... rising edge of x.",
  "all counter types, all N >= 1 of the type, all input histories, both build profiles", HIST, ["src/counters.rs:ctu", "iec61131-st/counters.st:CTU"])
p("Arithmetic on dates agrees with the calendar",
  "Adding or subtracting k times 24 hours to a DATE_AND_TIME moves the date that SPLIT_DT shows by exactly k calendar days, keeps the time of day and moves DAY_OF_WEEK by k modulo 7. SUB_DATE_DATE of the date k days after a date and that date is k times 24 hours. Two DATEs compare as year, month, day do. From the first of a month to the first of the next is the length of the month, from one new year to the next 365 or 366 days, and CONCAT_DATE accepts 29 February exactly in leap years.",
  "every timestamp, every number of days, every pair of valid dates, every integer type of the arguments; leap days for the years 1678 to 2261", ALL64, ["src/date_time_numeric_functions.rs: ADD_DT_TIME, SUB_DT_TIME, SUB_DATE_DATE", "src/date_time_extra_functions.rs: CONCAT_DATE__*, SPLIT_DT__*, DAY_OF_WEEK"])
p("Calls of MAX, MIN and LIMIT combine",
  "MAX(MAX(v...), MAX(w...)) is MAX(v..., w...), likewise MIN; order and repetition of arguments play no role; MIN is at most MAX, with equality only for equal arguments; raising an argument never lowers the result; absorption and distributivity hold. LIMIT(MN, IN, MX) equals MIN(MAX(IN, MN), MX) exactly unless the bounds are reversed and IN < MN; LIMIT after LIMIT clamps to the intersection. For REAL/LREAL the same value results if IN is not NaN; for a NaN input LIMIT returns the NaN and MIN(MAX(IN, MN), MX) returns MN.",
  "every argument list of any length and all values (integers, dates, times, floats)", "An identity between calls must hold for argument lists of every length and for all values.", ["src/types.rs: MAX__*, MIN__*, LIMIT__*"])
p("Shifts and rotations combine",
  "Shifting twice in one direction is shifting by the sum (below the width); shifting out and back clears exactly the bits that left the word; ROL(x,n) is SHL(x,n) OR SHR(x,w-n), and ROL by n is ROR by w-n. On a BCD number SHR by 4 divides by ten and SHL by 4 multiplies by ten without the first digit, and shifting or rotating by whole digits keeps the word valid BCD. Swapping the bytes of a WORD is rotating it by 8.",
  "every bit string of every width, every count below the width (any count for rotations), both build profiles", ALL64, ["src/bit_shift_functions.rs: SHL__*, SHR__*, ROL__*, ROR__*", "src/validation_functions.rs: IS_VALID_BCD__*", "src/endianness_conversion_functions.rs: TO_BIG_ENDIAN__*, ..."])
p("FIND and the editing functions fit together",
  "For n = FIND(s, b) > 0: MID(s, LEN(b), n) is b, s is LEFT(s, n-1) followed by b and the rest, REPLACE and DELETE at n exchange or remove exactly that occurrence and a removed occurrence can be inserted again at n-1, and b does not occur in LEFT(s, n+LEN(b)-2). A text that is not found in s is not found in any LEFT, RIGHT or MID of s; appending does not move an occurrence; what is appended is found; FIND is transitive; a string starts with its left parts. The loop that deletes occurrences until FIND gives 0 ends after at most LEN(s)/LEN(b) deletions, inside the buffer of s, with a string without b.",
  "all texts of both string types, all positions and lengths, all buffers, any number of loop rounds", ANYSTR, ["src/string_functions.rs: FIND__STRING, FIND__WSTRING, LEFT_EXT__STRING, RIGHT_EXT__STRING, MID_EXT__STRING, DELETE_EXT__STRING, INSERT_EXT__STRING, REPLACE_EXT__STRING, CONCAT_EXT__STRING"])
p("A debounced input",
  "In the program `t1(IN := x, PT := T); t2(IN := NOT x, PT := T); rs(SET := t1.Q, RESET1 := t2.Q);` the output rs.Q1 changes only to a value that x has had for more than T, stays as it is however often x bounces as long as x does not keep the other value for more than T, and is the value of x whenever x has had that value for more than T; the program never aborts.",
  "all histories of inputs, all schedules of scans and clock readings that do not go backwards, all T from 0 to 2^63-1 ns", HIST, ["src/timers.rs: TON", "src/bistable_functionblocks.rs: RS"])
p("EXPT as a function of its base, and the root of a square",
  "For a base that is not NaN and an integer exponent: the sign of the base only decides the sign of odd powers; on bases that are not negative EXPT is monotone for exponents from 0 on and antitone for negative ones; a negative exponent gives the correctly rounded reciprocal of the positive power (zero if that is infinite, infinite if it is zero). EXPT(x, 2) is the float nearest to the square, and SQRT(EXPT(x, 2)) is exactly the absolute value of x unless the square overflows or is below the normal range. EXPT(SQRT(x), 2) of a number in the normal range never overflows and is x up to three roundings.",
  "all REAL and LREAL bases except NaN, all integer exponents", "there are 2^64 LREAL bases and 2^32 exponents; that two roundings cancel is a theorem about spacing and cannot be read off samples.", ["src/arithmetic_functions.rs: SQRT__REAL, SQRT__LREAL, EXPT__REAL__DINT, EXPT__LREAL__DINT"])
p("Day numbers and weekdays in closed form",
  "The value of a DATE is the day number of its year, month and day by the usual formula (years beginning in March) times 24 hours; DAY_OF_WEEK is the weekday by Zeller's congruence, both for a DATE made by CONCAT_DATE and for the date SPLIT_DT shows of any timestamp. The same date 400 years later is 146097 days later and falls on the same weekday, 28 years later within a century on the same weekday, and one year later one weekday on, or two if a 29 February is between.",
  "all calendar dates that CONCAT_DATE accepts, all 64-bit timestamps, all date types", "a table test covers some dates; leap years before 1970, centuries and negative day numbers need a formula for all years.", ["src/date_time_extra_functions.rs: DAY_OF_WEEK, CONCAT_DATE__*, SPLIT_DT__*"])
p("Counters in series divide by the product",
  "Self-resetting counters ctu1(CU := x, R := ctu1.Q, PV := N1); ctu2(CU := ctu1.Q, R := ctu2.Q, PV := N2); ... never abort, and the last output is TRUE exactly in the scans with a rising edge of x whose number is a multiple of N1 * N2 * ..., even if that product is beyond the range of the counters. The order of the counters does not matter, and a single counter with the product as preset shows the same if the product fits.",
  "all non-empty lists of divisors from 1 to the largest value of the counter type, all counter types, all signals that stay FALSE for at least two scans, both build profiles", "the number of scans until the first pulse grows with the product; a test can only run a few divisors for a few periods.", ["src/counters.rs: CTU__*"])
p("Toggles and binary counters made of them",
  "The program e(CLK := x); rs(SET := e.Q AND NOT rs.Q1, RESET1 := e.Q AND rs.Q1) with an R_TRIG (F_TRIG) e never aborts, and rs.Q1 is TRUE iff the number of rising (falling) edges of x so far is odd. k such toggles with F_TRIG in series, each driven by the output of the one before, show the number of falling edges of x so far in binary, modulo 2^k, in every scan.",
  "all histories of x, all numbers k of toggles", "the state of the last stage depends on the whole history; a test runs a few edges and a fixed number of stages.", ["src/flanks.rs: R_TRIG, F_TRIG", "src/bistable_functionblocks.rs: RS"])
p("Null pointers are rejected",
  "Every function with a pointer to a string, or to a list of strings, among its parameters ends the program when it is given a null pointer.",
  "all functions on strings and conversions between numbers and texts, every choice of the other arguments, both build profiles", "a test of undefined behaviour shows nothing, and the other arguments and the position of the null pointer range over everything.", ["src/string_functions.rs: get_null_terminated_len, ptr_to_slice, CONCAT_EXT__STRING, compare", "src/string_conversion.rs", "src/extra_functions.rs"])
p("A blinker made of two on-delays",
  "The program t1(IN := NOT t2.Q, PT := T1); t2(IN := t1.Q, PT := T2); lamp := t1.Q never aborts. The lamp stays off for more than T1 and on for more than T2, whatever the scans do. With scans of at most D it goes on for the first time at most T1 + D after the first scan, stays on for at most T2 + 2 D and off for at most T1 + 2 D, so that it blinks forever.",
  "all presets, all sequences of scans and clock readings", "the phases depend on the whole history of clock readings; a test runs a few scans with a fixed period.", ["src/timers.rs: TON"])
p("Scaling TIME by REAL or LREAL is exact where it can be",
  "If the exact product of a TIME and a REAL or LREAL, or the exact quotient, is a whole number of nanoseconds that fits, MUL and DIV return it; in particular multiplying by 1.0 and dividing by 1.0 change nothing.",
  "all times, all factors and divisors of both formats, both ways in which the standard library rounds to nanoseconds", "whether a product comes out exactly depends on the bits of both operands; tests use round numbers, for which it does.", ["src/date_time_numeric_functions.rs: checked_mul_time_with_f32, checked_mul_time_with_f64, checked_div_time_by_f32, checked_div_time_by_f64"])
p("Peak indicators made of MAX and MIN",
  "The programs peak := MAX(peak, sample) and low := MIN(low, sample), run once per sample and started with the first one, hold the largest and the smallest sample so far. With REAL and LREAL, NaN samples are ignored, also as the first one; the result is a NaN only if there was nothing else.",
  "every number and order of samples of every integer type and of REAL and LREAL, NaN, infinities and both zeros included", "the claim is about all sequences of samples of any length.", ["src/types.rs: define_order_type, define_int_type, define_float_type (MAX, MIN)"])
p("A ramp made of LIMIT",
  "The program out := LIMIT(out - step, in, out + step) changes the output by at most step per scan, always towards the input and never beyond it. With a constant input it follows a straight line, reaches the input after |in - out| / step scans (rounded up) and stays there. This holds as long as the start value and the inputs are at least step away from the ends of the type.",
  "all types, all steps, all sequences of inputs", "the claim is about all sequences of inputs of any length.", ["src/types.rs: define_int_type (LIMIT)"])
p("Taking a list apart with FIND, LEFT and DELETE",
  "The loop n := FIND(s, sep); field[i] := LEFT(s, n - 1); s := DELETE(s, n, 1), repeated until the one-character separator is not found, yields exactly the fields of a string in which fields without that character are joined by it. No field is lost or added, empty ones included, in any order, for STRING and WSTRING, and nothing is written outside of the variables. It is the inverse of CONCAT(field1, sep, field2, sep, ...).",
  "all separators, all lists of fields of any number and length, any characters, both string types, both build profiles", "the number of rounds of the loop, the lengths and the characters (one to four bytes, one or two units) are unbounded.", ["src/string_functions.rs: FIND__STRING, FIND__WSTRING, LEFT_EXT__STRING, LEFT_EXT__WSTRING, DELETE_EXT__STRING, DELETE_EXT__WSTRING, CONCAT__STRING, CONCAT__WSTRING"])
p("Numbers with leading zeros",
  "RIGHT(CONCAT(zeros, LINT_TO_STRING(n)), w), with zeros a string of w zeros, is the decimal notation of a number n >= 0 in exactly w characters with leading zeros; of a number with more digits the last w are left. The same holds for WSTRING. For numbers with at most w digits STRING_TO_LINT reads the number back, and LT, GT and EQ of two such strings compare the numbers.",
  "all numbers n from 0 to 2^63 - 1, all widths w from 1 to 2000, both string types", "the claim combines four functions for all numbers and widths.", ["src/extra_functions.rs: LINT_TO_STRING_EXT", "iec61131-st/extra_functions.st: LINT_TO_STRING, LINT_TO_WSTRING", "src/string_functions.rs: CONCAT__STRING, RIGHT_EXT__STRING, LT__STRING, GT__STRING, EQ__STRING", "src/extra_functions.rs: STRING_TO_LINT"])
p("A watchdog made of edge detectors and an on-delay",
  "The program rt(CLK := beat); ft(CLK := beat); ton(IN := NOT (rt.Q OR ft.Q), PT := T); alarm := ton.Q; never aborts. The alarm is on in a scan exactly when the signal has not changed for more than T: in some earlier scan and in all scans since it had the value of the scan before, and from that scan to this one more than T has gone by. In a scan in which the signal changes the alarm is off.",
  "all preset times from 0 up to the largest TIME, all sequences of signal values, all schedules of scans", "the claim is about all sequences of scans of any length and all clock readings.", ["src/flanks.rs: R_TRIG, F_TRIG", "src/timers.rs: TON"])
p("A running light and a shift register",
  "rt(CLK := clk); IF rt.Q THEN lights := ROL(lights, 1); END_IF moves every light on by one place, round and round, for each rising edge of clk: after n of them light i of the start is at place (i + n) MOD w. rt(CLK := clk); IF rt.Q THEN reg := SHL(reg, 1) OR data; END_IF never aborts, and reg holds the values of data in the scans with the last w rising edges, the newest in bit 0; if there were fewer, followed by the bits of the start value.",
  "all word widths of more than one bit, start values and sequences of inputs, both build profiles", "the claim is about all sequences of scans of any length.", ["src/flanks.rs: R_TRIG", "src/bit_shift_functions.rs: SHL__BYTE, SHL__WORD, SHL__DWORD, SHL__LWORD, ROL__BYTE, ROL__WORD, ROL__DWORD, ROL__LWORD"])
p("Two directions of a motor, locked against each other, with a pause",
  "The program tf(IN := fwd.Q1, PT := T); tb(IN := bwd.Q1, PT := T); fwd(SET := goF AND NOT tb.Q AND NOT bwd.Q1, RESET1 := stop); bwd(SET := goB AND NOT tf.Q AND NOT fwd.Q1, RESET1 := stop); with two off-delays and two latches never aborts. The motor is never on in both directions. Between a scan with one direction on and a later scan with the other one on, more than T goes by. Stop switches off at once, a direction that is on stays on until then. A command is obeyed in its scan if the motor has been off for more than T.",
  "all pauses T from 0 up to the largest TIME, all sequences of commands, all schedules of scans", "the claims are about all sequences of scans of any length and all clock readings.", ["src/timers.rs: TOF", "src/bistable_functionblocks.rs: RS"])
p("Sorting an array with MIN and MAX",
  "The loops FOR k := n-1 TO 1 BY -1 DO FOR i := 0 TO k-1 DO lo := MIN(a[i], a[i+1]); hi := MAX(a[i], a[i+1]); a[i] := lo; a[i+1] := hi; END_FOR END_FOR never abort and leave the elements of the array in ascending order: none is lost, none is doubled. For REAL and LREAL this holds of the values if none of them is NaN.",
  "all arrays of any length, of every type with MIN and MAX", "an n-element array has n! orders and its elements 2^64 values each; that every pass leaves the greatest element at its end is an induction.", ["src/types.rs: define_order_type!, MAX__REAL, MAX__LREAL, MIN__REAL, MIN__LREAL"])
p("Replacing every occurrence, and reversing a string",
  "The loop n := FIND(s, b); WHILE n > 0 DO out := CONCAT(out, LEFT(s, n-1), r); s := DELETE(s, n-1+LEN(b), 1); n := FIND(s, b); END_WHILE out := CONCAT(out, s) ends, and out is s with every occurrence of b replaced by r, from left to right and without overlaps; for a single character every occurrence of it. The loop WHILE LEN(s) > 0 DO out := CONCAT(out, RIGHT(s, 1)); s := LEFT(s, LEN(s)-1); END_WHILE ends with the characters of s in reverse order. Both hold if the result fits into 2048 units.",
  "all texts s, b (not empty) and r of any characters, both string types, both build profiles", "the texts are unbounded and of mixed character widths; that the loop ends and neither skips nor rereads a character is an induction on the text.", ["src/string_functions.rs: FIND__STRING, FIND__WSTRING, LEFT_EXT__STRING, RIGHT_EXT__STRING, DELETE_EXT__STRING, CONCAT_EXT__STRING, LEN__STRING", "iec61131-st/string_functions.st: LEFT, RIGHT, DELETE, CONCAT"])
p("An hour meter and appointments at a fixed interval",
  "The program d := SUB_DT_DT(now, last); IF run THEN total := ADD_TIME(total, d); END_IF last := now never aborts while the clock does not go backwards and not more than the largest TIME goes by, and total is exactly the sum of the times in which run was TRUE: not negative, at most the time gone by, and equal to it if run was always TRUE. The program IF now >= next THEN count := count + 1; next := ADD_DT_TIME(next, period); END_IF, scanned at least once per period, meets every appointment start + i * period in the first scan at or after it, none twice and none left out. With scans further apart it is never early and meets at most one appointment per scan.",
  "all sequences of clock readings and of run, all start times and periods whose sums are in the range of DT", "the histories are unbounded; that no nanosecond and no appointment is lost over any number of scans is an induction.", ["src/date_time_numeric_functions.rs: ADD_TIME, SUB_DT_DT, ADD_DT_TIME"])
p("A signal filter: on-delay followed by off-delay",
  "Of the program ton(IN := x, PT := T1); tof(IN := ton.Q, PT := T2) the output tof.Q is exactly this: it is TRUE in a scan if x was TRUE for more than T1 in that scan or the one before, or in an earlier scan such that from the scan after it to this one no more than T2 has gone by. So while no stretch of TRUE inputs lasts more than T1 the output stays FALSE, and after x was TRUE for more than T1 the output stays TRUE for T2 whatever x does.",
  "all sequences of inputs and scan times with a clock that does not go backwards, all T1 and T2 that are not negative", "the output depends on the whole history of both timers; which pulses pass for every pattern of inputs and every scan timing is not a finite set of cases.", ["src/timers.rs: TON, TOF"])
p("A list of numbers written into a string and read back",
  "The program s := LINT_TO_STRING(x[0]); FOR i := 1 TO n DO s := CONCAT(s, sep, LINT_TO_STRING(x[i])); END_FOR produces the decimal notations of the numbers with the separator between them if this has at most 2048 units, and writes outside of its result otherwise. If the separator is a character other than a digit or a minus sign, the loop with FIND, LEFT and DELETE followed by STRING_TO_LINT gives back exactly the numbers, each of them, in order. The same with WSTRING.",
  "all non-empty lists of LINT values, all separator characters, both string types, both build profiles", "the property ranges over lists of any length and any values; it needs that no text of a number contains the separator and that every intermediate string fits.", ["src/string_functions.rs: FIND__STRING, FIND__WSTRING, LEFT_EXT__STRING, LEFT_EXT__WSTRING, DELETE_EXT__STRING, DELETE_EXT__WSTRING, CONCAT__STRING, CONCAT__WSTRING", "src/extra_functions.rs: LINT_TO_STRING_EXT", "iec61131-st/extra_functions.st: LINT_TO_STRING, LINT_TO_WSTRING", "src/string_functions.rs: CONCAT__STRING, RIGHT_EXT__STRING, LT__STRING, GT__STRING, EQ__STRING", "src/extra_functions.rs: STRING_TO_LINT"])
p("Calls with the result in one of the arguments",
  "A call of LEFT_EXT, RIGHT_EXT, MID_EXT, DELETE_EXT, INSERT_EXT, REPLACE_EXT or CONCAT_EXT in which the destination is the same variable as an argument leaves in it what the same call with a separate destination would have written there.",
  "all texts, positions, lengths and memory contents, both string types, both build profiles", "the functions read and write by turns, so whether a character is overwritten before it is read depends on every length and position and on how many units each character takes.", ["src/string_functions.rs:LEFT_EXT__STRING", "src/string_functions.rs:LEFT_EXT__WSTRING", "src/string_functions.rs:RIGHT_EXT__STRING", "src/string_functions.rs:RIGHT_EXT__WSTRING", "src/string_functions.rs:MID_EXT__STRING", "src/string_functions.rs:MID_EXT__WSTRING", "src/string_functions.rs:INSERT_EXT__STRING", "src/string_functions.rs:INSERT_EXT__WSTRING", "src/string_functions.rs:DELETE_EXT__STRING", "src/string_functions.rs:DELETE_EXT__WSTRING", "src/string_functions.rs:REPLACE_EXT__STRING", "src/string_functions.rs:REPLACE_EXT__WSTRING", "src/string_functions.rs:CONCAT_EXT__STRING", "src/string_functions.rs:CONCAT_EXT__WSTRING"])
p("Timers kept over a power failure",
  "A timer instance in retained memory, after a restart of the device with which the monotonic clock starts again at any reading, finishes its interval at the latest PT after the restart: a TON whose IN has been TRUE in every call since has Q TRUE once the device has been on for more than PT, a TOF whose IN has been FALSE since has Q FALSE then, and a TP pulse is over then.",
  "all histories before the failure, all moments of the failure (between two calls), all histories after it, all clock readings after it", "the moment of the failure, the readings of the two clocks and the state of the timer are arbitrary, and tests run within one life of the clock.", ["src/timers.rs:TON", "src/timers.rs:TOF", "src/timers.rs:TP", "src/timers.rs:TimerParams::get_run_time", "src/timers.rs:TimerParams::is_in_preset_range"])
p("Function block instances do not influence one another",
  "In a program with any number of function block instances at separate addresses, which writes their inputs, calls them and does other things in any order, every instance has, in every input and output the program can read, the values it would have if it were the only one and got the same inputs and calls; the program runs to its end if and only if each instance alone does. What is done with an instance changes no byte outside of it. An instance whose bytes are copied elsewhere goes on there as it would have gone on at its old place.",
  "all numbers and kinds of instances, all addresses, all memory contents, all orders of steps, all inputs, both byte orders, all usual platforms and all ways to store an Option<Instant>, both build profiles", "the instances, their addresses and the interleaving of the calls are arbitrary.", ["src/flanks.rs:R_TRIG", "src/flanks.rs:F_TRIG", "src/bistable_functionblocks.rs:SR", "src/bistable_functionblocks.rs:RS", "src/counters.rs:ctu", "src/counters.rs:ctd", "src/counters.rs:ctud", "src/timers.rs:TP", "src/timers.rs:TON", "src/timers.rs:TOF", "iec61131-st/counters.st:CTU", "iec61131-st/timers.st:TON"])
p("A program reads in the outputs of its blocks what their histories of calls give",
  "In a Structured Text program whose instances start as zeroed memory, which uses any number of function blocks in any order and does anything else in between, reading an output of a block by its name (Q, Q1, QU, QD, CV, ET) gives the value that the block computes from the history of inputs written by name (CLK, SET1, RESET, CU, CD, R, LD, PV, IN, PT) and calls of this instance, for every one of the exported names and counting types.",
  "all programs and orders of steps, all numbers of instances of all 31 function blocks, all addresses, both byte orders, all usual platforms, both build profiles", "the program, its instances and the length of the run are arbitrary; the code on both sides of the boundary takes part.", ["iec61131-st/flanks.st:R_TRIG", "iec61131-st/bistable_functionblocks.st:SR", "iec61131-st/counters.st:CTU", "iec61131-st/timers.st:TON", "src/flanks.rs:R_TRIG", "src/flanks.rs:F_TRIG", "src/bistable_functionblocks.rs:SR", "src/bistable_functionblocks.rs:RS", "src/counters.rs:CTU", "src/counters.rs:CTD", "src/counters.rs:CTUD", "src/timers.rs:TP", "src/timers.rs:TON", "src/timers.rs:TOF"])
p("Conversions to text stay within a STRING of default length",
  "BYTE_, LWORD_, LINT_, LREAL_, REAL_, DATE_, TOD_, DT_ and TIME_TO_STRING_EXT, called with a destination of 81 bytes (a STRING of default length), read and write only these bytes: they do not leave them, the outcome depends only on them, and what is behind them stays as it is.",
  "every value, every earlier content of the destination, every memory behind it", "the claim is about all values and all contents of the destination; an access behind it goes unnoticed in a test.", ["src/extra_functions.rs:BYTE_TO_STRING_EXT", "src/extra_functions.rs:LREAL_TO_STRING_EXT", "src/extra_functions.rs:DT_TO_STRING_EXT", "src/extra_functions.rs:TIME_TO_STRING_EXT"])
p("A power failure in the middle of a call: the call has taken place or has not",
  "If the power fails in the middle of a call of a function block whose memory is kept (VAR RETAIN), then all later outputs are those after the call, or those without it.",
  "every block, every earlier history, every call, every place in it, all later calls; for the counters any number of failures", "crash points cannot be hit by a unit test, and the claim is about all later calls.", ["src/flanks.rs:R_TRIG", "src/flanks.rs:F_TRIG", "src/bistable_functionblocks.rs:SR", "src/bistable_functionblocks.rs:RS", "src/counters.rs:ctu", "src/counters.rs:ctd", "src/counters.rs:ctud", "src/timers.rs:TP", "src/timers.rs:TON", "src/timers.rs:TOF", "src/utils.rs:Signal"])
p("A task that interrupts a call reads the outputs from before or after it",
  "If another task interrupts a call of a function block and reads the outputs of the instance, it reads the outputs from before the call or those from after it.",
  "every block, every memory of the instance, every call that returns, every moment in it", "a test cannot stop a call at every place for every history.", ["src/flanks.rs:R_TRIG", "src/flanks.rs:F_TRIG", "src/bistable_functionblocks.rs:SR", "src/bistable_functionblocks.rs:RS", "src/counters.rs:ctu", "src/counters.rs:ctd", "src/counters.rs:ctud", "src/timers.rs:TP", "src/timers.rs:TON", "src/timers.rs:TOF"])
p("Two tasks may call the same instance",
  "If a task interrupts a call of a function block with a call of the same instance, the two calls act as if they took place one after the other: on the outputs each task reads when its call has returned and on all later outputs.",
  "every block, every history, every pair of calls, every place of the interruption", "schedules cannot be enumerated by a unit test, and the claim is about all later calls.", ["src/flanks.rs:R_TRIG", "src/flanks.rs:F_TRIG", "src/bistable_functionblocks.rs:SR", "src/bistable_functionblocks.rs:RS", "src/counters.rs:ctu", "src/counters.rs:ctd", "src/counters.rs:ctud", "src/timers.rs:TP", "src/timers.rs:TON", "src/timers.rs:TOF", "src/utils.rs:Signal"])
p("Calls of an instance that two tasks share return",
  "If a call of a function block and some calls of another task on the same instance return when they take place one after the other, the call returns when the others interrupt it; a counter stays within its limits.",
  "every block, every history, every call, every list of interrupting calls, every place of the interruption", "schedules cannot be enumerated by a unit test; the panics need an interruption between two particular loads.", ["src/flanks.rs:R_TRIG", "src/flanks.rs:F_TRIG", "src/bistable_functionblocks.rs:SR", "src/bistable_functionblocks.rs:RS", "src/counters.rs:ctu", "src/counters.rs:ctd", "src/counters.rs:ctud", "src/timers.rs:TP", "src/timers.rs:TON", "src/timers.rs:TOF", "src/timers.rs:update_elapsed_time"])
p("Tasks on several cores may call the same instance",
  "If the calls of several tasks on the same instance return in whatever order they take place one after the other, none of them panics when the tasks run at the same time and their loads and stores are mixed in any way.",
  "every block, every history, every number of tasks, every list of calls of each task, every schedule of their loads and stores", "the number of schedules grows exponentially with the number of calls, and the panics need particular ones.", ["src/flanks.rs:R_TRIG", "src/flanks.rs:F_TRIG", "src/bistable_functionblocks.rs:SR", "src/bistable_functionblocks.rs:RS", "src/counters.rs:ctu", "src/counters.rs:ctd", "src/counters.rs:ctud", "src/timers.rs:TP", "src/timers.rs:TON", "src/timers.rs:TOF", "src/timers.rs:update_elapsed_time"])
p("A call is done after a fixed number of loads and stores, whatever other tasks do",
  "A task that calls a function block is done with its calls when it has made a fixed number of loads and stores of the instance for each (5 for R_TRIG and F_TRIG, 6 for SR and RS, 13 for CTU, 12 for CTD, 22 for CTUD, 17 for TP, 13 for TON, 16 for TOF, including the stores of the inputs by the caller), however many other tasks work on the same instance, stop in the middle of a call, or never get their turn. The numbers are exact.",
  "every block, every memory of the instance, every number of tasks, every list of calls of each task, every schedule of their loads and stores", "the worst case over all memories and all schedules cannot be found by running some of them.", ["src/flanks.rs:R_TRIG", "src/flanks.rs:F_TRIG", "src/bistable_functionblocks.rs:SR", "src/bistable_functionblocks.rs:RS", "src/counters.rs:ctu", "src/counters.rs:ctd", "src/counters.rs:ctud", "src/timers.rs:TP", "src/timers.rs:TON", "src/timers.rs:TOF"])
p("A store controlled by a CTUD",
  "With `put := in AND NOT ctud.QU; take := out AND NOT ctud.QD; ctud(CU := put, CD := take, PV := N)` a store into which every rising edge of `put` brings a thing, and out of which every rising edge of `take` takes one, never has more than N or less than no things, and CV is their number.",
  "all counter types, both build profiles, all N from 1 to the largest value, all signals `in` and `out`", "the claim is an invariant over all sequences of signals.", ["src/counters.rs:ctud", "src/counters.rs:update_qu", "src/counters.rs:update_qd"])
p("A chain of steps made of latches has one active step",
  "In a chain of n steps with `t[k] := step[k].Q AND cond[k]` for all steps, then `step[0](SET1 := t[n-1] OR start, RESET := t[0])` as an SR and `step[k](SET := t[k-1], RESET1 := t[k] OR start)` as an RS for the others, exactly one step is active in every scan from the start on; the next one becomes active in the scan in which the condition of the active one is TRUE, and the first one in a scan with `start`.",
  "every number of steps from 2 on, every history that begins with start, every combination of conditions", "the claim is an invariant over all sequences of conditions and all lengths of the chain.", ["src/bistable_functionblocks.rs:SR", "src/bistable_functionblocks.rs:RS"])
p("Tasks on cores that delay their stores may call the same instance",
  "On processors whose cores see their own stores at once and those of the other cores later, in the order in which they were made (x86), no call panics when any number of tasks call the same function block instance, if the calls return in every order in which they take place one after the other.",
  "every block, every history of the instance, every number of tasks, every list of calls of each task, every schedule of their loads and stores and every delay of the stores", "the outcome depends on when each store reaches the memory, which a test cannot choose.", ["src/flanks.rs:R_TRIG", "src/flanks.rs:F_TRIG", "src/bistable_functionblocks.rs:SR", "src/bistable_functionblocks.rs:RS", "src/counters.rs:ctu", "src/counters.rs:ctd", "src/counters.rs:ctud", "src/timers.rs:TP", "src/timers.rs:TON", "src/timers.rs:TOF"])
p("Calendar weeks, and the first and last weekday of a month",
  "A program that moves to the Thursday of the week with DAY_OF_WEEK and counts from 1 January with SPLIT_DATE and CONCAT_DATE yields the year and number of the calendar week of ISO 8601 for every DATE_AND_TIME from 1678-01-03 on, and ends the process before; programs that go back from the last, or forward from the first, day of a month by DAY_OF_WEEK find the last and the first day on which a weekday falls.",
  "every DATE_AND_TIME of 64 bits, every type of the year, month and day, every weekday and every month of the years 1678 to 2261", "the ends of years, leap years and the seven weekdays combine differently over 400 years, and the program must also stay in the range of 64 bits.", ["src/date_time_extra_functions.rs:DAY_OF_WEEK", "src/date_time_extra_functions.rs:SPLIT_DATE", "src/date_time_extra_functions.rs:CONCAT_DATE", "src/date_time_numeric_functions.rs:ADD_DT_TIME", "src/date_time_numeric_functions.rs:SUB_DT_TIME", "src/date_time_numeric_functions.rs:SUB_DT_DT"])
p("A string that is read, or left behind by a power failure, while a function writes it",
  "A task that reads a string variable in the middle of a call that writes it (LEFT, RIGHT, MID, INSERT, DELETE, REPLACE, CONCAT or a conversion between the string types) finds the text from before or the text from after the call; a call that is cut off by a power failure and made again yields what it would have yielded without the failure; and a call that panics has stored nothing.",
  "every call, both string types, both build profiles, every contents of the variable before the call and every moment between two stores", "what is found depends on the moment, on the old contents behind the terminator and on the lengths of both texts; a test sees the variable only after the call.", ["src/string_functions.rs:CharsEncoder", "src/string_functions.rs:LEFT_EXT__STRING", "src/string_functions.rs:RIGHT_EXT__STRING", "src/string_functions.rs:MID_EXT__STRING", "src/string_functions.rs:INSERT_EXT__STRING", "src/string_functions.rs:DELETE_EXT__STRING", "src/string_functions.rs:REPLACE_EXT__STRING", "src/string_functions.rs:CONCAT_EXT__STRING", "src/string_conversion.rs:WSTRING_TO_STRING_EXT", "src/string_conversion.rs:STRING_TO_WSTRING_EXT"])
p("Tasks on cores that change the order of their loads and stores may call the same instance",
  "If the calls of several tasks return in whatever order they take place one after the other, none of them panics when the tasks run on cores that delay their stores, let them reach the memory in any order, and load values that are out of date.",
  "every number of tasks, every list of calls for each of them, every order in which loads, stores and delayed stores take place and every earlier memory that a load may see", "the order depends on the processor and differs from run to run; a test on x86 never sees most of them.", ["src/flanks.rs:R_TRIG", "src/flanks.rs:F_TRIG", "src/bistable_functionblocks.rs:SR", "src/bistable_functionblocks.rs:RS", "src/counters.rs:ctu", "src/counters.rs:ctd", "src/counters.rs:ctud", "src/timers.rs:TP", "src/timers.rs:TON", "src/timers.rs:TOF"])
p("Values in a telegram between two controllers",
  "Values that a controller writes into a telegram with TO_BIG_ENDIAN (or TO_LITTLE_ENDIAN) arrive unchanged at a controller that reads them with FROM_BIG_ENDIAN (or FROM_LITTLE_ENDIAN), whatever the byte orders of the two are; also REAL and LREAL.",
  "every list of values of any sizes, both byte orders of the telegram, of the sender and of the receiver", "two machines are needed, and a test on one of them, or with values that read the same in both directions, does not see the difference.", ["src/endianness_conversion_functions.rs"])
p("Tasks that write the same string variable at the same time",
  "When several tasks write the same string variable at the same time, the variable contains the text of one of them afterwards, and it contains a terminator at every moment.",
  "any number of calls of any of the functions that write a string, both string types, every previous content of the variable, every order in which the stores of the calls can be mixed, both build profiles", "the number of possible orders grows without bound with the lengths and the number of tasks; a test sees one of them and cannot choose which.", ["src/string_functions.rs", "src/string_conversion.rs"])
p("A string argument that another task changes during the call",
  "A call of LEFT, RIGHT, MID, INSERT, DELETE, REPLACE or CONCAT whose arguments another task changes meanwhile does what it would do with a value that the argument had at some time; in particular it does not write beyond a destination that is large enough for arguments that fill their variables.",
  "every content of the arguments at every one of the loads, every length and position, both string types, every size of the destination, both build profiles", "each function goes through its argument up to nine times; what another task stores between two loads cannot be arranged in a test.", ["src/string_functions.rs"])
p("Durations measured with TIME()",
  "The difference of two calls of TIME() is the time that has gone by between them; if the difference is corrected by 24 hours when it is negative, this also holds over midnight for less than 24 hours, and a program that adds up the corrected differences of its scans shows the time since its first scan and the number of midnights.",
  "every two points in time, every distance of local time from UTC and every change of it, every number of scans, both build profiles", "a test runs at one time of day; it meets midnight or a change to summer time only by accident.", ["src/extra_functions.rs: TIME", "src/date_time_numeric_functions.rs: SUB_TIME, ADD_TIME"])
p("Sorting an array of strings and searching it",
  "Sorting an array of strings by exchanging neighbours for which GT is TRUE leaves the same strings in ascending order, equal ones in their old order; searching the sorted array by halving it with LT and a final EQ finds a string exactly if it is there, at its first place, with at most k comparisons among fewer than 2^k strings.",
  "every number of strings, every content of the variables with a terminator, every string to be searched for, both string types", "the number of orders of an array grows without bound with its length; a test tries some arrays.", ["src/string_functions.rs: GT__STRING, GT__WSTRING, LT__STRING, LT__WSTRING, EQ__STRING, EQ__WSTRING, compare"])
p("Counting the cycles of a rotary encoder",
  "A program that passes the edges of track A of a two-track encoder, detected by R_TRIG and F_TRIG and taken while track B is FALSE, to the inputs CU and CD of a CTUD counts the cycles the encoder has gone since the first scan, forwards less backwards, for every movement by at most a quarter of a cycle between two scans.",
  "every first position, every number of scans, every movement to and fro, every counter width, debug and release builds", "the movements are unbounded in number and length; the claim is an invariant that ties the two edge memories of the counter to those of the triggers.", ["src/flanks.rs: R_TRIG, F_TRIG", "src/counters.rs: CTUD, CTUD_INT, CTUD_DINT, CTUD_UDINT, CTUD_LINT, CTUD_ULINT"])
p("Comparing and searching strings that another task changes",
  "A comparison, LEN or FIND whose arguments another task changes during the call answers for a state of each argument that there was: texts that have never been equal are not reported as equal, LEN is the length of a text that was there, and FIND finds a text that is contained in every state.",
  "every set of states of each argument, every time at which each unit is read, every comparison, both string types, debug and release builds", "the outcome depends on when each unit is read relative to the stores of another task; a test cannot choose these times.", ["src/string_functions.rs: compare, GT__STRING, GE__STRING, EQ__STRING, LE__STRING, LT__STRING, NE__STRING, LEN__STRING, FIND__STRING and their WSTRING versions, get_null_terminated_len, ptr_to_slice"])
p("Positions in Gray code",
  "A program that encodes a position as x XOR SHR(x, 1) and decodes it with a loop of SHR and XOR loses no position, the codes of neighbouring positions differ in exactly one bit, and a code that is read while it changes to a neighbour is decoded to the old or the new position.",
  "every position, every width above one bit (BYTE to LWORD), every way of mixing old and new bits, debug and release builds", "for an LWORD there are 2^64 positions, and each bit may be old or new.", ["src/bit_shift_functions.rs: SHR__BYTE, SHR__WORD, SHR__DWORD, SHR__LWORD"])
p("Telegrams protected by a cyclic redundancy check",
  "A program that computes a check word of w bits for a telegram with SHL and XOR, bit by bit, notices every difference between two telegrams of the same length that lies within w consecutive bits, and therefore every single inverted bit, wherever it is and however long the telegram is.",
  "every telegram, every odd polynomial, every initial value, every difference within the width of the check word, widths from 8 bits (BYTE to LWORD), debug and release builds", "the number of telegrams and of differences grows without bound with the length.", ["src/bit_shift_functions.rs: SHL__BYTE, SHL__WORD, SHL__DWORD, SHL__LWORD"])
p("Dates and times read back from their text",
  "The library has no function that reads a date. A program that takes the text of DATE_TO_STRING, TOD_TO_STRING or DT_TO_STRING apart with MID and LEN, reads the numbers with STRING_TO_DINT and STRING_TO_LINT and puts them together with CONCAT_DATE, CONCAT_TOD, ADD_TOD_TIME and CONCAT_DATE_TOD gets back the date, the time of day or the date and time, to the nanosecond. A typed date is accepted only if it is the text of a date, and that date has the text that was typed in.",
  "every DATE, TOD and DT; every typed string; debug and release builds", "there are 2^64 timestamps, with fractions of 0, 3, 6 or 9 digits, and more strings.", ["src/extra_functions.rs: DATE_TO_STRING_EXT, TOD_TO_STRING_EXT, DT_TO_STRING_EXT, STRING_TO_DINT, STRING_TO_LINT", "src/string_functions.rs: MID_EXT__STRING, LEFT_EXT__STRING, LEN__STRING, CONCAT__STRING", "src/date_time_extra_functions.rs: CONCAT_DATE__DINT, CONCAT_TOD__DINT, CONCAT_DATE_TOD", "src/date_time_numeric_functions.rs: ADD_TOD_TIME"])
p("Any number of delays in series add up",
  "A program that calls n on-delays in series, each with the output of the one before as its input, never aborts; its output is TRUE only after the input has been TRUE for more than the sum of the preset times, and with scans of at most D it is TRUE at the latest D later for every timer but one. The same holds for off-delays and FALSE, once the input has been TRUE.",
  "every list of preset times, every input sequence, every sequence of clock readings that never goes backwards, every scan", "the number of timers, the preset times and the number and times of the scans are unbounded.", ["src/timers.rs: TON, TOF"])
p("A pulse timer made of an edge detector, a latch and an on-delay",
  "A program that starts a pulse with R_TRIG and RS and ends it with TON never aborts; while its output is FALSE a pulse starts exactly at a rising edge of the input; whatever the input does, the pulse is TRUE in its first two scans and in every scan in which at most T has passed since the second one, and ends in the first scan in which more has passed. The next rising edge starts a pulse again.",
  "every preset time, every input sequence, every sequence of clock readings, every scan", "the number of scans, pulses and the times are unbounded; TP, which is meant for this, aborts when it is idle and can miss all further edges.", ["src/flanks.rs: R_TRIG", "src/timers.rs: TON", "src/bistable_functionblocks.rs: RS"])
p("A queue and a log kept in a string",
  "A program that puts texts at the end of a string with CONCAT when LEN says that they fit and takes single characters from its front with LEFT and DELETE is a bounded first-in-first-out queue; a program that appends messages with CONCAT and shortens the string with RIGHT keeps exactly the last N characters. Both never abort and never write outside of their variables if the limits are 512 characters for STRING and 1024 for WSTRING; 513 is too many.",
  "every sequence of operations, all texts, every limit up to the bound, STRING and WSTRING, both build profiles", "the number of operations and the texts are unbounded; LEN counts characters while the memory has room for bytes or units.", ["src/string_functions.rs: LEN__STRING, CONCAT_EXT__STRING, LEFT_EXT__STRING, RIGHT_EXT__STRING, DELETE_EXT__STRING", "iec61131-st/string_functions.st"])
p("The string functions do the same on 32-bit controllers",
  "LEFT, RIGHT, MID, INSERT, DELETE and REPLACE do the same on a controller with 32-bit addresses as on one with 64-bit addresses: they write the same result or abort in the same calls, in debug and in release builds, also for negative lengths and positions and for memory that is not well-formed text.",
  "every contents of the memory of the arguments (up to the size an object can have on such a machine), every length and position, both string types, both profiles", "lengths and positions are converted to a type whose width depends on the target, and tests run on the development machine only.", ["src/string_functions.rs: LEFT_EXT__STRING, RIGHT_EXT__STRING, MID_EXT__STRING, INSERT_EXT__STRING, DELETE_EXT__STRING, REPLACE_EXT__STRING and the WSTRING versions"])
p("64-bit outputs on 32-bit controllers, read by another task",
  "On a controller that stores a 64-bit value in two halves, a task that reads CV of a LINT or ULINT counter, or ET of a timer, while another task calls the block finds the value from before the call or the one from after it.",
  "every history of calls of the block, every call, every moment of the call at which each half is loaded, either order of the two stores", "the moment lies between two machine instructions and only one value in 2^32 has a carry into the upper half; tests call the blocks from one task on a 64-bit machine.", ["src/counters.rs: CTU/CTD/CTUD of LINT and ULINT, CV", "src/timers.rs: TON, TOF, TimerParams, ET"])
p("Two sensors out of three: the middle value, and a filter made of it",
  "MAX(MIN(A, B), MIN(MAX(A, B), C)) is the middle one of three values. If two of them lie in an interval the result does too, whatever the third one is; with REAL and LREAL also if it is a NaN or an infinity. A filter that takes the middle one of the last three samples removes single outliers and passes a signal that only rises or only falls, one scan later.",
  "all values of all types, NaN and infinities included, every sequence of samples of any length", "three floats have 2^192 combinations, and the filter has an unbounded history.", ["src/types.rs: MAX, MIN (define_float_type!, define_order_type!)", "iec61131-st/selectors.st: MAX, MIN"])
p("A span of time in equal parts, and the mean of durations",
  "ADD(A, MUL(DIV(SUB(B, A), N), K)) for K = 0 to N are points at equal distances from A on, none of them after B and the last one less than N nanoseconds before it. With the product first, ADD(A, DIV(MUL(SUB(B, A), K), N)), every point is exact to the nanosecond and the last one is B, if (B - A) * N fits into TIME. A loop of ADD followed by DIV gives the mean of durations, which lies between the smallest and the largest, if no partial sum is outside the range of TIME, and aborts otherwise.",
  "every begin and end, every number of parts and every integer type for it, every list of durations of any length", "rounding and overflow depend on all three numbers; a test shows single points.", ["src/date_time_numeric_functions.rs: SUB_DT_DT, ADD_DT_TIME, ADD_TIME, MUL_TIME__*, DIV_TIME__*"])
p("A two-point controller made of RS",
  "L(SET := X <= LO, RESET1 := X >= HI); HEAT := L.Q1 heats exactly if the value X has been at LO or below and has not reached HI since. If X does not fall while it heats, does not rise while it does not, and changes by at most D between two scans, X stays between LO - D and HI + D for ever, and from one switching to the next at least (HI - LO) / D scans go by. If the process reacts in every scan, the controller switches again after at most HI - X or X - LO scans.",
  "every sequence of measured values of unbounded length, every process with these properties, every LO < HI and D", "the loop of controller and process runs for ever; a test runs one process for some time.", ["src/bistable_functionblocks.rs: RS", "iec61131-st/bistable_functionblocks.st: RS"])
p("A minimum running time and a minimum pause, made of two on-delays",
  "on(IN := Q, PT := TRUN); off(IN := NOT Q, PT := TREST); Q := SEL(Q, X AND off.Q, X OR NOT on.Q) never aborts. While Q is on, a scan leaves it on exactly if X is TRUE or at most TRUN has passed since the first scan with Q on; while Q is off, a scan switches it on exactly if X is TRUE and more than TREST has passed since the first scan with Q off. So whatever the request X does, a machine that has been switched on runs for TRUN, and one that has been switched off rests for TREST.",
  "every sequence of requests of unbounded length, all clock readings, all running times and pauses", "the guarantee is for every request and every scan time; a test tries some.", ["src/timers.rs: TON", "iec61131-st/timers.st: TON"])
p("A preset that is wrong in one call does no harm in the next",
  "After any two histories of a TON or a TOF that differ only in PT, every further call leaves the same instance with the same outputs. The same holds of CTU for histories that differ only in PV, of CTD for histories that differ only in PV of calls with LD FALSE, and of CTUD for histories that differ only in PV of calls with LD FALSE or R TRUE, for every type of the counter value. It does not hold of TP, which a wrong PT in one call can end for good, nor of a call that loads PV.",
  "all pairs of histories of unbounded length that differ in the presets only, every further call, all clock readings, both profiles, every counter type", "a claim about pairs of histories; a test runs one history at a time.", ["src/timers.rs: TON, TOF, TP", "src/counters.rs: ctu, ctd, ctud"])
p("An input that is on longer keeps timers and latches on longer",
  "Take two instances of TON, called at the same instants, with IN of the second TRUE whenever IN of the first is. If PT of the last call is not longer for the second, then its Q is TRUE whenever Q of the first is; if it is not shorter, its ET is at least the ET of the first. For two instances of TOF the Q of the second is TRUE whenever Q of the first is, if PT of the last call is not shorter. For two instances of SR, or of RS, the output of the second is TRUE whenever that of the first is, if the second is set whenever the first is and the first is reset whenever the second is. CTU does not respond to R in this way: an additional call with R TRUE can leave a higher count.",
  "all pairs of histories of unbounded length so related, all instants of calls, all presets", "a claim about pairs of histories; a test runs one history at a time.", ["src/timers.rs: TON, TOF", "src/bistable_functionblocks.rs: SR, RS", "src/counters.rs: ctu"])
p("A two-hand control made of TON, RS and SR",
  "t(IN := A OR B, PT := T); l(SET := A AND B AND NOT t.Q AND r.Q1, RESET1 := NOT (A AND B)); r(SET1 := NOT (A OR B), RESET := l.Q1); OUT := l.Q1 never aborts. Whenever OUT is TRUE, both buttons have been pressed without interruption since a scan that came at most T after the first scan with a button pressed, both were released before that, and OUT was FALSE from then until the stroke began: there is one stroke for each time that both buttons are released. Conversely, if the first scan with both buttons pressed comes in time, OUT is TRUE from that scan on for as long as both are pressed. If it comes late (a button that is tied down), OUT stays FALSE until both have been released.",
  "every sequence of button states of unbounded length, all clock readings, all times T", "a safety claim about every sequence of scans; a test tries some.", ["src/timers.rs: TON", "src/bistable_functionblocks.rs: RS, SR"])
p("A first-out annunciator for any number of alarms, made of RS",
  "FOR i := 0 TO N - 1 DO f[i](SET := X[i] AND NOT ANY, RESET1 := ACK); END_FOR ANY := f[0].Q1 OR ... OR f[N - 1].Q1 never aborts. The lamp f[i].Q1 is on exactly if alarm i was TRUE in the first scan with an alarm since the last acknowledgement. While an alarm has come and has not been acknowledged, some lamp is on, and later alarms change no lamp.",
  "every number of alarms, every sequence of alarms and acknowledgements of unbounded length", "the claim is for every sequence and every number of alarms; a test tries some.", ["src/bistable_functionblocks.rs: RS"])
p("Two sensors out of three, supervised by an on-delay and a latch",
  "OUT := (A AND B) OR (A AND C) OR (B AND C); d(IN := NOT (A = B AND B = C), PT := T); f(SET1 := d.Q, RESET := ACK); FAULT := f.Q1 never aborts. OUT is what at least two of the sensors show. FAULT is TRUE exactly if in some scan the sensors had been different for longer than T, and there has been no acknowledgement after that scan. So one defective sensor never changes OUT, is reported in every scan later than T after it first differed, acknowledged or not, and sensors that differ for at most T at a time are never reported.",
  "every sequence of sensor states and acknowledgements of unbounded length, all clock readings, all times T", "the claim is for every sequence of scans; a test tries some.", ["src/timers.rs: TON", "src/bistable_functionblocks.rs: SR"])
p("A cycle of timed steps made of one on-delay",
  "t(IN := NOT t.Q, PT := D[STEP]); IF t.Q THEN STEP := (STEP + 1) MOD N; END_IF never aborts. The time of step 0 starts in the first scan. A step is held until the first scan that comes later than its duration after the scan that started its time; that scan sets STEP to the next step (step 0 after the last), and the second scan after it starts the time of this step. If the clock goes on, every step has its turn again and again.",
  "every number of steps and all their durations, all clock readings, runs of unbounded length", "exact times for every sequence of scans, and a liveness claim; a test observes finitely many scans.", ["src/timers.rs: TON"])
p("Inputs that a call leaves out",
  "In a Structured Text program whose instances start as zeroed memory, an input of a function block instance reads as what the program has written into it last (FALSE or 0 if it has written nothing), whatever calls of this and of other instances took place in between. So `counter(CU := x)` counts with the PV of an earlier call: leaving an input out is the same as writing the last value into it again, for every variable of every instance and for the question whether the program runs to its end.",
  "all programs and orders of steps, all numbers of instances of all 31 function blocks, all addresses, both byte orders, all usual platforms, both build profiles", "the program and the length of the run are arbitrary; a block that changes an input does so in some of its states only.", ["src/flanks.rs: R_TRIG, F_TRIG", "src/bistable_functionblocks.rs: SR, RS", "src/counters.rs: CTU, CTD, CTUD", "src/timers.rs: TP, TON, TOF", "iec61131-st/counters.st: VAR_INPUT"])
p("Outputs between calls, and the order of calls of different instances",
  "In a Structured Text program whose instances start as zeroed memory, the outputs of an instance read the same as long as the instance is not called, whatever is written into its inputs and whatever is done with other instances (so a block in a branch that is not executed keeps its outputs). Two programs that do the same with each instance, in any order of the instances, run to their ends alike, and every variable of every instance reads the same.",
  "all programs and orders of steps, all numbers of instances of all 31 function blocks, all addresses, both byte orders, all usual platforms, both build profiles", "the number of interleavings of the calls of several instances is unbounded; a test runs some of them.", ["src/flanks.rs: R_TRIG, F_TRIG", "src/bistable_functionblocks.rs: SR, RS", "src/counters.rs: CTU, CTD, CTUD", "src/timers.rs: TP, TON, TOF", "iec61131-st/timers.st: VAR_OUTPUT"])
p("Outputs of blocks whose calls leave inputs out",
  "In a Structured Text program whose instances start as zeroed memory, which writes inputs when and as often as it likes and calls the blocks with any of their inputs left out, reading an output of a block by its name gives the value that the block computes from the history of its calls, each with the inputs that were in force in it (written for this call or before, FALSE or 0 if never written), for every one of the exported names and counting types. (C146 without its condition that every call comes with all inputs.)",
  "all programs and orders of steps, all numbers of instances of all 31 function blocks, all addresses, both byte orders, all usual platforms, both build profiles", "the program, its instances and the length of the run are arbitrary; the code on both sides of the boundary takes part.", ["src/flanks.rs: R_TRIG, F_TRIG", "src/bistable_functionblocks.rs: SR, RS", "src/counters.rs: CTU, CTD, CTUD", "src/timers.rs: TP, TON, TOF", "iec61131-st/counters.st: VAR_INPUT"])
out = os.path.join(os.path.dirname(__file__), "..", "properties.jsonl")
with open(out, "w") as f:
    for q in P: f.write(json.dumps(q) + "\n")
print(len(P))
for q in P: print(q["id"], q["title"])
