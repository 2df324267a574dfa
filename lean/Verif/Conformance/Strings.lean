import Verif.Model.StStrings
import Verif.Conformance.Text
/-
The project's tests of the string functions, run on the model: tests/string_function_tests.rs, tests/string_conversion_tests.rs
and the unit tests in src/string_functions.rs. These are tests of the transcription, not proofs.

Left out: unit tests that pass pointers to Rust literals without a terminator (undefined behaviour), and the test of a compiler
error.
-/
namespace Verif.Conformance
open Verif

set_option maxRecDepth 100000


/-! ### tests/string_function_tests.rs: STRING -/

example : len codec8 (p8 "     this is   a  very   long          sentence   with plenty  of    characters.") = .ok 80 := by decide +kernel
example : len codec8 (p8 "     this is   a  very   long           sentence   with plenty  of    characters and weird  spacing.") = .ok 100 := by decide +kernel
example : len codec8 (p8 "hello") = .ok 5 := by decide +kernel
example : len codec8 (p8 "") = .ok 0 := by decide +kernel
example : text (St.LEFT codec8 (p8 "hello") 3) = .ok (s8 "hel") := by decide +kernel
example : text (St.LEFT codec8 (p8 "     this is   a  very   long           sentence   with plenty  of    characters and weird  spacing.") 85) = .ok (s8 "     this is   a  very   long           sentence   with plenty  of    characters and ") := by decide +kernel
example : text (St.LEFT codec8 (p8 "lets see if long int is handled correctly") 31) = .ok (s8 "lets see if long int is handled") := by decide +kernel
example : text (left codec8 (p8 "extended") 6 (zeros 81)) = .ok (s8 "extend") := by decide +kernel
example : text (St.RIGHT codec8 (p8 "sample text") 7) = .ok (s8 "le text") := by decide +kernel
example : St.RIGHT codec8 (p8 "sample text") 12 = .panic := by decide +kernel
example : text (right codec8 (p8 "extended") 3 (zeros 81)) = .ok (s8 "ded") := by decide +kernel
example : text (St.RIGHT codec8 (p8 "     this is   a  very   long           sentence   with plenty  of    characters and weird  spacing.") 85) = .ok (s8 "a  very   long           sentence   with plenty  of    characters and weird  spacing.") := by decide +kernel
example : text (right codec8 (p8 "7gAN5pmmSXqHJ3zZCXnBwika9N8RPXpTAdX4LdwHbLjwv9g3mU3dtpCT2MHVPxwtMw6jMQkip3HDy8Ruw42pVi56fiVhYn8faPLUKRghytQcBFgZhMXGhpBW") 99 (zeros 129)) = .ok (s8 "ika9N8RPXpTAdX4LdwHbLjwv9g3mU3dtpCT2MHVPxwtMw6jMQkip3HDy8Ruw42pVi56fiVhYn8faPLUKRghytQcBFgZhMXGhpBW") := by decide +kernel
example : text (St.MID .debug codec8 (p8 "sample text") 7 2) = .ok (s8 "ample t") := by decide +kernel
example : text (St.MID .debug codec8 (p8 "     this is   a  very   long           sentence   with plenty  of    characters and weird  spacing.the                same           is   true                    for             this                     string.") 4 6) = .ok (s8 "this") := by decide +kernel
example : text (mid .debug codec8 (p8 "sample text") 7 2 (zeros 81)) = .ok (s8 "ample t") := by decide +kernel
example : text (St.MID .debug codec8 (p8 "7gAN5pmmSXqHJ3zZCXnBwika9N8RPXpTAdX4LdwHbLjwv9g3mU3dtpCT2MHVPxwtMw6jMQkip3HDy8Ruw42pVi56fiVhYn8faPLUKRghytQcBFgZhMXGhpBW") 99 10) = .ok (s8 "XqHJ3zZCXnBwika9N8RPXpTAdX4LdwHbLjwv9g3mU3dtpCT2MHVPxwtMw6jMQkip3HDy8Ruw42pVi56fiVhYn8faPLUKRghytQc") := by decide +kernel
example : text (mid .debug codec8 (p8 "7gAN5pmmSXqHJ3zZCXnBwika9N8RPXpTAdX4LdwHbLjwv9g3mU3dtpCT2MHVPxwtMw6jMQkip3HDy8Ruw42pVi56fiVhYn8faPLUKRghytQcBFgZhMXGhpBW") 99 10 (zeros 129)) = .ok (s8 "XqHJ3zZCXnBwika9N8RPXpTAdX4LdwHbLjwv9g3mU3dtpCT2MHVPxwtMw6jMQkip3HDy8Ruw42pVi56fiVhYn8faPLUKRghytQc") := by decide +kernel
example : text (St.INSERT codec8 (p8 "stuck with you") (p8 "in the middle ") 6) = .ok (s8 "stuck in the middle with you") := by decide +kernel
example : text (insert codec8 (p8 "2") (p8 "1") 0 (zeros 81)) = .ok (s8 "12") := by decide +kernel
example : text (insert codec8 (p8 "12") (p8 "3") 2 (zeros 81)) = .ok (s8 "123") := by decide +kernel
example : text (St.DELETE .debug codec8 (p8 "the$e are escape sequences '𝄞'") 21 6) = .ok (s8 "the$e '𝄞'") := by decide +kernel
example : text (delete .debug codec8 (p8 "𝄞typoasdf") 4 6 (zeros 81)) = .ok (s8 "𝄞typo") := by decide +kernel
example : text (delete .debug codec8 (p8 "the$e are escape sequences '𝄞'") 21 6 (zeros 81)) = .ok (s8 "the$e '𝄞'") := by decide +kernel
example : text (St.REPLACE .debug codec8 (p8 "replace me") (p8 "gret𝄞") 8 3) = .ok (s8 "regret𝄞") := by decide +kernel
example : text (replace .debug codec8 (p8 "replace me") (p8 "st𝄞red") 8 3 (zeros 81)) = .ok (s8 "rest𝄞red") := by decide +kernel
example : FIND__STRING .debug (p8 "Where is Waldo?") (p8 "Waldo") = .ok 10 := by decide +kernel
example : text (St.CONCAT codec8 [p8 "Hello", p8 ", ", p8 "World", p8 "!"]) = .ok (s8 "Hello, World!") := by decide +kernel
example : text (concat codec8 (zeros 2049) 4 (some [p8 "Hello", p8 ", ", p8 "World", p8 "!"])) = .ok (s8 "Hello, World!") := by decide +kernel
example : text (St.CONCAT codec8 [p8 "     this is   a  very   long           sentence   with plenty  of    characters and weird  spacing.", p8 "\n", p8 "the                same           is   true                    for             this                     string."]) = .ok (s8 "     this is   a  very   long           sentence   with plenty  of    characters and weird  spacing.\nthe                same           is   true                    for             this                     string.") := by decide +kernel

/-! ### tests/string_function_tests.rs: WSTRING -/

example : len codec16 (p16 "Hèßlo😀𝄞") = .ok 7 := by decide +kernel
example : len codec16 (p16 "") = .ok 0 := by decide +kernel
example : text (St.LEFT codec16 (p16 "𝄞music") 2) = .ok (s16 "𝄞m") := by decide +kernel
example : text (St.LEFT codec16 (p16 "lets see 𝄞f long 𝄞nt is handled correctly") 31) = .ok (s16 "lets see 𝄞f long 𝄞nt is handled") := by decide +kernel
example : text (left codec16 (p16 "e𝄞tended") 6 (zeros 81)) = .ok (s16 "e𝄞tend") := by decide +kernel
example : text (St.RIGHT codec16 (p16 "samp𝄞e text") 7) = .ok (s16 "𝄞e text") := by decide +kernel
example : St.RIGHT codec16 (p16 "sa𝄞ple text") 12 = .panic := by decide +kernel
example : text (right codec16 (p16 "exten𝄞ed𝄞") 4 (zeros 81)) = .ok (s16 "𝄞ed𝄞") := by decide +kernel
example : text (St.RIGHT codec16 (p16 "7gAN5pmmSXqHJ3zZCXnBwika9N8RPXpTAdX4LdwHbLjwv9g3mU3dtpCT2MHVPxwtMw6jMQkip3HDy8Ruw42pVi56fiVhYn8faPLUKRghytQcBFgZhMXGhp𝄞𝄞") 99) = .ok (s16 "ika9N8RPXpTAdX4LdwHbLjwv9g3mU3dtpCT2MHVPxwtMw6jMQkip3HDy8Ruw42pVi56fiVhYn8faPLUKRghytQcBFgZhMXGhp𝄞𝄞") := by decide +kernel
example : text (right codec16 (p16 "7gAN5pmmSXqHJ3zZCXnBwi𝄞𝄞9N8RPXpTAdX4LdwHbLjwv9g3mU3dtpCT2MHVPxwtMw6jMQkip3HDy8Ruw42pVi56fiVhYn8faPLUKRghytQcBFgZhMXGhpBW") 99 (zeros 129)) = .ok (s16 "i𝄞𝄞9N8RPXpTAdX4LdwHbLjwv9g3mU3dtpCT2MHVPxwtMw6jMQkip3HDy8Ruw42pVi56fiVhYn8faPLUKRghytQcBFgZhMXGhpBW") := by decide +kernel
example : text (St.MID .debug codec16 (p16 "sample 𝄞muϗ😀 text") 7 2) = .ok (s16 "ample 𝄞") := by decide +kernel
example : text (mid .debug codec16 (p16 "𝄞muϗ😀 sample text") 7 2 (zeros 81)) = .ok (s16 "muϗ😀 sa") := by decide +kernel
example : text (St.MID .debug codec16 (p16 "𝄞muϗ😀pmmSXqHJ3zZCXnBwika9N8RPXpTAdX4LdwHbLjwv9g3mU3dtpCT2MHVPxwtMw6jMQkip3HDy8Ruw42pVi56fiVhYn8faPLUKRghytQcBFgZhMXGhpBW") 99 10) = .ok (s16 "XqHJ3zZCXnBwika9N8RPXpTAdX4LdwHbLjwv9g3mU3dtpCT2MHVPxwtMw6jMQkip3HDy8Ruw42pVi56fiVhYn8faPLUKRghytQc") := by decide +kernel
example : text (mid .debug codec16 (p16 "𝄞muϗ😀pmmSXqHJ3zZCXnBwika9N8RPXpTAdX4LdwHbLjwv9g3mU3dtpCT2MHVPxwtMw6jMQkip3HDy8Ruw42pVi56fiVhYn8faPLUKRghytQcBFgZhMXGhpBW") 99 10 (zeros 129)) = .ok (s16 "XqHJ3zZCXnBwika9N8RPXpTAdX4LdwHbLjwv9g3mU3dtpCT2MHVPxwtMw6jMQkip3HDy8Ruw42pVi56fiVhYn8faPLUKRghytQc") := by decide +kernel
example : text (St.INSERT codec16 (p16 "stuck with you") (p16 "in the middle ") 6) = .ok (s16 "stuck in the middle with you") := by decide +kernel
example : text (insert codec16 (p16 "2") (p16 "1") 0 (zeros 81)) = .ok (s16 "12") := by decide +kernel
example : text (insert codec16 (p16 "12") (p16 "3") 2 (zeros 81)) = .ok (s16 "123") := by decide +kernel
example : text (St.DELETE .debug codec16 (p16 "this will be deleted") 13 1) = .ok (s16 "deleted") := by decide +kernel
example : text (delete .debug codec16 (p16 "typoasdf") 4 5 (zeros 81)) = .ok (s16 "typo") := by decide +kernel
example : text (St.REPLACE .debug codec16 (p16 "replace me") (p16 "gret") 8 3) = .ok (s16 "regret") := by decide +kernel
example : text (replace .debug codec16 (p16 "replace me") (p16 "stored") 8 3 (zeros 81)) = .ok (s16 "restored") := by decide +kernel
example : FIND__WSTRING .debug (p16 "Where is Waldo?") (p16 "Waldo") = .ok 10 := by decide +kernel
example : text (St.DELETE .debug codec16 (p16 "the$e are escape sequences \"𝄞\"") 21 6) = .ok (s16 "the$e \"𝄞\"") := by decide +kernel
example : text (St.CONCAT codec16 [p16 "Hello", p16 ", ", p16 "World", p16 "!"]) = .ok (s16 "Hello, World!") := by decide +kernel
example : text (concat codec16 (zeros 2049) 4 (some [p16 "Hello", p16 ", ", p16 "World", p16 "!"])) = .ok (s16 "Hello, World!") := by decide +kernel

/-! ### tests/string_function_tests.rs: comparisons -/

example : GT 3 (some [p8 "z", p8 "y ", p8 "x"]) = .ok true := by decide +kernel
example : GE 4 (some [p8 "z", p8 "z", p8 "y", p8 "x"]) = .ok true := by decide +kernel
example : EQ 3 (some [p8 "same", p8 "same", p8 "same"]) = .ok true := by decide +kernel
example : LT 4 (some [p8 "x", p8 "y", p8 "z", p8 "z"]) = .ok false := by decide +kernel
example : LE 4 (some [p8 "x", p8 "y", p8 "z", p8 "z"]) = .ok true := by decide +kernel
example : GT 3 (some [p16 "z", p16 "y", p16 "x"]) = .ok true := by decide +kernel
example : GE 4 (some [p16 "z", p16 "z", p16 "y", p16 "x"]) = .ok true := by decide +kernel
example : EQ 3 (some [p16 "same", p16 "same", p16 "same"]) = .ok true := by decide +kernel
example : LT 4 (some [p16 "x", p16 "y", p16 "z", p16 "z"]) = .ok false := by decide +kernel
example : LE 4 (some [p16 "x", p16 "y", p16 "z", p16 "z"]) = .ok true := by decide +kernel
example : NE (p8 "z") (p8 "y") = .ok true := by decide +kernel
example : NE (p16 "lhs == rhs") (p16 "this very long unimaginative sentence claims the previous statement is dishonest and untrue") = .ok true := by decide +kernel
example : St.GREATER (p8 "zyx") (p8 "yx") = .ok true := by decide +kernel
example : St.LESS (p8 "abc") (p8 "bcd") = .ok true := by decide +kernel
example : St.LESS (p8 "abc") (p8 "bcd") = .ok true := by decide +kernel
example : St.LESS (p8 "bcd") (p8 "cba") = .ok true := by decide +kernel
example : St.EQUAL (p8 "abc") (p8 "abc") = .ok true := by decide +kernel
example : St.GREATER (p8 "cba") (p8 "bcd") = .ok true := by decide +kernel
example : St.GREATER (p8 "bcd") (p8 "abc") = .ok true := by decide +kernel
example : St.EQUAL (p8 "cba") (p8 "cba") = .ok true := by decide +kernel
example : St.EQUAL (p8 "abc") (p8 "cba") = .ok false := by decide +kernel
example : St.EQUAL (p8 "abc") (p8 "bcd") = .ok false := by decide +kernel
example : St.EQUAL (p8 "bcd") (p8 "cba") = .ok false := by decide +kernel
example : St.LESS (p8 "bcd") (p8 "abc") = .ok false := by decide +kernel
example : St.LESS (p8 "bcd") (p8 "abc") = .ok false := by decide +kernel
example : St.LESS (p8 "cba") (p8 "bcd") = .ok false := by decide +kernel
example : St.EQUAL (p8 "abc") (p8 "bcd") = .ok false := by decide +kernel
example : St.GREATER (p8 "bcd") (p8 "cba") = .ok false := by decide +kernel
example : St.GREATER (p8 "abc") (p8 "bcd") = .ok false := by decide +kernel
example : St.LESS (p16 "abc") (p16 "bcd") = .ok true := by decide +kernel
example : St.LESS (p16 "abc") (p16 "bcd") = .ok true := by decide +kernel
example : St.LESS (p16 "bcd") (p16 "cba") = .ok true := by decide +kernel
example : St.EQUAL (p16 "abc") (p16 "abc") = .ok true := by decide +kernel
example : St.GREATER (p16 "cba") (p16 "bcd") = .ok true := by decide +kernel
example : St.GREATER (p16 "bcd") (p16 "abc") = .ok true := by decide +kernel
example : St.EQUAL (p16 "cba") (p16 "cba") = .ok true := by decide +kernel
example : St.EQUAL (p16 "abc") (p16 "cba") = .ok false := by decide +kernel
example : St.EQUAL (p16 "abc") (p16 "bcd") = .ok false := by decide +kernel
example : St.EQUAL (p16 "bcd") (p16 "cba") = .ok false := by decide +kernel
example : St.LESS (p16 "bcd") (p16 "abc") = .ok false := by decide +kernel
example : St.LESS (p16 "bcd") (p16 "abc") = .ok false := by decide +kernel
example : St.LESS (p16 "cba") (p16 "bcd") = .ok false := by decide +kernel
example : St.EQUAL (p16 "abc") (p16 "bcd") = .ok false := by decide +kernel
example : St.GREATER (p16 "bcd") (p16 "cba") = .ok false := by decide +kernel
example : St.GREATER (p16 "abc") (p16 "bcd") = .ok false := by decide +kernel
example : St.EQUAL (p8 "this very long unimaginative sentence consists of the same characters in the same sequence twice") (p8 "this very long unimaginative sentence consists of the same characters in the same sequence twice") = .ok true := by decide +kernel
example : St.EQUAL (p8 "this very long unimaginative sentence consists of the same characters in the same sequence twice") (p8 "this very long unimaginative sentence claims the previous string is dishonest") = .ok false := by decide +kernel

/-! ### tests/string_conversion_tests.rs -/

example : text (St.WSTRING_TO_STRING (p16 "hello")) = .ok (s8 "hello") := by decide +kernel
example : text (St.WSTRING_TO_STRING (p16 "")) = .ok (s8 "") := by decide +kernel
example : text (St.WSTRING_TO_STRING (p16 "hèßlo👽️")) = .ok (s8 "hèßlo👽️") := by decide +kernel
example : cut 80 (St.WSTRING_TO_STRING (p16 "111111111122222222223333333333444444444455555555556666666666777777777788888888889999999999")) = .ok (s8 "11111111112222222222333333333344444444445555555555666666666677777777778888888888") := by decide +kernel
example : text (St.STRING_TO_WSTRING (p8 "Hello")) = .ok [72, 101, 108, 108, 111] := by decide +kernel
example : text (St.STRING_TO_WSTRING (p8 "")) = .ok [] := by decide +kernel
example : text (St.STRING_TO_WSTRING (p8 "Hèßlo😀")) = .ok (s16 "Hèßlo😀") := by decide +kernel
example : cut 80 (St.STRING_TO_WSTRING (p8 "111111111122222222223333333333444444444455555555556666666666777777777788888888889999999999")) = .ok (s16 "11111111112222222222333333333344444444445555555555666666666677777777778888888888") := by decide +kernel
example : St.STRING_TO_CHAR (p16 "ABC") = .ok 65 := by decide +kernel
example : St.STRING_TO_CHAR (p8 "BCD") = .ok 66 := by decide +kernel
example : WCHAR_TO_CHAR 65 = 65 := by decide +kernel
example : CHAR_TO_WCHAR 66 = 66 := by decide +kernel

/-! ### src/string_functions.rs: unit tests, STRING -/

example : len codec8 (p8 "ϕϚϡϗabcd") = .ok 8 := by decide +kernel
example : FIND__STRING .debug (p8 "hϗllo wϕrld") (p8 "llo") = .ok 3 := by decide +kernel
example : FIND__STRING .debug (p8 "hello wϕrld") (p8 "h") = .ok 1 := by decide +kernel
example : FIND__STRING .debug (p8 "hello world") (p8 "d") = .ok 11 := by decide +kernel
example : FIND__STRING .debug (p8 "hello ϕϚϡϗ") (p8 "ϗ") = .ok 10 := by decide +kernel
example : text (left codec8 (p8 "ϕϚϡϗ hello") 7 (zeros 2048)) = .ok (s8 "ϕϚϡϗ he") := by decide +kernel
example : text (left codec8 (p8 "     this is   a  very   long           sentence   with plenty  of    characters and weird  spacing.") 85 (zeros 2048)) = .ok (s8 "     this is   a  very   long           sentence   with plenty  of    characters and ") := by decide +kernel
example : text (left codec8 (p8 "ϕ\"Ϛ\"ϡϗ hello") 6 (zeros 2048)) = .ok (s8 "ϕ\"Ϛ\"ϡϗ") := by decide +kernel
example : text (left codec8 (p8 "ϕϚϡϗ hello") 10 (zeros 2048)) = .ok (s8 "ϕϚϡϗ hello") := by decide +kernel
example : left codec8 (p8 "hello") 7 (zeros 2048) = .panic := by decide +kernel
example : text (right codec8 (p8 "ϕϚϡϗ hello") 5 (zeros 2048)) = .ok (s8 "hello") := by decide +kernel
example : text (right codec8 (p8 "ϕϚϡxϗ wϕrld") 8 (zeros 2048)) = .ok (s8 "xϗ wϕrld") := by decide +kernel
example : text (mid .debug codec8 (p8 "ϕϚϡxϗ wϕrld") 6 3 (zeros 2048)) = .ok (s8 "ϡxϗ wϕ") := by decide +kernel
example : text (mid .debug codec8 (p8 "ϕϚϡxϗ wϕrld") 11 1 (zeros 2048)) = .ok (s8 "ϕϚϡxϗ wϕrld") := by decide +kernel
example : mid .debug codec8 (p8 "hello world") 5 12 (zeros 2048) = .panic := by decide +kernel
example : text (insert codec8 (p8 "ϕϚϡxϗ wϕrld") (p8 "brave new ") 6 (zeros 2048)) = .ok (s8 "ϕϚϡxϗ brave new wϕrld") := by decide +kernel
example : text (insert codec8 (p8 "hello world") (p8 "ϕϚϡxϗ new ") 0 (zeros 2048)) = .ok (s8 "ϕϚϡxϗ new hello world") := by decide +kernel
example : text (insert codec8 (p8 "hello world") (p8 "ϕϚϡxϗ new ") 11 (zeros 2048)) = .ok (s8 "hello worldϕϚϡxϗ new ") := by decide +kernel
example : insert codec8 (p8 "hello world") (p8 "brave new ") 12 (zeros 2048) = .panic := by decide +kernel
example : insert codec8 (p8 "hello world") (p8 "brave new ") (-2) (zeros 2048) = .panic := by decide +kernel
example : text (delete .debug codec8 (p8 "ϕϚϡxϗ wϕrld") 9 3 (zeros 2048)) = .ok (s8 "ϕϚ") := by decide +kernel
example : text (delete .debug codec8 (p8 "ϕϚϡxϗ wϕrld") 11 1 (zeros 2048)) = .ok (s8 "") := by decide +kernel
example : text (delete .debug codec8 (p8 "ϕϚϡxϗ wϕrld") 1 11 (zeros 2048)) = .ok (s8 "ϕϚϡxϗ wϕrl") := by decide +kernel
example : text (delete .debug codec8 (p8 "ϕϚϡxϗ wϕrld") 1 1 (zeros 2048)) = .ok (s8 "Ϛϡxϗ wϕrld") := by decide +kernel
example : delete .debug codec8 (p8 "hello world") 12 1 (zeros 2048) = .panic := by decide +kernel
example : delete .debug codec8 (p8 "hello world") 11 0 (zeros 2048) = .panic := by decide +kernel
example : delete .debug codec8 (p8 "hello world") 11 12 (zeros 2048) = .panic := by decide +kernel
example : text (replace .debug codec8 (p8 "ϕϚϡxϗ wϕrld") (p8 "brϡxϗ new ") 6 1 (zeros 2048)) = .ok (s8 "brϡxϗ new wϕrld") := by decide +kernel
example : text (replace .debug codec8 (p8 "hellϕ wϕrld") (p8 "brϡxϗ new") 3 5 (zeros 2048)) = .ok (s8 "hellbrϡxϗ newϕrld") := by decide +kernel
example : text (replace .debug codec8 (p8 "hællø wørlÞ") (p8 "aldø, how are you😀") 4 8 (zeros 2048)) = .ok (s8 "hællø waldø, how are you😀") := by decide +kernel
example : replace .debug codec8 (p8 "hello world") (p8 "aldo, how are you") 12 1 (zeros 2048) = .panic := by decide +kernel
example : replace .debug codec8 (p8 "hello world") (p8 "aldo, how are you") 8 0 (zeros 2048) = .panic := by decide +kernel
example : replace .debug codec8 (p8 "hello world") (p8 "aldo, how are you") 8 12 (zeros 2048) = .panic := by decide +kernel
example : text (concat codec8 (zeros 2049) 3 (some [p8 "hællø wørlÞ", p8 "hello world", p8 "𝄞music"])) = .ok (s8 "hællø wørlÞhello world𝄞music") := by decide +kernel
example : text (concat codec8 (zeros 2048) 3 (some [p8 "hællø wørlÞ", p8 "hello world", p8 "𝄞music"])) = .ok (s8 "hællø wørlÞhello world𝄞music") := by decide +kernel
example : text (concat codec8 (zeros 2048) 0 (some [])) = .ok (s8 "") := by decide +kernel
example : GT 2 (some [p8 "hællø wørlÞ", p8 "hællø wørlÞ"]) = .ok false := by decide +kernel
example : GT 3 (some [p8 "zyxZabcdefghijklmn", p8 "zyxA", p8 "zyx"]) = .ok true := by decide +kernel
example : GT 3 (some [p8 "abc", p8 "bce", p8 "xyz"]) = .ok false := by decide +kernel
example : GE 3 (some [p8 "xyz", p8 "bcefghijkl", p8 "abc"]) = .ok true := by decide +kernel
example : GE 2 (some [p8 "hællø wørlÞ", p8 "hællø wørlÞ"]) = .ok true := by decide +kernel
example : EQ 2 (some [p8 "hællø wørlÞ", p8 "hællø wørlÞ"]) = .ok true := by decide +kernel
example : EQ 4 (some [p8 "hællø wørlÞabc", p8 "hællø wørlÞabc", p8 "hællø wørlÞabc", p8 "hællø wørlÞZZc"]) = .ok false := by decide +kernel
example : LT 2 (some [p8 "hællø wørlÞabc", p8 "hællø wørlÞz"]) = .ok true := by decide +kernel
example : LT 2 (some [p8 "z", p8 "hællø wørlÞzbc"]) = .ok false := by decide +kernel

/-! ### src/string_functions.rs: unit tests, WSTRING -/

example : len codec16 (p16 "𝄞music𝄞 😀𝄞ϕϚϡϗ😀") = .ok 15 := by decide +kernel
example : FIND__WSTRING .debug (p16 "𝄞music𝄞 world") (p16 "c𝄞") = .ok 6 := by decide +kernel
example : FIND__WSTRING .debug (p16 "hello world") (p16 "zzzzzz") = .ok 0 := by decide +kernel
example : FIND__WSTRING .debug (p16 "hello world") (p16 "hello world oachkatzlschwoaf") = .ok 0 := by decide +kernel
example : text (left codec16 (p16 "𝄞musϗ😀ic world") 7 (zeros 2048)) = .ok (s16 "𝄞musϗ😀i") := by decide +kernel
example : left codec16 (p16 "hello world") 14 (zeros 2048) = .panic := by decide +kernel
example : text (right codec16 (p16 "hello 𝄞musϗ😀") 8 (zeros 2048)) = .ok (s16 "o 𝄞musϗ😀") := by decide +kernel
example : text (right codec16 (p16 "") 0 (zeros 2048)) = .ok (s16 "") := by decide +kernel
example : text (mid .debug codec16 (p16 "𝄞muϗ😀 world") 5 5 (zeros 2048)) = .ok (s16 "😀 wor") := by decide +kernel
example : mid .debug codec16 (p16 "hello world") 4 12 (zeros 2048) = .panic := by decide +kernel
example : text (insert codec16 (p16 "𝄞muϗ😀 world") (p16 "brave 𝄞muϗ😀 ") 6 (zeros 2048)) = .ok (s16 "𝄞muϗ😀 brave 𝄞muϗ😀 world") := by decide +kernel
example : text (insert codec16 (p16 "hello 𝄞muϗ😀") (p16 "𝄞muϗ😀 new ") 0 (zeros 2048)) = .ok (s16 "𝄞muϗ😀 new hello 𝄞muϗ😀") := by decide +kernel
example : text (insert codec16 (p16 "hello world") (p16 "brave 𝄞muϗ😀 ") 11 (zeros 2048)) = .ok (s16 "hello worldbrave 𝄞muϗ😀 ") := by decide +kernel
example : insert codec16 (p16 "hello world") (p16 "brave new ") 12 (zeros 2048) = .panic := by decide +kernel
example : text (delete .debug codec16 (p16 "h𝄞muϗ w😀rld") 5 3 (zeros 2048)) = .ok (s16 "h𝄞😀rld") := by decide +kernel
example : text (delete .debug codec16 (p16 "h𝄞muϗ w😀rld") 11 1 (zeros 2048)) = .ok (s16 "") := by decide +kernel
example : delete .debug codec16 (p16 "hello world") 10 3 (zeros 2048) = .panic := by decide +kernel
example : delete .debug codec16 (p16 "hello world") 9 0 (zeros 2048) = .panic := by decide +kernel
example : delete .debug codec16 (p16 "hello world") 9 12 (zeros 2048) = .panic := by decide +kernel
example : text (replace .debug codec16 (p16 "h𝄞muϗ w😀rld") (p16 "brave new ") 6 1 (zeros 2048)) = .ok (s16 "brave new w😀rld") := by decide +kernel
example : text (replace .debug codec16 (p16 "hello w😀rld𝄞") (p16 " is out of this ") 2 5 (zeros 2048)) = .ok (s16 "hell is out of this w😀rld𝄞") := by decide +kernel
example : text (replace .debug codec16 (p16 "hello w😀rld𝄞") (p16 "aldo, how are you? 😀") 5 8 (zeros 2048)) = .ok (s16 "hello waldo, how are you? 😀") := by decide +kernel
example : replace .debug codec16 (p16 "hello world") (p16 " is out of this ") 12 1 (zeros 2048) = .panic := by decide +kernel
example : replace .debug codec16 (p16 "hello world") (p16 " is out of this ") 8 0 (zeros 2048) = .panic := by decide +kernel
example : replace .debug codec16 (p16 "hello world") (p16 " is out of this ") 8 12 (zeros 2048) = .panic := by decide +kernel
example : text (concat codec16 (zeros 2049) 3 (some [p16 "hællø wørlÞ", p16 "hello world", p16 "𝄞music"])) = .ok (s16 "hællø wørlÞhello world𝄞music") := by decide +kernel
example : text (concat codec16 (zeros 2048) 3 (some [p16 "hællø wørlÞ", p16 "hello world", p16 "𝄞music"])) = .ok (s16 "hællø wørlÞhello world𝄞music") := by decide +kernel
example : GT 3 (some [p16 "hællø wørlÞ", p16 "hello world", p16 "hel"]) = .ok true := by decide +kernel
example : GE 3 (some [p16 "hællø wørlÞ", p16 "hello world", p16 "hello world"]) = .ok true := by decide +kernel
example : EQ 3 (some [p16 "hællø wørlÞ", p16 "hællø wørlÞ", p16 "hællø wørlÞ"]) = .ok true := by decide +kernel
example : LT 3 (some [p16 "hello world", p16 "hællø wørlÞ", p16 "hællø wør𝄞Þ"]) = .ok true := by decide +kernel
example : LE 6 (some [p16 "hello", p16 "hello worlb", p16 "hello worlc", p16 "hello world", p16 "hællø wørlÞ", p16 "hællø wørlÞ"]) = .ok true := by decide +kernel
example : NE (p16 "hællø wørlÞ") (p16 "hello world") = .ok true := by decide +kernel

end Verif.Conformance
