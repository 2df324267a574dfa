import Verif.Model.StStrings
import Verif.Conformance.Text
import Verif.Conformance.Conversions
/-
The assertions of tests/extra_function_tests.rs, run on the model. These are tests of the transcription, not proofs.
-/
namespace Verif.Conformance
open Verif

set_option maxRecDepth 100000

/-! ### tests/extra_function_tests.rs: to text -/

example : text (St.BYTE_TO_STRING 85) = .ok (s8 "85") := by decide +kernel
example : text (St.BYTE_TO_WSTRING 85) = .ok (s16 "85") := by decide +kernel
example : text (St.DWORD_TO_STRING 195948557) = .ok (s8 "195948557") := by decide +kernel
example : text (St.DWORD_TO_WSTRING 195948557) = .ok (s16 "195948557") := by decide +kernel
example : text (St.LWORD_TO_STRING 16045690984835251117) = .ok (s8 "16045690984835251117") := by decide +kernel
example : text (St.LWORD_TO_WSTRING 16045690984835251117) = .ok (s16 "16045690984835251117") := by decide +kernel
example : text (St.LINT_TO_STRING 7600500400300200100) = .ok (s8 "7600500400300200100") := by decide +kernel
example : text (St.LINT_TO_WSTRING 7600500400300200100) = .ok (s16 "7600500400300200100") := by decide +kernel
example : text (St.DINT_TO_STRING 2000200100) = .ok (s8 "2000200100") := by decide +kernel
example : text (St.DINT_TO_WSTRING 2000200100) = .ok (s16 "2000200100") := by decide +kernel
example : text (St.DINT_TO_STRING (-1300200100)) = .ok (s8 "-1300200100") := by decide +kernel
example : text (St.DINT_TO_WSTRING (-1300200100)) = .ok (s16 "-1300200100") := by decide +kernel
example : text (St.LREAL_TO_STRING 4668501220208410624) = .ok (s8 "13234.250000") := by decide +kernel
example : text (St.LREAL_TO_WSTRING 4668501220208410624) = .ok (s16 "13234.250000") := by decide +kernel
example : text (St.REAL_TO_STRING 1179568384) = .ok (s8 "13234.250000") := by decide +kernel
example : text (St.REAL_TO_WSTRING 1179568384) = .ok (s16 "13234.250000") := by decide +kernel
example : text (St.DT_TO_STRING 4200000000000) = .ok (s8 "1970-01-01-01:10:00") := by decide +kernel
example : text (St.DT_TO_WSTRING 4200000000000) = .ok (s16 "1970-01-01-01:10:00") := by decide +kernel
example : text (St.DATE_TO_STRING 0) = .ok (s8 "1970-01-01") := by decide +kernel
example : text (St.DATE_TO_WSTRING 0) = .ok (s16 "1970-01-01") := by decide +kernel
example : text (St.TIME_TO_STRING 518520123456789) = .ok (s8 "6d2m123ms456us789ns") := by decide +kernel
example : text (St.TIME_TO_WSTRING 518520123456789) = .ok (s16 "6d2m123ms456us789ns") := by decide +kernel
example : text (St.TIME_TO_STRING 529320000000009) = .ok (s8 "6d3h2m9ns") := by decide +kernel
example : text (St.TIME_TO_WSTRING 529320000000009) = .ok (s16 "6d3h2m9ns") := by decide +kernel
example : text (St.TOD_TO_STRING 56215123000000) = .ok (s8 "15:36:55.123") := by decide +kernel
example : text (St.TOD_TO_WSTRING 56215123000000) = .ok (s16 "15:36:55.123") := by decide +kernel

/-! ### tests/extra_function_tests.rs: from text -/

example : STRING_TO_LINT (p8 "123456") = .ok 123456 := by decide +kernel
example : STRING_TO_DINT (p8 "123456") = .ok 123456 := by decide +kernel
example : STRING_TO_LINT (p8 "2#1010101010101010") = .ok 43690 := by decide +kernel
example : STRING_TO_DINT (p8 "2#1010101010101010") = .ok 43690 := by decide +kernel
example : STRING_TO_LINT (p8 "8#1234567") = .ok 342391 := by decide +kernel
example : STRING_TO_DINT (p8 "8#1234567") = .ok 342391 := by decide +kernel
example : STRING_TO_LINT (p8 "16#DECAFBAD") = .ok 3737844653 := by decide +kernel
example : STRING_TO_LREAL (p8 "12.3456") = .ok 4623139572999716549 := by decide +kernel
example : STRING_TO_REAL (p8 "12.3456") = .ok 1095075732 := by decide +kernel
example : STRING_TO_LREAL (p8 "1312433.1") = .ok 4698387668962744730 := by decide +kernel
example : STRING_TO_REAL (p8 "1312433.1") = .ok 1235236233 := by decide +kernel
example : STRING_TO_LREAL (p8 "1.3E-8") = .ok 4488939647061138610 := by decide +kernel
example : STRING_TO_REAL (p8 "1.3E-8") = .ok 845108891 := by decide +kernel
example : STRING_TO_LREAL (p8 "1.24e13") = .ok 4802682403149578240 := by decide +kernel
example : STRING_TO_REAL (p8 "1.24e13") = .ok 1429500314 := by decide +kernel
example : WSTRING_TO_LINT (p16 "-123456") = .ok (-123456) := by decide +kernel
example : WSTRING_TO_DINT (p16 "-123456") = .ok (-123456) := by decide +kernel
example : WSTRING_TO_LINT (p16 "2#1010101010101010") = .ok 43690 := by decide +kernel
example : WSTRING_TO_DINT (p16 "2#1010101010101010") = .ok 43690 := by decide +kernel
example : WSTRING_TO_LINT (p16 "8#1234567") = .ok 342391 := by decide +kernel
example : WSTRING_TO_DINT (p16 "8#1234567") = .ok 342391 := by decide +kernel
example : WSTRING_TO_LINT (p16 "16#DECAFBAD") = .ok 3737844653 := by decide +kernel
example : WSTRING_TO_LREAL (p16 "12.3456") = .ok 4623139572999716549 := by decide +kernel
example : WSTRING_TO_REAL (p16 "12.3456") = .ok 1095075732 := by decide +kernel
example : WSTRING_TO_LREAL (p16 "1312433.1") = .ok 4698387668962744730 := by decide +kernel
example : WSTRING_TO_REAL (p16 "1312433.1") = .ok 1235236233 := by decide +kernel
example : WSTRING_TO_LREAL (p16 "1.3E-8") = .ok 4488939647061138610 := by decide +kernel
example : WSTRING_TO_REAL (p16 "1.3E-8") = .ok 845108891 := by decide +kernel
example : WSTRING_TO_LREAL (p16 "1.24e13") = .ok 4802682403149578240 := by decide +kernel
example : WSTRING_TO_REAL (p16 "1.24e13") = .ok 1429500314 := by decide +kernel

/-! ### tests/extra_function_tests.rs: date and time -/

example : stInt .LWORD .TIME 93784005005005 = some 93784005005005 := by decide +kernel
example : stInt .LWORD .DATE 123456789000 = some 123456789000 := by decide +kernel
example : stInt .ULINT .DATE 1669244400 = some 1669244400 := by decide +kernel
example : stInt .ULINT .DATE 9223372036854775808 = some (-9223372036854775808) := by decide +kernel
example : stInt .ULINT .DT 1669244400000000 = some 1669244400000000 := by decide +kernel
example : stInt .LWORD .TOD 1669244400000000123 = some 1669244400000000123 := by decide +kernel
example : stInt .LINT .TOD 1669244400000000123 = some 1669244400000000123 := by decide +kernel
example : stInt .TOD .LWORD 7199256700000 = some 7199256700000 := by decide +kernel
example : stInt .TOD .LINT 7199256700000 = some 7199256700000 := by decide +kernel
example : stInt .TOD .ULINT 7199256700000 = some 7199256700000 := by decide +kernel
example : stInt .DT .LWORD 946605599256700000 = some 946605599256700000 := by decide +kernel
example : stInt .DT .LINT 946605599256700000 = some 946605599256700000 := by decide +kernel
example : stInt .DT .ULINT 946605599256700000 = some 946605599256700000 := by decide +kernel
example : stInt .DATE .LWORD 946598400000000000 = some 946598400000000000 := by decide +kernel
example : stInt .DATE .LINT 946598400000000000 = some 946598400000000000 := by decide +kernel
example : stInt .DATE .ULINT 946598400000000000 = some 946598400000000000 := by decide +kernel
example : stInt .TIME .LWORD 43280391000010 = some 43280391000010 := by decide +kernel
example : stInt .TIME .LINT 43280391000010 = some 43280391000010 := by decide +kernel
example : stInt .TIME .ULINT 43280391000010 = some 43280391000010 := by decide +kernel
example : TRUNC__REAL 1123477881 = .ok 123 := by decide +kernel
example : TRUNC__LREAL 4728057454355411894 = .ok 123456789 := by decide +kernel
example : stFloat (.int .TIME) (.flt .f64) (.int 93784005000000) = .ok (.flt 4815846578351689728) := by decide +kernel
example : stFloat (.flt .f64) (.int .TIME) (.flt 4726066147521536008) = .ok (.int 93784005) := by decide +kernel
example : TIME .debug ⟨86370, 100⟩ = .ok 86370000000100 := by decide +kernel
example : TIME .debug ⟨86399, 100⟩ = .ok 86399000000100 := by decide +kernel
example : TIME .debug ⟨1, 100⟩ = .ok 1000000100 := by decide +kernel

end Verif.Conformance
