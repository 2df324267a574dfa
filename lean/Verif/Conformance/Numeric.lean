import Verif.Model.Arith
import Verif.Model.StConv
import Verif.Model.StFloat
import Verif.Model.Bits
import Verif.Model.Selectors
/-
The assertions of tests/arithmetic_functions_tests.rs (SQRT, EXPT), tests/expt.rs, tests/numerical_functions_tests.rs,
tests/bit_shift_functions_tests.rs, tests/endianness_conversion_functions_tests.rs, tests/selectors.rs and
tests/validation_functions_tests.rs, run on the model. These are tests of the transcription, not proofs. The tests of the
functions of the C math library are left out: the model has them as parameters.
-/
namespace Verif.Conformance
open Verif

set_option maxRecDepth 100000

/-! ### tests/arithmetic_functions_tests.rs, tests/expt.rs -/

example : SQRT__REAL 1082130432 = 1073741824 := by decide +kernel
example : SQRT__LREAL 4616189618054758400 = 4611686018427387904 := by decide +kernel
example : SQRT__REAL 1065353216 = 1065353216 := by decide +kernel
example : SQRT__LREAL 4607182418800017408 = 4607182418800017408 := by decide +kernel
example : EXPT__REAL__DINT 1073741824 (-2) = 1048576000 := by decide +kernel
example : EXPT__LREAL__DINT 4611686018427387904 (-2) = 4598175219545276416 := by decide +kernel
example : EXPT__REAL__int 1073741824 (-2) = 1048576000 := by decide +kernel
example : EXPT__LREAL__int 4611686018427387904 (-2) = 4598175219545276416 := by decide +kernel
example : EXPT__REAL__DINT 1073741824 2 = 1082130432 := by decide +kernel
example : EXPT__LREAL__DINT 4611686018427387904 2 = 4616189618054758400 := by decide +kernel
example : EXPT__REAL__int 1073741824 2 = 1082130432 := by decide +kernel
example : EXPT__LREAL__int 4611686018427387904 2 = 4616189618054758400 := by decide +kernel
example : EXPT__REAL__DINT 1077936128 2 = 1091567616 := by decide +kernel
example : EXPT__LREAL__DINT 4613937818241073152 2 = 4621256167635550208 := by decide +kernel
example : EXPT__REAL__int 1077936128 2 = 1091567616 := by decide +kernel
example : EXPT__LREAL__int 4613937818241073152 2 = 4621256167635550208 := by decide +kernel
example : EXPT__REAL__DINT 1073741824 7 = 1124073472 := by decide +kernel
example : EXPT__LREAL__DINT 4611686018427387904 7 = 4638707616191610880 := by decide +kernel
example : EXPT__REAL__int 1073741824 7 = 1124073472 := by decide +kernel
example : EXPT__LREAL__int 4611686018427387904 7 = 4638707616191610880 := by decide +kernel

/-! ### tests/numerical_functions_tests.rs -/

example : ABS .i8 (-120) = 120 := by decide +kernel
example : ABS .i8 0 = 0 := by decide +kernel
example : ABS .i8 121 = 121 := by decide +kernel
example : ABS .i16 (-99) = 99 := by decide +kernel
example : ABS .i16 98 = 98 := by decide +kernel
example : ABS .i32 (-77) = 77 := by decide +kernel
example : ABS .i32 78 = 78 := by decide +kernel
example : ABS .i64 (-88) = 88 := by decide +kernel
example : ABS .i64 89 = 89 := by decide +kernel
example : ABS__REAL 3226258637 = 1078774989 := by decide +kernel
example : ABS__REAL 1079194419 = 1079194419 := by decide +kernel
example : ABS__LREAL 13836183955189006336 = 4612811918334230528 := by decide +kernel
example : ABS__LREAL 4613037098315599053 = 4613037098315599053 := by decide +kernel

/-! ### tests/bit_shift_functions_tests.rs -/

example : SHL .debug (0b11001#8) 3 = .ok 200#8 := by decide +kernel
example : SHR .debug (17#8) 3 = .ok 2#8 := by decide +kernel
example : SHL .debug (0b11001#16) 11 = .ok 51200#16 := by decide +kernel
example : SHR .debug (257#16) 3 = .ok 32#16 := by decide +kernel
example : SHL .debug (0b11001#32) 27 = .ok 3355443200#32 := by decide +kernel
example : SHR .debug (65537#32) 3 = .ok 8192#32 := by decide +kernel
example : SHL .debug (0b11001#64) 59 = .ok 14411518807585587200#64 := by decide +kernel
example : SHR .debug (281474976710657#64) 3 = .ok 35184372088832#64 := by decide +kernel
example : ROL (129#8) 3 = 0xC#8 := by decide +kernel
example : ROR (129#8) 3 = 48#8 := by decide +kernel
example : ROL (32769#16) 3 = 0xC#16 := by decide +kernel
example : ROR (32769#16) 3 = 12288#16 := by decide +kernel
example : ROL (2147483649#32) 3 = 0xC#32 := by decide +kernel
example : ROR (2147483649#32) 3 = 805306368#32 := by decide +kernel
example : ROL (9223372036854775809#64) 3 = 0xC#64 := by decide +kernel
example : ROR (9223372036854775809#64) 3 = 3458764513820540928#64 := by decide +kernel

/-! ### tests/endianness_conversion_functions_tests.rs -/

example : TO_BIG_ENDIAN .little 2 0x1001 = 0x110 := by decide +kernel
example : FROM_LITTLE_ENDIAN .little 2 0x1001 = 0x110 := by decide +kernel
example : TO_LITTLE_ENDIAN .little 2 0x1001 = 0x1001 := by decide +kernel
example : FROM_BIG_ENDIAN .little 2 0x1001 = 0x1001 := by decide +kernel
example : TO_BIG_ENDIAN .little 4 0x10010a0b = 0xb0a0110 := by decide +kernel
example : FROM_LITTLE_ENDIAN .little 4 0x10010a0b = 0xb0a0110 := by decide +kernel
example : TO_LITTLE_ENDIAN .little 4 0x10010a0b = 0x10010a0b := by decide +kernel
example : FROM_BIG_ENDIAN .little 4 0x10010a0b = 0x10010a0b := by decide +kernel
example : TO_BIG_ENDIAN .little 8 0x10010a0b0c0d0e0f = 0xf0e0d0c0b0a0110 := by decide +kernel
example : FROM_LITTLE_ENDIAN .little 8 0x10010a0b0c0d0e0f = 0xf0e0d0c0b0a0110 := by decide +kernel
example : TO_LITTLE_ENDIAN .little 8 0x10010a0b0c0d0e0f = 0x10010a0b0c0d0e0f := by decide +kernel
example : FROM_BIG_ENDIAN .little 8 0x10010a0b0c0d0e0f = 0x10010a0b0c0d0e0f := by decide +kernel
example : TO_BIG_ENDIAN .little 2 0xabba = 0xbaab := by decide +kernel
example : FROM_LITTLE_ENDIAN .little 2 0xabba = 0xbaab := by decide +kernel
example : TO_LITTLE_ENDIAN .little 2 0xabba = 0xabba := by decide +kernel
example : FROM_BIG_ENDIAN .little 2 0xabba = 0xabba := by decide +kernel
example : TO_BIG_ENDIAN .little 4 0x10010a0b = 0xb0a0110 := by decide +kernel
example : FROM_LITTLE_ENDIAN .little 4 0x10010a0b = 0xb0a0110 := by decide +kernel
example : TO_LITTLE_ENDIAN .little 4 0x10010a0b = 0x10010a0b := by decide +kernel
example : FROM_BIG_ENDIAN .little 4 0x10010a0b = 0x10010a0b := by decide +kernel
example : TO_BIG_ENDIAN .little 2 0x43 = 0x4300 := by decide +kernel
example : FROM_LITTLE_ENDIAN .little 2 0x43 = 0x4300 := by decide +kernel
example : TO_LITTLE_ENDIAN .little 2 0x43 = 0x43 := by decide +kernel
example : FROM_BIG_ENDIAN .little 2 0x43 = 0x43 := by decide +kernel
example : TO_BIG_ENDIAN .little 8 0x6577b6e19270000 = 0x27196e7b5706 := by decide +kernel
example : FROM_LITTLE_ENDIAN .little 8 0x6577b6e19270000 = 0x27196e7b5706 := by decide +kernel
example : TO_LITTLE_ENDIAN .little 8 0x6577b6e19270000 = 0x6577b6e19270000 := by decide +kernel
example : FROM_BIG_ENDIAN .little 8 0x6577b6e19270000 = 0x6577b6e19270000 := by decide +kernel
example : TO_BIG_ENDIAN .little 8 0x4940a54cac00 = 0xac4ca540490000 := by decide +kernel
example : FROM_LITTLE_ENDIAN .little 8 0x4940a54cac00 = 0xac4ca540490000 := by decide +kernel
example : TO_LITTLE_ENDIAN .little 8 0x4940a54cac00 = 0x4940a54cac00 := by decide +kernel
example : FROM_BIG_ENDIAN .little 8 0x4940a54cac00 = 0x4940a54cac00 := by decide +kernel
example : TO_BIG_ENDIAN_F 4 1095237632 = 1095237632 := by decide +kernel
example : TO_LITTLE_ENDIAN_F 4 1095237632 = 1095237632 := by decide +kernel
example : FROM_BIG_ENDIAN_F 4 1095237632 = 1095237632 := by decide +kernel
example : FROM_LITTLE_ENDIAN_F 4 1095237632 = 1095237632 := by decide +kernel
example : TO_BIG_ENDIAN_F 8 4623226492472524800 = 4623226492472524800 := by decide +kernel
example : TO_LITTLE_ENDIAN_F 8 4623226492472524800 = 4623226492472524800 := by decide +kernel
example : FROM_BIG_ENDIAN_F 8 4623226492472524800 = 4623226492472524800 := by decide +kernel
example : FROM_LITTLE_ENDIAN_F 8 4623226492472524800 = 4623226492472524800 := by decide +kernel

/-! ### tests/selectors.rs -/

example : maxInt 7 (some [5, 2, 1, 3, 4, 7, -1]) = .ok 7 := by decide +kernel
example : minInt 7 (some [5, 2, 1, 3, 4, 7, -1]) = .ok (-1) := by decide +kernel
example : limitInt 10 5 50 = 10 := by decide +kernel
example : limitInt 10 60 50 = 50 := by decide +kernel
example : limitInt 10 25 50 = 25 := by decide +kernel
example : maxFloat .f32 (fun _ _ => false) 7 (some [1084227584, 1073741824, 1065353216, 1077936128, 1082130432, 1088421888, 3212836864]) = .ok 1088421888 := by decide +kernel
example : minFloat .f32 (fun _ _ => false) 7 (some [1084227584, 1073741824, 1065353216, 1077936128, 1082130432, 1088421888, 3212836864]) = .ok 3212836864 := by decide +kernel
example : limitFloat .f32 1092616192 1084227584 1112014848 = 1092616192 := by decide +kernel
example : limitFloat .f32 1092616192 1114636288 1112014848 = 1112014848 := by decide +kernel
example : limitFloat .f32 1092616192 1103626240 1112014848 = 1103626240 := by decide +kernel
example : maxFloat .f64 (fun _ _ => false) 7 (some [4617315517961601024, 4611686018427387904, 4607182418800017408, 4613937818241073152, 4616189618054758400, 4619567317775286272, 13830554455654793216]) = .ok 4619567317775286272 := by decide +kernel
example : minFloat .f64 (fun _ _ => false) 7 (some [4617315517961601024, 4611686018427387904, 4607182418800017408, 4613937818241073152, 4616189618054758400, 4619567317775286272, 13830554455654793216]) = .ok 13830554455654793216 := by decide +kernel
example : limitFloat .f64 4621819117588971520 4617315517961601024 4632233691727265792 = 4621819117588971520 := by decide +kernel
example : limitFloat .f64 4621819117588971520 4633641066610819072 4632233691727265792 = 4632233691727265792 := by decide +kernel
example : limitFloat .f64 4621819117588971520 4627730092099895296 4632233691727265792 = 4627730092099895296 := by decide +kernel

/-! ### tests/validation_functions_tests.rs -/

example : IS_VALID .f32 2139095039 = true := by decide +kernel
example : IS_VALID .f32 4286578687 = true := by decide +kernel
example : IS_VALID .f32 0 = true := by decide +kernel
example : IS_VALID .f32 2139095040 = false := by decide +kernel
example : IS_VALID .f32 4286578688 = false := by decide +kernel
example : IS_VALID .f32 2143289344 = false := by decide +kernel
example : IS_VALID .f64 9218868437227405311 = true := by decide +kernel
example : IS_VALID .f64 18442240474082181119 = true := by decide +kernel
example : IS_VALID .f64 0 = true := by decide +kernel
example : IS_VALID .f64 9218868437227405312 = false := by decide +kernel
example : IS_VALID .f64 18442240474082181120 = false := by decide +kernel
example : IS_VALID .f64 9221120237041090560 = false := by decide +kernel
example : is_valid_bcd 1 0x32 = true := by decide +kernel
example : is_valid_bcd 1 0x2c = false := by decide +kernel
example : is_valid_bcd 2 0x4871 = true := by decide +kernel
example : is_valid_bcd 2 0x4b71 = false := by decide +kernel
example : is_valid_bcd 4 0x48714871 = true := by decide +kernel
example : is_valid_bcd 4 0x4b714b71 = false := by decide +kernel
example : is_valid_bcd 8 0x4000000000000000 = true := by decide +kernel
example : is_valid_bcd 8 0x400000000000000f = false := by decide +kernel

end Verif.Conformance
