import Verif.Model.DateTime
import Verif.Model.Duration
import Verif.Model.DurationFloat
import Verif.Conformance.Conversions
/-
The assertions of tests/date_time_conversion_tests.rs, tests/date_time_extra_functions_tests.rs and
tests/date_time_numeric_functions_tests.rs, run on the model. These are tests of the transcription, not proofs.
-/
namespace Verif.Conformance
open Verif

set_option maxRecDepth 100000

/-- The tests of products and quotients with REAL / LREAL allow a rounding error of `d` nanoseconds. -/
def closeTo (r : Res Int) (x : Int) (d : Nat) : Bool :=
  match r with
  | .ok y => (y - x).natAbs ≤ d
  | _ => false

/-! ### tests/date_time_conversion_tests.rs -/

example : LDT_TO_DATE 946757711000000000 = .ok 946684800000000000 := by decide +kernel  -- LDT#2000-01-01-20:15:11
example : LDT_TO_LTOD 946740990123456000 = .ok 56190123456000 := by decide +kernel  -- LDT#2000-01-01-15:36:30.123456
example : LDT_TO_TOD 4737212111543000000 = .ok 72911543000000 := by decide +kernel  -- LDT#2120-02-12-20:15:11.543
example : DT_TO_DATE 946757711000000000 = .ok 946684800000000000 := by decide +kernel  -- DT#2000-01-01-20:15:11
example : DT_TO_LTOD 946740990123000000 = .ok 56190123000000 := by decide +kernel  -- DT#2000-01-01-15:36:30.123
example : DT_TO_TOD 4737212111543000000 = .ok 72911543000000 := by decide +kernel  -- DT#2120-02-12-20:15:11.543
example : stInt .LTIME .TIME 10000000000 = some 10000000000 := by decide +kernel
example : stInt .TIME .LTIME 10000000000 = some 10000000000 := by decide +kernel
example : stInt .LDT .DT 1618957994000000000 = some 1618957994000000000 := by decide +kernel
example : stInt .DT .LDT 1618957994000000000 = some 1618957994000000000 := by decide +kernel
example : stInt .LTOD .TOD 37230000000000 = some 37230000000000 := by decide +kernel
example : stInt .TOD .LTOD 37230000000000 = some 37230000000000 := by decide +kernel

/-! ### tests/date_time_extra_functions_tests.rs -/

example : CONCAT_DATE_TOD 1268352000000000000 45015121121121 = .ok 1268397015121121121 := by decide +kernel
example : CONCAT_DATE .i16 2000 1 1 = .ok 946684800000000000 := by decide +kernel
example : CONCAT_DATE .u16 2000 1 1 = .ok 946684800000000000 := by decide +kernel
example : CONCAT_DATE .i32 2000 1 1 = .ok 946684800000000000 := by decide +kernel
example : CONCAT_DATE .u32 2000 1 1 = .ok 946684800000000000 := by decide +kernel
example : CONCAT_DATE .i64 2000 1 1 = .ok 946684800000000000 := by decide +kernel
example : CONCAT_DATE .u64 2000 1 1 = .ok 946684800000000000 := by decide +kernel
example : CONCAT_TOD .i8 20 15 12 34 = .ok 72912034000000 := by decide +kernel
example : CONCAT_TOD .u8 20 15 12 34 = .ok 72912034000000 := by decide +kernel
example : CONCAT_TOD .i16 20 15 12 341 = .ok 72912341000000 := by decide +kernel
example : CONCAT_TOD .u16 20 15 12 341 = .ok 72912341000000 := by decide +kernel
example : CONCAT_TOD .i32 20 15 12 341 = .ok 72912341000000 := by decide +kernel
example : CONCAT_TOD .u32 20 15 12 341 = .ok 72912341000000 := by decide +kernel
example : CONCAT_TOD .i64 20 15 12 341 = .ok 72912341000000 := by decide +kernel
example : CONCAT_TOD .u64 20 15 12 341 = .ok 72912341000000 := by decide +kernel
example : CONCAT_DT .i16 2000 1 2 20 15 12 111 = .ok 946844112111000000 := by decide +kernel
example : SPLIT_DATE .i16 946771200000000000 = .ok ⟨0, 2000, 1, 2⟩ := by decide +kernel
example : SPLIT_TOD .i16 51123123000000 = .ok ⟨0, 14, 12, 3, 123⟩ := by decide +kernel
example : SPLIT_DT .i16 946822323123000000 = .ok ⟨0, 2000, 1, 2, 14, 12, 3, 123⟩ := by decide +kernel
example : CONCAT_DT .u16 2000 1 2 20 15 12 111 = .ok 946844112111000000 := by decide +kernel
example : SPLIT_DATE .u16 946771200000000000 = .ok ⟨0, 2000, 1, 2⟩ := by decide +kernel
example : SPLIT_TOD .u16 51123123000000 = .ok ⟨0, 14, 12, 3, 123⟩ := by decide +kernel
example : SPLIT_DT .u16 946822323123000000 = .ok ⟨0, 2000, 1, 2, 14, 12, 3, 123⟩ := by decide +kernel
example : CONCAT_DT .i32 2000 1 2 20 15 12 111 = .ok 946844112111000000 := by decide +kernel
example : SPLIT_DATE .i32 946771200000000000 = .ok ⟨0, 2000, 1, 2⟩ := by decide +kernel
example : SPLIT_TOD .i32 51123123000000 = .ok ⟨0, 14, 12, 3, 123⟩ := by decide +kernel
example : SPLIT_DT .i32 946822323123000000 = .ok ⟨0, 2000, 1, 2, 14, 12, 3, 123⟩ := by decide +kernel
example : CONCAT_DT .u32 2000 1 2 20 15 12 111 = .ok 946844112111000000 := by decide +kernel
example : SPLIT_DATE .u32 946771200000000000 = .ok ⟨0, 2000, 1, 2⟩ := by decide +kernel
example : SPLIT_TOD .u32 51123123000000 = .ok ⟨0, 14, 12, 3, 123⟩ := by decide +kernel
example : SPLIT_DT .u32 946822323123000000 = .ok ⟨0, 2000, 1, 2, 14, 12, 3, 123⟩ := by decide +kernel
example : CONCAT_DT .i64 2000 1 2 20 15 12 111 = .ok 946844112111000000 := by decide +kernel
example : SPLIT_DATE .i64 946771200000000000 = .ok ⟨0, 2000, 1, 2⟩ := by decide +kernel
example : SPLIT_TOD .i64 51123123000000 = .ok ⟨0, 14, 12, 3, 123⟩ := by decide +kernel
example : SPLIT_DT .i64 946822323123000000 = .ok ⟨0, 2000, 1, 2, 14, 12, 3, 123⟩ := by decide +kernel
example : CONCAT_DT .u64 2000 1 2 20 15 12 111 = .ok 946844112111000000 := by decide +kernel
example : SPLIT_DATE .u64 946771200000000000 = .ok ⟨0, 2000, 1, 2⟩ := by decide +kernel
example : SPLIT_TOD .u64 51123123000000 = .ok ⟨0, 14, 12, 3, 123⟩ := by decide +kernel
example : SPLIT_DT .u64 946822323123000000 = .ok ⟨0, 2000, 1, 2, 14, 12, 3, 123⟩ := by decide +kernel
example : DAY_OF_WEEK 1655164800000000000 = 2 := by decide +kernel
example : DAY_OF_WEEK 1654992000000000000 = 0 := by decide +kernel
example : DAY_OF_WEEK 1655510400000000000 = 6 := by decide +kernel

/-! ### tests/date_time_numeric_functions_tests.rs -/

example : ADD_TIME 18000000000000 30000000000 = .ok 18030000000000 := by decide +kernel
example : ADD_TIME 10000000000 (-5000000000) = .ok 5000000000 := by decide +kernel
example : ADD_TIME (-10000000000) (-10000000000) = .ok (-20000000000) := by decide +kernel
example : ADD_TIME 10000000000 10000000000 = .ok 20000000000 := by decide +kernel
example : ADD_TOD_TIME 72000000000000 1000000000 = .ok 72001000000000 := by decide +kernel
example : ADD_TOD_TIME 72002000000000 (-1000000000) = .ok 72001000000000 := by decide +kernel
example : ADD_TOD_TIME 43200000000000 732000000000 = .ok 43932000000000 := by decide +kernel
example : ADD_DT_TIME 946728000000000000 87132123000000 = .ok 946815132123000000 := by decide +kernel
example : SUB_TIME 39000000000000 (-600000000000) = .ok 39600000000000 := by decide +kernel
example : SUB_TIME 20120000000000 3920000000000 = .ok 16200000000000 := by decide +kernel
example : SUB_TIME 39000000000000 22800000000000 = .ok 16200000000000 := by decide +kernel
example : SUB_DATE_DATE 978220800000000000 946684800000000000 = .ok 31536000000000000 := by decide +kernel
example : SUB_DATE_DATE 958867200000000000 957139200000000000 = .ok 1728000000000000 := by decide +kernel
example : SUB_TOD_TIME 83405123000000 11405123000000 = .ok 72000000000000 := by decide +kernel
example : SUB_DT_TIME 946847712345000000 90912345000000 = .ok 946756800000000000 := by decide +kernel
example : MUL_TIME_INT .i8 86400000000000 (-120) = .ok (-10368000000000000) := by decide +kernel
example : MUL_TIME_INT .i16 1000000000 3600 = .ok 3600000000000 := by decide +kernel
example : MUL_TIME_INT .i32 1000000000 86400 = .ok 86400000000000 := by decide +kernel
example : MUL_TIME_INT .i64 1000000000 864000000 = .ok 864000000000000000 := by decide +kernel
example : MUL_TIME_INT .u8 (-86400000000000) 120 = .ok (-10368000000000000) := by decide +kernel
example : MUL_TIME_INT .u16 1000000000 3600 = .ok 3600000000000 := by decide +kernel
example : MUL_TIME_INT .u32 1000000000 86400 = .ok 86400000000000 := by decide +kernel
example : MUL_TIME_INT .u64 1000000000 864000000 = .ok 864000000000000000 := by decide +kernel
example : MUL_TIME_INT .i64 10 9223372036854775807 = .panic := by decide +kernel
example : MUL_TIME_INT .u64 1 9223372036854775808 = .panic := by decide +kernel
example : DIV_TIME_INT .i8 60000000000 60 = .ok 1000000000 := by decide +kernel
example : DIV_TIME_INT .i16 3600000000000 (-3600) = .ok (-1000000000) := by decide +kernel
example : DIV_TIME_INT .i32 86400000000000 86400 = .ok 1000000000 := by decide +kernel
example : DIV_TIME_INT .i64 864000000000000000 864000000 = .ok 1000000000 := by decide +kernel
example : DIV_TIME_INT .u8 60000000000 60 = .ok 1000000000 := by decide +kernel
example : DIV_TIME_INT .u16 3600000000000 3600 = .ok 1000000000 := by decide +kernel
example : DIV_TIME_INT .u32 86400000000000 86400 = .ok 1000000000 := by decide +kernel
example : DIV_TIME_INT .u64 864000000000000000 864000000 = .ok 1000000000 := by decide +kernel
example : DIV_TIME_INT .i64 10 0 = .panic := by decide +kernel
example : DIV_TIME_INT .u64 10 0 = .panic := by decide +kernel
example : closeTo (MUL_TIME_FLOAT .f32 .trunc (-2700000000) 1078523331) (-8478000640) 1 = true := by decide +kernel
example : closeTo (MUL_TIME_FLOAT .f64 .trunc (-2700000000) 4614253070214989087) (-8478000000) 1 = true := by decide +kernel
example : MUL_TIME_FLOAT .f32 .trunc 2700000000 1218007552 = .ok 847800000000000 := by decide +kernel
example : MUL_TIME_FLOAT .f64 .trunc 2700000000 4689138091389091840 = .ok 847800000000000 := by decide +kernel
example : MUL_TIME_FLOAT .f32 .trunc 2700000000 2139095039 = .panic := by decide +kernel
example : MUL_TIME_FLOAT .f64 .trunc 2700000000 9218868437227405311 = .panic := by decide +kernel
example : closeTo (DIV_TIME_FLOAT .f32 .trunc (-8478000000) 1078523331) (-2700000000) 500 = true := by decide +kernel
example : closeTo (DIV_TIME_FLOAT .f64 .trunc (-8478000000) 4614253070214989087) (-2700000000) 500 = true := by decide +kernel
example : closeTo (DIV_TIME_FLOAT .f32 .trunc 847800000000000 1218007552) 2700000000 500 = true := by decide +kernel
example : closeTo (DIV_TIME_FLOAT .f64 .trunc 847800000000000 4689138091389091840) 2700000000 500 = true := by decide +kernel
example : DIV_TIME_FLOAT .f32 .trunc 2700000000 0 = .panic := by decide +kernel
example : DIV_TIME_FLOAT .f64 .trunc 2700000000 0 = .panic := by decide +kernel
example : closeTo (MUL_TIME_FLOAT .f32 .nearestEven (-2700000000) 1078523331) (-8478000640) 1 = true := by decide +kernel
example : closeTo (MUL_TIME_FLOAT .f64 .nearestEven (-2700000000) 4614253070214989087) (-8478000000) 1 = true := by decide +kernel
example : MUL_TIME_FLOAT .f32 .nearestEven 2700000000 1218007552 = .ok 847800000000000 := by decide +kernel
example : MUL_TIME_FLOAT .f64 .nearestEven 2700000000 4689138091389091840 = .ok 847800000000000 := by decide +kernel
example : MUL_TIME_FLOAT .f32 .nearestEven 2700000000 2139095039 = .panic := by decide +kernel
example : MUL_TIME_FLOAT .f64 .nearestEven 2700000000 9218868437227405311 = .panic := by decide +kernel
example : closeTo (DIV_TIME_FLOAT .f32 .nearestEven (-8478000000) 1078523331) (-2700000000) 500 = true := by decide +kernel
example : closeTo (DIV_TIME_FLOAT .f64 .nearestEven (-8478000000) 4614253070214989087) (-2700000000) 500 = true := by decide +kernel
example : closeTo (DIV_TIME_FLOAT .f32 .nearestEven 847800000000000 1218007552) 2700000000 500 = true := by decide +kernel
example : closeTo (DIV_TIME_FLOAT .f64 .nearestEven 847800000000000 4689138091389091840) 2700000000 500 = true := by decide +kernel
example : DIV_TIME_FLOAT .f32 .nearestEven 2700000000 0 = .panic := by decide +kernel
example : DIV_TIME_FLOAT .f64 .nearestEven 2700000000 0 = .panic := by decide +kernel

end Verif.Conformance
