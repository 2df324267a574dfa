import Verif.Model.StTable
import Verif.Model.StFloatTable
import Verif.Model.Bits
/-
Generated by tools/gen_conformance.py: the assertions of tests/num_conversion_tests.rs, tests/bit_conversion_tests.rs and
tests/bit_num_conversion_tests.rs, run on the model. These are tests of the transcription, not proofs.
A BOOL variable is a byte, so an integer literal passed to a BOOL parameter is not cut to one bit.
-/
namespace Verif.Conformance
open Verif

/-- The conversion function with this name, on an integer. -/
def stInt (s d : StType) (x : Int) : Option Int :=
  (stConversions.find? (fun c => c.src = s ∧ c.dst = d)).map (·.run stConversions x)

/-- The conversion function with this name, where a float is involved. -/
def stFloat (s d : StNum) (v : StValue) : Res StValue :=
  match stFloatConversions.find? (fun c => c.src = s ∧ c.dst = d) with
  | some c => c.run v
  | none => .ub

/-! ### tests/num_conversion_tests.rs -/

example : stFloat (.flt .f64) (.flt .f32) (.flt 0) = .ok (.flt 0) := by decide +kernel  -- lreal_to_real_conversion
example : stFloat (.flt .f64) (.flt .f32) (.flt 13983582539730649088) = .ok (.flt 3497873882) := by decide +kernel  -- lreal_to_real_conversion
example : stFloat (.flt .f64) (.flt .f32) (.flt 4760210502875873280) = .ok (.flt 1350390234) := by decide +kernel  -- lreal_to_real_conversion
example : stFloat (.flt .f64) (.int .LINT) (.flt 0) = .ok (.int 0) := by decide +kernel  -- lreal_to_lint_conversion
example : stFloat (.flt .f64) (.int .LINT) (.flt 14114281231642264566) = .ok (.int (-9223371487100000256)) := by decide +kernel  -- lreal_to_lint_conversion
example : stFloat (.flt .f64) (.int .LINT) (.flt 4890909194787488758) = .ok (.int 9223371487100000256) := by decide +kernel  -- lreal_to_lint_conversion
example : stFloat (.flt .f64) (.int .DINT) (.flt 4600877379321698714) = .ok (.int 0) := by decide +kernel  -- lreal_to_dint_conversion
example : stFloat (.flt .f64) (.int .DINT) (.flt 13970166043566407680) = .ok (.int (-2147483520)) := by decide +kernel  -- lreal_to_dint_conversion
example : stFloat (.flt .f64) (.int .DINT) (.flt 4746794006711631872) = .ok (.int 2147483520) := by decide +kernel  -- lreal_to_dint_conversion
example : stFloat (.flt .f64) (.int .INT) (.flt 13822447976325526323) = .ok (.int 0) := by decide +kernel  -- lreal_to_int_conversion
example : stFloat (.flt .f64) (.int .INT) (.flt 13898108175187443712) = .ok (.int (-32767)) := by decide +kernel  -- lreal_to_int_conversion
example : stFloat (.flt .f64) (.int .INT) (.flt 4674736138332667904) = .ok (.int 32767) := by decide +kernel  -- lreal_to_int_conversion
example : stFloat (.flt .f64) (.int .SINT) (.flt 4600877379321698714) = .ok (.int 0) := by decide +kernel  -- lreal_to_sint_conversion
example : stFloat (.flt .f64) (.int .SINT) (.flt 13862009284302209024) = .ok (.int (-127)) := by decide +kernel  -- lreal_to_sint_conversion
example : stFloat (.flt .f64) (.int .SINT) (.flt 4638637247447433216) = .ok (.int 127) := by decide +kernel  -- lreal_to_sint_conversion
example : stFloat (.flt .f64) (.int .ULINT) (.flt 4596373779694328218) = .ok (.int 0) := by decide +kernel  -- lreal_to_ulint_conversion
example : stFloat (.flt .f64) (.int .ULINT) (.flt 4895412794414859254) = .ok (.int 18446742974200000512) := by decide +kernel  -- lreal_to_ulint_conversion
example : stFloat (.flt .f64) (.int .UDINT) (.flt 4600877379321698714) = .ok (.int 0) := by decide +kernel  -- lreal_to_udint_conversion
example : stFloat (.flt .f64) (.int .UDINT) (.flt 4751297606339002368) = .ok (.int 4294967040) := by decide +kernel  -- lreal_to_udint_conversion
example : stFloat (.flt .f64) (.int .UINT) (.flt 4600877379321698714) = .ok (.int 0) := by decide +kernel  -- lreal_to_uint_conversion
example : stFloat (.flt .f64) (.int .UINT) (.flt 4679239875398991872) = .ok (.int 65535) := by decide +kernel  -- lreal_to_uint_conversion
example : stFloat (.flt .f64) (.int .USINT) (.flt 4599075939470750515) = .ok (.int 0) := by decide +kernel  -- lreal_to_usint_conversion
example : stFloat (.flt .f64) (.int .USINT) (.flt 4642120500284227584) = .ok (.int 225) := by decide +kernel  -- lreal_to_usint_conversion
example : stFloat (.flt .f32) (.flt .f64) (.flt 0) = .ok (.flt 0) := by decide +kernel  -- real_to_lreal_conversion
example : stFloat (.flt .f32) (.flt .f64) (.flt 3361134592) = .ok (.flt 13910171192133681152) := by decide +kernel  -- real_to_lreal_conversion
example : stFloat (.flt .f32) (.flt .f64) (.flt 1213650944) = .ok (.flt 4686799155278905344) := by decide +kernel  -- real_to_lreal_conversion
example : stFloat (.flt .f32) (.int .LINT) (.flt 1045220557) = .ok (.int 0) := by decide +kernel  -- real_to_lint_conversion
example : stFloat (.flt .f32) (.int .LINT) (.flt 3741319167) = .ok (.int (-9223371487098961920)) := by decide +kernel  -- real_to_lint_conversion
example : stFloat (.flt .f32) (.int .LINT) (.flt 1593835519) = .ok (.int 9223371487098961920) := by decide +kernel  -- real_to_lint_conversion
example : stFloat (.flt .f32) (.int .DINT) (.flt 1045220557) = .ok (.int 0) := by decide +kernel  -- real_to_dint_conversion
example : stFloat (.flt .f32) (.int .DINT) (.flt 3472883711) = .ok (.int (-2147483520)) := by decide +kernel  -- real_to_dint_conversion
example : stFloat (.flt .f32) (.int .DINT) (.flt 1325400063) = .ok (.int 2147483520) := by decide +kernel  -- real_to_dint_conversion
example : stFloat (.flt .f32) (.int .INT) (.flt 1050253722) = .ok (.int 0) := by decide +kernel  -- real_to_int_conversion
example : stFloat (.flt .f32) (.int .INT) (.flt 3338665472) = .ok (.int (-32767)) := by decide +kernel  -- real_to_int_conversion
example : stFloat (.flt .f32) (.int .INT) (.flt 1191181824) = .ok (.int 32767) := by decide +kernel  -- real_to_int_conversion
example : stFloat (.flt .f32) (.int .SINT) (.flt 1045220557) = .ok (.int 0) := by decide +kernel  -- real_to_sint_conversion
example : stFloat (.flt .f32) (.int .SINT) (.flt 3271426048) = .ok (.int (-127)) := by decide +kernel  -- real_to_sint_conversion
example : stFloat (.flt .f32) (.int .SINT) (.flt 1123942400) = .ok (.int 127) := by decide +kernel  -- real_to_sint_conversion
example : stFloat (.flt .f32) (.int .ULINT) (.flt 1036831949) = .ok (.int 0) := by decide +kernel  -- real_to_ulint_conversion
example : stFloat (.flt .f32) (.int .ULINT) (.flt 1602224127) = .ok (.int 18446742974197923840) := by decide +kernel  -- real_to_ulint_conversion
example : stFloat (.flt .f32) (.int .UDINT) (.flt 1045220557) = .ok (.int 0) := by decide +kernel  -- real_to_udint_conversion
example : stFloat (.flt .f32) (.int .UDINT) (.flt 1333788671) = .ok (.int 4294967040) := by decide +kernel  -- real_to_udint_conversion
example : stFloat (.flt .f32) (.int .UINT) (.flt 1053609165) = .ok (.int 0) := by decide +kernel  -- real_to_uint_conversion
example : stFloat (.flt .f32) (.int .UINT) (.flt 1199570688) = .ok (.int 65535) := by decide +kernel  -- real_to_uint_conversion
example : stFloat (.flt .f32) (.int .USINT) (.flt 1045220557) = .ok (.int 0) := by decide +kernel  -- real_to_usint_conversion
example : stFloat (.flt .f32) (.int .USINT) (.flt 1130430464) = .ok (.int 225) := by decide +kernel  -- real_to_usint_conversion
example : stFloat (.int .LINT) (.flt .f64) (.int 0) = .ok (.flt 0) := by decide +kernel  -- lint_to_lreal_conversion
example : stFloat (.int .LINT) (.flt .f64) (.int (-11)) = .ok (.flt 13845754104397168640) := by decide +kernel  -- lint_to_lreal_conversion
example : stFloat (.int .LINT) (.flt .f64) (.int 22) = .ok (.flt 4626885667169763328) := by decide +kernel  -- lint_to_lreal_conversion
example : stFloat (.int .LINT) (.flt .f64) (.int 9223372036854775806) = .ok (.flt 4890909195324358656) := by decide +kernel  -- lint_to_lreal_conversion
example : stFloat (.int .LINT) (.flt .f64) (.int (-9223372036854775807)) = .ok (.flt 14114281232179134464) := by decide +kernel  -- lint_to_lreal_conversion
example : stFloat (.int .LINT) (.flt .f64) (.int (-9223372036854775808)) = .ok (.flt 14114281232179134464) := by decide +kernel  -- lint_to_lreal_conversion
example : stFloat (.int .LINT) (.flt .f64) (.int 9223372036854775807) = .ok (.flt 4890909195324358656) := by decide +kernel  -- lint_to_lreal_conversion
example : stFloat (.int .LINT) (.flt .f32) (.int 0) = .ok (.flt 0) := by decide +kernel  -- lint_to_real_conversion
example : stFloat (.int .LINT) (.flt .f32) (.int (-11)) = .ok (.flt 3241148416) := by decide +kernel  -- lint_to_real_conversion
example : stFloat (.int .LINT) (.flt .f32) (.int 22) = .ok (.flt 1102053376) := by decide +kernel  -- lint_to_real_conversion
example : stFloat (.int .LINT) (.flt .f32) (.int 9223372036854775806) = .ok (.flt 1593835520) := by decide +kernel  -- lint_to_real_conversion
example : stFloat (.int .LINT) (.flt .f32) (.int (-9223372036854775807)) = .ok (.flt 3741319168) := by decide +kernel  -- lint_to_real_conversion
example : stFloat (.int .LINT) (.flt .f32) (.int (-9223372036854775808)) = .ok (.flt 3741319168) := by decide +kernel  -- lint_to_real_conversion
example : stFloat (.int .LINT) (.flt .f32) (.int 9223372036854775807) = .ok (.flt 1593835520) := by decide +kernel  -- lint_to_real_conversion
example : stInt .LINT .DINT 0 = some 0 := by decide +kernel  -- lint_to_dint_conversion
example : stInt .LINT .DINT (-11) = some (-11) := by decide +kernel  -- lint_to_dint_conversion
example : stInt .LINT .DINT 22 = some 22 := by decide +kernel  -- lint_to_dint_conversion
example : stInt .LINT .DINT 2147483646 = some 2147483646 := by decide +kernel  -- lint_to_dint_conversion
example : stInt .LINT .DINT (-2147483647) = some (-2147483647) := by decide +kernel  -- lint_to_dint_conversion
example : stInt .LINT .DINT 2147483648 = some (-2147483648) := by decide +kernel  -- lint_to_dint_conversion
example : stInt .LINT .DINT (-2147483649) = some 2147483647 := by decide +kernel  -- lint_to_dint_conversion
example : stInt .LINT .INT 0 = some 0 := by decide +kernel  -- lint_to_int_conversion
example : stInt .LINT .INT (-11) = some (-11) := by decide +kernel  -- lint_to_int_conversion
example : stInt .LINT .INT 22 = some 22 := by decide +kernel  -- lint_to_int_conversion
example : stInt .LINT .INT 32766 = some 32766 := by decide +kernel  -- lint_to_int_conversion
example : stInt .LINT .INT (-32767) = some (-32767) := by decide +kernel  -- lint_to_int_conversion
example : stInt .LINT .INT 32768 = some (-32768) := by decide +kernel  -- lint_to_int_conversion
example : stInt .LINT .INT (-32769) = some 32767 := by decide +kernel  -- lint_to_int_conversion
example : stInt .LINT .SINT 0 = some 0 := by decide +kernel  -- lint_to_sint_conversion
example : stInt .LINT .SINT (-11) = some (-11) := by decide +kernel  -- lint_to_sint_conversion
example : stInt .LINT .SINT 22 = some 22 := by decide +kernel  -- lint_to_sint_conversion
example : stInt .LINT .SINT 126 = some 126 := by decide +kernel  -- lint_to_sint_conversion
example : stInt .LINT .SINT (-127) = some (-127) := by decide +kernel  -- lint_to_sint_conversion
example : stInt .LINT .SINT 128 = some (-128) := by decide +kernel  -- lint_to_sint_conversion
example : stInt .LINT .SINT (-129) = some 127 := by decide +kernel  -- lint_to_sint_conversion
example : stInt .LINT .ULINT 0 = some 0 := by decide +kernel  -- lint_to_ulint_conversion
example : stInt .LINT .ULINT (-1) = some 18446744073709551615 := by decide +kernel  -- lint_to_ulint_conversion
example : stInt .LINT .ULINT 22 = some 22 := by decide +kernel  -- lint_to_ulint_conversion
example : stInt .LINT .ULINT 9223372036854775806 = some 9223372036854775806 := by decide +kernel  -- lint_to_ulint_conversion
example : stInt .LINT .ULINT (-9223372036854775807) = some 9223372036854775809 := by decide +kernel  -- lint_to_ulint_conversion
example : stInt .LINT .ULINT (-9223372036854775808) = some 9223372036854775808 := by decide +kernel  -- lint_to_ulint_conversion
example : stInt .LINT .ULINT 9223372036854775807 = some 9223372036854775807 := by decide +kernel  -- lint_to_ulint_conversion
example : stInt .LINT .UDINT 0 = some 0 := by decide +kernel  -- lint_to_udint_conversion
example : stInt .LINT .UDINT (-1) = some 4294967295 := by decide +kernel  -- lint_to_udint_conversion
example : stInt .LINT .UDINT 22 = some 22 := by decide +kernel  -- lint_to_udint_conversion
example : stInt .LINT .UDINT 4294967294 = some 4294967294 := by decide +kernel  -- lint_to_udint_conversion
example : stInt .LINT .UDINT 1 = some 1 := by decide +kernel  -- lint_to_udint_conversion
example : stInt .LINT .UDINT 4294967296 = some 0 := by decide +kernel  -- lint_to_udint_conversion
example : stInt .LINT .UDINT (-1) = some 4294967295 := by decide +kernel  -- lint_to_udint_conversion
example : stInt .LINT .UINT 0 = some 0 := by decide +kernel  -- lint_to_uint_conversion
example : stInt .LINT .UINT (-1) = some 65535 := by decide +kernel  -- lint_to_uint_conversion
example : stInt .LINT .UINT 22 = some 22 := by decide +kernel  -- lint_to_uint_conversion
example : stInt .LINT .UINT 65534 = some 65534 := by decide +kernel  -- lint_to_uint_conversion
example : stInt .LINT .UINT 1 = some 1 := by decide +kernel  -- lint_to_uint_conversion
example : stInt .LINT .UINT 65536 = some 0 := by decide +kernel  -- lint_to_uint_conversion
example : stInt .LINT .UINT (-1) = some 65535 := by decide +kernel  -- lint_to_uint_conversion
example : stInt .LINT .USINT 0 = some 0 := by decide +kernel  -- lint_to_usint_conversion
example : stInt .LINT .USINT (-1) = some 255 := by decide +kernel  -- lint_to_usint_conversion
example : stInt .LINT .USINT 22 = some 22 := by decide +kernel  -- lint_to_usint_conversion
example : stInt .LINT .USINT 254 = some 254 := by decide +kernel  -- lint_to_usint_conversion
example : stInt .LINT .USINT 1 = some 1 := by decide +kernel  -- lint_to_usint_conversion
example : stInt .LINT .USINT 256 = some 0 := by decide +kernel  -- lint_to_usint_conversion
example : stInt .LINT .USINT (-1) = some 255 := by decide +kernel  -- lint_to_usint_conversion
example : stFloat (.int .DINT) (.flt .f64) (.int 0) = .ok (.flt 0) := by decide +kernel  -- dint_to_lreal_conversion
example : stFloat (.int .DINT) (.flt .f64) (.int (-11)) = .ok (.flt 13845754104397168640) := by decide +kernel  -- dint_to_lreal_conversion
example : stFloat (.int .DINT) (.flt .f64) (.int 22) = .ok (.flt 4626885667169763328) := by decide +kernel  -- dint_to_lreal_conversion
example : stFloat (.int .DINT) (.flt .f64) (.int 2147483646) = .ok (.flt 4746794007240114176) := by decide +kernel  -- dint_to_lreal_conversion
example : stFloat (.int .DINT) (.flt .f64) (.int (-2147483647)) = .ok (.flt 13970166044099084288) := by decide +kernel  -- dint_to_lreal_conversion
example : stFloat (.int .DINT) (.flt .f64) (.int (-2147483648)) = .ok (.flt 13970166044103278592) := by decide +kernel  -- dint_to_lreal_conversion
example : stFloat (.int .DINT) (.flt .f64) (.int 2147483647) = .ok (.flt 4746794007244308480) := by decide +kernel  -- dint_to_lreal_conversion
example : stFloat (.int .DINT) (.flt .f32) (.int 0) = .ok (.flt 0) := by decide +kernel  -- dint_to_real_conversion
example : stFloat (.int .DINT) (.flt .f32) (.int (-11)) = .ok (.flt 3241148416) := by decide +kernel  -- dint_to_real_conversion
example : stFloat (.int .DINT) (.flt .f32) (.int 22) = .ok (.flt 1102053376) := by decide +kernel  -- dint_to_real_conversion
example : stFloat (.int .DINT) (.flt .f32) (.int 2147483646) = .ok (.flt 1325400064) := by decide +kernel  -- dint_to_real_conversion
example : stFloat (.int .DINT) (.flt .f32) (.int (-2147483647)) = .ok (.flt 3472883712) := by decide +kernel  -- dint_to_real_conversion
example : stFloat (.int .DINT) (.flt .f32) (.int (-2147483648)) = .ok (.flt 3472883712) := by decide +kernel  -- dint_to_real_conversion
example : stFloat (.int .DINT) (.flt .f32) (.int 2147483647) = .ok (.flt 1325400064) := by decide +kernel  -- dint_to_real_conversion
example : stInt .DINT .LINT 0 = some 0 := by decide +kernel  -- dint_to_lint_conversion
example : stInt .DINT .LINT (-11) = some (-11) := by decide +kernel  -- dint_to_lint_conversion
example : stInt .DINT .LINT 22 = some 22 := by decide +kernel  -- dint_to_lint_conversion
example : stInt .DINT .LINT 2147483646 = some 2147483646 := by decide +kernel  -- dint_to_lint_conversion
example : stInt .DINT .LINT (-2147483647) = some (-2147483647) := by decide +kernel  -- dint_to_lint_conversion
example : stInt .DINT .LINT (-2147483648) = some (-2147483648) := by decide +kernel  -- dint_to_lint_conversion
example : stInt .DINT .LINT 2147483647 = some 2147483647 := by decide +kernel  -- dint_to_lint_conversion
example : stInt .DINT .INT 0 = some 0 := by decide +kernel  -- dint_to_int_conversion
example : stInt .DINT .INT (-11) = some (-11) := by decide +kernel  -- dint_to_int_conversion
example : stInt .DINT .INT 22 = some 22 := by decide +kernel  -- dint_to_int_conversion
example : stInt .DINT .INT 32766 = some 32766 := by decide +kernel  -- dint_to_int_conversion
example : stInt .DINT .INT (-32767) = some (-32767) := by decide +kernel  -- dint_to_int_conversion
example : stInt .DINT .INT 32768 = some (-32768) := by decide +kernel  -- dint_to_int_conversion
example : stInt .DINT .INT (-32769) = some 32767 := by decide +kernel  -- dint_to_int_conversion
example : stInt .DINT .SINT 0 = some 0 := by decide +kernel  -- dint_to_sint_conversion
example : stInt .DINT .SINT (-11) = some (-11) := by decide +kernel  -- dint_to_sint_conversion
example : stInt .DINT .SINT 22 = some 22 := by decide +kernel  -- dint_to_sint_conversion
example : stInt .DINT .SINT 126 = some 126 := by decide +kernel  -- dint_to_sint_conversion
example : stInt .DINT .SINT (-127) = some (-127) := by decide +kernel  -- dint_to_sint_conversion
example : stInt .DINT .SINT 128 = some (-128) := by decide +kernel  -- dint_to_sint_conversion
example : stInt .DINT .SINT (-129) = some 127 := by decide +kernel  -- dint_to_sint_conversion
example : stInt .DINT .ULINT 0 = some 0 := by decide +kernel  -- dint_to_ulint_conversion
example : stInt .DINT .ULINT (-1) = some 18446744073709551615 := by decide +kernel  -- dint_to_ulint_conversion
example : stInt .DINT .ULINT 22 = some 22 := by decide +kernel  -- dint_to_ulint_conversion
example : stInt .DINT .ULINT 2147483646 = some 2147483646 := by decide +kernel  -- dint_to_ulint_conversion
example : stInt .DINT .ULINT (-2147483647) = some 18446744071562067969 := by decide +kernel  -- dint_to_ulint_conversion
example : stInt .DINT .ULINT (-2147483648) = some 18446744071562067968 := by decide +kernel  -- dint_to_ulint_conversion
example : stInt .DINT .ULINT 2147483647 = some 2147483647 := by decide +kernel  -- dint_to_ulint_conversion
example : stInt .DINT .UDINT 0 = some 0 := by decide +kernel  -- dint_to_udint_conversion
example : stInt .DINT .UDINT (-1) = some 4294967295 := by decide +kernel  -- dint_to_udint_conversion
example : stInt .DINT .UDINT 22 = some 22 := by decide +kernel  -- dint_to_udint_conversion
example : stInt .DINT .UDINT 2147483646 = some 2147483646 := by decide +kernel  -- dint_to_udint_conversion
example : stInt .DINT .UDINT (-2147483647) = some 2147483649 := by decide +kernel  -- dint_to_udint_conversion
example : stInt .DINT .UDINT (-2147483648) = some 2147483648 := by decide +kernel  -- dint_to_udint_conversion
example : stInt .DINT .UDINT 2147483647 = some 2147483647 := by decide +kernel  -- dint_to_udint_conversion
example : stInt .DINT .UINT 0 = some 0 := by decide +kernel  -- dint_to_uint_conversion
example : stInt .DINT .UINT (-1) = some 65535 := by decide +kernel  -- dint_to_uint_conversion
example : stInt .DINT .UINT 22 = some 22 := by decide +kernel  -- dint_to_uint_conversion
example : stInt .DINT .UINT 65534 = some 65534 := by decide +kernel  -- dint_to_uint_conversion
example : stInt .DINT .UINT 1 = some 1 := by decide +kernel  -- dint_to_uint_conversion
example : stInt .DINT .UINT 65536 = some 0 := by decide +kernel  -- dint_to_uint_conversion
example : stInt .DINT .UINT (-1) = some 65535 := by decide +kernel  -- dint_to_uint_conversion
example : stInt .DINT .USINT 0 = some 0 := by decide +kernel  -- dint_to_usint_conversion
example : stInt .DINT .USINT (-1) = some 255 := by decide +kernel  -- dint_to_usint_conversion
example : stInt .DINT .USINT 22 = some 22 := by decide +kernel  -- dint_to_usint_conversion
example : stInt .DINT .USINT 254 = some 254 := by decide +kernel  -- dint_to_usint_conversion
example : stInt .DINT .USINT 1 = some 1 := by decide +kernel  -- dint_to_usint_conversion
example : stInt .DINT .USINT 256 = some 0 := by decide +kernel  -- dint_to_usint_conversion
example : stInt .DINT .USINT (-1) = some 255 := by decide +kernel  -- dint_to_usint_conversion
example : stFloat (.int .INT) (.flt .f64) (.int 0) = .ok (.flt 0) := by decide +kernel  -- int_to_lreal_conversion
example : stFloat (.int .INT) (.flt .f64) (.int (-11)) = .ok (.flt 13845754104397168640) := by decide +kernel  -- int_to_lreal_conversion
example : stFloat (.int .INT) (.flt .f64) (.int 22) = .ok (.flt 4626885667169763328) := by decide +kernel  -- int_to_lreal_conversion
example : stFloat (.int .INT) (.flt .f64) (.int 32766) = .ok (.flt 4674735863454760960) := by decide +kernel  -- int_to_lreal_conversion
example : stFloat (.int .INT) (.flt .f64) (.int (-32767)) = .ok (.flt 13898108175187443712) := by decide +kernel  -- int_to_lreal_conversion
example : stFloat (.int .INT) (.flt .f64) (.int (-32768)) = .ok (.flt 13898108450065350656) := by decide +kernel  -- int_to_lreal_conversion
example : stFloat (.int .INT) (.flt .f64) (.int 32767) = .ok (.flt 4674736138332667904) := by decide +kernel  -- int_to_lreal_conversion
example : stFloat (.int .INT) (.flt .f32) (.int 0) = .ok (.flt 0) := by decide +kernel  -- int_to_real_conversion
example : stFloat (.int .INT) (.flt .f32) (.int (-11)) = .ok (.flt 3241148416) := by decide +kernel  -- int_to_real_conversion
example : stFloat (.int .INT) (.flt .f32) (.int 22) = .ok (.flt 1102053376) := by decide +kernel  -- int_to_real_conversion
example : stFloat (.int .INT) (.flt .f32) (.int 32766) = .ok (.flt 1191181312) := by decide +kernel  -- int_to_real_conversion
example : stFloat (.int .INT) (.flt .f32) (.int (-32767)) = .ok (.flt 3338665472) := by decide +kernel  -- int_to_real_conversion
example : stFloat (.int .INT) (.flt .f32) (.int (-32768)) = .ok (.flt 3338665984) := by decide +kernel  -- int_to_real_conversion
example : stFloat (.int .INT) (.flt .f32) (.int 32767) = .ok (.flt 1191181824) := by decide +kernel  -- int_to_real_conversion
example : stInt .INT .LINT 0 = some 0 := by decide +kernel  -- int_to_lint_conversion
example : stInt .INT .LINT (-11) = some (-11) := by decide +kernel  -- int_to_lint_conversion
example : stInt .INT .LINT 22 = some 22 := by decide +kernel  -- int_to_lint_conversion
example : stInt .INT .LINT 32766 = some 32766 := by decide +kernel  -- int_to_lint_conversion
example : stInt .INT .LINT (-32767) = some (-32767) := by decide +kernel  -- int_to_lint_conversion
example : stInt .INT .LINT (-32768) = some (-32768) := by decide +kernel  -- int_to_lint_conversion
example : stInt .INT .LINT 32767 = some 32767 := by decide +kernel  -- int_to_lint_conversion
example : stInt .INT .DINT 0 = some 0 := by decide +kernel  -- int_to_dint_conversion
example : stInt .INT .DINT (-11) = some (-11) := by decide +kernel  -- int_to_dint_conversion
example : stInt .INT .DINT 22 = some 22 := by decide +kernel  -- int_to_dint_conversion
example : stInt .INT .DINT 32766 = some 32766 := by decide +kernel  -- int_to_dint_conversion
example : stInt .INT .DINT (-32767) = some (-32767) := by decide +kernel  -- int_to_dint_conversion
example : stInt .INT .DINT (-32768) = some (-32768) := by decide +kernel  -- int_to_dint_conversion
example : stInt .INT .DINT 32767 = some 32767 := by decide +kernel  -- int_to_dint_conversion
example : stInt .INT .SINT 0 = some 0 := by decide +kernel  -- int_to_sint_conversion
example : stInt .INT .SINT (-11) = some (-11) := by decide +kernel  -- int_to_sint_conversion
example : stInt .INT .SINT 22 = some 22 := by decide +kernel  -- int_to_sint_conversion
example : stInt .INT .SINT 126 = some 126 := by decide +kernel  -- int_to_sint_conversion
example : stInt .INT .SINT (-127) = some (-127) := by decide +kernel  -- int_to_sint_conversion
example : stInt .INT .SINT 128 = some (-128) := by decide +kernel  -- int_to_sint_conversion
example : stInt .INT .SINT (-129) = some 127 := by decide +kernel  -- int_to_sint_conversion
example : stInt .INT .ULINT 0 = some 0 := by decide +kernel  -- int_to_ulint_conversion
example : stInt .INT .ULINT (-1) = some 18446744073709551615 := by decide +kernel  -- int_to_ulint_conversion
example : stInt .INT .ULINT 22 = some 22 := by decide +kernel  -- int_to_ulint_conversion
example : stInt .INT .ULINT 32766 = some 32766 := by decide +kernel  -- int_to_ulint_conversion
example : stInt .INT .ULINT (-32767) = some 18446744073709518849 := by decide +kernel  -- int_to_ulint_conversion
example : stInt .INT .ULINT (-32768) = some 18446744073709518848 := by decide +kernel  -- int_to_ulint_conversion
example : stInt .INT .ULINT 32767 = some 32767 := by decide +kernel  -- int_to_ulint_conversion
example : stInt .INT .UDINT 0 = some 0 := by decide +kernel  -- int_to_udint_conversion
example : stInt .INT .UDINT (-1) = some 4294967295 := by decide +kernel  -- int_to_udint_conversion
example : stInt .INT .UDINT 22 = some 22 := by decide +kernel  -- int_to_udint_conversion
example : stInt .INT .UDINT 32766 = some 32766 := by decide +kernel  -- int_to_udint_conversion
example : stInt .INT .UDINT (-32767) = some 4294934529 := by decide +kernel  -- int_to_udint_conversion
example : stInt .INT .UDINT (-32768) = some 4294934528 := by decide +kernel  -- int_to_udint_conversion
example : stInt .INT .UDINT 32767 = some 32767 := by decide +kernel  -- int_to_udint_conversion
example : stInt .INT .UINT 0 = some 0 := by decide +kernel  -- int_to_uint_conversion
example : stInt .INT .UINT (-1) = some 65535 := by decide +kernel  -- int_to_uint_conversion
example : stInt .INT .UINT 22 = some 22 := by decide +kernel  -- int_to_uint_conversion
example : stInt .INT .UINT 32766 = some 32766 := by decide +kernel  -- int_to_uint_conversion
example : stInt .INT .UINT (-32767) = some 32769 := by decide +kernel  -- int_to_uint_conversion
example : stInt .INT .UINT (-32768) = some 32768 := by decide +kernel  -- int_to_uint_conversion
example : stInt .INT .UINT 32767 = some 32767 := by decide +kernel  -- int_to_uint_conversion
example : stInt .INT .USINT 0 = some 0 := by decide +kernel  -- int_to_usint_conversion
example : stInt .INT .USINT (-1) = some 255 := by decide +kernel  -- int_to_usint_conversion
example : stInt .INT .USINT 22 = some 22 := by decide +kernel  -- int_to_usint_conversion
example : stInt .INT .USINT 254 = some 254 := by decide +kernel  -- int_to_usint_conversion
example : stInt .INT .USINT 1 = some 1 := by decide +kernel  -- int_to_usint_conversion
example : stInt .INT .USINT 256 = some 0 := by decide +kernel  -- int_to_usint_conversion
example : stInt .INT .USINT (-1) = some 255 := by decide +kernel  -- int_to_usint_conversion
example : stFloat (.int .SINT) (.flt .f64) (.int 0) = .ok (.flt 0) := by decide +kernel  -- sint_to_lreal_conversion
example : stFloat (.int .SINT) (.flt .f64) (.int (-11)) = .ok (.flt 13845754104397168640) := by decide +kernel  -- sint_to_lreal_conversion
example : stFloat (.int .SINT) (.flt .f64) (.int 22) = .ok (.flt 4626885667169763328) := by decide +kernel  -- sint_to_lreal_conversion
example : stFloat (.int .SINT) (.flt .f64) (.int 126) = .ok (.flt 4638566878703255552) := by decide +kernel  -- sint_to_lreal_conversion
example : stFloat (.int .SINT) (.flt .f64) (.int (-127)) = .ok (.flt 13862009284302209024) := by decide +kernel  -- sint_to_lreal_conversion
example : stFloat (.int .SINT) (.flt .f64) (.int (-128)) = .ok (.flt 13862079653046386688) := by decide +kernel  -- sint_to_lreal_conversion
example : stFloat (.int .SINT) (.flt .f64) (.int 127) = .ok (.flt 4638637247447433216) := by decide +kernel  -- sint_to_lreal_conversion
example : stFloat (.int .SINT) (.flt .f32) (.int 0) = .ok (.flt 0) := by decide +kernel  -- sint_to_real_conversion
example : stFloat (.int .SINT) (.flt .f32) (.int (-11)) = .ok (.flt 3241148416) := by decide +kernel  -- sint_to_real_conversion
example : stFloat (.int .SINT) (.flt .f32) (.int 22) = .ok (.flt 1102053376) := by decide +kernel  -- sint_to_real_conversion
example : stFloat (.int .SINT) (.flt .f32) (.int 126) = .ok (.flt 1123811328) := by decide +kernel  -- sint_to_real_conversion
example : stFloat (.int .SINT) (.flt .f32) (.int (-127)) = .ok (.flt 3271426048) := by decide +kernel  -- sint_to_real_conversion
example : stFloat (.int .SINT) (.flt .f32) (.int (-128)) = .ok (.flt 3271557120) := by decide +kernel  -- sint_to_real_conversion
example : stFloat (.int .SINT) (.flt .f32) (.int 127) = .ok (.flt 1123942400) := by decide +kernel  -- sint_to_real_conversion
example : stInt .SINT .LINT 0 = some 0 := by decide +kernel  -- sint_to_lint_conversion
example : stInt .SINT .LINT (-11) = some (-11) := by decide +kernel  -- sint_to_lint_conversion
example : stInt .SINT .LINT 22 = some 22 := by decide +kernel  -- sint_to_lint_conversion
example : stInt .SINT .LINT 126 = some 126 := by decide +kernel  -- sint_to_lint_conversion
example : stInt .SINT .LINT (-127) = some (-127) := by decide +kernel  -- sint_to_lint_conversion
example : stInt .SINT .LINT (-128) = some (-128) := by decide +kernel  -- sint_to_lint_conversion
example : stInt .SINT .LINT 127 = some 127 := by decide +kernel  -- sint_to_lint_conversion
example : stInt .SINT .DINT 0 = some 0 := by decide +kernel  -- sint_to_dint_conversion
example : stInt .SINT .DINT (-11) = some (-11) := by decide +kernel  -- sint_to_dint_conversion
example : stInt .SINT .DINT 22 = some 22 := by decide +kernel  -- sint_to_dint_conversion
example : stInt .SINT .DINT 126 = some 126 := by decide +kernel  -- sint_to_dint_conversion
example : stInt .SINT .DINT (-127) = some (-127) := by decide +kernel  -- sint_to_dint_conversion
example : stInt .SINT .DINT (-128) = some (-128) := by decide +kernel  -- sint_to_dint_conversion
example : stInt .SINT .DINT 127 = some 127 := by decide +kernel  -- sint_to_dint_conversion
example : stInt .SINT .INT 0 = some 0 := by decide +kernel  -- sint_to_int_conversion
example : stInt .SINT .INT (-11) = some (-11) := by decide +kernel  -- sint_to_int_conversion
example : stInt .SINT .INT 22 = some 22 := by decide +kernel  -- sint_to_int_conversion
example : stInt .SINT .INT 126 = some 126 := by decide +kernel  -- sint_to_int_conversion
example : stInt .SINT .INT (-127) = some (-127) := by decide +kernel  -- sint_to_int_conversion
example : stInt .SINT .INT (-128) = some (-128) := by decide +kernel  -- sint_to_int_conversion
example : stInt .SINT .INT 127 = some 127 := by decide +kernel  -- sint_to_int_conversion
example : stInt .SINT .ULINT 0 = some 0 := by decide +kernel  -- sint_to_ulint_conversion
example : stInt .SINT .ULINT (-1) = some 18446744073709551615 := by decide +kernel  -- sint_to_ulint_conversion
example : stInt .SINT .ULINT 22 = some 22 := by decide +kernel  -- sint_to_ulint_conversion
example : stInt .SINT .ULINT 126 = some 126 := by decide +kernel  -- sint_to_ulint_conversion
example : stInt .SINT .ULINT (-127) = some 18446744073709551489 := by decide +kernel  -- sint_to_ulint_conversion
example : stInt .SINT .ULINT (-128) = some 18446744073709551488 := by decide +kernel  -- sint_to_ulint_conversion
example : stInt .SINT .ULINT 127 = some 127 := by decide +kernel  -- sint_to_ulint_conversion
example : stInt .SINT .UDINT 0 = some 0 := by decide +kernel  -- sint_to_udint_conversion
example : stInt .SINT .UDINT (-1) = some 4294967295 := by decide +kernel  -- sint_to_udint_conversion
example : stInt .SINT .UDINT 22 = some 22 := by decide +kernel  -- sint_to_udint_conversion
example : stInt .SINT .UDINT 126 = some 126 := by decide +kernel  -- sint_to_udint_conversion
example : stInt .SINT .UDINT (-127) = some 4294967169 := by decide +kernel  -- sint_to_udint_conversion
example : stInt .SINT .UDINT (-128) = some 4294967168 := by decide +kernel  -- sint_to_udint_conversion
example : stInt .SINT .UDINT 127 = some 127 := by decide +kernel  -- sint_to_udint_conversion
example : stInt .SINT .UINT 0 = some 0 := by decide +kernel  -- sint_to_uint_conversion
example : stInt .SINT .UINT (-1) = some 65535 := by decide +kernel  -- sint_to_uint_conversion
example : stInt .SINT .UINT 22 = some 22 := by decide +kernel  -- sint_to_uint_conversion
example : stInt .SINT .UINT 126 = some 126 := by decide +kernel  -- sint_to_uint_conversion
example : stInt .SINT .UINT (-127) = some 65409 := by decide +kernel  -- sint_to_uint_conversion
example : stInt .SINT .UINT (-128) = some 65408 := by decide +kernel  -- sint_to_uint_conversion
example : stInt .SINT .UINT 127 = some 127 := by decide +kernel  -- sint_to_uint_conversion
example : stInt .SINT .USINT 0 = some 0 := by decide +kernel  -- sint_to_usint_conversion
example : stInt .SINT .USINT (-1) = some 255 := by decide +kernel  -- sint_to_usint_conversion
example : stInt .SINT .USINT 22 = some 22 := by decide +kernel  -- sint_to_usint_conversion
example : stInt .SINT .USINT 126 = some 126 := by decide +kernel  -- sint_to_usint_conversion
example : stInt .SINT .USINT (-127) = some 129 := by decide +kernel  -- sint_to_usint_conversion
example : stInt .SINT .USINT (-128) = some 128 := by decide +kernel  -- sint_to_usint_conversion
example : stInt .SINT .USINT 127 = some 127 := by decide +kernel  -- sint_to_usint_conversion
example : stFloat (.int .ULINT) (.flt .f64) (.int 0) = .ok (.flt 0) := by decide +kernel  -- ulint_to_lreal_conversion
example : stFloat (.int .ULINT) (.flt .f64) (.int 18446744073709551614) = .ok (.flt 4895412794951729152) := by decide +kernel  -- ulint_to_lreal_conversion
example : stFloat (.int .ULINT) (.flt .f64) (.int 22) = .ok (.flt 4626885667169763328) := by decide +kernel  -- ulint_to_lreal_conversion
example : stFloat (.int .ULINT) (.flt .f64) (.int 18446744073709551614) = .ok (.flt 4895412794951729152) := by decide +kernel  -- ulint_to_lreal_conversion
example : stFloat (.int .ULINT) (.flt .f64) (.int 1) = .ok (.flt 4607182418800017408) := by decide +kernel  -- ulint_to_lreal_conversion
example : stFloat (.int .ULINT) (.flt .f64) (.int 0) = .ok (.flt 0) := by decide +kernel  -- ulint_to_lreal_conversion
example : stFloat (.int .ULINT) (.flt .f64) (.int 18446744073709551615) = .ok (.flt 4895412794951729152) := by decide +kernel  -- ulint_to_lreal_conversion
example : stFloat (.int .ULINT) (.flt .f32) (.int 0) = .ok (.flt 0) := by decide +kernel  -- ulint_to_real_conversion
example : stFloat (.int .ULINT) (.flt .f32) (.int 18446744073709551614) = .ok (.flt 1602224128) := by decide +kernel  -- ulint_to_real_conversion
example : stFloat (.int .ULINT) (.flt .f32) (.int 22) = .ok (.flt 1102053376) := by decide +kernel  -- ulint_to_real_conversion
example : stFloat (.int .ULINT) (.flt .f32) (.int 18446744073709551614) = .ok (.flt 1602224128) := by decide +kernel  -- ulint_to_real_conversion
example : stFloat (.int .ULINT) (.flt .f32) (.int 1) = .ok (.flt 1065353216) := by decide +kernel  -- ulint_to_real_conversion
example : stFloat (.int .ULINT) (.flt .f32) (.int 0) = .ok (.flt 0) := by decide +kernel  -- ulint_to_real_conversion
example : stFloat (.int .ULINT) (.flt .f32) (.int 18446744073709551615) = .ok (.flt 1602224128) := by decide +kernel  -- ulint_to_real_conversion
example : stInt .ULINT .LINT 0 = some 0 := by decide +kernel  -- ulint_to_lint_conversion
example : stInt .ULINT .LINT 22 = some 22 := by decide +kernel  -- ulint_to_lint_conversion
example : stInt .ULINT .LINT 9223372036854775806 = some 9223372036854775806 := by decide +kernel  -- ulint_to_lint_conversion
example : stInt .ULINT .LINT 1 = some 1 := by decide +kernel  -- ulint_to_lint_conversion
example : stInt .ULINT .LINT 9223372036854775808 = some (-9223372036854775808) := by decide +kernel  -- ulint_to_lint_conversion
example : stInt .ULINT .DINT 0 = some 0 := by decide +kernel  -- ulint_to_dint_conversion
example : stInt .ULINT .DINT 22 = some 22 := by decide +kernel  -- ulint_to_dint_conversion
example : stInt .ULINT .DINT 2147483646 = some 2147483646 := by decide +kernel  -- ulint_to_dint_conversion
example : stInt .ULINT .DINT 1 = some 1 := by decide +kernel  -- ulint_to_dint_conversion
example : stInt .ULINT .DINT 2147483648 = some (-2147483648) := by decide +kernel  -- ulint_to_dint_conversion
example : stInt .ULINT .INT 0 = some 0 := by decide +kernel  -- ulint_to_int_conversion
example : stInt .ULINT .INT 22 = some 22 := by decide +kernel  -- ulint_to_int_conversion
example : stInt .ULINT .INT 32766 = some 32766 := by decide +kernel  -- ulint_to_int_conversion
example : stInt .ULINT .INT 1 = some 1 := by decide +kernel  -- ulint_to_int_conversion
example : stInt .ULINT .INT 32768 = some (-32768) := by decide +kernel  -- ulint_to_int_conversion
example : stInt .ULINT .SINT 0 = some 0 := by decide +kernel  -- ulint_to_sint_conversion
example : stInt .ULINT .SINT 22 = some 22 := by decide +kernel  -- ulint_to_sint_conversion
example : stInt .ULINT .SINT 126 = some 126 := by decide +kernel  -- ulint_to_sint_conversion
example : stInt .ULINT .SINT 1 = some 1 := by decide +kernel  -- ulint_to_sint_conversion
example : stInt .ULINT .SINT 128 = some (-128) := by decide +kernel  -- ulint_to_sint_conversion
example : stInt .ULINT .UDINT 0 = some 0 := by decide +kernel  -- ulint_to_udint_conversion
example : stInt .ULINT .UDINT 18446744073709551615 = some 4294967295 := by decide +kernel  -- ulint_to_udint_conversion
example : stInt .ULINT .UDINT 22 = some 22 := by decide +kernel  -- ulint_to_udint_conversion
example : stInt .ULINT .UDINT 4294967294 = some 4294967294 := by decide +kernel  -- ulint_to_udint_conversion
example : stInt .ULINT .UDINT 1 = some 1 := by decide +kernel  -- ulint_to_udint_conversion
example : stInt .ULINT .UDINT 4294967296 = some 0 := by decide +kernel  -- ulint_to_udint_conversion
example : stInt .ULINT .UDINT 18446744073709551615 = some 4294967295 := by decide +kernel  -- ulint_to_udint_conversion
example : stInt .ULINT .UINT 0 = some 0 := by decide +kernel  -- ulint_to_uint_conversion
example : stInt .ULINT .UINT 18446744073709551615 = some 65535 := by decide +kernel  -- ulint_to_uint_conversion
example : stInt .ULINT .UINT 22 = some 22 := by decide +kernel  -- ulint_to_uint_conversion
example : stInt .ULINT .UINT 65534 = some 65534 := by decide +kernel  -- ulint_to_uint_conversion
example : stInt .ULINT .UINT 1 = some 1 := by decide +kernel  -- ulint_to_uint_conversion
example : stInt .ULINT .UINT 65536 = some 0 := by decide +kernel  -- ulint_to_uint_conversion
example : stInt .ULINT .UINT 18446744073709551615 = some 65535 := by decide +kernel  -- ulint_to_uint_conversion
example : stInt .ULINT .USINT 0 = some 0 := by decide +kernel  -- ulint_to_usint_conversion
example : stInt .ULINT .USINT 18446744073709551615 = some 255 := by decide +kernel  -- ulint_to_usint_conversion
example : stInt .ULINT .USINT 22 = some 22 := by decide +kernel  -- ulint_to_usint_conversion
example : stInt .ULINT .USINT 254 = some 254 := by decide +kernel  -- ulint_to_usint_conversion
example : stInt .ULINT .USINT 1 = some 1 := by decide +kernel  -- ulint_to_usint_conversion
example : stInt .ULINT .USINT 256 = some 0 := by decide +kernel  -- ulint_to_usint_conversion
example : stInt .ULINT .USINT 18446744073709551615 = some 255 := by decide +kernel  -- ulint_to_usint_conversion
example : stFloat (.int .UDINT) (.flt .f64) (.int 0) = .ok (.flt 0) := by decide +kernel  -- udint_to_lreal_conversion
example : stFloat (.int .UDINT) (.flt .f64) (.int 4294967294) = .ok (.flt 4751297606871678976) := by decide +kernel  -- udint_to_lreal_conversion
example : stFloat (.int .UDINT) (.flt .f64) (.int 22) = .ok (.flt 4626885667169763328) := by decide +kernel  -- udint_to_lreal_conversion
example : stFloat (.int .UDINT) (.flt .f64) (.int 4294967294) = .ok (.flt 4751297606871678976) := by decide +kernel  -- udint_to_lreal_conversion
example : stFloat (.int .UDINT) (.flt .f64) (.int 1) = .ok (.flt 4607182418800017408) := by decide +kernel  -- udint_to_lreal_conversion
example : stFloat (.int .UDINT) (.flt .f64) (.int 0) = .ok (.flt 0) := by decide +kernel  -- udint_to_lreal_conversion
example : stFloat (.int .UDINT) (.flt .f64) (.int 4294967295) = .ok (.flt 4751297606873776128) := by decide +kernel  -- udint_to_lreal_conversion
example : stFloat (.int .UDINT) (.flt .f32) (.int 0) = .ok (.flt 0) := by decide +kernel  -- udint_to_real_conversion
example : stFloat (.int .UDINT) (.flt .f32) (.int 4294967294) = .ok (.flt 1333788672) := by decide +kernel  -- udint_to_real_conversion
example : stFloat (.int .UDINT) (.flt .f32) (.int 22) = .ok (.flt 1102053376) := by decide +kernel  -- udint_to_real_conversion
example : stFloat (.int .UDINT) (.flt .f32) (.int 4294967294) = .ok (.flt 1333788672) := by decide +kernel  -- udint_to_real_conversion
example : stFloat (.int .UDINT) (.flt .f32) (.int 1) = .ok (.flt 1065353216) := by decide +kernel  -- udint_to_real_conversion
example : stFloat (.int .UDINT) (.flt .f32) (.int 0) = .ok (.flt 0) := by decide +kernel  -- udint_to_real_conversion
example : stFloat (.int .UDINT) (.flt .f32) (.int 4294967295) = .ok (.flt 1333788672) := by decide +kernel  -- udint_to_real_conversion
example : stInt .UDINT .LINT 0 = some 0 := by decide +kernel  -- udint_to_lint_conversion
example : stInt .UDINT .LINT 4294967295 = some 4294967295 := by decide +kernel  -- udint_to_lint_conversion
example : stInt .UDINT .LINT 22 = some 22 := by decide +kernel  -- udint_to_lint_conversion
example : stInt .UDINT .LINT 4294967294 = some 4294967294 := by decide +kernel  -- udint_to_lint_conversion
example : stInt .UDINT .LINT 1 = some 1 := by decide +kernel  -- udint_to_lint_conversion
example : stInt .UDINT .LINT 0 = some 0 := by decide +kernel  -- udint_to_lint_conversion
example : stInt .UDINT .LINT 4294967295 = some 4294967295 := by decide +kernel  -- udint_to_lint_conversion
example : stInt .UDINT .DINT 0 = some 0 := by decide +kernel  -- udint_to_dint_conversion
example : stInt .UDINT .DINT 22 = some 22 := by decide +kernel  -- udint_to_dint_conversion
example : stInt .UDINT .DINT 2147483646 = some 2147483646 := by decide +kernel  -- udint_to_dint_conversion
example : stInt .UDINT .DINT 1 = some 1 := by decide +kernel  -- udint_to_dint_conversion
example : stInt .UDINT .DINT 2147483648 = some (-2147483648) := by decide +kernel  -- udint_to_dint_conversion
example : stInt .UDINT .INT 0 = some 0 := by decide +kernel  -- udint_to_int_conversion
example : stInt .UDINT .INT 22 = some 22 := by decide +kernel  -- udint_to_int_conversion
example : stInt .UDINT .INT 32766 = some 32766 := by decide +kernel  -- udint_to_int_conversion
example : stInt .UDINT .INT 1 = some 1 := by decide +kernel  -- udint_to_int_conversion
example : stInt .UDINT .INT 32768 = some (-32768) := by decide +kernel  -- udint_to_int_conversion
example : stInt .UDINT .SINT 0 = some 0 := by decide +kernel  -- udint_to_sint_conversion
example : stInt .UDINT .SINT 22 = some 22 := by decide +kernel  -- udint_to_sint_conversion
example : stInt .UDINT .SINT 126 = some 126 := by decide +kernel  -- udint_to_sint_conversion
example : stInt .UDINT .SINT 1 = some 1 := by decide +kernel  -- udint_to_sint_conversion
example : stInt .UDINT .SINT 128 = some (-128) := by decide +kernel  -- udint_to_sint_conversion
example : stInt .UDINT .ULINT 0 = some 0 := by decide +kernel  -- udint_to_ulint_conversion
example : stInt .UDINT .ULINT 4294967295 = some 4294967295 := by decide +kernel  -- udint_to_ulint_conversion
example : stInt .UDINT .ULINT 22 = some 22 := by decide +kernel  -- udint_to_ulint_conversion
example : stInt .UDINT .ULINT 4294967294 = some 4294967294 := by decide +kernel  -- udint_to_ulint_conversion
example : stInt .UDINT .ULINT 1 = some 1 := by decide +kernel  -- udint_to_ulint_conversion
example : stInt .UDINT .ULINT 0 = some 0 := by decide +kernel  -- udint_to_ulint_conversion
example : stInt .UDINT .ULINT 4294967295 = some 4294967295 := by decide +kernel  -- udint_to_ulint_conversion
example : stInt .UDINT .UINT 0 = some 0 := by decide +kernel  -- udint_to_uint_conversion
example : stInt .UDINT .UINT 4294967295 = some 65535 := by decide +kernel  -- udint_to_uint_conversion
example : stInt .UDINT .UINT 22 = some 22 := by decide +kernel  -- udint_to_uint_conversion
example : stInt .UDINT .UINT 65534 = some 65534 := by decide +kernel  -- udint_to_uint_conversion
example : stInt .UDINT .UINT 1 = some 1 := by decide +kernel  -- udint_to_uint_conversion
example : stInt .UDINT .UINT 65536 = some 0 := by decide +kernel  -- udint_to_uint_conversion
example : stInt .UDINT .UINT 4294967295 = some 65535 := by decide +kernel  -- udint_to_uint_conversion
example : stInt .UDINT .USINT 0 = some 0 := by decide +kernel  -- udint_to_usint_conversion
example : stInt .UDINT .USINT 4294967295 = some 255 := by decide +kernel  -- udint_to_usint_conversion
example : stInt .UDINT .USINT 22 = some 22 := by decide +kernel  -- udint_to_usint_conversion
example : stInt .UDINT .USINT 254 = some 254 := by decide +kernel  -- udint_to_usint_conversion
example : stInt .UDINT .USINT 1 = some 1 := by decide +kernel  -- udint_to_usint_conversion
example : stInt .UDINT .USINT 256 = some 0 := by decide +kernel  -- udint_to_usint_conversion
example : stInt .UDINT .USINT 4294967295 = some 255 := by decide +kernel  -- udint_to_usint_conversion
example : stFloat (.int .UINT) (.flt .f64) (.int 0) = .ok (.flt 0) := by decide +kernel  -- uint_to_lreal_conversion
example : stFloat (.int .UINT) (.flt .f64) (.int 65534) = .ok (.flt 4679239737960038400) := by decide +kernel  -- uint_to_lreal_conversion
example : stFloat (.int .UINT) (.flt .f64) (.int 22) = .ok (.flt 4626885667169763328) := by decide +kernel  -- uint_to_lreal_conversion
example : stFloat (.int .UINT) (.flt .f64) (.int 65534) = .ok (.flt 4679239737960038400) := by decide +kernel  -- uint_to_lreal_conversion
example : stFloat (.int .UINT) (.flt .f64) (.int 1) = .ok (.flt 4607182418800017408) := by decide +kernel  -- uint_to_lreal_conversion
example : stFloat (.int .UINT) (.flt .f64) (.int 0) = .ok (.flt 0) := by decide +kernel  -- uint_to_lreal_conversion
example : stFloat (.int .UINT) (.flt .f64) (.int 65535) = .ok (.flt 4679239875398991872) := by decide +kernel  -- uint_to_lreal_conversion
example : stFloat (.int .UINT) (.flt .f32) (.int 0) = .ok (.flt 0) := by decide +kernel  -- uint_to_real_conversion
example : stFloat (.int .UINT) (.flt .f32) (.int 65534) = .ok (.flt 1199570432) := by decide +kernel  -- uint_to_real_conversion
example : stFloat (.int .UINT) (.flt .f32) (.int 22) = .ok (.flt 1102053376) := by decide +kernel  -- uint_to_real_conversion
example : stFloat (.int .UINT) (.flt .f32) (.int 65534) = .ok (.flt 1199570432) := by decide +kernel  -- uint_to_real_conversion
example : stFloat (.int .UINT) (.flt .f32) (.int 1) = .ok (.flt 1065353216) := by decide +kernel  -- uint_to_real_conversion
example : stFloat (.int .UINT) (.flt .f32) (.int 0) = .ok (.flt 0) := by decide +kernel  -- uint_to_real_conversion
example : stFloat (.int .UINT) (.flt .f32) (.int 65535) = .ok (.flt 1199570688) := by decide +kernel  -- uint_to_real_conversion
example : stInt .UINT .LINT 0 = some 0 := by decide +kernel  -- uint_to_lint_conversion
example : stInt .UINT .LINT 65535 = some 65535 := by decide +kernel  -- uint_to_lint_conversion
example : stInt .UINT .LINT 22 = some 22 := by decide +kernel  -- uint_to_lint_conversion
example : stInt .UINT .LINT 65534 = some 65534 := by decide +kernel  -- uint_to_lint_conversion
example : stInt .UINT .LINT 1 = some 1 := by decide +kernel  -- uint_to_lint_conversion
example : stInt .UINT .LINT 0 = some 0 := by decide +kernel  -- uint_to_lint_conversion
example : stInt .UINT .LINT 65535 = some 65535 := by decide +kernel  -- uint_to_lint_conversion
example : stInt .UINT .DINT 0 = some 0 := by decide +kernel  -- uint_to_dint_conversion
example : stInt .UINT .DINT 65535 = some 65535 := by decide +kernel  -- uint_to_dint_conversion
example : stInt .UINT .DINT 22 = some 22 := by decide +kernel  -- uint_to_dint_conversion
example : stInt .UINT .DINT 65534 = some 65534 := by decide +kernel  -- uint_to_dint_conversion
example : stInt .UINT .DINT 1 = some 1 := by decide +kernel  -- uint_to_dint_conversion
example : stInt .UINT .DINT 0 = some 0 := by decide +kernel  -- uint_to_dint_conversion
example : stInt .UINT .DINT 65535 = some 65535 := by decide +kernel  -- uint_to_dint_conversion
example : stInt .UINT .INT 0 = some 0 := by decide +kernel  -- uint_to_int_conversion
example : stInt .UINT .INT 22 = some 22 := by decide +kernel  -- uint_to_int_conversion
example : stInt .UINT .INT 32766 = some 32766 := by decide +kernel  -- uint_to_int_conversion
example : stInt .UINT .INT 1 = some 1 := by decide +kernel  -- uint_to_int_conversion
example : stInt .UINT .INT 32768 = some (-32768) := by decide +kernel  -- uint_to_int_conversion
example : stInt .UINT .SINT 0 = some 0 := by decide +kernel  -- uint_to_sint_conversion
example : stInt .UINT .SINT 22 = some 22 := by decide +kernel  -- uint_to_sint_conversion
example : stInt .UINT .SINT 126 = some 126 := by decide +kernel  -- uint_to_sint_conversion
example : stInt .UINT .SINT 1 = some 1 := by decide +kernel  -- uint_to_sint_conversion
example : stInt .UINT .SINT 128 = some (-128) := by decide +kernel  -- uint_to_sint_conversion
example : stInt .UINT .ULINT 0 = some 0 := by decide +kernel  -- uint_to_ulint_conversion
example : stInt .UINT .ULINT 65535 = some 65535 := by decide +kernel  -- uint_to_ulint_conversion
example : stInt .UINT .ULINT 22 = some 22 := by decide +kernel  -- uint_to_ulint_conversion
example : stInt .UINT .ULINT 65534 = some 65534 := by decide +kernel  -- uint_to_ulint_conversion
example : stInt .UINT .ULINT 1 = some 1 := by decide +kernel  -- uint_to_ulint_conversion
example : stInt .UINT .ULINT 0 = some 0 := by decide +kernel  -- uint_to_ulint_conversion
example : stInt .UINT .ULINT 65535 = some 65535 := by decide +kernel  -- uint_to_ulint_conversion
example : stInt .UINT .UDINT 0 = some 0 := by decide +kernel  -- uint_to_udint_conversion
example : stInt .UINT .UDINT 65535 = some 65535 := by decide +kernel  -- uint_to_udint_conversion
example : stInt .UINT .UDINT 22 = some 22 := by decide +kernel  -- uint_to_udint_conversion
example : stInt .UINT .UDINT 65534 = some 65534 := by decide +kernel  -- uint_to_udint_conversion
example : stInt .UINT .UDINT 1 = some 1 := by decide +kernel  -- uint_to_udint_conversion
example : stInt .UINT .UDINT 0 = some 0 := by decide +kernel  -- uint_to_udint_conversion
example : stInt .UINT .UDINT 65535 = some 65535 := by decide +kernel  -- uint_to_udint_conversion
example : stInt .UINT .USINT 0 = some 0 := by decide +kernel  -- uint_to_usint_conversion
example : stInt .UINT .USINT 65535 = some 255 := by decide +kernel  -- uint_to_usint_conversion
example : stInt .UINT .USINT 22 = some 22 := by decide +kernel  -- uint_to_usint_conversion
example : stInt .UINT .USINT 254 = some 254 := by decide +kernel  -- uint_to_usint_conversion
example : stInt .UINT .USINT 1 = some 1 := by decide +kernel  -- uint_to_usint_conversion
example : stInt .UINT .USINT 256 = some 0 := by decide +kernel  -- uint_to_usint_conversion
example : stInt .UINT .USINT 65535 = some 255 := by decide +kernel  -- uint_to_usint_conversion
example : stFloat (.int .USINT) (.flt .f64) (.int 0) = .ok (.flt 0) := by decide +kernel  -- usint_to_lreal_conversion
example : stFloat (.int .USINT) (.flt .f64) (.int 254) = .ok (.flt 4643140847074803712) := by decide +kernel  -- usint_to_lreal_conversion
example : stFloat (.int .USINT) (.flt .f64) (.int 22) = .ok (.flt 4626885667169763328) := by decide +kernel  -- usint_to_lreal_conversion
example : stFloat (.int .USINT) (.flt .f64) (.int 254) = .ok (.flt 4643140847074803712) := by decide +kernel  -- usint_to_lreal_conversion
example : stFloat (.int .USINT) (.flt .f64) (.int 1) = .ok (.flt 4607182418800017408) := by decide +kernel  -- usint_to_lreal_conversion
example : stFloat (.int .USINT) (.flt .f64) (.int 0) = .ok (.flt 0) := by decide +kernel  -- usint_to_lreal_conversion
example : stFloat (.int .USINT) (.flt .f64) (.int 255) = .ok (.flt 4643176031446892544) := by decide +kernel  -- usint_to_lreal_conversion
example : stFloat (.int .USINT) (.flt .f32) (.int 0) = .ok (.flt 0) := by decide +kernel  -- usint_to_real_conversion
example : stFloat (.int .USINT) (.flt .f32) (.int 254) = .ok (.flt 1132331008) := by decide +kernel  -- usint_to_real_conversion
example : stFloat (.int .USINT) (.flt .f32) (.int 22) = .ok (.flt 1102053376) := by decide +kernel  -- usint_to_real_conversion
example : stFloat (.int .USINT) (.flt .f32) (.int 254) = .ok (.flt 1132331008) := by decide +kernel  -- usint_to_real_conversion
example : stFloat (.int .USINT) (.flt .f32) (.int 1) = .ok (.flt 1065353216) := by decide +kernel  -- usint_to_real_conversion
example : stFloat (.int .USINT) (.flt .f32) (.int 0) = .ok (.flt 0) := by decide +kernel  -- usint_to_real_conversion
example : stFloat (.int .USINT) (.flt .f32) (.int 255) = .ok (.flt 1132396544) := by decide +kernel  -- usint_to_real_conversion
example : stInt .USINT .LINT 0 = some 0 := by decide +kernel  -- usint_to_lint_conversion
example : stInt .USINT .LINT 255 = some 255 := by decide +kernel  -- usint_to_lint_conversion
example : stInt .USINT .LINT 22 = some 22 := by decide +kernel  -- usint_to_lint_conversion
example : stInt .USINT .LINT 254 = some 254 := by decide +kernel  -- usint_to_lint_conversion
example : stInt .USINT .LINT 1 = some 1 := by decide +kernel  -- usint_to_lint_conversion
example : stInt .USINT .LINT 0 = some 0 := by decide +kernel  -- usint_to_lint_conversion
example : stInt .USINT .LINT 255 = some 255 := by decide +kernel  -- usint_to_lint_conversion
example : stInt .USINT .DINT 0 = some 0 := by decide +kernel  -- usint_to_dint_conversion
example : stInt .USINT .DINT 255 = some 255 := by decide +kernel  -- usint_to_dint_conversion
example : stInt .USINT .DINT 22 = some 22 := by decide +kernel  -- usint_to_dint_conversion
example : stInt .USINT .DINT 254 = some 254 := by decide +kernel  -- usint_to_dint_conversion
example : stInt .USINT .DINT 1 = some 1 := by decide +kernel  -- usint_to_dint_conversion
example : stInt .USINT .DINT 0 = some 0 := by decide +kernel  -- usint_to_dint_conversion
example : stInt .USINT .DINT 255 = some 255 := by decide +kernel  -- usint_to_dint_conversion
example : stInt .USINT .INT 0 = some 0 := by decide +kernel  -- usint_to_int_conversion
example : stInt .USINT .INT 255 = some 255 := by decide +kernel  -- usint_to_int_conversion
example : stInt .USINT .INT 22 = some 22 := by decide +kernel  -- usint_to_int_conversion
example : stInt .USINT .INT 254 = some 254 := by decide +kernel  -- usint_to_int_conversion
example : stInt .USINT .INT 1 = some 1 := by decide +kernel  -- usint_to_int_conversion
example : stInt .USINT .INT 0 = some 0 := by decide +kernel  -- usint_to_int_conversion
example : stInt .USINT .INT 255 = some 255 := by decide +kernel  -- usint_to_int_conversion
example : stInt .USINT .SINT 0 = some 0 := by decide +kernel  -- usint_to_sint_conversion
example : stInt .USINT .SINT 22 = some 22 := by decide +kernel  -- usint_to_sint_conversion
example : stInt .USINT .SINT 126 = some 126 := by decide +kernel  -- usint_to_sint_conversion
example : stInt .USINT .SINT 1 = some 1 := by decide +kernel  -- usint_to_sint_conversion
example : stInt .USINT .SINT 128 = some (-128) := by decide +kernel  -- usint_to_sint_conversion
example : stInt .USINT .ULINT 0 = some 0 := by decide +kernel  -- usint_to_ulint_conversion
example : stInt .USINT .ULINT 255 = some 255 := by decide +kernel  -- usint_to_ulint_conversion
example : stInt .USINT .ULINT 22 = some 22 := by decide +kernel  -- usint_to_ulint_conversion
example : stInt .USINT .ULINT 254 = some 254 := by decide +kernel  -- usint_to_ulint_conversion
example : stInt .USINT .ULINT 1 = some 1 := by decide +kernel  -- usint_to_ulint_conversion
example : stInt .USINT .ULINT 0 = some 0 := by decide +kernel  -- usint_to_ulint_conversion
example : stInt .USINT .ULINT 255 = some 255 := by decide +kernel  -- usint_to_ulint_conversion
example : stInt .USINT .UDINT 0 = some 0 := by decide +kernel  -- usint_to_udint_conversion
example : stInt .USINT .UDINT 255 = some 255 := by decide +kernel  -- usint_to_udint_conversion
example : stInt .USINT .UDINT 22 = some 22 := by decide +kernel  -- usint_to_udint_conversion
example : stInt .USINT .UDINT 254 = some 254 := by decide +kernel  -- usint_to_udint_conversion
example : stInt .USINT .UDINT 1 = some 1 := by decide +kernel  -- usint_to_udint_conversion
example : stInt .USINT .UDINT 0 = some 0 := by decide +kernel  -- usint_to_udint_conversion
example : stInt .USINT .UDINT 255 = some 255 := by decide +kernel  -- usint_to_udint_conversion
example : stInt .USINT .UINT 0 = some 0 := by decide +kernel  -- usint_to_uint_conversion
example : stInt .USINT .UINT 255 = some 255 := by decide +kernel  -- usint_to_uint_conversion
example : stInt .USINT .UINT 22 = some 22 := by decide +kernel  -- usint_to_uint_conversion
example : stInt .USINT .UINT 254 = some 254 := by decide +kernel  -- usint_to_uint_conversion
example : stInt .USINT .UINT 1 = some 1 := by decide +kernel  -- usint_to_uint_conversion
example : stInt .USINT .UINT 0 = some 0 := by decide +kernel  -- usint_to_uint_conversion
example : stInt .USINT .UINT 255 = some 255 := by decide +kernel  -- usint_to_uint_conversion

/-! ### tests/bit_conversion_tests.rs -/

example : stInt .LWORD .DWORD 0 = some 0 := by decide +kernel  -- lword_to_dword
example : stInt .LWORD .DWORD 100 = some 100 := by decide +kernel  -- lword_to_dword
example : stInt .LWORD .DWORD 18446744073709551615 = some 4294967295 := by decide +kernel  -- lword_to_dword
example : stInt .LWORD .DWORD 4294967296 = some 0 := by decide +kernel  -- lword_to_dword
example : stInt .LWORD .DWORD 18446744073709551615 = some 4294967295 := by decide +kernel  -- lword_to_dword
example : stInt .LWORD .WORD 0 = some 0 := by decide +kernel  -- lword_to_word
example : stInt .LWORD .WORD 100 = some 100 := by decide +kernel  -- lword_to_word
example : stInt .LWORD .WORD 18446744073709551615 = some 65535 := by decide +kernel  -- lword_to_word
example : stInt .LWORD .WORD 65536 = some 0 := by decide +kernel  -- lword_to_word
example : stInt .LWORD .WORD 18446744073709551615 = some 65535 := by decide +kernel  -- lword_to_word
example : stInt .LWORD .BYTE 0 = some 0 := by decide +kernel  -- lword_to_byte
example : stInt .LWORD .BYTE 100 = some 100 := by decide +kernel  -- lword_to_byte
example : stInt .LWORD .BYTE 18446744073709551615 = some 255 := by decide +kernel  -- lword_to_byte
example : stInt .LWORD .BYTE 256 = some 0 := by decide +kernel  -- lword_to_byte
example : stInt .LWORD .BYTE 18446744073709551615 = some 255 := by decide +kernel  -- lword_to_byte
example : stInt .LWORD .BOOL 1 = some 1 := by decide +kernel  -- lword_to_bool
example : stInt .LWORD .BOOL 0 = some 0 := by decide +kernel  -- lword_to_bool
example : stInt .LWORD .BOOL 2 = some 0 := by decide +kernel  -- lword_to_bool
example : stInt .LWORD .BOOL 18446744073709551615 = some 1 := by decide +kernel  -- lword_to_bool
example : stInt .DWORD .LWORD 0 = some 0 := by decide +kernel  -- dword_to_lword
example : stInt .DWORD .LWORD 100 = some 100 := by decide +kernel  -- dword_to_lword
example : stInt .DWORD .LWORD 4294967295 = some 4294967295 := by decide +kernel  -- dword_to_lword
example : stInt .DWORD .WORD 0 = some 0 := by decide +kernel  -- dword_to_word
example : stInt .DWORD .WORD 100 = some 100 := by decide +kernel  -- dword_to_word
example : stInt .DWORD .WORD 4294967295 = some 65535 := by decide +kernel  -- dword_to_word
example : stInt .DWORD .WORD 65536 = some 0 := by decide +kernel  -- dword_to_word
example : stInt .DWORD .WORD 4294967295 = some 65535 := by decide +kernel  -- dword_to_word
example : stInt .DWORD .BYTE 0 = some 0 := by decide +kernel  -- dword_to_byte
example : stInt .DWORD .BYTE 100 = some 100 := by decide +kernel  -- dword_to_byte
example : stInt .DWORD .BYTE 4294967295 = some 255 := by decide +kernel  -- dword_to_byte
example : stInt .DWORD .BYTE 256 = some 0 := by decide +kernel  -- dword_to_byte
example : stInt .DWORD .BYTE 4294967295 = some 255 := by decide +kernel  -- dword_to_byte
example : stInt .DWORD .BOOL 1 = some 1 := by decide +kernel  -- dword_to_bool
example : stInt .DWORD .BOOL 0 = some 0 := by decide +kernel  -- dword_to_bool
example : stInt .DWORD .BOOL 2 = some 0 := by decide +kernel  -- dword_to_bool
example : stInt .DWORD .BOOL 4294967295 = some 1 := by decide +kernel  -- dword_to_bool
example : stInt .WORD .LWORD 0 = some 0 := by decide +kernel  -- word_to_lword
example : stInt .WORD .LWORD 100 = some 100 := by decide +kernel  -- word_to_lword
example : stInt .WORD .LWORD 65535 = some 65535 := by decide +kernel  -- word_to_lword
example : stInt .WORD .DWORD 0 = some 0 := by decide +kernel  -- word_to_dword
example : stInt .WORD .DWORD 100 = some 100 := by decide +kernel  -- word_to_dword
example : stInt .WORD .DWORD 65535 = some 65535 := by decide +kernel  -- word_to_dword
example : stInt .WORD .BYTE 0 = some 0 := by decide +kernel  -- word_to_byte
example : stInt .WORD .BYTE 100 = some 100 := by decide +kernel  -- word_to_byte
example : stInt .WORD .BYTE 65535 = some 255 := by decide +kernel  -- word_to_byte
example : stInt .WORD .BYTE 256 = some 0 := by decide +kernel  -- word_to_byte
example : stInt .WORD .BYTE 65535 = some 255 := by decide +kernel  -- word_to_byte
example : stInt .WORD .BOOL 1 = some 1 := by decide +kernel  -- word_to_bool
example : stInt .WORD .BOOL 0 = some 0 := by decide +kernel  -- word_to_bool
example : stInt .WORD .BOOL 2 = some 0 := by decide +kernel  -- word_to_bool
example : stInt .WORD .BOOL 65535 = some 1 := by decide +kernel  -- word_to_bool
example : stInt .BYTE .LWORD 0 = some 0 := by decide +kernel  -- byte_to_lword
example : stInt .BYTE .LWORD 100 = some 100 := by decide +kernel  -- byte_to_lword
example : stInt .BYTE .LWORD 255 = some 255 := by decide +kernel  -- byte_to_lword
example : stInt .BYTE .DWORD 0 = some 0 := by decide +kernel  -- byte_to_dword
example : stInt .BYTE .DWORD 100 = some 100 := by decide +kernel  -- byte_to_dword
example : stInt .BYTE .DWORD 255 = some 255 := by decide +kernel  -- byte_to_dword
example : stInt .BYTE .WORD 0 = some 0 := by decide +kernel  -- byte_to_word
example : stInt .BYTE .WORD 100 = some 100 := by decide +kernel  -- byte_to_word
example : stInt .BYTE .WORD 255 = some 255 := by decide +kernel  -- byte_to_word
example : stInt .BYTE .BOOL 1 = some 1 := by decide +kernel  -- byte_to_bool
example : stInt .BYTE .BOOL 0 = some 0 := by decide +kernel  -- byte_to_bool
example : stInt .BYTE .BOOL 2 = some 0 := by decide +kernel  -- byte_to_bool
example : stInt .BYTE .BOOL 255 = some 1 := by decide +kernel  -- byte_to_bool
example : stInt .BYTE .CHAR 97 = some 97 := by decide +kernel  -- byte_to_char
example : stInt .BYTE .CHAR 98 = some 98 := by decide +kernel  -- byte_to_char
example : stInt .BYTE .CHAR 99 = some 99 := by decide +kernel  -- byte_to_char
example : stInt .BOOL .LWORD 0 = some 0 := by decide +kernel  -- bool_to_lword
example : stInt .BOOL .LWORD 1 = some 1 := by decide +kernel  -- bool_to_lword
example : stInt .BOOL .LWORD 255 = some 1 := by decide +kernel  -- bool_to_lword
example : stInt .BOOL .LWORD 10 = some 1 := by decide +kernel  -- bool_to_lword
example : stInt .BOOL .DWORD 0 = some 0 := by decide +kernel  -- bool_to_dword
example : stInt .BOOL .DWORD 1 = some 1 := by decide +kernel  -- bool_to_dword
example : stInt .BOOL .DWORD 255 = some 1 := by decide +kernel  -- bool_to_dword
example : stInt .BOOL .DWORD 10 = some 1 := by decide +kernel  -- bool_to_dword
example : stInt .BOOL .WORD 0 = some 0 := by decide +kernel  -- bool_to_word
example : stInt .BOOL .WORD 1 = some 1 := by decide +kernel  -- bool_to_word
example : stInt .BOOL .WORD 255 = some 1 := by decide +kernel  -- bool_to_word
example : stInt .BOOL .WORD 10 = some 1 := by decide +kernel  -- bool_to_word
example : stInt .BOOL .BYTE 0 = some 0 := by decide +kernel  -- bool_to_byte
example : stInt .BOOL .BYTE 1 = some 1 := by decide +kernel  -- bool_to_byte
example : stInt .BOOL .BYTE 255 = some 1 := by decide +kernel  -- bool_to_byte
example : stInt .BOOL .BYTE 10 = some 1 := by decide +kernel  -- bool_to_byte
example : stInt .CHAR .BYTE 97 = some 97 := by decide +kernel  -- char_to_byte
example : stInt .CHAR .BYTE 98 = some 98 := by decide +kernel  -- char_to_byte
example : stInt .CHAR .BYTE 99 = some 99 := by decide +kernel  -- char_to_byte
example : stInt .CHAR .WORD 97 = some 97 := by decide +kernel  -- char_to_word
example : stInt .CHAR .WORD 98 = some 98 := by decide +kernel  -- char_to_word
example : stInt .CHAR .WORD 99 = some 99 := by decide +kernel  -- char_to_word
example : stInt .CHAR .DWORD 97 = some 97 := by decide +kernel  -- char_to_dword
example : stInt .CHAR .DWORD 98 = some 98 := by decide +kernel  -- char_to_dword
example : stInt .CHAR .DWORD 99 = some 99 := by decide +kernel  -- char_to_dword
example : stInt .CHAR .LWORD 97 = some 97 := by decide +kernel  -- char_to_lword
example : stInt .CHAR .LWORD 98 = some 98 := by decide +kernel  -- char_to_lword
example : stInt .CHAR .LWORD 99 = some 99 := by decide +kernel  -- char_to_lword
example : stInt .WCHAR .WORD 97 = some 97 := by decide +kernel  -- wchar_to_word
example : stInt .WCHAR .WORD 98 = some 98 := by decide +kernel  -- wchar_to_word
example : stInt .WCHAR .WORD 99 = some 99 := by decide +kernel  -- wchar_to_word
example : stInt .WCHAR .DWORD 97 = some 97 := by decide +kernel  -- wchar_to_dword
example : stInt .WCHAR .DWORD 98 = some 98 := by decide +kernel  -- wchar_to_dword
example : stInt .WCHAR .DWORD 99 = some 99 := by decide +kernel  -- wchar_to_dword
example : stInt .WCHAR .LWORD 97 = some 97 := by decide +kernel  -- wchar_to_lword
example : stInt .WCHAR .LWORD 98 = some 98 := by decide +kernel  -- wchar_to_lword
example : stInt .WCHAR .LWORD 99 = some 99 := by decide +kernel  -- wchar_to_lword

/-! ### tests/bit_num_conversion_tests.rs -/

example : (LWORD_TO_LREAL 0).bits = 0 := by decide +kernel  -- lword_to_lreal_conversion
example : (LWORD_TO_LREAL 4611686018427387904).bits = 4611686018427387904 := by decide +kernel  -- lword_to_lreal_conversion
example : stInt .LWORD .LINT 0 = some 0 := by decide +kernel  -- lword_to_lint_conversion
example : stInt .LWORD .LINT 9223372036854775807 = some 9223372036854775807 := by decide +kernel  -- lword_to_lint_conversion
example : stInt .LWORD .DINT 0 = some 0 := by decide +kernel  -- lword_to_dint_conversion
example : stInt .LWORD .DINT 2147483647 = some 2147483647 := by decide +kernel  -- lword_to_dint_conversion
example : stInt .LWORD .INT 0 = some 0 := by decide +kernel  -- lword_to_int_conversion
example : stInt .LWORD .INT 32767 = some 32767 := by decide +kernel  -- lword_to_int_conversion
example : stInt .LWORD .SINT 0 = some 0 := by decide +kernel  -- lword_to_sint_conversion
example : stInt .LWORD .SINT 127 = some 127 := by decide +kernel  -- lword_to_sint_conversion
example : stInt .LWORD .ULINT 0 = some 0 := by decide +kernel  -- lword_to_ulint_conversion
example : stInt .LWORD .ULINT 18446744073709551615 = some 18446744073709551615 := by decide +kernel  -- lword_to_ulint_conversion
example : stInt .LWORD .UDINT 0 = some 0 := by decide +kernel  -- lword_to_udint_conversion
example : stInt .LWORD .UDINT 4294967295 = some 4294967295 := by decide +kernel  -- lword_to_udint_conversion
example : stInt .LWORD .UINT 0 = some 0 := by decide +kernel  -- lword_to_uint_conversion
example : stInt .LWORD .UINT 65535 = some 65535 := by decide +kernel  -- lword_to_uint_conversion
example : stInt .LWORD .USINT 0 = some 0 := by decide +kernel  -- lword_to_usint_conversion
example : stInt .LWORD .USINT 255 = some 255 := by decide +kernel  -- lword_to_usint_conversion
example : (DWORD_TO_REAL 0).bits = 0 := by decide +kernel  -- dword_to_real_conversion
example : (DWORD_TO_REAL 1073741824).bits = 1073741824 := by decide +kernel  -- dword_to_real_conversion
example : stInt .DWORD .LINT 0 = some 0 := by decide +kernel  -- dword_to_lint_conversion
example : stInt .DWORD .LINT 4294967295 = some 4294967295 := by decide +kernel  -- dword_to_lint_conversion
example : stInt .DWORD .DINT 0 = some 0 := by decide +kernel  -- dword_to_dint_conversion
example : stInt .DWORD .DINT 2147483647 = some 2147483647 := by decide +kernel  -- dword_to_dint_conversion
example : stInt .DWORD .DINT 4294967295 = some (-1) := by decide +kernel  -- dword_to_dint_conversion
example : stInt .DWORD .DINT 4294967295 = some (-1) := by decide +kernel  -- dword_to_dint_conversion
example : stInt .DWORD .INT 0 = some 0 := by decide +kernel  -- dword_to_int_conversion
example : stInt .DWORD .INT 32767 = some 32767 := by decide +kernel  -- dword_to_int_conversion
example : stInt .DWORD .SINT 0 = some 0 := by decide +kernel  -- dword_to_sint_conversion
example : stInt .DWORD .SINT 127 = some 127 := by decide +kernel  -- dword_to_sint_conversion
example : stInt .DWORD .ULINT 0 = some 0 := by decide +kernel  -- dword_to_ulint_conversion
example : stInt .DWORD .ULINT 4294967295 = some 4294967295 := by decide +kernel  -- dword_to_ulint_conversion
example : stInt .DWORD .UDINT 0 = some 0 := by decide +kernel  -- dword_to_udint_conversion
example : stInt .DWORD .UDINT 4294967295 = some 4294967295 := by decide +kernel  -- dword_to_udint_conversion
example : stInt .DWORD .UINT 0 = some 0 := by decide +kernel  -- dword_to_uint_conversion
example : stInt .DWORD .UINT 65535 = some 65535 := by decide +kernel  -- dword_to_uint_conversion
example : stInt .DWORD .USINT 0 = some 0 := by decide +kernel  -- dword_to_usint_conversion
example : stInt .DWORD .USINT 255 = some 255 := by decide +kernel  -- dword_to_usint_conversion
example : stInt .WORD .LINT 0 = some 0 := by decide +kernel  -- word_to_lint_conversion
example : stInt .WORD .LINT 65535 = some 65535 := by decide +kernel  -- word_to_lint_conversion
example : stInt .WORD .DINT 0 = some 0 := by decide +kernel  -- word_to_dint_conversion
example : stInt .WORD .DINT 65535 = some 65535 := by decide +kernel  -- word_to_dint_conversion
example : stInt .WORD .INT 0 = some 0 := by decide +kernel  -- word_to_int_conversion
example : stInt .WORD .INT 32767 = some 32767 := by decide +kernel  -- word_to_int_conversion
example : stInt .WORD .SINT 0 = some 0 := by decide +kernel  -- word_to_sint_conversion
example : stInt .WORD .SINT 127 = some 127 := by decide +kernel  -- word_to_sint_conversion
example : stInt .WORD .ULINT 0 = some 0 := by decide +kernel  -- word_to_ulint_conversion
example : stInt .WORD .ULINT 65535 = some 65535 := by decide +kernel  -- word_to_ulint_conversion
example : stInt .WORD .UDINT 0 = some 0 := by decide +kernel  -- word_to_udint_conversion
example : stInt .WORD .UDINT 65535 = some 65535 := by decide +kernel  -- word_to_udint_conversion
example : stInt .WORD .UINT 0 = some 0 := by decide +kernel  -- word_to_uint_conversion
example : stInt .WORD .UINT 65535 = some 65535 := by decide +kernel  -- word_to_uint_conversion
example : stInt .WORD .USINT 0 = some 0 := by decide +kernel  -- word_to_usint_conversion
example : stInt .WORD .USINT 255 = some 255 := by decide +kernel  -- word_to_usint_conversion
example : stInt .BYTE .LINT 0 = some 0 := by decide +kernel  -- byte_to_lint_conversion
example : stInt .BYTE .LINT 255 = some 255 := by decide +kernel  -- byte_to_lint_conversion
example : stInt .BYTE .DINT 0 = some 0 := by decide +kernel  -- byte_to_dint_conversion
example : stInt .BYTE .DINT 255 = some 255 := by decide +kernel  -- byte_to_dint_conversion
example : stInt .BYTE .INT 0 = some 0 := by decide +kernel  -- byte_to_int_conversion
example : stInt .BYTE .INT 255 = some 255 := by decide +kernel  -- byte_to_int_conversion
example : stInt .BYTE .SINT 0 = some 0 := by decide +kernel  -- byte_to_sint_conversion
example : stInt .BYTE .SINT 127 = some 127 := by decide +kernel  -- byte_to_sint_conversion
example : stInt .BYTE .ULINT 0 = some 0 := by decide +kernel  -- byte_to_ulint_conversion
example : stInt .BYTE .ULINT 255 = some 255 := by decide +kernel  -- byte_to_ulint_conversion
example : stInt .BYTE .UDINT 0 = some 0 := by decide +kernel  -- byte_to_udint_conversion
example : stInt .BYTE .UDINT 255 = some 255 := by decide +kernel  -- byte_to_udint_conversion
example : stInt .BYTE .UINT 0 = some 0 := by decide +kernel  -- byte_to_uint_conversion
example : stInt .BYTE .UINT 255 = some 255 := by decide +kernel  -- byte_to_uint_conversion
example : stInt .BYTE .USINT 0 = some 0 := by decide +kernel  -- byte_to_usint_conversion
example : stInt .BYTE .USINT 255 = some 255 := by decide +kernel  -- byte_to_usint_conversion
example : stInt .BOOL .LINT 0 = some 0 := by decide +kernel  -- bool_to_lint_conversion
example : stInt .BOOL .LINT 1 = some 1 := by decide +kernel  -- bool_to_lint_conversion
example : stInt .BOOL .DINT 0 = some 0 := by decide +kernel  -- bool_to_dint_conversion
example : stInt .BOOL .DINT 1 = some 1 := by decide +kernel  -- bool_to_dint_conversion
example : stInt .BOOL .INT 0 = some 0 := by decide +kernel  -- bool_to_int_conversion
example : stInt .BOOL .INT 1 = some 1 := by decide +kernel  -- bool_to_int_conversion
example : stInt .BOOL .SINT 0 = some 0 := by decide +kernel  -- bool_to_sint_conversion
example : stInt .BOOL .SINT 1 = some 1 := by decide +kernel  -- bool_to_sint_conversion
example : stInt .BOOL .ULINT 0 = some 0 := by decide +kernel  -- bool_to_ulint_conversion
example : stInt .BOOL .ULINT 1 = some 1 := by decide +kernel  -- bool_to_ulint_conversion
example : stInt .BOOL .UDINT 0 = some 0 := by decide +kernel  -- bool_to_udint_conversion
example : stInt .BOOL .UDINT 1 = some 1 := by decide +kernel  -- bool_to_udint_conversion
example : stInt .BOOL .UINT 0 = some 0 := by decide +kernel  -- bool_to_uint_conversion
example : stInt .BOOL .UINT 1 = some 1 := by decide +kernel  -- bool_to_uint_conversion
example : stInt .BOOL .USINT 0 = some 0 := by decide +kernel  -- bool_to_usint_conversion
example : stInt .BOOL .USINT 1 = some 1 := by decide +kernel  -- bool_to_usint_conversion
example : (LREAL_TO_LWORD ⟨0⟩) = 0 := by decide +kernel  -- lreal_to_lword_conversion
example : (LREAL_TO_LWORD ⟨4611686018427387904⟩) = 4611686018427387904 := by decide +kernel  -- lreal_to_lword_conversion
example : (REAL_TO_DWORD ⟨0⟩) = 0 := by decide +kernel  -- real_to_dword_conversion
example : (REAL_TO_DWORD ⟨1073741824⟩) = 1073741824 := by decide +kernel  -- real_to_dword_conversion
example : stInt .LINT .LWORD 0 = some 0 := by decide +kernel  -- lint_to_lword_conversion
example : stInt .LINT .LWORD 9223372036854775807 = some 9223372036854775807 := by decide +kernel  -- lint_to_lword_conversion
example : stInt .LINT .DWORD 0 = some 0 := by decide +kernel  -- lint_to_dword_conversion
example : stInt .LINT .DWORD 4294967295 = some 4294967295 := by decide +kernel  -- lint_to_dword_conversion
example : stInt .LINT .WORD 0 = some 0 := by decide +kernel  -- lint_to_word_conversion
example : stInt .LINT .WORD 65535 = some 65535 := by decide +kernel  -- lint_to_word_conversion
example : stInt .LINT .BYTE 0 = some 0 := by decide +kernel  -- lint_to_byte_conversion
example : stInt .LINT .BYTE 255 = some 255 := by decide +kernel  -- lint_to_byte_conversion
example : stInt .DINT .LWORD 0 = some 0 := by decide +kernel  -- dint_to_lword_conversion
example : stInt .DINT .LWORD 2147483647 = some 2147483647 := by decide +kernel  -- dint_to_lword_conversion
example : stInt .DINT .DWORD 0 = some 0 := by decide +kernel  -- dint_to_dword_conversion
example : stInt .DINT .DWORD 2147483647 = some 2147483647 := by decide +kernel  -- dint_to_dword_conversion
example : stInt .DINT .WORD 0 = some 0 := by decide +kernel  -- dint_to_word_conversion
example : stInt .DINT .WORD 65535 = some 65535 := by decide +kernel  -- dint_to_word_conversion
example : stInt .DINT .BYTE 0 = some 0 := by decide +kernel  -- dint_to_byte_conversion
example : stInt .DINT .BYTE 255 = some 255 := by decide +kernel  -- dint_to_byte_conversion
example : stInt .INT .LWORD 0 = some 0 := by decide +kernel  -- int_to_lword_conversion
example : stInt .INT .LWORD 32767 = some 32767 := by decide +kernel  -- int_to_lword_conversion
example : stInt .INT .DWORD 0 = some 0 := by decide +kernel  -- int_to_dword_conversion
example : stInt .INT .DWORD 32767 = some 32767 := by decide +kernel  -- int_to_dword_conversion
example : stInt .INT .WORD 0 = some 0 := by decide +kernel  -- int_to_word_conversion
example : stInt .INT .WORD 32767 = some 32767 := by decide +kernel  -- int_to_word_conversion
example : stInt .INT .BYTE 0 = some 0 := by decide +kernel  -- int_to_byte_conversion
example : stInt .INT .BYTE 255 = some 255 := by decide +kernel  -- int_to_byte_conversion
example : stInt .SINT .LWORD 0 = some 0 := by decide +kernel  -- sint_to_lword_conversion
example : stInt .SINT .LWORD 127 = some 127 := by decide +kernel  -- sint_to_lword_conversion
example : stInt .SINT .DWORD 0 = some 0 := by decide +kernel  -- sint_to_dword_conversion
example : stInt .SINT .DWORD 127 = some 127 := by decide +kernel  -- sint_to_dword_conversion
example : stInt .SINT .WORD 0 = some 0 := by decide +kernel  -- sint_to_word_conversion
example : stInt .SINT .WORD 127 = some 127 := by decide +kernel  -- sint_to_word_conversion
example : stInt .SINT .BYTE 0 = some 0 := by decide +kernel  -- sint_to_byte_conversion
example : stInt .SINT .BYTE 127 = some 127 := by decide +kernel  -- sint_to_byte_conversion
example : stInt .ULINT .LWORD 0 = some 0 := by decide +kernel  -- ulint_to_lword_conversion
example : stInt .ULINT .LWORD 18446744073709551615 = some 18446744073709551615 := by decide +kernel  -- ulint_to_lword_conversion
example : stInt .ULINT .DWORD 0 = some 0 := by decide +kernel  -- ulint_to_dword_conversion
example : stInt .ULINT .DWORD 4294967295 = some 4294967295 := by decide +kernel  -- ulint_to_dword_conversion
example : stInt .ULINT .WORD 0 = some 0 := by decide +kernel  -- ulint_to_word_conversion
example : stInt .ULINT .WORD 65535 = some 65535 := by decide +kernel  -- ulint_to_word_conversion
example : stInt .ULINT .BYTE 0 = some 0 := by decide +kernel  -- ulint_to_byte_conversion
example : stInt .ULINT .BYTE 255 = some 255 := by decide +kernel  -- ulint_to_byte_conversion
example : stInt .UDINT .LWORD 0 = some 0 := by decide +kernel  -- udint_to_lword_conversion
example : stInt .UDINT .LWORD 4294967295 = some 4294967295 := by decide +kernel  -- udint_to_lword_conversion
example : stInt .UDINT .DWORD 0 = some 0 := by decide +kernel  -- udint_to_dword_conversion
example : stInt .UDINT .DWORD 4294967295 = some 4294967295 := by decide +kernel  -- udint_to_dword_conversion
example : stInt .UDINT .WORD 0 = some 0 := by decide +kernel  -- udint_to_word_conversion
example : stInt .UDINT .WORD 65535 = some 65535 := by decide +kernel  -- udint_to_word_conversion
example : stInt .UDINT .BYTE 0 = some 0 := by decide +kernel  -- udint_to_byte_conversion
example : stInt .UDINT .BYTE 255 = some 255 := by decide +kernel  -- udint_to_byte_conversion
example : stInt .UINT .LWORD 0 = some 0 := by decide +kernel  -- uint_to_lword_conversion
example : stInt .UINT .LWORD 65535 = some 65535 := by decide +kernel  -- uint_to_lword_conversion
example : stInt .UINT .DWORD 0 = some 0 := by decide +kernel  -- uint_to_dword_conversion
example : stInt .UINT .DWORD 65535 = some 65535 := by decide +kernel  -- uint_to_dword_conversion
example : stInt .UINT .WORD 0 = some 0 := by decide +kernel  -- uint_to_word_conversion
example : stInt .UINT .WORD 65535 = some 65535 := by decide +kernel  -- uint_to_word_conversion
example : stInt .UINT .BYTE 0 = some 0 := by decide +kernel  -- uint_to_byte_conversion
example : stInt .UINT .BYTE 255 = some 255 := by decide +kernel  -- uint_to_byte_conversion
example : stInt .USINT .LWORD 0 = some 0 := by decide +kernel  -- usint_to_lword_conversion
example : stInt .USINT .LWORD 255 = some 255 := by decide +kernel  -- usint_to_lword_conversion
example : stInt .USINT .DWORD 0 = some 0 := by decide +kernel  -- usint_to_dword_conversion
example : stInt .USINT .DWORD 255 = some 255 := by decide +kernel  -- usint_to_dword_conversion
example : stInt .USINT .WORD 0 = some 0 := by decide +kernel  -- usint_to_word_conversion
example : stInt .USINT .WORD 255 = some 255 := by decide +kernel  -- usint_to_word_conversion
example : stInt .USINT .BYTE 0 = some 0 := by decide +kernel  -- usint_to_byte_conversion
example : stInt .USINT .BYTE 255 = some 255 := by decide +kernel  -- usint_to_byte_conversion

end Verif.Conformance
