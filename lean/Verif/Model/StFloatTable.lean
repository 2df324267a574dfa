import Verif.Model.StFloat
/-
Generated by tools/gen_st.py from /repo/iec61131-st/{num_conversion,extra_functions}.st.  One entry per conversion
FUNCTION implemented in Structured Text with a REAL or LREAL input or result and no string, in source
order; fields as in Model/StTable.
-/
namespace Verif

/-- All Structured Text conversions between REAL/LREAL and numbers (iec61131-st/*.st, file and line at each entry). -/
def stFloatConversions : List StFloatConv := [
  ⟨(.flt .f64), (.flt .f32), (.flt .f64), (.flt .f32), .assign⟩ /- num_conversion.st:6-11 -/,
  ⟨(.flt .f64), (.int .LINT), (.flt .f64), (.int .LINT), .round⟩ /- num_conversion.st:18-23 -/,
  ⟨(.flt .f64), (.int .DINT), (.flt .f64), (.int .DINT), .round⟩ /- num_conversion.st:30-35 -/,
  ⟨(.flt .f64), (.int .INT), (.flt .f64), (.int .INT), .round⟩ /- num_conversion.st:42-47 -/,
  ⟨(.flt .f64), (.int .SINT), (.flt .f64), (.int .SINT), .round⟩ /- num_conversion.st:54-59 -/,
  ⟨(.flt .f64), (.int .ULINT), (.flt .f64), (.int .ULINT), .round⟩ /- num_conversion.st:66-71 -/,
  ⟨(.flt .f64), (.int .UDINT), (.flt .f64), (.int .UDINT), .round⟩ /- num_conversion.st:78-83 -/,
  ⟨(.flt .f64), (.int .UINT), (.flt .f64), (.int .UINT), .round⟩ /- num_conversion.st:90-95 -/,
  ⟨(.flt .f64), (.int .USINT), (.flt .f64), (.int .USINT), .round⟩ /- num_conversion.st:102-107 -/,
  ⟨(.flt .f32), (.flt .f64), (.flt .f32), (.flt .f64), .assign⟩ /- num_conversion.st:114-119 -/,
  ⟨(.flt .f32), (.int .LINT), (.flt .f32), (.int .LINT), .round⟩ /- num_conversion.st:126-131 -/,
  ⟨(.flt .f32), (.int .DINT), (.flt .f32), (.int .DINT), .round⟩ /- num_conversion.st:138-143 -/,
  ⟨(.flt .f32), (.int .INT), (.flt .f32), (.int .INT), .round⟩ /- num_conversion.st:150-155 -/,
  ⟨(.flt .f32), (.int .SINT), (.flt .f32), (.int .SINT), .round⟩ /- num_conversion.st:162-167 -/,
  ⟨(.flt .f32), (.int .ULINT), (.flt .f32), (.int .ULINT), .round⟩ /- num_conversion.st:174-179 -/,
  ⟨(.flt .f32), (.int .UDINT), (.flt .f32), (.int .UDINT), .round⟩ /- num_conversion.st:186-191 -/,
  ⟨(.flt .f32), (.int .UINT), (.flt .f32), (.int .UINT), .round⟩ /- num_conversion.st:198-203 -/,
  ⟨(.flt .f32), (.int .USINT), (.flt .f32), (.int .USINT), .round⟩ /- num_conversion.st:210-215 -/,
  ⟨(.int .LINT), (.flt .f64), (.int .LINT), (.flt .f64), .assign⟩ /- num_conversion.st:222-227 -/,
  ⟨(.int .LINT), (.flt .f32), (.int .LINT), (.flt .f32), .assign⟩ /- num_conversion.st:234-239 -/,
  ⟨(.int .DINT), (.flt .f64), (.int .DINT), (.flt .f64), .assign⟩ /- num_conversion.st:330-335 -/,
  ⟨(.int .DINT), (.flt .f32), (.int .DINT), (.flt .f32), .assign⟩ /- num_conversion.st:342-347 -/,
  ⟨(.int .INT), (.flt .f64), (.int .INT), (.flt .f64), .assign⟩ /- num_conversion.st:438-443 -/,
  ⟨(.int .INT), (.flt .f32), (.int .INT), (.flt .f32), .assign⟩ /- num_conversion.st:450-455 -/,
  ⟨(.int .SINT), (.flt .f64), (.int .SINT), (.flt .f64), .assign⟩ /- num_conversion.st:546-551 -/,
  ⟨(.int .SINT), (.flt .f32), (.int .SINT), (.flt .f32), .assign⟩ /- num_conversion.st:558-563 -/,
  ⟨(.int .ULINT), (.flt .f64), (.int .ULINT), (.flt .f64), .assign⟩ /- num_conversion.st:654-659 -/,
  ⟨(.int .ULINT), (.flt .f32), (.int .ULINT), (.flt .f32), .assign⟩ /- num_conversion.st:666-671 -/,
  ⟨(.int .UDINT), (.flt .f64), (.int .UDINT), (.flt .f64), .assign⟩ /- num_conversion.st:762-767 -/,
  ⟨(.int .UDINT), (.flt .f32), (.int .UDINT), (.flt .f32), .assign⟩ /- num_conversion.st:774-779 -/,
  ⟨(.int .UINT), (.flt .f64), (.int .UINT), (.flt .f64), .assign⟩ /- num_conversion.st:870-875 -/,
  ⟨(.int .UINT), (.flt .f32), (.int .UINT), (.flt .f32), .assign⟩ /- num_conversion.st:882-887 -/,
  ⟨(.int .USINT), (.flt .f64), (.int .USINT), (.flt .f64), .assign⟩ /- num_conversion.st:978-983 -/,
  ⟨(.int .USINT), (.flt .f32), (.int .USINT), (.flt .f32), .assign⟩ /- num_conversion.st:990-995 -/,
  ⟨(.int .TIME), (.flt .f64), (.int .TIME), (.flt .f64), .assign⟩ /- extra_functions.st:747-752 -/,
  ⟨(.int .LTIME), (.flt .f64), (.int .TIME), (.flt .f64), .assign⟩ /- extra_functions.st:754-759 -/,
  ⟨(.flt .f64), (.int .TIME), (.flt .f64), (.int .TIME), .round⟩ /- extra_functions.st:766-772 -/,
  ⟨(.flt .f64), (.int .LTIME), (.flt .f64), (.int .TIME), .round⟩ /- extra_functions.st:774-779 -/
]

end Verif
