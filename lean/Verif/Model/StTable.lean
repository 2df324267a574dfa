import Verif.Model.StConv
/-
Generated by tools/gen_st.py from /repo/iec61131-st/{num_conversion,bit_conversion,bit_num_conversion,
extra_functions,date_time_conversion}.st.  One entry per conversion FUNCTION implemented in Structured Text between integer, bit
string, character and date/time types, in source order.  `src`/`dst` are the two type names in
the function's name, `inTy`/`outTy` the declared types of its input and of its result, `body` the shape of the
body; the comment is the place in /repo.
-/
namespace Verif

/-- All Structured Text conversions between non-float scalar types (iec61131-st/*.st, file and line at each entry). -/
def stConversions : List StConv := [
  ⟨.LINT, .DINT, .LINT, .DINT, .assign⟩ /- num_conversion.st:246-251 -/,
  ⟨.LINT, .INT, .LINT, .INT, .assign⟩ /- num_conversion.st:258-263 -/,
  ⟨.LINT, .SINT, .LINT, .SINT, .assign⟩ /- num_conversion.st:270-275 -/,
  ⟨.LINT, .ULINT, .LINT, .ULINT, .assign⟩ /- num_conversion.st:282-287 -/,
  ⟨.LINT, .UDINT, .LINT, .UDINT, .assign⟩ /- num_conversion.st:294-299 -/,
  ⟨.LINT, .UINT, .LINT, .UINT, .assign⟩ /- num_conversion.st:306-311 -/,
  ⟨.LINT, .USINT, .LINT, .USINT, .assign⟩ /- num_conversion.st:318-323 -/,
  ⟨.DINT, .LINT, .DINT, .LINT, .assign⟩ /- num_conversion.st:354-359 -/,
  ⟨.DINT, .INT, .DINT, .INT, .assign⟩ /- num_conversion.st:366-371 -/,
  ⟨.DINT, .SINT, .DINT, .SINT, .assign⟩ /- num_conversion.st:378-383 -/,
  ⟨.DINT, .ULINT, .DINT, .ULINT, .assign⟩ /- num_conversion.st:390-395 -/,
  ⟨.DINT, .UDINT, .DINT, .UDINT, .assign⟩ /- num_conversion.st:402-407 -/,
  ⟨.DINT, .UINT, .DINT, .UINT, .assign⟩ /- num_conversion.st:414-419 -/,
  ⟨.DINT, .USINT, .DINT, .USINT, .assign⟩ /- num_conversion.st:426-431 -/,
  ⟨.INT, .LINT, .INT, .LINT, .assign⟩ /- num_conversion.st:462-467 -/,
  ⟨.INT, .DINT, .INT, .DINT, .assign⟩ /- num_conversion.st:474-479 -/,
  ⟨.INT, .SINT, .INT, .SINT, .assign⟩ /- num_conversion.st:486-491 -/,
  ⟨.INT, .ULINT, .INT, .ULINT, .assign⟩ /- num_conversion.st:498-503 -/,
  ⟨.INT, .UDINT, .INT, .UDINT, .assign⟩ /- num_conversion.st:510-515 -/,
  ⟨.INT, .UINT, .INT, .UINT, .assign⟩ /- num_conversion.st:522-527 -/,
  ⟨.INT, .USINT, .INT, .USINT, .assign⟩ /- num_conversion.st:534-539 -/,
  ⟨.SINT, .LINT, .SINT, .LINT, .assign⟩ /- num_conversion.st:570-575 -/,
  ⟨.SINT, .DINT, .SINT, .DINT, .assign⟩ /- num_conversion.st:582-587 -/,
  ⟨.SINT, .INT, .SINT, .INT, .assign⟩ /- num_conversion.st:594-599 -/,
  ⟨.SINT, .ULINT, .SINT, .ULINT, .assign⟩ /- num_conversion.st:606-611 -/,
  ⟨.SINT, .UDINT, .SINT, .UDINT, .assign⟩ /- num_conversion.st:618-623 -/,
  ⟨.SINT, .UINT, .SINT, .UINT, .assign⟩ /- num_conversion.st:630-635 -/,
  ⟨.SINT, .USINT, .SINT, .USINT, .assign⟩ /- num_conversion.st:642-647 -/,
  ⟨.ULINT, .LINT, .ULINT, .LINT, .assign⟩ /- num_conversion.st:678-683 -/,
  ⟨.ULINT, .DINT, .ULINT, .DINT, .assign⟩ /- num_conversion.st:690-695 -/,
  ⟨.ULINT, .INT, .ULINT, .INT, .assign⟩ /- num_conversion.st:702-707 -/,
  ⟨.ULINT, .SINT, .ULINT, .SINT, .assign⟩ /- num_conversion.st:714-719 -/,
  ⟨.ULINT, .UDINT, .ULINT, .UDINT, .assign⟩ /- num_conversion.st:726-731 -/,
  ⟨.ULINT, .UINT, .ULINT, .UINT, .assign⟩ /- num_conversion.st:738-743 -/,
  ⟨.ULINT, .USINT, .ULINT, .USINT, .assign⟩ /- num_conversion.st:750-755 -/,
  ⟨.UDINT, .LINT, .UDINT, .LINT, .assign⟩ /- num_conversion.st:786-791 -/,
  ⟨.UDINT, .DINT, .UDINT, .DINT, .assign⟩ /- num_conversion.st:798-803 -/,
  ⟨.UDINT, .INT, .UDINT, .INT, .assign⟩ /- num_conversion.st:810-815 -/,
  ⟨.UDINT, .SINT, .UDINT, .SINT, .assign⟩ /- num_conversion.st:822-827 -/,
  ⟨.UDINT, .ULINT, .UDINT, .ULINT, .assign⟩ /- num_conversion.st:834-839 -/,
  ⟨.UDINT, .UINT, .UDINT, .UINT, .assign⟩ /- num_conversion.st:846-851 -/,
  ⟨.UDINT, .USINT, .UDINT, .USINT, .assign⟩ /- num_conversion.st:858-863 -/,
  ⟨.UINT, .LINT, .UINT, .LINT, .assign⟩ /- num_conversion.st:894-899 -/,
  ⟨.UINT, .DINT, .UINT, .DINT, .assign⟩ /- num_conversion.st:906-911 -/,
  ⟨.UINT, .INT, .UINT, .INT, .assign⟩ /- num_conversion.st:918-923 -/,
  ⟨.UINT, .SINT, .UINT, .SINT, .assign⟩ /- num_conversion.st:930-935 -/,
  ⟨.UINT, .ULINT, .UINT, .ULINT, .assign⟩ /- num_conversion.st:942-947 -/,
  ⟨.UINT, .UDINT, .UINT, .UDINT, .assign⟩ /- num_conversion.st:954-959 -/,
  ⟨.UINT, .USINT, .UINT, .USINT, .assign⟩ /- num_conversion.st:966-971 -/,
  ⟨.USINT, .LINT, .USINT, .LINT, .assign⟩ /- num_conversion.st:1002-1007 -/,
  ⟨.USINT, .DINT, .USINT, .DINT, .assign⟩ /- num_conversion.st:1014-1019 -/,
  ⟨.USINT, .INT, .USINT, .INT, .assign⟩ /- num_conversion.st:1026-1031 -/,
  ⟨.USINT, .SINT, .USINT, .SINT, .assign⟩ /- num_conversion.st:1038-1043 -/,
  ⟨.USINT, .ULINT, .USINT, .ULINT, .assign⟩ /- num_conversion.st:1050-1055 -/,
  ⟨.USINT, .UDINT, .USINT, .UDINT, .assign⟩ /- num_conversion.st:1062-1067 -/,
  ⟨.USINT, .UINT, .USINT, .UINT, .assign⟩ /- num_conversion.st:1074-1079 -/,
  ⟨.LWORD, .DWORD, .LWORD, .DWORD, .assign⟩ /- bit_conversion.st:6-11 -/,
  ⟨.LWORD, .WORD, .LWORD, .WORD, .assign⟩ /- bit_conversion.st:18-23 -/,
  ⟨.LWORD, .BYTE, .LWORD, .BYTE, .assign⟩ /- bit_conversion.st:30-35 -/,
  ⟨.LWORD, .BOOL, .LWORD, .BOOL, .bit0⟩ /- bit_conversion.st:42-47 -/,
  ⟨.DWORD, .LWORD, .DWORD, .LWORD, .assign⟩ /- bit_conversion.st:54-59 -/,
  ⟨.DWORD, .WORD, .DWORD, .WORD, .assign⟩ /- bit_conversion.st:66-71 -/,
  ⟨.DWORD, .BYTE, .DWORD, .BYTE, .assign⟩ /- bit_conversion.st:78-83 -/,
  ⟨.DWORD, .BOOL, .DWORD, .BOOL, .bit0⟩ /- bit_conversion.st:90-95 -/,
  ⟨.WORD, .LWORD, .WORD, .LWORD, .assign⟩ /- bit_conversion.st:102-107 -/,
  ⟨.WORD, .DWORD, .WORD, .DWORD, .assign⟩ /- bit_conversion.st:114-119 -/,
  ⟨.WORD, .BYTE, .WORD, .BYTE, .assign⟩ /- bit_conversion.st:126-131 -/,
  ⟨.WORD, .BOOL, .WORD, .BOOL, .bit0⟩ /- bit_conversion.st:138-143 -/,
  ⟨.BYTE, .LWORD, .BYTE, .LWORD, .assign⟩ /- bit_conversion.st:150-155 -/,
  ⟨.BYTE, .DWORD, .BYTE, .DWORD, .assign⟩ /- bit_conversion.st:162-167 -/,
  ⟨.BYTE, .WORD, .BYTE, .WORD, .assign⟩ /- bit_conversion.st:174-179 -/,
  ⟨.BYTE, .BOOL, .BYTE, .BOOL, .bit0⟩ /- bit_conversion.st:186-191 -/,
  ⟨.BYTE, .CHAR, .BYTE, .CHAR, .reinterpret⟩ /- bit_conversion.st:198-207 -/,
  ⟨.BOOL, .LWORD, .BOOL, .LWORD, .nonzero⟩ /- bit_conversion.st:214-223 -/,
  ⟨.BOOL, .DWORD, .BOOL, .DWORD, .nonzero⟩ /- bit_conversion.st:230-239 -/,
  ⟨.BOOL, .WORD, .BOOL, .WORD, .nonzero⟩ /- bit_conversion.st:246-255 -/,
  ⟨.BOOL, .BYTE, .BOOL, .BYTE, .nonzero⟩ /- bit_conversion.st:262-271 -/,
  ⟨.CHAR, .BYTE, .CHAR, .BYTE, .reinterpret⟩ /- bit_conversion.st:278-287 -/,
  ⟨.CHAR, .WORD, .CHAR, .WORD, (.call .CHAR .BYTE)⟩ /- bit_conversion.st:294-299 -/,
  ⟨.CHAR, .DWORD, .CHAR, .DWORD, (.call .CHAR .BYTE)⟩ /- bit_conversion.st:306-311 -/,
  ⟨.CHAR, .LWORD, .CHAR, .LWORD, (.call .CHAR .BYTE)⟩ /- bit_conversion.st:318-323 -/,
  ⟨.WCHAR, .WORD, .WCHAR, .WORD, .reinterpret⟩ /- bit_conversion.st:330-339 -/,
  ⟨.WCHAR, .DWORD, .WCHAR, .DWORD, (.call .WCHAR .WORD)⟩ /- bit_conversion.st:346-351 -/,
  ⟨.WCHAR, .LWORD, .WCHAR, .LWORD, (.call .WCHAR .WORD)⟩ /- bit_conversion.st:358-363 -/,
  ⟨.LWORD, .LINT, .LWORD, .LINT, .assign⟩ /- bit_num_conversion.st:18-23 -/,
  ⟨.LWORD, .DINT, .LWORD, .DINT, .assign⟩ /- bit_num_conversion.st:30-35 -/,
  ⟨.LWORD, .INT, .LWORD, .INT, .assign⟩ /- bit_num_conversion.st:42-47 -/,
  ⟨.LWORD, .SINT, .LWORD, .SINT, .assign⟩ /- bit_num_conversion.st:54-59 -/,
  ⟨.LWORD, .ULINT, .LWORD, .ULINT, .assign⟩ /- bit_num_conversion.st:66-71 -/,
  ⟨.LWORD, .UDINT, .LWORD, .UDINT, .assign⟩ /- bit_num_conversion.st:78-83 -/,
  ⟨.LWORD, .UINT, .LWORD, .UINT, .assign⟩ /- bit_num_conversion.st:90-95 -/,
  ⟨.LWORD, .USINT, .LWORD, .USINT, .assign⟩ /- bit_num_conversion.st:102-107 -/,
  ⟨.DWORD, .LINT, .DWORD, .LINT, .assign⟩ /- bit_num_conversion.st:126-131 -/,
  ⟨.DWORD, .DINT, .DWORD, .DINT, .assign⟩ /- bit_num_conversion.st:138-143 -/,
  ⟨.DWORD, .INT, .DWORD, .INT, .assign⟩ /- bit_num_conversion.st:150-155 -/,
  ⟨.DWORD, .SINT, .DWORD, .SINT, .assign⟩ /- bit_num_conversion.st:162-167 -/,
  ⟨.DWORD, .ULINT, .DWORD, .ULINT, .assign⟩ /- bit_num_conversion.st:174-179 -/,
  ⟨.DWORD, .UDINT, .DWORD, .UDINT, .assign⟩ /- bit_num_conversion.st:186-191 -/,
  ⟨.DWORD, .UINT, .DWORD, .UINT, .assign⟩ /- bit_num_conversion.st:198-203 -/,
  ⟨.DWORD, .USINT, .DWORD, .USINT, .assign⟩ /- bit_num_conversion.st:210-215 -/,
  ⟨.WORD, .LINT, .WORD, .LINT, .assign⟩ /- bit_num_conversion.st:222-227 -/,
  ⟨.WORD, .DINT, .WORD, .DINT, .assign⟩ /- bit_num_conversion.st:234-239 -/,
  ⟨.WORD, .INT, .WORD, .INT, .assign⟩ /- bit_num_conversion.st:246-251 -/,
  ⟨.WORD, .SINT, .WORD, .SINT, .assign⟩ /- bit_num_conversion.st:258-263 -/,
  ⟨.WORD, .ULINT, .WORD, .ULINT, .assign⟩ /- bit_num_conversion.st:270-275 -/,
  ⟨.WORD, .UDINT, .WORD, .UDINT, .assign⟩ /- bit_num_conversion.st:282-287 -/,
  ⟨.WORD, .UINT, .WORD, .UINT, .assign⟩ /- bit_num_conversion.st:294-299 -/,
  ⟨.WORD, .USINT, .WORD, .USINT, .assign⟩ /- bit_num_conversion.st:306-311 -/,
  ⟨.BYTE, .LINT, .BYTE, .LINT, .assign⟩ /- bit_num_conversion.st:318-323 -/,
  ⟨.BYTE, .DINT, .BYTE, .DINT, .assign⟩ /- bit_num_conversion.st:330-335 -/,
  ⟨.BYTE, .INT, .BYTE, .INT, .assign⟩ /- bit_num_conversion.st:342-347 -/,
  ⟨.BYTE, .SINT, .BYTE, .SINT, .assign⟩ /- bit_num_conversion.st:354-359 -/,
  ⟨.BYTE, .ULINT, .BYTE, .ULINT, .assign⟩ /- bit_num_conversion.st:366-371 -/,
  ⟨.BYTE, .UDINT, .BYTE, .UDINT, .assign⟩ /- bit_num_conversion.st:378-383 -/,
  ⟨.BYTE, .UINT, .BYTE, .UINT, .assign⟩ /- bit_num_conversion.st:390-395 -/,
  ⟨.BYTE, .USINT, .BYTE, .USINT, .assign⟩ /- bit_num_conversion.st:402-407 -/,
  ⟨.BOOL, .LINT, .BOOL, .LINT, .assign⟩ /- bit_num_conversion.st:414-419 -/,
  ⟨.BOOL, .DINT, .BOOL, .DINT, .assign⟩ /- bit_num_conversion.st:426-431 -/,
  ⟨.BOOL, .INT, .BOOL, .INT, .assign⟩ /- bit_num_conversion.st:438-443 -/,
  ⟨.BOOL, .SINT, .BOOL, .SINT, .assign⟩ /- bit_num_conversion.st:450-455 -/,
  ⟨.BOOL, .ULINT, .BOOL, .ULINT, .assign⟩ /- bit_num_conversion.st:462-467 -/,
  ⟨.BOOL, .UDINT, .BOOL, .UDINT, .assign⟩ /- bit_num_conversion.st:474-479 -/,
  ⟨.BOOL, .UINT, .BOOL, .UINT, .assign⟩ /- bit_num_conversion.st:486-491 -/,
  ⟨.BOOL, .USINT, .BOOL, .USINT, .assign⟩ /- bit_num_conversion.st:498-503 -/,
  ⟨.LINT, .LWORD, .LINT, .LWORD, .assign⟩ /- bit_num_conversion.st:534-539 -/,
  ⟨.LINT, .DWORD, .LINT, .DWORD, .assign⟩ /- bit_num_conversion.st:546-551 -/,
  ⟨.LINT, .WORD, .LINT, .WORD, .assign⟩ /- bit_num_conversion.st:558-563 -/,
  ⟨.LINT, .BYTE, .LINT, .BYTE, .assign⟩ /- bit_num_conversion.st:570-575 -/,
  ⟨.DINT, .LWORD, .DINT, .LWORD, .assign⟩ /- bit_num_conversion.st:582-587 -/,
  ⟨.DINT, .DWORD, .DINT, .DWORD, .assign⟩ /- bit_num_conversion.st:594-599 -/,
  ⟨.DINT, .WORD, .DINT, .WORD, .assign⟩ /- bit_num_conversion.st:606-611 -/,
  ⟨.DINT, .BYTE, .DINT, .BYTE, .assign⟩ /- bit_num_conversion.st:618-623 -/,
  ⟨.INT, .LWORD, .INT, .LWORD, .assign⟩ /- bit_num_conversion.st:630-635 -/,
  ⟨.INT, .DWORD, .INT, .DWORD, .assign⟩ /- bit_num_conversion.st:642-647 -/,
  ⟨.INT, .WORD, .INT, .WORD, .assign⟩ /- bit_num_conversion.st:654-659 -/,
  ⟨.INT, .BYTE, .INT, .BYTE, .assign⟩ /- bit_num_conversion.st:666-671 -/,
  ⟨.SINT, .LWORD, .SINT, .LWORD, .assign⟩ /- bit_num_conversion.st:678-683 -/,
  ⟨.SINT, .DWORD, .SINT, .DWORD, .assign⟩ /- bit_num_conversion.st:690-695 -/,
  ⟨.SINT, .WORD, .SINT, .WORD, .assign⟩ /- bit_num_conversion.st:702-707 -/,
  ⟨.SINT, .BYTE, .SINT, .BYTE, .assign⟩ /- bit_num_conversion.st:714-719 -/,
  ⟨.ULINT, .LWORD, .ULINT, .LWORD, .assign⟩ /- bit_num_conversion.st:726-731 -/,
  ⟨.ULINT, .DWORD, .ULINT, .DWORD, .assign⟩ /- bit_num_conversion.st:738-743 -/,
  ⟨.ULINT, .WORD, .ULINT, .WORD, .assign⟩ /- bit_num_conversion.st:750-755 -/,
  ⟨.ULINT, .BYTE, .ULINT, .BYTE, .assign⟩ /- bit_num_conversion.st:762-767 -/,
  ⟨.UDINT, .LWORD, .UDINT, .LWORD, .assign⟩ /- bit_num_conversion.st:774-779 -/,
  ⟨.UDINT, .DWORD, .UDINT, .DWORD, .assign⟩ /- bit_num_conversion.st:786-791 -/,
  ⟨.UDINT, .WORD, .UDINT, .WORD, .assign⟩ /- bit_num_conversion.st:798-803 -/,
  ⟨.UDINT, .BYTE, .UDINT, .BYTE, .assign⟩ /- bit_num_conversion.st:810-815 -/,
  ⟨.UINT, .LWORD, .UINT, .LWORD, .assign⟩ /- bit_num_conversion.st:822-827 -/,
  ⟨.UINT, .DWORD, .UINT, .DWORD, .assign⟩ /- bit_num_conversion.st:834-839 -/,
  ⟨.UINT, .WORD, .UINT, .WORD, .assign⟩ /- bit_num_conversion.st:846-851 -/,
  ⟨.UINT, .BYTE, .UINT, .BYTE, .assign⟩ /- bit_num_conversion.st:858-863 -/,
  ⟨.USINT, .LWORD, .USINT, .LWORD, .assign⟩ /- bit_num_conversion.st:870-875 -/,
  ⟨.USINT, .DWORD, .USINT, .DWORD, .assign⟩ /- bit_num_conversion.st:882-887 -/,
  ⟨.USINT, .WORD, .USINT, .WORD, .assign⟩ /- bit_num_conversion.st:894-899 -/,
  ⟨.USINT, .BYTE, .USINT, .BYTE, .assign⟩ /- bit_num_conversion.st:906-911 -/,
  ⟨.TOD, .LWORD, .TOD, .LWORD, .assign⟩ /- extra_functions.st:406-411 -/,
  ⟨.LTOD, .LWORD, .TOD, .LWORD, .assign⟩ /- extra_functions.st:413-418 -/,
  ⟨.DT, .LWORD, .DT, .LWORD, .assign⟩ /- extra_functions.st:425-430 -/,
  ⟨.LDT, .LWORD, .DT, .LWORD, .assign⟩ /- extra_functions.st:432-437 -/,
  ⟨.DATE, .LWORD, .DATE, .LWORD, .assign⟩ /- extra_functions.st:444-449 -/,
  ⟨.LDATE, .LWORD, .DATE, .LWORD, .assign⟩ /- extra_functions.st:451-456 -/,
  ⟨.TIME, .LWORD, .TIME, .LWORD, .assign⟩ /- extra_functions.st:463-468 -/,
  ⟨.LTIME, .LWORD, .TIME, .LWORD, .assign⟩ /- extra_functions.st:470-475 -/,
  ⟨.TIME, .LINT, .TIME, .LINT, .assign⟩ /- extra_functions.st:510-515 -/,
  ⟨.LTIME, .LINT, .TIME, .LINT, .assign⟩ /- extra_functions.st:517-522 -/,
  ⟨.TOD, .LINT, .TOD, .LINT, .assign⟩ /- extra_functions.st:529-534 -/,
  ⟨.LTOD, .LINT, .TOD, .LINT, .assign⟩ /- extra_functions.st:536-541 -/,
  ⟨.DT, .LINT, .DT, .LINT, .assign⟩ /- extra_functions.st:548-553 -/,
  ⟨.LDT, .LINT, .DT, .LINT, .assign⟩ /- extra_functions.st:555-560 -/,
  ⟨.DATE, .LINT, .DATE, .LINT, .assign⟩ /- extra_functions.st:567-572 -/,
  ⟨.LDATE, .LINT, .DATE, .LINT, .assign⟩ /- extra_functions.st:574-579 -/,
  ⟨.DT, .ULINT, .DT, .ULINT, .assign⟩ /- extra_functions.st:586-591 -/,
  ⟨.LDT, .ULINT, .DT, .ULINT, .assign⟩ /- extra_functions.st:593-598 -/,
  ⟨.TIME, .ULINT, .TIME, .ULINT, .assign⟩ /- extra_functions.st:605-610 -/,
  ⟨.LTIME, .ULINT, .TIME, .ULINT, .assign⟩ /- extra_functions.st:612-617 -/,
  ⟨.DATE, .ULINT, .DATE, .ULINT, .assign⟩ /- extra_functions.st:624-629 -/,
  ⟨.LDATE, .ULINT, .DATE, .ULINT, .assign⟩ /- extra_functions.st:631-636 -/,
  ⟨.TOD, .ULINT, .TOD, .ULINT, .assign⟩ /- extra_functions.st:643-648 -/,
  ⟨.LTOD, .ULINT, .TOD, .ULINT, .assign⟩ /- extra_functions.st:650-655 -/,
  ⟨.LWORD, .DATE, .LWORD, .DATE, .assign⟩ /- extra_functions.st:786-791 -/,
  ⟨.LWORD, .LDATE, .LWORD, .DATE, .assign⟩ /- extra_functions.st:793-798 -/,
  ⟨.LWORD, .DT, .LWORD, .DT, .assign⟩ /- extra_functions.st:805-810 -/,
  ⟨.LWORD, .LDT, .LWORD, .DT, .assign⟩ /- extra_functions.st:812-817 -/,
  ⟨.LWORD, .TOD, .LWORD, .TOD, .assign⟩ /- extra_functions.st:824-829 -/,
  ⟨.LWORD, .LTOD, .LWORD, .TOD, .assign⟩ /- extra_functions.st:831-836 -/,
  ⟨.LWORD, .TIME, .LWORD, .TIME, .assign⟩ /- extra_functions.st:843-848 -/,
  ⟨.LWORD, .LTIME, .LWORD, .TIME, .assign⟩ /- extra_functions.st:850-855 -/,
  ⟨.ULINT, .DATE, .ULINT, .DATE, .assign⟩ /- extra_functions.st:862-867 -/,
  ⟨.ULINT, .LDATE, .ULINT, .DATE, .assign⟩ /- extra_functions.st:869-874 -/,
  ⟨.ULINT, .DT, .ULINT, .DT, .assign⟩ /- extra_functions.st:881-886 -/,
  ⟨.ULINT, .LDT, .ULINT, .DT, .assign⟩ /- extra_functions.st:888-893 -/,
  ⟨.ULINT, .TOD, .ULINT, .TOD, .assign⟩ /- extra_functions.st:900-905 -/,
  ⟨.ULINT, .LTOD, .ULINT, .TOD, .assign⟩ /- extra_functions.st:907-912 -/,
  ⟨.ULINT, .TIME, .ULINT, .TIME, .assign⟩ /- extra_functions.st:919-924 -/,
  ⟨.ULINT, .LTIME, .ULINT, .LTIME, .assign⟩ /- extra_functions.st:926-931 -/,
  ⟨.LINT, .TIME, .LINT, .TIME, .assign⟩ /- extra_functions.st:938-943 -/,
  ⟨.LINT, .LTIME, .LINT, .TIME, .assign⟩ /- extra_functions.st:945-950 -/,
  ⟨.LINT, .TOD, .LINT, .TOD, .assign⟩ /- extra_functions.st:957-962 -/,
  ⟨.LINT, .LTOD, .LINT, .TOD, .assign⟩ /- extra_functions.st:964-969 -/,
  ⟨.LINT, .DATE, .LINT, .DATE, .assign⟩ /- extra_functions.st:976-981 -/,
  ⟨.LINT, .LDATE, .LINT, .DATE, .assign⟩ /- extra_functions.st:983-988 -/,
  ⟨.LINT, .BOOL, .LINT, .BOOL, .nonzero⟩ /- extra_functions.st:995-1004 -/,
  ⟨.DINT, .BOOL, .DINT, .BOOL, (.call .LINT .BOOL)⟩ /- extra_functions.st:1011-1016 -/,
  ⟨.LTIME, .TIME, .LTIME, .TIME, .assign⟩ /- date_time_conversion.st:30-35 -/,
  ⟨.TIME, .LTIME, .TIME, .LTIME, .assign⟩ /- date_time_conversion.st:42-47 -/,
  ⟨.LDT, .DT, .LDT, .DT, .assign⟩ /- date_time_conversion.st:54-59 -/,
  ⟨.DT, .LDT, .DT, .LDT, .assign⟩ /- date_time_conversion.st:102-107 -/,
  ⟨.LTOD, .TOD, .LTOD, .TOD, .assign⟩ /- date_time_conversion.st:150-155 -/,
  ⟨.TOD, .LTOD, .TOD, .LTOD, .assign⟩ /- date_time_conversion.st:162-167 -/
]

end Verif
