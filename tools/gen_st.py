#!/usr/bin/env python3
"""Generates lean/Verif/Model/StTable.lean from the conversion functions of /repo/iec61131-st.
Every FUNCTION whose input and output are integers, bit strings, characters or date/time values and that
is implemented in Structured Text becomes one entry; the shape of its body is recognised
textually.  Conversions with REAL/LREAL go to lean/Verif/Model/StFloatTable.lean.  Functions that involve
STRING/WSTRING are in neither table."""
import re, sys
R = "/repo/iec61131-st/"
TY = dict(BOOL="bool", BYTE="u8", WORD="u16", DWORD="u32", LWORD="u64", SINT="i8", INT="i16", DINT="i32",
          LINT="i64", USINT="u8", UINT="u16", UDINT="u32", ULINT="u64", CHAR="u8", WCHAR="u16",
          TIME="i64", LTIME="i64", DATE="i64", LDATE="i64", DT="i64", LDT="i64", TOD="i64", LTOD="i64",
          DATE_AND_TIME="i64", TIME_OF_DAY="i64")
rows = []
frows = []
FL = {"REAL": ".flt .f32", "LREAL": ".flt .f64"}
def num(t): return "(%s)" % FL[t] if t in FL else "(.int .%s)" % t
for fn in ["num_conversion.st", "bit_conversion.st", "bit_num_conversion.st", "extra_functions.st", "date_time_conversion.st"]:
    lines = open(R + fn).read().split("\n")
    i = 0
    while i < len(lines):
        m = re.match(r"\s*FUNCTION\s+(\w+)\s*:\s*(\w+)", lines[i])
        if not m:
            i += 1; continue
        start = i + 1; ext = "{external}" in lines[i-1]; body = []
        i += 1
        while i < len(lines) and "END_FUNCTION" not in lines[i]:
            body.append(lines[i].strip()); i += 1
        end = i + 1
        name, out = m.group(1), m.group(2)
        b = re.sub(r"\s+", " ", " ".join(body)).strip()
        mm = re.match(r"VAR_INPUT in : (\w+); END_VAR ?(.*)$", b, re.I)
        if ext or not mm or "_TO_" not in name: continue
        inn, b = mm.group(1), mm.group(2)
        src, dst = name.split("_TO_")
        b = b.replace("// TODO: seconds.millis? round as nanos? ", "")
        if (src in FL or dst in FL) and set([src, dst, inn, out]) <= set(TY) | set(FL):
            k = {"@ := in;": ".assign", "@ := ROUND(in);": ".round"}.get(b.replace(name, "@").replace("IN", "in"))
            if not k: print("unrecognised", fn, start, name, b, file=sys.stderr); continue
            frows.append((fn, start, end, num(src), num(dst), num(inn), num(out), k)); continue
        if src not in TY or dst not in TY: continue
        if inn not in TY or out not in TY: continue
        b = b.replace(name, "@")
        if re.fullmatch(r"@ := in;", b, re.I): k = ".assign"
        elif re.fullmatch(r"@ := in\.0;", b, re.I): k = ".bit0"
        elif re.fullmatch(r"VAR ptr : REF_TO %s; END_VAR ptr := &in; @ := ptr\^;" % out, b): k = ".reinterpret"
        elif re.fullmatch(r"IF in <> 0 THEN @ := 1; ELSE @ := 0; END_IF;", b): k = ".nonzero"
        elif re.fullmatch(r"IF IN = 0 THEN @ := FALSE; ELSE @ := TRUE; END_IF;", b): k = ".nonzero"
        elif "DATE_AND_TIME_TO_" in b: continue  # calls a Rust function: modelled in Model/DateTime.lean
        elif re.fullmatch(r"@ := \w+_TO_\w+\(in\);", b, re.I):
            k = "(.call .%s .%s)" % tuple(re.search(r":= (\w+)\(", b).group(1).split("_TO_"))
        else:
            print("unrecognised", fn, start, name, b, file=sys.stderr); continue
        rows.append((fn, start, end, name, src, dst, inn, out, k))
o = open("/verif/lean/Verif/Model/StTable.lean", "w")
o.write("""import Verif.Model.StConv
/-
Generated by tools/gen_st.py from /repo/iec61131-st/{num_conversion,bit_conversion,bit_num_conversion,
extra_functions,date_time_conversion}.st.  One entry per conversion FUNCTION implemented in Structured Text between integer, bit
string, character and date/time types, in source order.  `src`/`dst` are the two type names in
the function's name, `inTy`/`outTy` the declared types of its input and of its result, `body` the shape of the
body; the comment is the place in /repo.
-/
namespace Verif

/-- All Structured Text conversions between non-float scalar types (iec61131-st/*.st, file and line at each entry). -/
def stConversions : List StConv := [
""")
o.write(",\n".join('  ⟨.%s, .%s, .%s, .%s, %s⟩ /- %s:%d-%d -/' % (s, d, a, b, k, fn, l1, l2)
                   for (fn, l1, l2, n, s, d, a, b, k) in rows))
o.write("\n]\n\nend Verif\n")
o = open("/verif/lean/Verif/Model/StFloatTable.lean", "w")
o.write("""import Verif.Model.StFloat
/-
Generated by tools/gen_st.py from /repo/iec61131-st/{num_conversion,extra_functions}.st.  One entry per conversion
FUNCTION implemented in Structured Text with a REAL or LREAL input or result and no string, in source
order; fields as in Model/StTable.
-/
namespace Verif

/-- All Structured Text conversions between REAL/LREAL and numbers (iec61131-st/*.st, file and line at each entry). -/
def stFloatConversions : List StFloatConv := [
""")
o.write(",\n".join('  ⟨%s, %s, %s, %s, %s⟩ /- %s:%d-%d -/' % (s, d, a, b, k, fn, l1, l2)
                   for (fn, l1, l2, s, d, a, b, k) in frows))
o.write("\n]\n\nend Verif\n")
print(len(rows), len(frows))
