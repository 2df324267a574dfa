#!/usr/bin/env python3
"""Generates lean/Verif/Model/AbiTable.lean from /repo: the functions and function blocks declared in iec61131-st/*.st next to the
Rust functions and structs of src/*.rs with the same names."""
import glob, re, sys
ST, RS = "/repo/iec61131-st/", "/repo/src/"
# ---- native functions -------------------------------------------------------
native = {}
def addnative(name, args, ret, src): native[name] = (args, ret, src)
def split_args(a):
    a = re.sub(r"\s+", " ", a).strip().rstrip(",")
    return [x.split(":", 1)[1].strip() for x in a.split(",") if ":" in x]
structs = {}
for f in sorted(glob.glob(RS + "*.rs")):
    t = open(f).read()
    short = "src/" + f.split("/")[-1]
    line = lambda pos: t[:pos].count("\n") + 1
    cut = t.find("#[cfg(test)]\nmod ")
    for m in re.finditer(r"#\[no_mangle\]\s*(?:(?:#\[[^\]]*\]|///[^\n]*)\s*)*pub\s+(?:unsafe\s+)?(?:extern \"C\" )?fn (\w+)\s*\((.*?)\)\s*(?:->\s*([^\{]+?))?\s*\{", t, re.S):
        if cut >= 0 and m.start() > cut: continue
        addnative(m.group(1), split_args(m.group(2)), (m.group(3) or "()").strip(), "%s:%d" % (short, line(m.start(1))))
    for m in re.finditer(r"#\[repr\(C\)\]\s*(?:#\[[^\]]*\]\s*)*pub struct (\w+)(?:<T>)? \{(.*?)\n\}|#\[derive[^\]]*\]\s*#\[repr\(C\)\]\s*pub struct (\w+)(?:<T>)? \{(.*?)\n\}", t, re.S):
        n, b = (m.group(1), m.group(2)) if m.group(1) else (m.group(3), m.group(4))
        structs[n] = [tuple(x.strip().rstrip(",").split(": ")) for x in b.strip().split("\n") if ":" in x]
t = open(RS + "types.rs").read()
for m in re.finditer(r"^define_(order|int|float)_type!\(\s*(\w+),\s*(\w+),\s*(\w+),\s*(\w+)\s*\);", t, re.M):
    _, mx, mn, li, ty = m.groups()
    src = "src/types.rs:%d" % (t[:m.start()].count("\n") + 1)
    for n in (mx, mn): addnative(n, ["u32", "*const " + ty], ty, src)
    addnative(li, [ty] * 3, ty, src)
t = open(RS + "endianness_conversion_functions.rs").read()
for m in re.finditer(r"^define_endianness_for_int_types!\((\w+), (\w+)\);", t, re.M):
    src = "src/endianness_conversion_functions.rs:%d" % (t[:m.start()].count("\n") + 1)
    for p in ("TO_BIG_ENDIAN", "TO_LITTLE_ENDIAN", "FROM_BIG_ENDIAN", "FROM_LITTLE_ENDIAN"):
        addnative("%s__%s" % (p, m.group(1)), [m.group(2)], m.group(2), src)
# ---- declarations -----------------------------------------------------------
decls, blocks = {}, []
for f in sorted(glob.glob(ST + "*.st")):
    t = open(f).read()
    blank = lambda m: re.sub(r"[^\n]", " ", m.group(0))
    t = re.sub(r"\(\*.*?\*\)|/\*.*?\*/", blank, t, flags=re.S)
    t = re.sub(r"//[^\n]*", blank, t)
    for m in re.finditer(r"(\{external\}\s*)?\b(FUNCTION_BLOCK|FUNCTION)\s+(\w+)\s*(?:<([^>]*)>)?\s*(?::\s*([\w\[\]]+))?(.*?)END_\2", t, re.S):
        body, vs = m.group(6), []
        for b in re.finditer(r"(VAR_INPUT|VAR_OUTPUT|VAR_IN_OUT|VAR)\b(.*?)END_VAR", body, re.S):
            for d in re.finditer(r"([\w, ]+?)\s*:\s*([^;]+);", b.group(2)):
                for n in d.group(1).split(","):
                    vs.append((b.group(1), "{ref}" in b.group(2), d.group(2).strip(), n.strip()))
        src = "%s:%d" % (f.split("/")[-1], t[:m.start(2)].count("\n") + 1)
        gen = [] if not m.group(4) else [tuple(y.strip() for y in x.split(":")) for x in m.group(4).split(",")]
        if m.group(2) == "FUNCTION_BLOCK": blocks.append((m.group(3), vs, src, bool(m.group(1))))
        else: decls[m.group(3)] = (bool(m.group(1)), gen, m.group(5), vs, src)
INT = "SINT USINT INT UINT DINT UDINT LINT ULINT".split()
REAL = ["REAL", "LREAL"]
BIT = "BOOL BYTE WORD DWORD LWORD".split()
STR = ["STRING", "WSTRING"]
ELEM = BIT + INT + REAL + "TIME DATE TIME_OF_DAY DATE_AND_TIME CHAR WCHAR".split() + STR
CLASS = dict(ANY_INT=INT, ANY_REAL=REAL, ANY_NUM=INT + REAL, ANY_BIT=BIT, ANY_STRING=STR, ANY_ELEMENTARY=ELEM, ANY=ELEM)
ALIAS = dict(TOD="TIME_OF_DAY", DT="DATE_AND_TIME", LTOD="TIME_OF_DAY", LDT="DATE_AND_TIME", LDATE="DATE", LTIME="TIME")
def sty(t, sub):
    t = re.sub(r"\[.*\]", "", t)
    t = sub.get(t, t)
    return "." + ALIAS.get(t, t)
def sparam(v, sub):
    k, ref, t, _ = v
    m = re.match(r"\{sized\}\s*(\w+)\.\.\.", t)
    if m: return "%s %s" % (".sizedRef" if ref else ".sized", sty(m.group(1), sub))
    k = {"VAR_INPUT": ".inputRef" if ref else ".input", "VAR_OUTPUT": ".output", "VAR_IN_OUT": ".inOut"}[k]
    return "%s %s" % (k, sty(t, sub))
def nty(t):
    t = t.strip()
    if t == "()": return ".unit"
    for p, c in (("*const *const ", ".constPtrPtr"), ("*const ", ".constPtr"), ("*mut ", ".mutPtr"), ("&mut ", ".mutPtr")):
        if t.startswith(p): return "%s .%s" % (c, t[len(p):].strip())
    return ".val .%s" % t
def lst(xs): return "[" + ", ".join(xs) + "]"
def sig(d, sub): return lst(sparam(v, sub) for v in d[3] if v[0] != "VAR"), sty(d[2], sub)
rows = []
for n, d in decls.items():
    if n in ("ADD", "SUB", "MUL", "DIV"): continue      # operators of the language, extended for TIME
    subs = [{}]
    for (v, c) in d[1]: subs = [dict(s, **{v: x}) for s in subs for x in CLASS[c]]
    for sub in subs:
        name = n + "".join("__" + sub[v] for v, _ in d[1])
        ps, r = sig(d, sub)
        if not d[1] and not d[0]: continue               # has a body
        own = decls.get(name) if d[1] else None
        if own and not own[1] and not own[0]:
            p2, r2 = sig(own, {})
            impl = "(.st %s %s)" % (p2, r2); src = own[4]
        elif own and own[0] and name not in native:
            impl = ".missing"; src = ""
        elif name in native:
            a, b, src = native[name]
            impl = "(.native %s (%s))" % (lst(nty(x) for x in a), nty(b))
        else: impl = ".missing"; src = ""
        rows.append('  ⟨"%s", %s, %s, %s⟩  -- %s %s' % (name, ps, r, impl, d[4], src))
FT = {"bool": ".bool", "Signal": ".signal", "Time": ".i64", "Option<Instant>": ".optInstant"}
frows = []
for n, vs, src, ext in blocks:
    if not ext: print("not external", n, src, file=sys.stderr)
    m = re.match(r"&mut (\w+)(?:<(\w+)>)?", native[n][0][0])
    fields = ", ".join('("%s", %s)' % (a, FT.get(b, "." + m.group(2) if b == "T" else "?" + b)) for a, b in structs[m.group(1)])
    vars_ = ", ".join('(%s, "%s", %s)' % ({"VAR_INPUT": ".input", "VAR_OUTPUT": ".output", "VAR": ".local"}[k], nm,
        ".buffer 24" if t == "ARRAY[1..24] OF BYTE" else ".elem " + sty(t, {})) for k, _, t, nm in vs)
    frows.append('  -- %s, %s\n  ⟨"%s", [%s],\n    [%s]⟩' % (src, native[n][2], n, vars_, fields))
o = open("/verif/lean/Verif/Model/AbiTable.lean", "w")
o.write('''import Verif.Model.Abi
/-
Generated by tools/gen_abi.py from /repo/iec61131-st/*.st and /repo/src/*.rs.
-/
namespace Verif.Abi

/-- The function blocks of iec61131-st/*.st, each with its declared variables and with the fields of the Rust struct that the native
function of the same name takes (src/flanks.rs:3-9, src/bistable_functionblocks.rs:1-7, src/counters.rs:5-14, 121-130, 237-250,
src/timers.rs:15-24). -/
def functionBlocks : List FunctionBlock := [
%s]

/-- The functions of iec61131-st/*.st without a body, one row per choice of its types for a generic function, each with what
implements it.  Omitted are ADD, SUB, MUL and DIV, which extend operators of the language. -/
def functions : List LibFunction := [
%s
  ]

end Verif.Abi
''' % (",\n".join(frows), "\n".join(r.replace("⟩  --", ("," if i + 1 < len(rows) else "").join(["⟩", "  --"]), 1) for i, r in enumerate(rows))))
print(len(frows), len(rows), sum(".missing" in r for r in rows))
