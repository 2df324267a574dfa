import Verif.Model.Abi
/-
Generated by tools/gen_abi.py from /repo/iec61131-st/*.st and /repo/src/*.rs.
-/
namespace Verif.Abi

/-- The function blocks of iec61131-st/*.st, each with its declared variables and with the fields of the Rust struct that the native
function of the same name takes (src/flanks.rs:3-9, src/bistable_functionblocks.rs:1-7, src/counters.rs:5-14, 121-130, 237-250,
src/timers.rs:15-24). -/
def functionBlocks : List FunctionBlock := [
  -- bistable_functionblocks.st:11, src/bistable_functionblocks.rs:23
  ⟨"SR", [(.input, "SET1", .elem .BOOL), (.input, "RESET", .elem .BOOL), (.output, "Q1", .elem .BOOL)],
    [("set", .bool), ("reset", .bool), ("output", .bool)]⟩,
  -- bistable_functionblocks.st:31, src/bistable_functionblocks.rs:35
  ⟨"RS", [(.input, "SET", .elem .BOOL), (.input, "RESET1", .elem .BOOL), (.output, "Q1", .elem .BOOL)],
    [("set", .bool), ("reset", .bool), ("output", .bool)]⟩,
  -- counters.st:13, src/counters.rs:57
  ⟨"CTU", [(.input, "CU", .elem .BOOL), (.input, "R", .elem .BOOL), (.input, "PV", .elem .INT), (.output, "Q", .elem .BOOL), (.output, "CV", .elem .INT), (.local, "M", .elem .BOOL)],
    [("cu", .bool), ("r", .bool), ("pv", .i16), ("q", .bool), ("cv", .i16), ("internal", .signal)]⟩,
  -- counters.st:40, src/counters.rs:69
  ⟨"CTU_INT", [(.input, "CU", .elem .BOOL), (.input, "R", .elem .BOOL), (.input, "PV", .elem .INT), (.output, "Q", .elem .BOOL), (.output, "CV", .elem .INT), (.local, "M", .elem .BOOL)],
    [("cu", .bool), ("r", .bool), ("pv", .i16), ("q", .bool), ("cv", .i16), ("internal", .signal)]⟩,
  -- counters.st:67, src/counters.rs:81
  ⟨"CTU_DINT", [(.input, "CU", .elem .BOOL), (.input, "R", .elem .BOOL), (.input, "PV", .elem .DINT), (.output, "Q", .elem .BOOL), (.output, "CV", .elem .DINT), (.local, "M", .elem .BOOL)],
    [("cu", .bool), ("r", .bool), ("pv", .i32), ("q", .bool), ("cv", .i32), ("internal", .signal)]⟩,
  -- counters.st:94, src/counters.rs:93
  ⟨"CTU_UDINT", [(.input, "CU", .elem .BOOL), (.input, "R", .elem .BOOL), (.input, "PV", .elem .UDINT), (.output, "Q", .elem .BOOL), (.output, "CV", .elem .UDINT), (.local, "M", .elem .BOOL)],
    [("cu", .bool), ("r", .bool), ("pv", .u32), ("q", .bool), ("cv", .u32), ("internal", .signal)]⟩,
  -- counters.st:121, src/counters.rs:105
  ⟨"CTU_LINT", [(.input, "CU", .elem .BOOL), (.input, "R", .elem .BOOL), (.input, "PV", .elem .LINT), (.output, "Q", .elem .BOOL), (.output, "CV", .elem .LINT), (.local, "M", .elem .BOOL)],
    [("cu", .bool), ("r", .bool), ("pv", .i64), ("q", .bool), ("cv", .i64), ("internal", .signal)]⟩,
  -- counters.st:148, src/counters.rs:117
  ⟨"CTU_ULINT", [(.input, "CU", .elem .BOOL), (.input, "R", .elem .BOOL), (.input, "PV", .elem .ULINT), (.output, "Q", .elem .BOOL), (.output, "CV", .elem .ULINT), (.local, "M", .elem .BOOL)],
    [("cu", .bool), ("r", .bool), ("pv", .u64), ("q", .bool), ("cv", .u64), ("internal", .signal)]⟩,
  -- counters.st:175, src/counters.rs:173
  ⟨"CTD", [(.input, "CD", .elem .BOOL), (.input, "LD", .elem .BOOL), (.input, "PV", .elem .INT), (.output, "Q", .elem .BOOL), (.output, "CV", .elem .INT), (.local, "M", .elem .BOOL)],
    [("cd", .bool), ("ld", .bool), ("pv", .i16), ("q", .bool), ("cv", .i16), ("internal", .signal)]⟩,
  -- counters.st:202, src/counters.rs:185
  ⟨"CTD_INT", [(.input, "CD", .elem .BOOL), (.input, "LD", .elem .BOOL), (.input, "PV", .elem .INT), (.output, "Q", .elem .BOOL), (.output, "CV", .elem .INT), (.local, "M", .elem .BOOL)],
    [("cd", .bool), ("ld", .bool), ("pv", .i16), ("q", .bool), ("cv", .i16), ("internal", .signal)]⟩,
  -- counters.st:229, src/counters.rs:197
  ⟨"CTD_DINT", [(.input, "CD", .elem .BOOL), (.input, "LD", .elem .BOOL), (.input, "PV", .elem .DINT), (.output, "Q", .elem .BOOL), (.output, "CV", .elem .DINT), (.local, "M", .elem .BOOL)],
    [("cd", .bool), ("ld", .bool), ("pv", .i32), ("q", .bool), ("cv", .i32), ("internal", .signal)]⟩,
  -- counters.st:256, src/counters.rs:209
  ⟨"CTD_UDINT", [(.input, "CD", .elem .BOOL), (.input, "LD", .elem .BOOL), (.input, "PV", .elem .UDINT), (.output, "Q", .elem .BOOL), (.output, "CV", .elem .UDINT), (.local, "M", .elem .BOOL)],
    [("cd", .bool), ("ld", .bool), ("pv", .u32), ("q", .bool), ("cv", .u32), ("internal", .signal)]⟩,
  -- counters.st:283, src/counters.rs:221
  ⟨"CTD_LINT", [(.input, "CD", .elem .BOOL), (.input, "LD", .elem .BOOL), (.input, "PV", .elem .LINT), (.output, "Q", .elem .BOOL), (.output, "CV", .elem .LINT), (.local, "M", .elem .BOOL)],
    [("cd", .bool), ("ld", .bool), ("pv", .i64), ("q", .bool), ("cv", .i64), ("internal", .signal)]⟩,
  -- counters.st:310, src/counters.rs:233
  ⟨"CTD_ULINT", [(.input, "CD", .elem .BOOL), (.input, "LD", .elem .BOOL), (.input, "PV", .elem .ULINT), (.output, "Q", .elem .BOOL), (.output, "CV", .elem .ULINT), (.local, "M", .elem .BOOL)],
    [("cd", .bool), ("ld", .bool), ("pv", .u64), ("q", .bool), ("cv", .u64), ("internal", .signal)]⟩,
  -- counters.st:340, src/counters.rs:320
  ⟨"CTUD", [(.input, "CU", .elem .BOOL), (.input, "CD", .elem .BOOL), (.input, "R", .elem .BOOL), (.input, "LD", .elem .BOOL), (.input, "PV", .elem .INT), (.output, "QU", .elem .BOOL), (.output, "QD", .elem .BOOL), (.output, "CV", .elem .INT), (.local, "MU", .elem .BOOL), (.local, "MD", .elem .BOOL)],
    [("cu", .bool), ("cd", .bool), ("r", .bool), ("ld", .bool), ("pv", .i16), ("qu", .bool), ("qd", .bool), ("cv", .i16), ("internal_up", .signal), ("internal_down", .signal)]⟩,
  -- counters.st:374, src/counters.rs:332
  ⟨"CTUD_INT", [(.input, "CU", .elem .BOOL), (.input, "CD", .elem .BOOL), (.input, "R", .elem .BOOL), (.input, "LD", .elem .BOOL), (.input, "PV", .elem .INT), (.output, "QU", .elem .BOOL), (.output, "QD", .elem .BOOL), (.output, "CV", .elem .INT), (.local, "MU", .elem .BOOL), (.local, "MD", .elem .BOOL)],
    [("cu", .bool), ("cd", .bool), ("r", .bool), ("ld", .bool), ("pv", .i16), ("qu", .bool), ("qd", .bool), ("cv", .i16), ("internal_up", .signal), ("internal_down", .signal)]⟩,
  -- counters.st:408, src/counters.rs:344
  ⟨"CTUD_DINT", [(.input, "CU", .elem .BOOL), (.input, "CD", .elem .BOOL), (.input, "R", .elem .BOOL), (.input, "LD", .elem .BOOL), (.input, "PV", .elem .DINT), (.output, "QU", .elem .BOOL), (.output, "QD", .elem .BOOL), (.output, "CV", .elem .DINT), (.local, "MU", .elem .BOOL), (.local, "MD", .elem .BOOL)],
    [("cu", .bool), ("cd", .bool), ("r", .bool), ("ld", .bool), ("pv", .i32), ("qu", .bool), ("qd", .bool), ("cv", .i32), ("internal_up", .signal), ("internal_down", .signal)]⟩,
  -- counters.st:442, src/counters.rs:356
  ⟨"CTUD_UDINT", [(.input, "CU", .elem .BOOL), (.input, "CD", .elem .BOOL), (.input, "R", .elem .BOOL), (.input, "LD", .elem .BOOL), (.input, "PV", .elem .UDINT), (.output, "QU", .elem .BOOL), (.output, "QD", .elem .BOOL), (.output, "CV", .elem .UDINT), (.local, "MU", .elem .BOOL), (.local, "MD", .elem .BOOL)],
    [("cu", .bool), ("cd", .bool), ("r", .bool), ("ld", .bool), ("pv", .u32), ("qu", .bool), ("qd", .bool), ("cv", .u32), ("internal_up", .signal), ("internal_down", .signal)]⟩,
  -- counters.st:476, src/counters.rs:368
  ⟨"CTUD_LINT", [(.input, "CU", .elem .BOOL), (.input, "CD", .elem .BOOL), (.input, "R", .elem .BOOL), (.input, "LD", .elem .BOOL), (.input, "PV", .elem .LINT), (.output, "QU", .elem .BOOL), (.output, "QD", .elem .BOOL), (.output, "CV", .elem .LINT), (.local, "MU", .elem .BOOL), (.local, "MD", .elem .BOOL)],
    [("cu", .bool), ("cd", .bool), ("r", .bool), ("ld", .bool), ("pv", .i64), ("qu", .bool), ("qd", .bool), ("cv", .i64), ("internal_up", .signal), ("internal_down", .signal)]⟩,
  -- counters.st:510, src/counters.rs:380
  ⟨"CTUD_ULINT", [(.input, "CU", .elem .BOOL), (.input, "CD", .elem .BOOL), (.input, "R", .elem .BOOL), (.input, "LD", .elem .BOOL), (.input, "PV", .elem .ULINT), (.output, "QU", .elem .BOOL), (.output, "QD", .elem .BOOL), (.output, "CV", .elem .ULINT), (.local, "MU", .elem .BOOL), (.local, "MD", .elem .BOOL)],
    [("cu", .bool), ("cd", .bool), ("r", .bool), ("ld", .bool), ("pv", .u64), ("qu", .bool), ("qd", .bool), ("cv", .u64), ("internal_up", .signal), ("internal_down", .signal)]⟩,
  -- flanks.st:10, src/flanks.rs:19
  ⟨"R_TRIG", [(.input, "CLK", .elem .BOOL), (.output, "Q", .elem .BOOL), (.local, "M", .elem .BOOL)],
    [("clk", .bool), ("output", .bool), ("internal", .signal)]⟩,
  -- flanks.st:31, src/flanks.rs:26
  ⟨"F_TRIG", [(.input, "CLK", .elem .BOOL), (.output, "Q", .elem .BOOL), (.local, "M", .elem .BOOL)],
    [("clk", .bool), ("output", .bool), ("internal", .signal)]⟩,
  -- timers.st:12, src/timers.rs:84
  ⟨"TP", [(.input, "IN", .elem .BOOL), (.input, "PT", .elem .TIME), (.output, "Q", .elem .BOOL), (.output, "ET", .elem .TIME), (.local, "__signal__", .elem .BOOL), (.local, "__BUFFER__", .buffer 24)],
    [("input", .bool), ("preset_time", .i64), ("output", .bool), ("elapsed_time", .i64), ("input_edge", .signal), ("start_time", .optInstant)]⟩,
  -- timers.st:38, src/timers.rs:157
  ⟨"TP_TIME", [(.input, "IN", .elem .BOOL), (.input, "PT", .elem .TIME), (.output, "Q", .elem .BOOL), (.output, "ET", .elem .TIME), (.local, "__signal__", .elem .BOOL), (.local, "__BUFFER__", .buffer 24)],
    [("input", .bool), ("preset_time", .i64), ("output", .bool), ("elapsed_time", .i64), ("input_edge", .signal), ("start_time", .optInstant)]⟩,
  -- timers.st:64, src/timers.rs:163
  ⟨"TP_LTIME", [(.input, "IN", .elem .BOOL), (.input, "PT", .elem .TIME), (.output, "Q", .elem .BOOL), (.output, "ET", .elem .TIME), (.local, "__signal__", .elem .BOOL), (.local, "__BUFFER__", .buffer 24)],
    [("input", .bool), ("preset_time", .i64), ("output", .bool), ("elapsed_time", .i64), ("input_edge", .signal), ("start_time", .optInstant)]⟩,
  -- timers.st:90, src/timers.rs:109
  ⟨"TON", [(.input, "IN", .elem .BOOL), (.input, "PT", .elem .TIME), (.output, "Q", .elem .BOOL), (.output, "ET", .elem .TIME), (.local, "__signal__", .elem .BOOL), (.local, "__BUFFER__", .buffer 24)],
    [("input", .bool), ("preset_time", .i64), ("output", .bool), ("elapsed_time", .i64), ("input_edge", .signal), ("start_time", .optInstant)]⟩,
  -- timers.st:116, src/timers.rs:169
  ⟨"TON_TIME", [(.input, "IN", .elem .BOOL), (.input, "PT", .elem .TIME), (.output, "Q", .elem .BOOL), (.output, "ET", .elem .TIME), (.local, "__signal__", .elem .BOOL), (.local, "__BUFFER__", .buffer 24)],
    [("input", .bool), ("preset_time", .i64), ("output", .bool), ("elapsed_time", .i64), ("input_edge", .signal), ("start_time", .optInstant)]⟩,
  -- timers.st:142, src/timers.rs:175
  ⟨"TON_LTIME", [(.input, "IN", .elem .BOOL), (.input, "PT", .elem .TIME), (.output, "Q", .elem .BOOL), (.output, "ET", .elem .TIME), (.local, "__signal__", .elem .BOOL), (.local, "__BUFFER__", .buffer 24)],
    [("input", .bool), ("preset_time", .i64), ("output", .bool), ("elapsed_time", .i64), ("input_edge", .signal), ("start_time", .optInstant)]⟩,
  -- timers.st:168, src/timers.rs:135
  ⟨"TOF", [(.input, "IN", .elem .BOOL), (.input, "PT", .elem .TIME), (.output, "Q", .elem .BOOL), (.output, "ET", .elem .TIME), (.local, "__signal__", .elem .BOOL), (.local, "__BUFFER__", .buffer 24)],
    [("input", .bool), ("preset_time", .i64), ("output", .bool), ("elapsed_time", .i64), ("input_edge", .signal), ("start_time", .optInstant)]⟩,
  -- timers.st:194, src/timers.rs:181
  ⟨"TOF_TIME", [(.input, "IN", .elem .BOOL), (.input, "PT", .elem .TIME), (.output, "Q", .elem .BOOL), (.output, "ET", .elem .TIME), (.local, "__signal__", .elem .BOOL), (.local, "__BUFFER__", .buffer 24)],
    [("input", .bool), ("preset_time", .i64), ("output", .bool), ("elapsed_time", .i64), ("input_edge", .signal), ("start_time", .optInstant)]⟩,
  -- timers.st:220, src/timers.rs:187
  ⟨"TOF_LTIME", [(.input, "IN", .elem .BOOL), (.input, "PT", .elem .TIME), (.output, "Q", .elem .BOOL), (.output, "ET", .elem .TIME), (.local, "__signal__", .elem .BOOL), (.local, "__BUFFER__", .buffer 24)],
    [("input", .bool), ("preset_time", .i64), ("output", .bool), ("elapsed_time", .i64), ("input_edge", .signal), ("start_time", .optInstant)]⟩]

/-- The functions of iec61131-st/*.st without a body, one row per choice of its types for a generic function, each with what
implements it.  Omitted are ADD, SUB, MUL and DIV, which extend operators of the language. -/
def functions : List LibFunction := [
  ⟨"SQRT__REAL", [.input .REAL], .REAL, (.native [.val .f32] (.val .f32))⟩,  -- arithmetic_functions.st:17 src/arithmetic_functions.rs:23
  ⟨"SQRT__LREAL", [.input .LREAL], .LREAL, (.native [.val .f64] (.val .f64))⟩,  -- arithmetic_functions.st:17 src/arithmetic_functions.rs:32
  ⟨"LN__REAL", [.input .REAL], .REAL, (.native [.val .f32] (.val .f32))⟩,  -- arithmetic_functions.st:28 src/arithmetic_functions.rs:41
  ⟨"LN__LREAL", [.input .LREAL], .LREAL, (.native [.val .f64] (.val .f64))⟩,  -- arithmetic_functions.st:28 src/arithmetic_functions.rs:50
  ⟨"LOG__REAL", [.input .REAL], .REAL, (.native [.val .f32] (.val .f32))⟩,  -- arithmetic_functions.st:37 src/arithmetic_functions.rs:59
  ⟨"LOG__LREAL", [.input .LREAL], .LREAL, (.native [.val .f64] (.val .f64))⟩,  -- arithmetic_functions.st:37 src/arithmetic_functions.rs:68
  ⟨"EXP__REAL", [.input .REAL], .REAL, (.native [.val .f32] (.val .f32))⟩,  -- arithmetic_functions.st:45 src/arithmetic_functions.rs:77
  ⟨"EXP__LREAL", [.input .LREAL], .LREAL, (.native [.val .f64] (.val .f64))⟩,  -- arithmetic_functions.st:45 src/arithmetic_functions.rs:86
  ⟨"SIN__REAL", [.input .REAL], .REAL, (.native [.val .f32] (.val .f32))⟩,  -- arithmetic_functions.st:56 src/arithmetic_functions.rs:96
  ⟨"SIN__LREAL", [.input .LREAL], .LREAL, (.native [.val .f64] (.val .f64))⟩,  -- arithmetic_functions.st:56 src/arithmetic_functions.rs:105
  ⟨"COS__REAL", [.input .REAL], .REAL, (.native [.val .f32] (.val .f32))⟩,  -- arithmetic_functions.st:64 src/arithmetic_functions.rs:114
  ⟨"COS__LREAL", [.input .LREAL], .LREAL, (.native [.val .f64] (.val .f64))⟩,  -- arithmetic_functions.st:64 src/arithmetic_functions.rs:123
  ⟨"TAN__REAL", [.input .REAL], .REAL, (.native [.val .f32] (.val .f32))⟩,  -- arithmetic_functions.st:72 src/arithmetic_functions.rs:132
  ⟨"TAN__LREAL", [.input .LREAL], .LREAL, (.native [.val .f64] (.val .f64))⟩,  -- arithmetic_functions.st:72 src/arithmetic_functions.rs:141
  ⟨"ASIN__REAL", [.input .REAL], .REAL, (.native [.val .f32] (.val .f32))⟩,  -- arithmetic_functions.st:80 src/arithmetic_functions.rs:150
  ⟨"ASIN__LREAL", [.input .LREAL], .LREAL, (.native [.val .f64] (.val .f64))⟩,  -- arithmetic_functions.st:80 src/arithmetic_functions.rs:159
  ⟨"ACOS__REAL", [.input .REAL], .REAL, (.native [.val .f32] (.val .f32))⟩,  -- arithmetic_functions.st:88 src/arithmetic_functions.rs:168
  ⟨"ACOS__LREAL", [.input .LREAL], .LREAL, (.native [.val .f64] (.val .f64))⟩,  -- arithmetic_functions.st:88 src/arithmetic_functions.rs:178
  ⟨"ATAN__REAL", [.input .REAL], .REAL, (.native [.val .f32] (.val .f32))⟩,  -- arithmetic_functions.st:96 src/arithmetic_functions.rs:187
  ⟨"ATAN__LREAL", [.input .LREAL], .LREAL, (.native [.val .f64] (.val .f64))⟩,  -- arithmetic_functions.st:96 src/arithmetic_functions.rs:196
  ⟨"ATAN2__REAL", [.input .REAL, .input .REAL], .REAL, (.native [.val .f32, .val .f32] (.val .f32))⟩,  -- arithmetic_functions.st:104 src/arithmetic_functions.rs:206
  ⟨"ATAN2__LREAL", [.input .LREAL, .input .LREAL], .LREAL, (.native [.val .f64, .val .f64] (.val .f64))⟩,  -- arithmetic_functions.st:104 src/arithmetic_functions.rs:215
  ⟨"EXPT__REAL__SINT", [.input .REAL, .input .SINT], .REAL, (.st [.input .REAL, .input .SINT] .REAL)⟩,  -- arithmetic_functions.st:112 arithmetic_functions.st:202
  ⟨"EXPT__REAL__USINT", [.input .REAL, .input .USINT], .REAL, (.st [.input .REAL, .input .USINT] .REAL)⟩,  -- arithmetic_functions.st:112 arithmetic_functions.st:170
  ⟨"EXPT__REAL__INT", [.input .REAL, .input .INT], .REAL, (.st [.input .REAL, .input .INT] .REAL)⟩,  -- arithmetic_functions.st:112 arithmetic_functions.st:210
  ⟨"EXPT__REAL__UINT", [.input .REAL, .input .UINT], .REAL, (.st [.input .REAL, .input .UINT] .REAL)⟩,  -- arithmetic_functions.st:112 arithmetic_functions.st:178
  ⟨"EXPT__REAL__DINT", [.input .REAL, .input .DINT], .REAL, (.native [.val .f32, .val .i32] (.val .f32))⟩,  -- arithmetic_functions.st:112 src/arithmetic_functions.rs:221
  ⟨"EXPT__REAL__UDINT", [.input .REAL, .input .UDINT], .REAL, (.st [.input .REAL, .input .UDINT] .REAL)⟩,  -- arithmetic_functions.st:112 arithmetic_functions.st:186
  ⟨"EXPT__REAL__LINT", [.input .REAL, .input .LINT], .REAL, (.st [.input .REAL, .input .LINT] .REAL)⟩,  -- arithmetic_functions.st:112 arithmetic_functions.st:218
  ⟨"EXPT__REAL__ULINT", [.input .REAL, .input .ULINT], .REAL, (.st [.input .REAL, .input .ULINT] .REAL)⟩,  -- arithmetic_functions.st:112 arithmetic_functions.st:194
  ⟨"EXPT__REAL__REAL", [.input .REAL, .input .REAL], .REAL, (.native [.val .f32, .val .f32] (.val .f32))⟩,  -- arithmetic_functions.st:112 src/arithmetic_functions.rs:233
  ⟨"EXPT__REAL__LREAL", [.input .REAL, .input .LREAL], .REAL, (.native [.val .f32, .val .f64] (.val .f32))⟩,  -- arithmetic_functions.st:112 src/arithmetic_functions.rs:239
  ⟨"EXPT__LREAL__SINT", [.input .LREAL, .input .SINT], .LREAL, (.st [.input .LREAL, .input .SINT] .LREAL)⟩,  -- arithmetic_functions.st:112 arithmetic_functions.st:258
  ⟨"EXPT__LREAL__USINT", [.input .LREAL, .input .USINT], .LREAL, (.st [.input .LREAL, .input .USINT] .LREAL)⟩,  -- arithmetic_functions.st:112 arithmetic_functions.st:226
  ⟨"EXPT__LREAL__INT", [.input .LREAL, .input .INT], .LREAL, (.st [.input .LREAL, .input .INT] .LREAL)⟩,  -- arithmetic_functions.st:112 arithmetic_functions.st:266
  ⟨"EXPT__LREAL__UINT", [.input .LREAL, .input .UINT], .LREAL, (.st [.input .LREAL, .input .UINT] .LREAL)⟩,  -- arithmetic_functions.st:112 arithmetic_functions.st:234
  ⟨"EXPT__LREAL__DINT", [.input .LREAL, .input .DINT], .LREAL, (.native [.val .f64, .val .i32] (.val .f64))⟩,  -- arithmetic_functions.st:112 src/arithmetic_functions.rs:227
  ⟨"EXPT__LREAL__UDINT", [.input .LREAL, .input .UDINT], .LREAL, (.st [.input .LREAL, .input .UDINT] .LREAL)⟩,  -- arithmetic_functions.st:112 arithmetic_functions.st:242
  ⟨"EXPT__LREAL__LINT", [.input .LREAL, .input .LINT], .LREAL, (.st [.input .LREAL, .input .LINT] .LREAL)⟩,  -- arithmetic_functions.st:112 arithmetic_functions.st:274
  ⟨"EXPT__LREAL__ULINT", [.input .LREAL, .input .ULINT], .LREAL, (.st [.input .LREAL, .input .ULINT] .LREAL)⟩,  -- arithmetic_functions.st:112 arithmetic_functions.st:250
  ⟨"EXPT__LREAL__REAL", [.input .LREAL, .input .REAL], .LREAL, (.native [.val .f64, .val .f32] (.val .f64))⟩,  -- arithmetic_functions.st:112 src/arithmetic_functions.rs:247
  ⟨"EXPT__LREAL__LREAL", [.input .LREAL, .input .LREAL], .LREAL, (.native [.val .f64, .val .f64] (.val .f64))⟩,  -- arithmetic_functions.st:112 src/arithmetic_functions.rs:254
  ⟨"EXPT__REAL__DINT", [.input .REAL, .input .DINT], .REAL, (.native [.val .f32, .val .i32] (.val .f32))⟩,  -- arithmetic_functions.st:120 src/arithmetic_functions.rs:221
  ⟨"EXPT__REAL__REAL", [.input .REAL, .input .REAL], .REAL, (.native [.val .f32, .val .f32] (.val .f32))⟩,  -- arithmetic_functions.st:128 src/arithmetic_functions.rs:233
  ⟨"EXPT__REAL__LREAL", [.input .REAL, .input .LREAL], .REAL, (.native [.val .f32, .val .f64] (.val .f32))⟩,  -- arithmetic_functions.st:139 src/arithmetic_functions.rs:239
  ⟨"EXPT__LREAL__DINT", [.input .LREAL, .input .DINT], .LREAL, (.native [.val .f64, .val .i32] (.val .f64))⟩,  -- arithmetic_functions.st:147 src/arithmetic_functions.rs:227
  ⟨"EXPT__LREAL__REAL", [.input .LREAL, .input .REAL], .LREAL, (.native [.val .f64, .val .f32] (.val .f64))⟩,  -- arithmetic_functions.st:155 src/arithmetic_functions.rs:247
  ⟨"EXPT__LREAL__LREAL", [.input .LREAL, .input .LREAL], .LREAL, (.native [.val .f64, .val .f64] (.val .f64))⟩,  -- arithmetic_functions.st:163 src/arithmetic_functions.rs:254
  ⟨"LWORD_TO_LREAL", [.input .LWORD], .LREAL, (.native [.val .u64] (.val .f64))⟩,  -- bit_num_conversion.st:7 src/bit_num_conversion.rs:6
  ⟨"DWORD_TO_REAL", [.input .DWORD], .REAL, (.native [.val .u32] (.val .f32))⟩,  -- bit_num_conversion.st:115 src/bit_num_conversion.rs:15
  ⟨"LREAL_TO_LWORD", [.input .LREAL], .LWORD, (.native [.val .f64] (.val .u64))⟩,  -- bit_num_conversion.st:511 src/bit_num_conversion.rs:24
  ⟨"REAL_TO_DWORD", [.input .REAL], .DWORD, (.native [.val .f32] (.val .u32))⟩,  -- bit_num_conversion.st:523 src/bit_num_conversion.rs:33
  ⟨"SHL__BOOL", [.input .BOOL, .input .UDINT], .BOOL, .missing⟩,  -- bit_shift_functions.st:10 
  ⟨"SHL__BYTE", [.input .BYTE, .input .UDINT], .BYTE, (.native [.val .u8, .val .u32] (.val .u8))⟩,  -- bit_shift_functions.st:10 src/bit_shift_functions.rs:6
  ⟨"SHL__WORD", [.input .WORD, .input .UDINT], .WORD, (.native [.val .u16, .val .u32] (.val .u16))⟩,  -- bit_shift_functions.st:10 src/bit_shift_functions.rs:13
  ⟨"SHL__DWORD", [.input .DWORD, .input .UDINT], .DWORD, (.native [.val .u32, .val .u32] (.val .u32))⟩,  -- bit_shift_functions.st:10 src/bit_shift_functions.rs:20
  ⟨"SHL__LWORD", [.input .LWORD, .input .UDINT], .LWORD, (.native [.val .u64, .val .u32] (.val .u64))⟩,  -- bit_shift_functions.st:10 src/bit_shift_functions.rs:27
  ⟨"SHR__BOOL", [.input .BOOL, .input .UDINT], .BOOL, .missing⟩,  -- bit_shift_functions.st:29 
  ⟨"SHR__BYTE", [.input .BYTE, .input .UDINT], .BYTE, (.native [.val .u8, .val .u32] (.val .u8))⟩,  -- bit_shift_functions.st:29 src/bit_shift_functions.rs:34
  ⟨"SHR__WORD", [.input .WORD, .input .UDINT], .WORD, (.native [.val .u16, .val .u32] (.val .u16))⟩,  -- bit_shift_functions.st:29 src/bit_shift_functions.rs:41
  ⟨"SHR__DWORD", [.input .DWORD, .input .UDINT], .DWORD, (.native [.val .u32, .val .u32] (.val .u32))⟩,  -- bit_shift_functions.st:29 src/bit_shift_functions.rs:48
  ⟨"SHR__LWORD", [.input .LWORD, .input .UDINT], .LWORD, (.native [.val .u64, .val .u32] (.val .u64))⟩,  -- bit_shift_functions.st:29 src/bit_shift_functions.rs:55
  ⟨"ROL__BOOL", [.input .BOOL, .input .UDINT], .BOOL, .missing⟩,  -- bit_shift_functions.st:46 
  ⟨"ROL__BYTE", [.input .BYTE, .input .UDINT], .BYTE, (.native [.val .u8, .val .u32] (.val .u8))⟩,  -- bit_shift_functions.st:46 src/bit_shift_functions.rs:62
  ⟨"ROL__WORD", [.input .WORD, .input .UDINT], .WORD, (.native [.val .u16, .val .u32] (.val .u16))⟩,  -- bit_shift_functions.st:46 src/bit_shift_functions.rs:69
  ⟨"ROL__DWORD", [.input .DWORD, .input .UDINT], .DWORD, (.native [.val .u32, .val .u32] (.val .u32))⟩,  -- bit_shift_functions.st:46 src/bit_shift_functions.rs:76
  ⟨"ROL__LWORD", [.input .LWORD, .input .UDINT], .LWORD, (.native [.val .u64, .val .u32] (.val .u64))⟩,  -- bit_shift_functions.st:46 src/bit_shift_functions.rs:83
  ⟨"ROR__BOOL", [.input .BOOL, .input .UDINT], .BOOL, .missing⟩,  -- bit_shift_functions.st:63 
  ⟨"ROR__BYTE", [.input .BYTE, .input .UDINT], .BYTE, (.native [.val .u8, .val .u32] (.val .u8))⟩,  -- bit_shift_functions.st:63 src/bit_shift_functions.rs:90
  ⟨"ROR__WORD", [.input .WORD, .input .UDINT], .WORD, (.native [.val .u16, .val .u32] (.val .u16))⟩,  -- bit_shift_functions.st:63 src/bit_shift_functions.rs:97
  ⟨"ROR__DWORD", [.input .DWORD, .input .UDINT], .DWORD, (.native [.val .u32, .val .u32] (.val .u32))⟩,  -- bit_shift_functions.st:63 src/bit_shift_functions.rs:104
  ⟨"ROR__LWORD", [.input .LWORD, .input .UDINT], .LWORD, (.native [.val .u64, .val .u32] (.val .u64))⟩,  -- bit_shift_functions.st:63 src/bit_shift_functions.rs:111
  ⟨"DATE_AND_TIME_TO_DATE", [.input .DATE_AND_TIME], .DATE, (.native [.val .i64] (.val .i64))⟩,  -- date_time_conversion.st:7 src/date_time_conversion.rs:8
  ⟨"DATE_AND_TIME_TO_TIME_OF_DAY", [.input .DATE_AND_TIME], .TIME_OF_DAY, (.native [.val .i64] (.val .i64))⟩,  -- date_time_conversion.st:19 src/date_time_conversion.rs:23
  ⟨"CONCAT_DATE_TOD", [.input .DATE, .input .TIME_OF_DAY], .DATE_AND_TIME, (.native [.val .i64, .val .i64] (.val .i64))⟩,  -- date_time_extra_functions.st:7 src/date_time_extra_functions.rs:8
  ⟨"CONCAT_DATE__SINT", [.input .SINT, .input .SINT, .input .SINT], .DATE, .missing⟩,  -- date_time_extra_functions.st:33 
  ⟨"CONCAT_DATE__USINT", [.input .USINT, .input .USINT, .input .USINT], .DATE, .missing⟩,  -- date_time_extra_functions.st:33 
  ⟨"CONCAT_DATE__INT", [.input .INT, .input .INT, .input .INT], .DATE, (.native [.val .i16, .val .i16, .val .i16] (.val .i64))⟩,  -- date_time_extra_functions.st:33 src/date_time_extra_functions.rs:26
  ⟨"CONCAT_DATE__UINT", [.input .UINT, .input .UINT, .input .UINT], .DATE, (.native [.val .u16, .val .u16, .val .u16] (.val .i64))⟩,  -- date_time_extra_functions.st:33 src/date_time_extra_functions.rs:35
  ⟨"CONCAT_DATE__DINT", [.input .DINT, .input .DINT, .input .DINT], .DATE, (.native [.val .i32, .val .i32, .val .i32] (.val .i64))⟩,  -- date_time_extra_functions.st:33 src/date_time_extra_functions.rs:44
  ⟨"CONCAT_DATE__UDINT", [.input .UDINT, .input .UDINT, .input .UDINT], .DATE, (.native [.val .u32, .val .u32, .val .u32] (.val .i64))⟩,  -- date_time_extra_functions.st:33 src/date_time_extra_functions.rs:53
  ⟨"CONCAT_DATE__LINT", [.input .LINT, .input .LINT, .input .LINT], .DATE, (.native [.val .i64, .val .i64, .val .i64] (.val .i64))⟩,  -- date_time_extra_functions.st:33 src/date_time_extra_functions.rs:62
  ⟨"CONCAT_DATE__ULINT", [.input .ULINT, .input .ULINT, .input .ULINT], .DATE, (.native [.val .u64, .val .u64, .val .u64] (.val .i64))⟩,  -- date_time_extra_functions.st:33 src/date_time_extra_functions.rs:71
  ⟨"CONCAT_TOD__SINT", [.input .SINT, .input .SINT, .input .SINT, .input .SINT], .TIME_OF_DAY, (.native [.val .i8, .val .i8, .val .i8, .val .i8] (.val .i64))⟩,  -- date_time_extra_functions.st:47 src/date_time_extra_functions.rs:92
  ⟨"CONCAT_TOD__USINT", [.input .USINT, .input .USINT, .input .USINT, .input .USINT], .TIME_OF_DAY, (.native [.val .u8, .val .u8, .val .u8, .val .u8] (.val .i64))⟩,  -- date_time_extra_functions.st:47 src/date_time_extra_functions.rs:101
  ⟨"CONCAT_TOD__INT", [.input .INT, .input .INT, .input .INT, .input .INT], .TIME_OF_DAY, (.native [.val .i16, .val .i16, .val .i16, .val .i16] (.val .i64))⟩,  -- date_time_extra_functions.st:47 src/date_time_extra_functions.rs:110
  ⟨"CONCAT_TOD__UINT", [.input .UINT, .input .UINT, .input .UINT, .input .UINT], .TIME_OF_DAY, (.native [.val .u16, .val .u16, .val .u16, .val .u16] (.val .i64))⟩,  -- date_time_extra_functions.st:47 src/date_time_extra_functions.rs:119
  ⟨"CONCAT_TOD__DINT", [.input .DINT, .input .DINT, .input .DINT, .input .DINT], .TIME_OF_DAY, (.native [.val .i32, .val .i32, .val .i32, .val .i32] (.val .i64))⟩,  -- date_time_extra_functions.st:47 src/date_time_extra_functions.rs:128
  ⟨"CONCAT_TOD__UDINT", [.input .UDINT, .input .UDINT, .input .UDINT, .input .UDINT], .TIME_OF_DAY, (.native [.val .u32, .val .u32, .val .u32, .val .u32] (.val .i64))⟩,  -- date_time_extra_functions.st:47 src/date_time_extra_functions.rs:137
  ⟨"CONCAT_TOD__LINT", [.input .LINT, .input .LINT, .input .LINT, .input .LINT], .TIME_OF_DAY, (.native [.val .i64, .val .i64, .val .i64, .val .i64] (.val .i64))⟩,  -- date_time_extra_functions.st:47 src/date_time_extra_functions.rs:146
  ⟨"CONCAT_TOD__ULINT", [.input .ULINT, .input .ULINT, .input .ULINT, .input .ULINT], .TIME_OF_DAY, (.native [.val .u64, .val .u64, .val .u64, .val .u64] (.val .i64))⟩,  -- date_time_extra_functions.st:47 src/date_time_extra_functions.rs:155
  ⟨"CONCAT_LTOD__SINT", [.input .SINT, .input .SINT, .input .SINT, .input .SINT], .TIME_OF_DAY, (.st [.input .SINT, .input .SINT, .input .SINT, .input .SINT] .TIME_OF_DAY)⟩,  -- date_time_extra_functions.st:61 date_time_extra_functions.st:71
  ⟨"CONCAT_LTOD__USINT", [.input .USINT, .input .USINT, .input .USINT, .input .USINT], .TIME_OF_DAY, (.st [.input .USINT, .input .USINT, .input .USINT, .input .USINT] .TIME_OF_DAY)⟩,  -- date_time_extra_functions.st:61 date_time_extra_functions.st:82
  ⟨"CONCAT_LTOD__INT", [.input .INT, .input .INT, .input .INT, .input .INT], .TIME_OF_DAY, (.st [.input .INT, .input .INT, .input .INT, .input .INT] .TIME_OF_DAY)⟩,  -- date_time_extra_functions.st:61 date_time_extra_functions.st:93
  ⟨"CONCAT_LTOD__UINT", [.input .UINT, .input .UINT, .input .UINT, .input .UINT], .TIME_OF_DAY, (.st [.input .UINT, .input .UINT, .input .UINT, .input .UINT] .TIME_OF_DAY)⟩,  -- date_time_extra_functions.st:61 date_time_extra_functions.st:104
  ⟨"CONCAT_LTOD__DINT", [.input .DINT, .input .DINT, .input .DINT, .input .DINT], .TIME_OF_DAY, (.st [.input .DINT, .input .DINT, .input .DINT, .input .DINT] .TIME_OF_DAY)⟩,  -- date_time_extra_functions.st:61 date_time_extra_functions.st:115
  ⟨"CONCAT_LTOD__UDINT", [.input .UDINT, .input .UDINT, .input .UDINT, .input .UDINT], .TIME_OF_DAY, (.st [.input .UDINT, .input .UDINT, .input .UDINT, .input .UDINT] .TIME_OF_DAY)⟩,  -- date_time_extra_functions.st:61 date_time_extra_functions.st:126
  ⟨"CONCAT_LTOD__LINT", [.input .LINT, .input .LINT, .input .LINT, .input .LINT], .TIME_OF_DAY, (.st [.input .LINT, .input .LINT, .input .LINT, .input .LINT] .TIME_OF_DAY)⟩,  -- date_time_extra_functions.st:61 date_time_extra_functions.st:137
  ⟨"CONCAT_LTOD__ULINT", [.input .ULINT, .input .ULINT, .input .ULINT, .input .ULINT], .TIME_OF_DAY, (.st [.input .ULINT, .input .ULINT, .input .ULINT, .input .ULINT] .TIME_OF_DAY)⟩,  -- date_time_extra_functions.st:61 date_time_extra_functions.st:148
  ⟨"CONCAT_DT__SINT", [.input .SINT, .input .SINT, .input .SINT, .input .SINT, .input .SINT, .input .SINT, .input .SINT], .DATE_AND_TIME, .missing⟩,  -- date_time_extra_functions.st:163 
  ⟨"CONCAT_DT__USINT", [.input .USINT, .input .USINT, .input .USINT, .input .USINT, .input .USINT, .input .USINT, .input .USINT], .DATE_AND_TIME, .missing⟩,  -- date_time_extra_functions.st:163 
  ⟨"CONCAT_DT__INT", [.input .INT, .input .INT, .input .INT, .input .INT, .input .INT, .input .INT, .input .INT], .DATE_AND_TIME, (.st [.input .INT, .input .INT, .input .INT, .input .INT, .input .INT, .input .INT, .input .INT] .DATE_AND_TIME)⟩,  -- date_time_extra_functions.st:163 date_time_extra_functions.st:176
  ⟨"CONCAT_DT__UINT", [.input .UINT, .input .UINT, .input .UINT, .input .UINT, .input .UINT, .input .UINT, .input .UINT], .DATE_AND_TIME, (.st [.input .UINT, .input .UINT, .input .UINT, .input .UINT, .input .UINT, .input .UINT, .input .UINT] .DATE_AND_TIME)⟩,  -- date_time_extra_functions.st:163 date_time_extra_functions.st:190
  ⟨"CONCAT_DT__DINT", [.input .DINT, .input .DINT, .input .DINT, .input .DINT, .input .DINT, .input .DINT, .input .DINT], .DATE_AND_TIME, (.st [.input .DINT, .input .DINT, .input .DINT, .input .DINT, .input .DINT, .input .DINT, .input .DINT] .DATE_AND_TIME)⟩,  -- date_time_extra_functions.st:163 date_time_extra_functions.st:204
  ⟨"CONCAT_DT__UDINT", [.input .UDINT, .input .UDINT, .input .UDINT, .input .UDINT, .input .UDINT, .input .UDINT, .input .UDINT], .DATE_AND_TIME, (.st [.input .UDINT, .input .UDINT, .input .UDINT, .input .UDINT, .input .UDINT, .input .UDINT, .input .UDINT] .DATE_AND_TIME)⟩,  -- date_time_extra_functions.st:163 date_time_extra_functions.st:218
  ⟨"CONCAT_DT__LINT", [.input .LINT, .input .LINT, .input .LINT, .input .LINT, .input .LINT, .input .LINT, .input .LINT], .DATE_AND_TIME, (.st [.input .LINT, .input .LINT, .input .LINT, .input .LINT, .input .LINT, .input .LINT, .input .LINT] .DATE_AND_TIME)⟩,  -- date_time_extra_functions.st:163 date_time_extra_functions.st:232
  ⟨"CONCAT_DT__ULINT", [.input .ULINT, .input .ULINT, .input .ULINT, .input .ULINT, .input .ULINT, .input .ULINT, .input .ULINT], .DATE_AND_TIME, (.st [.input .ULINT, .input .ULINT, .input .ULINT, .input .ULINT, .input .ULINT, .input .ULINT, .input .ULINT] .DATE_AND_TIME)⟩,  -- date_time_extra_functions.st:163 date_time_extra_functions.st:246
  ⟨"CONCAT_LDT__SINT", [.input .SINT, .input .SINT, .input .SINT, .input .SINT, .input .SINT, .input .SINT, .input .SINT], .DATE_AND_TIME, .missing⟩,  -- date_time_extra_functions.st:264 
  ⟨"CONCAT_LDT__USINT", [.input .USINT, .input .USINT, .input .USINT, .input .USINT, .input .USINT, .input .USINT, .input .USINT], .DATE_AND_TIME, .missing⟩,  -- date_time_extra_functions.st:264 
  ⟨"CONCAT_LDT__INT", [.input .INT, .input .INT, .input .INT, .input .INT, .input .INT, .input .INT, .input .INT], .DATE_AND_TIME, (.st [.input .INT, .input .INT, .input .INT, .input .INT, .input .INT, .input .INT, .input .INT] .DATE_AND_TIME)⟩,  -- date_time_extra_functions.st:264 date_time_extra_functions.st:277
  ⟨"CONCAT_LDT__UINT", [.input .UINT, .input .UINT, .input .UINT, .input .UINT, .input .UINT, .input .UINT, .input .UINT], .DATE_AND_TIME, (.st [.input .UINT, .input .UINT, .input .UINT, .input .UINT, .input .UINT, .input .UINT, .input .UINT] .DATE_AND_TIME)⟩,  -- date_time_extra_functions.st:264 date_time_extra_functions.st:291
  ⟨"CONCAT_LDT__DINT", [.input .DINT, .input .DINT, .input .DINT, .input .DINT, .input .DINT, .input .DINT, .input .DINT], .DATE_AND_TIME, (.st [.input .DINT, .input .DINT, .input .DINT, .input .DINT, .input .DINT, .input .DINT, .input .DINT] .DATE_AND_TIME)⟩,  -- date_time_extra_functions.st:264 date_time_extra_functions.st:305
  ⟨"CONCAT_LDT__UDINT", [.input .UDINT, .input .UDINT, .input .UDINT, .input .UDINT, .input .UDINT, .input .UDINT, .input .UDINT], .DATE_AND_TIME, (.st [.input .UDINT, .input .UDINT, .input .UDINT, .input .UDINT, .input .UDINT, .input .UDINT, .input .UDINT] .DATE_AND_TIME)⟩,  -- date_time_extra_functions.st:264 date_time_extra_functions.st:319
  ⟨"CONCAT_LDT__LINT", [.input .LINT, .input .LINT, .input .LINT, .input .LINT, .input .LINT, .input .LINT, .input .LINT], .DATE_AND_TIME, (.st [.input .LINT, .input .LINT, .input .LINT, .input .LINT, .input .LINT, .input .LINT, .input .LINT] .DATE_AND_TIME)⟩,  -- date_time_extra_functions.st:264 date_time_extra_functions.st:333
  ⟨"CONCAT_LDT__ULINT", [.input .ULINT, .input .ULINT, .input .ULINT, .input .ULINT, .input .ULINT, .input .ULINT, .input .ULINT], .DATE_AND_TIME, (.st [.input .ULINT, .input .ULINT, .input .ULINT, .input .ULINT, .input .ULINT, .input .ULINT, .input .ULINT] .DATE_AND_TIME)⟩,  -- date_time_extra_functions.st:264 date_time_extra_functions.st:347
  ⟨"SPLIT_DATE__SINT", [.input .DATE, .output .SINT, .output .SINT, .output .SINT], .INT, .missing⟩,  -- date_time_extra_functions.st:365 
  ⟨"SPLIT_DATE__USINT", [.input .DATE, .output .USINT, .output .USINT, .output .USINT], .INT, .missing⟩,  -- date_time_extra_functions.st:365 
  ⟨"SPLIT_DATE__INT", [.input .DATE, .output .INT, .output .INT, .output .INT], .INT, (.native [.val .i64, .mutPtr .i16, .mutPtr .i16, .mutPtr .i16] (.val .i16))⟩,  -- date_time_extra_functions.st:365 src/date_time_extra_functions.rs:176
  ⟨"SPLIT_DATE__UINT", [.input .DATE, .output .UINT, .output .UINT, .output .UINT], .INT, (.native [.val .i64, .mutPtr .u16, .mutPtr .u16, .mutPtr .u16] (.val .i16))⟩,  -- date_time_extra_functions.st:365 src/date_time_extra_functions.rs:192
  ⟨"SPLIT_DATE__DINT", [.input .DATE, .output .DINT, .output .DINT, .output .DINT], .INT, (.native [.val .i64, .mutPtr .i32, .mutPtr .i32, .mutPtr .i32] (.val .i16))⟩,  -- date_time_extra_functions.st:365 src/date_time_extra_functions.rs:212
  ⟨"SPLIT_DATE__UDINT", [.input .DATE, .output .UDINT, .output .UDINT, .output .UDINT], .INT, (.native [.val .i64, .mutPtr .u32, .mutPtr .u32, .mutPtr .u32] (.val .i16))⟩,  -- date_time_extra_functions.st:365 src/date_time_extra_functions.rs:231
  ⟨"SPLIT_DATE__LINT", [.input .DATE, .output .LINT, .output .LINT, .output .LINT], .INT, (.native [.val .i64, .mutPtr .i64, .mutPtr .i64, .mutPtr .i64] (.val .i16))⟩,  -- date_time_extra_functions.st:365 src/date_time_extra_functions.rs:251
  ⟨"SPLIT_DATE__ULINT", [.input .DATE, .output .ULINT, .output .ULINT, .output .ULINT], .INT, (.native [.val .i64, .mutPtr .u64, .mutPtr .u64, .mutPtr .u64] (.val .i16))⟩,  -- date_time_extra_functions.st:365 src/date_time_extra_functions.rs:272
  ⟨"SPLIT_DATE__INT", [.input .DATE, .output .INT, .output .INT, .output .INT], .INT, (.native [.val .i64, .mutPtr .i16, .mutPtr .i16, .mutPtr .i16] (.val .i16))⟩,  -- date_time_extra_functions.st:378 src/date_time_extra_functions.rs:176
  ⟨"SPLIT_DATE__UINT", [.input .DATE, .output .UINT, .output .UINT, .output .UINT], .INT, (.native [.val .i64, .mutPtr .u16, .mutPtr .u16, .mutPtr .u16] (.val .i16))⟩,  -- date_time_extra_functions.st:391 src/date_time_extra_functions.rs:192
  ⟨"SPLIT_DATE__DINT", [.input .DATE, .output .DINT, .output .DINT, .output .DINT], .INT, (.native [.val .i64, .mutPtr .i32, .mutPtr .i32, .mutPtr .i32] (.val .i16))⟩,  -- date_time_extra_functions.st:404 src/date_time_extra_functions.rs:212
  ⟨"SPLIT_DATE__UDINT", [.input .DATE, .output .UDINT, .output .UDINT, .output .UDINT], .INT, (.native [.val .i64, .mutPtr .u32, .mutPtr .u32, .mutPtr .u32] (.val .i16))⟩,  -- date_time_extra_functions.st:417 src/date_time_extra_functions.rs:231
  ⟨"SPLIT_DATE__LINT", [.input .DATE, .output .LINT, .output .LINT, .output .LINT], .INT, (.native [.val .i64, .mutPtr .i64, .mutPtr .i64, .mutPtr .i64] (.val .i16))⟩,  -- date_time_extra_functions.st:430 src/date_time_extra_functions.rs:251
  ⟨"SPLIT_DATE__ULINT", [.input .DATE, .output .ULINT, .output .ULINT, .output .ULINT], .INT, (.native [.val .i64, .mutPtr .u64, .mutPtr .u64, .mutPtr .u64] (.val .i16))⟩,  -- date_time_extra_functions.st:443 src/date_time_extra_functions.rs:272
  ⟨"SPLIT_TOD__SINT", [.input .TIME_OF_DAY, .output .SINT, .output .SINT, .output .SINT, .output .SINT], .INT, .missing⟩,  -- date_time_extra_functions.st:459 
  ⟨"SPLIT_TOD__USINT", [.input .TIME_OF_DAY, .output .USINT, .output .USINT, .output .USINT, .output .USINT], .INT, .missing⟩,  -- date_time_extra_functions.st:459 
  ⟨"SPLIT_TOD__INT", [.input .TIME_OF_DAY, .output .INT, .output .INT, .output .INT, .output .INT], .INT, (.native [.val .i64, .mutPtr .i16, .mutPtr .i16, .mutPtr .i16, .mutPtr .i16] (.val .i16))⟩,  -- date_time_extra_functions.st:459 src/date_time_extra_functions.rs:292
  ⟨"SPLIT_TOD__UINT", [.input .TIME_OF_DAY, .output .UINT, .output .UINT, .output .UINT, .output .UINT], .INT, (.native [.val .i64, .mutPtr .u16, .mutPtr .u16, .mutPtr .u16, .mutPtr .u16] (.val .i16))⟩,  -- date_time_extra_functions.st:459 src/date_time_extra_functions.rs:313
  ⟨"SPLIT_TOD__DINT", [.input .TIME_OF_DAY, .output .DINT, .output .DINT, .output .DINT, .output .DINT], .INT, (.native [.val .i64, .mutPtr .i32, .mutPtr .i32, .mutPtr .i32, .mutPtr .i32] (.val .i16))⟩,  -- date_time_extra_functions.st:459 src/date_time_extra_functions.rs:334
  ⟨"SPLIT_TOD__UDINT", [.input .TIME_OF_DAY, .output .UDINT, .output .UDINT, .output .UDINT, .output .UDINT], .INT, (.native [.val .i64, .mutPtr .u32, .mutPtr .u32, .mutPtr .u32, .mutPtr .u32] (.val .i16))⟩,  -- date_time_extra_functions.st:459 src/date_time_extra_functions.rs:355
  ⟨"SPLIT_TOD__LINT", [.input .TIME_OF_DAY, .output .LINT, .output .LINT, .output .LINT, .output .LINT], .INT, (.native [.val .i64, .mutPtr .i64, .mutPtr .i64, .mutPtr .i64, .mutPtr .i64] (.val .i16))⟩,  -- date_time_extra_functions.st:459 src/date_time_extra_functions.rs:376
  ⟨"SPLIT_TOD__ULINT", [.input .TIME_OF_DAY, .output .ULINT, .output .ULINT, .output .ULINT, .output .ULINT], .INT, (.native [.val .i64, .mutPtr .u64, .mutPtr .u64, .mutPtr .u64, .mutPtr .u64] (.val .i16))⟩,  -- date_time_extra_functions.st:459 src/date_time_extra_functions.rs:397
  ⟨"SPLIT_TOD__INT", [.input .TIME_OF_DAY, .output .INT, .output .INT, .output .INT, .output .INT], .INT, (.native [.val .i64, .mutPtr .i16, .mutPtr .i16, .mutPtr .i16, .mutPtr .i16] (.val .i16))⟩,  -- date_time_extra_functions.st:473 src/date_time_extra_functions.rs:292
  ⟨"SPLIT_TOD__UINT", [.input .TIME_OF_DAY, .output .UINT, .output .UINT, .output .UINT, .output .UINT], .INT, (.native [.val .i64, .mutPtr .u16, .mutPtr .u16, .mutPtr .u16, .mutPtr .u16] (.val .i16))⟩,  -- date_time_extra_functions.st:487 src/date_time_extra_functions.rs:313
  ⟨"SPLIT_TOD__DINT", [.input .TIME_OF_DAY, .output .DINT, .output .DINT, .output .DINT, .output .DINT], .INT, (.native [.val .i64, .mutPtr .i32, .mutPtr .i32, .mutPtr .i32, .mutPtr .i32] (.val .i16))⟩,  -- date_time_extra_functions.st:501 src/date_time_extra_functions.rs:334
  ⟨"SPLIT_TOD__UDINT", [.input .TIME_OF_DAY, .output .UDINT, .output .UDINT, .output .UDINT, .output .UDINT], .INT, (.native [.val .i64, .mutPtr .u32, .mutPtr .u32, .mutPtr .u32, .mutPtr .u32] (.val .i16))⟩,  -- date_time_extra_functions.st:515 src/date_time_extra_functions.rs:355
  ⟨"SPLIT_TOD__LINT", [.input .TIME_OF_DAY, .output .LINT, .output .LINT, .output .LINT, .output .LINT], .INT, (.native [.val .i64, .mutPtr .i64, .mutPtr .i64, .mutPtr .i64, .mutPtr .i64] (.val .i16))⟩,  -- date_time_extra_functions.st:529 src/date_time_extra_functions.rs:376
  ⟨"SPLIT_TOD__ULINT", [.input .TIME_OF_DAY, .output .ULINT, .output .ULINT, .output .ULINT, .output .ULINT], .INT, (.native [.val .i64, .mutPtr .u64, .mutPtr .u64, .mutPtr .u64, .mutPtr .u64] (.val .i16))⟩,  -- date_time_extra_functions.st:543 src/date_time_extra_functions.rs:397
  ⟨"SPLIT_LTOD__SINT", [.input .TIME_OF_DAY, .output .SINT, .output .SINT, .output .SINT, .output .SINT], .INT, .missing⟩,  -- date_time_extra_functions.st:560 
  ⟨"SPLIT_LTOD__USINT", [.input .TIME_OF_DAY, .output .USINT, .output .USINT, .output .USINT, .output .USINT], .INT, .missing⟩,  -- date_time_extra_functions.st:560 
  ⟨"SPLIT_LTOD__INT", [.input .TIME_OF_DAY, .output .INT, .output .INT, .output .INT, .output .INT], .INT, (.st [.input .TIME_OF_DAY, .output .INT, .output .INT, .output .INT, .output .INT] .INT)⟩,  -- date_time_extra_functions.st:560 date_time_extra_functions.st:573
  ⟨"SPLIT_LTOD__UINT", [.input .TIME_OF_DAY, .output .UINT, .output .UINT, .output .UINT, .output .UINT], .INT, (.st [.input .TIME_OF_DAY, .output .UINT, .output .UINT, .output .UINT, .output .UINT] .INT)⟩,  -- date_time_extra_functions.st:560 date_time_extra_functions.st:587
  ⟨"SPLIT_LTOD__DINT", [.input .TIME_OF_DAY, .output .DINT, .output .DINT, .output .DINT, .output .DINT], .INT, (.st [.input .TIME_OF_DAY, .output .DINT, .output .DINT, .output .DINT, .output .DINT] .INT)⟩,  -- date_time_extra_functions.st:560 date_time_extra_functions.st:601
  ⟨"SPLIT_LTOD__UDINT", [.input .TIME_OF_DAY, .output .UDINT, .output .UDINT, .output .UDINT, .output .UDINT], .INT, (.st [.input .TIME_OF_DAY, .output .UDINT, .output .UDINT, .output .UDINT, .output .UDINT] .INT)⟩,  -- date_time_extra_functions.st:560 date_time_extra_functions.st:615
  ⟨"SPLIT_LTOD__LINT", [.input .TIME_OF_DAY, .output .LINT, .output .LINT, .output .LINT, .output .LINT], .INT, (.st [.input .TIME_OF_DAY, .output .LINT, .output .LINT, .output .LINT, .output .LINT] .INT)⟩,  -- date_time_extra_functions.st:560 date_time_extra_functions.st:629
  ⟨"SPLIT_LTOD__ULINT", [.input .TIME_OF_DAY, .output .ULINT, .output .ULINT, .output .ULINT, .output .ULINT], .INT, (.st [.input .TIME_OF_DAY, .output .ULINT, .output .ULINT, .output .ULINT, .output .ULINT] .INT)⟩,  -- date_time_extra_functions.st:560 date_time_extra_functions.st:643
  ⟨"SPLIT_DT__SINT", [.input .DATE_AND_TIME, .output .SINT, .output .SINT, .output .SINT, .output .SINT, .output .SINT, .output .SINT, .output .SINT], .INT, .missing⟩,  -- date_time_extra_functions.st:661 
  ⟨"SPLIT_DT__USINT", [.input .DATE_AND_TIME, .output .USINT, .output .USINT, .output .USINT, .output .USINT, .output .USINT, .output .USINT, .output .USINT], .INT, .missing⟩,  -- date_time_extra_functions.st:661 
  ⟨"SPLIT_DT__INT", [.input .DATE_AND_TIME, .output .INT, .output .INT, .output .INT, .output .INT, .output .INT, .output .INT, .output .INT], .INT, (.native [.val .i64, .mutPtr .i16, .mutPtr .i16, .mutPtr .i16, .mutPtr .i16, .mutPtr .i16, .mutPtr .i16, .mutPtr .i16] (.val .i16))⟩,  -- date_time_extra_functions.st:661 src/date_time_extra_functions.rs:418
  ⟨"SPLIT_DT__UINT", [.input .DATE_AND_TIME, .output .UINT, .output .UINT, .output .UINT, .output .UINT, .output .UINT, .output .UINT, .output .UINT], .INT, (.native [.val .i64, .mutPtr .u16, .mutPtr .u16, .mutPtr .u16, .mutPtr .u16, .mutPtr .u16, .mutPtr .u16, .mutPtr .u16] (.val .i16))⟩,  -- date_time_extra_functions.st:661 src/date_time_extra_functions.rs:446
  ⟨"SPLIT_DT__DINT", [.input .DATE_AND_TIME, .output .DINT, .output .DINT, .output .DINT, .output .DINT, .output .DINT, .output .DINT, .output .DINT], .INT, (.native [.val .i64, .mutPtr .i32, .mutPtr .i32, .mutPtr .i32, .mutPtr .i32, .mutPtr .i32, .mutPtr .i32, .mutPtr .i32] (.val .i16))⟩,  -- date_time_extra_functions.st:661 src/date_time_extra_functions.rs:474
  ⟨"SPLIT_DT__UDINT", [.input .DATE_AND_TIME, .output .UDINT, .output .UDINT, .output .UDINT, .output .UDINT, .output .UDINT, .output .UDINT, .output .UDINT], .INT, (.native [.val .i64, .mutPtr .u32, .mutPtr .u32, .mutPtr .u32, .mutPtr .u32, .mutPtr .u32, .mutPtr .u32, .mutPtr .u32] (.val .i16))⟩,  -- date_time_extra_functions.st:661 src/date_time_extra_functions.rs:501
  ⟨"SPLIT_DT__LINT", [.input .DATE_AND_TIME, .output .LINT, .output .LINT, .output .LINT, .output .LINT, .output .LINT, .output .LINT, .output .LINT], .INT, (.native [.val .i64, .mutPtr .i64, .mutPtr .i64, .mutPtr .i64, .mutPtr .i64, .mutPtr .i64, .mutPtr .i64, .mutPtr .i64] (.val .i16))⟩,  -- date_time_extra_functions.st:661 src/date_time_extra_functions.rs:529
  ⟨"SPLIT_DT__ULINT", [.input .DATE_AND_TIME, .output .ULINT, .output .ULINT, .output .ULINT, .output .ULINT, .output .ULINT, .output .ULINT, .output .ULINT], .INT, (.native [.val .i64, .mutPtr .u64, .mutPtr .u64, .mutPtr .u64, .mutPtr .u64, .mutPtr .u64, .mutPtr .u64, .mutPtr .u64] (.val .i16))⟩,  -- date_time_extra_functions.st:661 src/date_time_extra_functions.rs:557
  ⟨"SPLIT_DT__INT", [.input .DATE_AND_TIME, .output .INT, .output .INT, .output .INT, .output .INT, .output .INT, .output .INT, .output .INT], .INT, (.native [.val .i64, .mutPtr .i16, .mutPtr .i16, .mutPtr .i16, .mutPtr .i16, .mutPtr .i16, .mutPtr .i16, .mutPtr .i16] (.val .i16))⟩,  -- date_time_extra_functions.st:678 src/date_time_extra_functions.rs:418
  ⟨"SPLIT_DT__UINT", [.input .DATE_AND_TIME, .output .UINT, .output .UINT, .output .UINT, .output .UINT, .output .UINT, .output .UINT, .output .UINT], .INT, (.native [.val .i64, .mutPtr .u16, .mutPtr .u16, .mutPtr .u16, .mutPtr .u16, .mutPtr .u16, .mutPtr .u16, .mutPtr .u16] (.val .i16))⟩,  -- date_time_extra_functions.st:695 src/date_time_extra_functions.rs:446
  ⟨"SPLIT_DT__DINT", [.input .DATE_AND_TIME, .output .DINT, .output .DINT, .output .DINT, .output .DINT, .output .DINT, .output .DINT, .output .DINT], .INT, (.native [.val .i64, .mutPtr .i32, .mutPtr .i32, .mutPtr .i32, .mutPtr .i32, .mutPtr .i32, .mutPtr .i32, .mutPtr .i32] (.val .i16))⟩,  -- date_time_extra_functions.st:712 src/date_time_extra_functions.rs:474
  ⟨"SPLIT_DT__UDINT", [.input .DATE_AND_TIME, .output .UDINT, .output .UDINT, .output .UDINT, .output .UDINT, .output .UDINT, .output .UDINT, .output .UDINT], .INT, (.native [.val .i64, .mutPtr .u32, .mutPtr .u32, .mutPtr .u32, .mutPtr .u32, .mutPtr .u32, .mutPtr .u32, .mutPtr .u32] (.val .i16))⟩,  -- date_time_extra_functions.st:729 src/date_time_extra_functions.rs:501
  ⟨"SPLIT_DT__LINT", [.input .DATE_AND_TIME, .output .LINT, .output .LINT, .output .LINT, .output .LINT, .output .LINT, .output .LINT, .output .LINT], .INT, (.native [.val .i64, .mutPtr .i64, .mutPtr .i64, .mutPtr .i64, .mutPtr .i64, .mutPtr .i64, .mutPtr .i64, .mutPtr .i64] (.val .i16))⟩,  -- date_time_extra_functions.st:746 src/date_time_extra_functions.rs:529
  ⟨"SPLIT_DT__ULINT", [.input .DATE_AND_TIME, .output .ULINT, .output .ULINT, .output .ULINT, .output .ULINT, .output .ULINT, .output .ULINT, .output .ULINT], .INT, (.native [.val .i64, .mutPtr .u64, .mutPtr .u64, .mutPtr .u64, .mutPtr .u64, .mutPtr .u64, .mutPtr .u64, .mutPtr .u64] (.val .i16))⟩,  -- date_time_extra_functions.st:763 src/date_time_extra_functions.rs:557
  ⟨"SPLIT_LDT__SINT", [.input .DATE_AND_TIME, .output .SINT, .output .SINT, .output .SINT, .output .SINT, .output .SINT, .output .SINT, .output .SINT], .INT, .missing⟩,  -- date_time_extra_functions.st:783 
  ⟨"SPLIT_LDT__USINT", [.input .DATE_AND_TIME, .output .USINT, .output .USINT, .output .USINT, .output .USINT, .output .USINT, .output .USINT, .output .USINT], .INT, .missing⟩,  -- date_time_extra_functions.st:783 
  ⟨"SPLIT_LDT__INT", [.input .DATE_AND_TIME, .output .INT, .output .INT, .output .INT, .output .INT, .output .INT, .output .INT, .output .INT], .INT, .missing⟩,  -- date_time_extra_functions.st:783 
  ⟨"SPLIT_LDT__UINT", [.input .DATE_AND_TIME, .output .UINT, .output .UINT, .output .UINT, .output .UINT, .output .UINT, .output .UINT, .output .UINT], .INT, .missing⟩,  -- date_time_extra_functions.st:783 
  ⟨"SPLIT_LDT__DINT", [.input .DATE_AND_TIME, .output .DINT, .output .DINT, .output .DINT, .output .DINT, .output .DINT, .output .DINT, .output .DINT], .INT, .missing⟩,  -- date_time_extra_functions.st:783 
  ⟨"SPLIT_LDT__UDINT", [.input .DATE_AND_TIME, .output .UDINT, .output .UDINT, .output .UDINT, .output .UDINT, .output .UDINT, .output .UDINT, .output .UDINT], .INT, .missing⟩,  -- date_time_extra_functions.st:783 
  ⟨"SPLIT_LDT__LINT", [.input .DATE_AND_TIME, .output .LINT, .output .LINT, .output .LINT, .output .LINT, .output .LINT, .output .LINT, .output .LINT], .INT, .missing⟩,  -- date_time_extra_functions.st:783 
  ⟨"SPLIT_LDT__ULINT", [.input .DATE_AND_TIME, .output .ULINT, .output .ULINT, .output .ULINT, .output .ULINT, .output .ULINT, .output .ULINT, .output .ULINT], .INT, .missing⟩,  -- date_time_extra_functions.st:783 
  ⟨"SPLIT_LDT__INT", [.input .DATE_AND_TIME, .output .INT, .output .INT, .output .INT, .output .INT, .output .INT, .output .INT, .output .INT], .INT, .missing⟩,  -- date_time_extra_functions.st:800 
  ⟨"SPLIT_LDT__UINT", [.input .DATE_AND_TIME, .output .UINT, .output .UINT, .output .UINT, .output .UINT, .output .UINT, .output .UINT, .output .UINT], .INT, .missing⟩,  -- date_time_extra_functions.st:818 
  ⟨"SPLIT_LDT__DINT", [.input .DATE_AND_TIME, .output .DINT, .output .DINT, .output .DINT, .output .DINT, .output .DINT, .output .DINT, .output .DINT], .INT, .missing⟩,  -- date_time_extra_functions.st:836 
  ⟨"SPLIT_LDT__UDINT", [.input .DATE_AND_TIME, .output .UDINT, .output .UDINT, .output .UDINT, .output .UDINT, .output .UDINT, .output .UDINT, .output .UDINT], .INT, .missing⟩,  -- date_time_extra_functions.st:854 
  ⟨"SPLIT_LDT__LINT", [.input .DATE_AND_TIME, .output .LINT, .output .LINT, .output .LINT, .output .LINT, .output .LINT, .output .LINT, .output .LINT], .INT, .missing⟩,  -- date_time_extra_functions.st:872 
  ⟨"SPLIT_LDT__ULINT", [.input .DATE_AND_TIME, .output .ULINT, .output .ULINT, .output .ULINT, .output .ULINT, .output .ULINT, .output .ULINT, .output .ULINT], .INT, .missing⟩,  -- date_time_extra_functions.st:890 
  ⟨"DAY_OF_WEEK", [.input .DATE], .SINT, (.native [.val .i64] (.val .i8))⟩,  -- date_time_extra_functions.st:913 src/date_time_extra_functions.rs:585
  ⟨"ADD_TIME", [.input .TIME, .input .TIME], .TIME, (.native [.val .i64, .val .i64] (.val .i64))⟩,  -- date_time_numeric_functions.st:28 src/date_time_numeric_functions.rs:9
  ⟨"ADD_TOD_TIME", [.input .TIME_OF_DAY, .input .TIME], .TIME_OF_DAY, (.native [.val .i64, .val .i64] (.val .i64))⟩,  -- date_time_numeric_functions.st:64 src/date_time_numeric_functions.rs:23
  ⟨"ADD_DT_TIME", [.input .DATE_AND_TIME, .input .TIME], .DATE_AND_TIME, (.native [.val .i64, .val .i64] (.val .i64))⟩,  -- date_time_numeric_functions.st:101 src/date_time_numeric_functions.rs:33
  ⟨"SUB_TIME", [.input .TIME, .input .TIME], .TIME, (.native [.val .i64, .val .i64] (.val .i64))⟩,  -- date_time_numeric_functions.st:149 src/date_time_numeric_functions.rs:51
  ⟨"SUB_DATE_DATE", [.input .DATE, .input .DATE], .TIME, (.native [.val .i64, .val .i64] (.val .i64))⟩,  -- date_time_numeric_functions.st:185 src/date_time_numeric_functions.rs:65
  ⟨"SUB_TOD_TIME", [.input .TIME_OF_DAY, .input .TIME], .TIME_OF_DAY, (.native [.val .i64, .val .i64] (.val .i64))⟩,  -- date_time_numeric_functions.st:222 src/date_time_numeric_functions.rs:75
  ⟨"SUB_TOD_TOD", [.input .TIME_OF_DAY, .input .TIME_OF_DAY], .TIME, (.native [.val .i64, .val .i64] (.val .i64))⟩,  -- date_time_numeric_functions.st:259 src/date_time_numeric_functions.rs:85
  ⟨"SUB_DT_TIME", [.input .DATE_AND_TIME, .input .TIME], .DATE_AND_TIME, (.native [.val .i64, .val .i64] (.val .i64))⟩,  -- date_time_numeric_functions.st:296 src/date_time_numeric_functions.rs:103
  ⟨"SUB_DT_DT", [.input .DATE_AND_TIME, .input .DATE_AND_TIME], .TIME, (.native [.val .i64, .val .i64] (.val .i64))⟩,  -- date_time_numeric_functions.st:333 src/date_time_numeric_functions.rs:121
  ⟨"MUL_TIME__SINT", [.input .TIME, .input .SINT], .TIME, (.native [.val .i64, .val .i8] (.val .i64))⟩,  -- date_time_numeric_functions.st:371 src/date_time_numeric_functions.rs:171
  ⟨"MUL_TIME__USINT", [.input .TIME, .input .USINT], .TIME, (.native [.val .i64, .val .u8] (.val .i64))⟩,  -- date_time_numeric_functions.st:371 src/date_time_numeric_functions.rs:299
  ⟨"MUL_TIME__INT", [.input .TIME, .input .INT], .TIME, (.native [.val .i64, .val .i16] (.val .i64))⟩,  -- date_time_numeric_functions.st:371 src/date_time_numeric_functions.rs:181
  ⟨"MUL_TIME__UINT", [.input .TIME, .input .UINT], .TIME, (.native [.val .i64, .val .u16] (.val .i64))⟩,  -- date_time_numeric_functions.st:371 src/date_time_numeric_functions.rs:309
  ⟨"MUL_TIME__DINT", [.input .TIME, .input .DINT], .TIME, (.native [.val .i64, .val .i32] (.val .i64))⟩,  -- date_time_numeric_functions.st:371 src/date_time_numeric_functions.rs:191
  ⟨"MUL_TIME__UDINT", [.input .TIME, .input .UDINT], .TIME, (.native [.val .i64, .val .u32] (.val .i64))⟩,  -- date_time_numeric_functions.st:371 src/date_time_numeric_functions.rs:319
  ⟨"MUL_TIME__LINT", [.input .TIME, .input .LINT], .TIME, (.native [.val .i64, .val .i64] (.val .i64))⟩,  -- date_time_numeric_functions.st:371 src/date_time_numeric_functions.rs:201
  ⟨"MUL_TIME__ULINT", [.input .TIME, .input .ULINT], .TIME, (.native [.val .i64, .val .u64] (.val .i64))⟩,  -- date_time_numeric_functions.st:371 src/date_time_numeric_functions.rs:329
  ⟨"MUL_TIME__REAL", [.input .TIME, .input .REAL], .TIME, (.native [.val .i64, .val .f32] (.val .i64))⟩,  -- date_time_numeric_functions.st:371 src/date_time_numeric_functions.rs:657
  ⟨"MUL_TIME__LREAL", [.input .TIME, .input .LREAL], .TIME, (.native [.val .i64, .val .f64] (.val .i64))⟩,  -- date_time_numeric_functions.st:371 src/date_time_numeric_functions.rs:705
  ⟨"MUL_LTIME__SINT", [.input .TIME, .input .SINT], .TIME, (.native [.val .i64, .val .i8] (.val .i64))⟩,  -- date_time_numeric_functions.st:383 src/date_time_numeric_functions.rs:211
  ⟨"MUL_LTIME__USINT", [.input .TIME, .input .USINT], .TIME, (.native [.val .i64, .val .u8] (.val .i64))⟩,  -- date_time_numeric_functions.st:383 src/date_time_numeric_functions.rs:339
  ⟨"MUL_LTIME__INT", [.input .TIME, .input .INT], .TIME, (.native [.val .i64, .val .i16] (.val .i64))⟩,  -- date_time_numeric_functions.st:383 src/date_time_numeric_functions.rs:221
  ⟨"MUL_LTIME__UINT", [.input .TIME, .input .UINT], .TIME, (.native [.val .i64, .val .u16] (.val .i64))⟩,  -- date_time_numeric_functions.st:383 src/date_time_numeric_functions.rs:349
  ⟨"MUL_LTIME__DINT", [.input .TIME, .input .DINT], .TIME, (.native [.val .i64, .val .i32] (.val .i64))⟩,  -- date_time_numeric_functions.st:383 src/date_time_numeric_functions.rs:231
  ⟨"MUL_LTIME__UDINT", [.input .TIME, .input .UDINT], .TIME, (.native [.val .i64, .val .u32] (.val .i64))⟩,  -- date_time_numeric_functions.st:383 src/date_time_numeric_functions.rs:359
  ⟨"MUL_LTIME__LINT", [.input .TIME, .input .LINT], .TIME, (.native [.val .i64, .val .i64] (.val .i64))⟩,  -- date_time_numeric_functions.st:383 src/date_time_numeric_functions.rs:241
  ⟨"MUL_LTIME__ULINT", [.input .TIME, .input .ULINT], .TIME, (.native [.val .i64, .val .u64] (.val .i64))⟩,  -- date_time_numeric_functions.st:383 src/date_time_numeric_functions.rs:369
  ⟨"MUL_LTIME__REAL", [.input .TIME, .input .REAL], .TIME, (.native [.val .i64, .val .f32] (.val .i64))⟩,  -- date_time_numeric_functions.st:383 src/date_time_numeric_functions.rs:667
  ⟨"MUL_LTIME__LREAL", [.input .TIME, .input .LREAL], .TIME, (.native [.val .i64, .val .f64] (.val .i64))⟩,  -- date_time_numeric_functions.st:383 src/date_time_numeric_functions.rs:715
  ⟨"DIV_TIME__SINT", [.input .TIME, .input .SINT], .TIME, (.native [.val .i64, .val .i8] (.val .i64))⟩,  -- date_time_numeric_functions.st:407 src/date_time_numeric_functions.rs:429
  ⟨"DIV_TIME__USINT", [.input .TIME, .input .USINT], .TIME, (.native [.val .i64, .val .u8] (.val .i64))⟩,  -- date_time_numeric_functions.st:407 src/date_time_numeric_functions.rs:557
  ⟨"DIV_TIME__INT", [.input .TIME, .input .INT], .TIME, (.native [.val .i64, .val .i16] (.val .i64))⟩,  -- date_time_numeric_functions.st:407 src/date_time_numeric_functions.rs:439
  ⟨"DIV_TIME__UINT", [.input .TIME, .input .UINT], .TIME, (.native [.val .i64, .val .u16] (.val .i64))⟩,  -- date_time_numeric_functions.st:407 src/date_time_numeric_functions.rs:567
  ⟨"DIV_TIME__DINT", [.input .TIME, .input .DINT], .TIME, (.native [.val .i64, .val .i32] (.val .i64))⟩,  -- date_time_numeric_functions.st:407 src/date_time_numeric_functions.rs:449
  ⟨"DIV_TIME__UDINT", [.input .TIME, .input .UDINT], .TIME, (.native [.val .i64, .val .u32] (.val .i64))⟩,  -- date_time_numeric_functions.st:407 src/date_time_numeric_functions.rs:577
  ⟨"DIV_TIME__LINT", [.input .TIME, .input .LINT], .TIME, (.native [.val .i64, .val .i64] (.val .i64))⟩,  -- date_time_numeric_functions.st:407 src/date_time_numeric_functions.rs:459
  ⟨"DIV_TIME__ULINT", [.input .TIME, .input .ULINT], .TIME, (.native [.val .i64, .val .u64] (.val .i64))⟩,  -- date_time_numeric_functions.st:407 src/date_time_numeric_functions.rs:587
  ⟨"DIV_TIME__REAL", [.input .TIME, .input .REAL], .TIME, (.native [.val .i64, .val .f32] (.val .i64))⟩,  -- date_time_numeric_functions.st:407 src/date_time_numeric_functions.rs:753
  ⟨"DIV_TIME__LREAL", [.input .TIME, .input .LREAL], .TIME, (.native [.val .i64, .val .f64] (.val .i64))⟩,  -- date_time_numeric_functions.st:407 src/date_time_numeric_functions.rs:801
  ⟨"DIV_LTIME__SINT", [.input .TIME, .input .SINT], .TIME, (.native [.val .i64, .val .i8] (.val .i64))⟩,  -- date_time_numeric_functions.st:419 src/date_time_numeric_functions.rs:469
  ⟨"DIV_LTIME__USINT", [.input .TIME, .input .USINT], .TIME, (.native [.val .i64, .val .u8] (.val .i64))⟩,  -- date_time_numeric_functions.st:419 src/date_time_numeric_functions.rs:597
  ⟨"DIV_LTIME__INT", [.input .TIME, .input .INT], .TIME, (.native [.val .i64, .val .i16] (.val .i64))⟩,  -- date_time_numeric_functions.st:419 src/date_time_numeric_functions.rs:479
  ⟨"DIV_LTIME__UINT", [.input .TIME, .input .UINT], .TIME, (.native [.val .i64, .val .u16] (.val .i64))⟩,  -- date_time_numeric_functions.st:419 src/date_time_numeric_functions.rs:607
  ⟨"DIV_LTIME__DINT", [.input .TIME, .input .DINT], .TIME, (.native [.val .i64, .val .i32] (.val .i64))⟩,  -- date_time_numeric_functions.st:419 src/date_time_numeric_functions.rs:489
  ⟨"DIV_LTIME__UDINT", [.input .TIME, .input .UDINT], .TIME, (.native [.val .i64, .val .u32] (.val .i64))⟩,  -- date_time_numeric_functions.st:419 src/date_time_numeric_functions.rs:617
  ⟨"DIV_LTIME__LINT", [.input .TIME, .input .LINT], .TIME, (.native [.val .i64, .val .i64] (.val .i64))⟩,  -- date_time_numeric_functions.st:419 src/date_time_numeric_functions.rs:499
  ⟨"DIV_LTIME__ULINT", [.input .TIME, .input .ULINT], .TIME, (.native [.val .i64, .val .u64] (.val .i64))⟩,  -- date_time_numeric_functions.st:419 src/date_time_numeric_functions.rs:627
  ⟨"DIV_LTIME__REAL", [.input .TIME, .input .REAL], .TIME, (.native [.val .i64, .val .f32] (.val .i64))⟩,  -- date_time_numeric_functions.st:419 src/date_time_numeric_functions.rs:763
  ⟨"DIV_LTIME__LREAL", [.input .TIME, .input .LREAL], .TIME, (.native [.val .i64, .val .f64] (.val .i64))⟩,  -- date_time_numeric_functions.st:419 src/date_time_numeric_functions.rs:811
  ⟨"TO_BIG_ENDIAN__BOOL", [.input .BOOL], .BOOL, .missing⟩,  -- endianness_conversion_functions.st:7 
  ⟨"TO_BIG_ENDIAN__BYTE", [.input .BYTE], .BYTE, .missing⟩,  -- endianness_conversion_functions.st:7 
  ⟨"TO_BIG_ENDIAN__WORD", [.input .WORD], .WORD, (.native [.val .u16] (.val .u16))⟩,  -- endianness_conversion_functions.st:7 src/endianness_conversion_functions.rs:51
  ⟨"TO_BIG_ENDIAN__DWORD", [.input .DWORD], .DWORD, (.native [.val .u32] (.val .u32))⟩,  -- endianness_conversion_functions.st:7 src/endianness_conversion_functions.rs:52
  ⟨"TO_BIG_ENDIAN__LWORD", [.input .LWORD], .LWORD, (.native [.val .u64] (.val .u64))⟩,  -- endianness_conversion_functions.st:7 src/endianness_conversion_functions.rs:53
  ⟨"TO_BIG_ENDIAN__SINT", [.input .SINT], .SINT, .missing⟩,  -- endianness_conversion_functions.st:7 
  ⟨"TO_BIG_ENDIAN__USINT", [.input .USINT], .USINT, .missing⟩,  -- endianness_conversion_functions.st:7 
  ⟨"TO_BIG_ENDIAN__INT", [.input .INT], .INT, (.native [.val .i16] (.val .i16))⟩,  -- endianness_conversion_functions.st:7 src/endianness_conversion_functions.rs:45
  ⟨"TO_BIG_ENDIAN__UINT", [.input .UINT], .UINT, (.native [.val .u16] (.val .u16))⟩,  -- endianness_conversion_functions.st:7 src/endianness_conversion_functions.rs:48
  ⟨"TO_BIG_ENDIAN__DINT", [.input .DINT], .DINT, (.native [.val .i32] (.val .i32))⟩,  -- endianness_conversion_functions.st:7 src/endianness_conversion_functions.rs:46
  ⟨"TO_BIG_ENDIAN__UDINT", [.input .UDINT], .UDINT, (.native [.val .u32] (.val .u32))⟩,  -- endianness_conversion_functions.st:7 src/endianness_conversion_functions.rs:49
  ⟨"TO_BIG_ENDIAN__LINT", [.input .LINT], .LINT, (.native [.val .i64] (.val .i64))⟩,  -- endianness_conversion_functions.st:7 src/endianness_conversion_functions.rs:47
  ⟨"TO_BIG_ENDIAN__ULINT", [.input .ULINT], .ULINT, (.native [.val .u64] (.val .u64))⟩,  -- endianness_conversion_functions.st:7 src/endianness_conversion_functions.rs:50
  ⟨"TO_BIG_ENDIAN__REAL", [.input .REAL], .REAL, (.native [.val .f32] (.val .f32))⟩,  -- endianness_conversion_functions.st:7 src/endianness_conversion_functions.rs:64
  ⟨"TO_BIG_ENDIAN__LREAL", [.input .LREAL], .LREAL, (.native [.val .f64] (.val .f64))⟩,  -- endianness_conversion_functions.st:7 src/endianness_conversion_functions.rs:100
  ⟨"TO_BIG_ENDIAN__TIME", [.input .TIME], .TIME, .missing⟩,  -- endianness_conversion_functions.st:7 
  ⟨"TO_BIG_ENDIAN__DATE", [.input .DATE], .DATE, (.native [.val .i64] (.val .i64))⟩,  -- endianness_conversion_functions.st:7 src/endianness_conversion_functions.rs:55
  ⟨"TO_BIG_ENDIAN__TIME_OF_DAY", [.input .TIME_OF_DAY], .TIME_OF_DAY, (.native [.val .i64] (.val .i64))⟩,  -- endianness_conversion_functions.st:7 src/endianness_conversion_functions.rs:56
  ⟨"TO_BIG_ENDIAN__DATE_AND_TIME", [.input .DATE_AND_TIME], .DATE_AND_TIME, (.native [.val .i64] (.val .i64))⟩,  -- endianness_conversion_functions.st:7 src/endianness_conversion_functions.rs:57
  ⟨"TO_BIG_ENDIAN__CHAR", [.input .CHAR], .CHAR, .missing⟩,  -- endianness_conversion_functions.st:7 
  ⟨"TO_BIG_ENDIAN__WCHAR", [.input .WCHAR], .WCHAR, (.native [.val .u16] (.val .u16))⟩,  -- endianness_conversion_functions.st:7 src/endianness_conversion_functions.rs:54
  ⟨"TO_BIG_ENDIAN__STRING", [.input .STRING], .STRING, .missing⟩,  -- endianness_conversion_functions.st:7 
  ⟨"TO_BIG_ENDIAN__WSTRING", [.input .WSTRING], .WSTRING, .missing⟩,  -- endianness_conversion_functions.st:7 
  ⟨"TO_LITTLE_ENDIAN__BOOL", [.input .BOOL], .BOOL, .missing⟩,  -- endianness_conversion_functions.st:19 
  ⟨"TO_LITTLE_ENDIAN__BYTE", [.input .BYTE], .BYTE, .missing⟩,  -- endianness_conversion_functions.st:19 
  ⟨"TO_LITTLE_ENDIAN__WORD", [.input .WORD], .WORD, (.native [.val .u16] (.val .u16))⟩,  -- endianness_conversion_functions.st:19 src/endianness_conversion_functions.rs:51
  ⟨"TO_LITTLE_ENDIAN__DWORD", [.input .DWORD], .DWORD, (.native [.val .u32] (.val .u32))⟩,  -- endianness_conversion_functions.st:19 src/endianness_conversion_functions.rs:52
  ⟨"TO_LITTLE_ENDIAN__LWORD", [.input .LWORD], .LWORD, (.native [.val .u64] (.val .u64))⟩,  -- endianness_conversion_functions.st:19 src/endianness_conversion_functions.rs:53
  ⟨"TO_LITTLE_ENDIAN__SINT", [.input .SINT], .SINT, .missing⟩,  -- endianness_conversion_functions.st:19 
  ⟨"TO_LITTLE_ENDIAN__USINT", [.input .USINT], .USINT, .missing⟩,  -- endianness_conversion_functions.st:19 
  ⟨"TO_LITTLE_ENDIAN__INT", [.input .INT], .INT, (.native [.val .i16] (.val .i16))⟩,  -- endianness_conversion_functions.st:19 src/endianness_conversion_functions.rs:45
  ⟨"TO_LITTLE_ENDIAN__UINT", [.input .UINT], .UINT, (.native [.val .u16] (.val .u16))⟩,  -- endianness_conversion_functions.st:19 src/endianness_conversion_functions.rs:48
  ⟨"TO_LITTLE_ENDIAN__DINT", [.input .DINT], .DINT, (.native [.val .i32] (.val .i32))⟩,  -- endianness_conversion_functions.st:19 src/endianness_conversion_functions.rs:46
  ⟨"TO_LITTLE_ENDIAN__UDINT", [.input .UDINT], .UDINT, (.native [.val .u32] (.val .u32))⟩,  -- endianness_conversion_functions.st:19 src/endianness_conversion_functions.rs:49
  ⟨"TO_LITTLE_ENDIAN__LINT", [.input .LINT], .LINT, (.native [.val .i64] (.val .i64))⟩,  -- endianness_conversion_functions.st:19 src/endianness_conversion_functions.rs:47
  ⟨"TO_LITTLE_ENDIAN__ULINT", [.input .ULINT], .ULINT, (.native [.val .u64] (.val .u64))⟩,  -- endianness_conversion_functions.st:19 src/endianness_conversion_functions.rs:50
  ⟨"TO_LITTLE_ENDIAN__REAL", [.input .REAL], .REAL, (.native [.val .f32] (.val .f32))⟩,  -- endianness_conversion_functions.st:19 src/endianness_conversion_functions.rs:73
  ⟨"TO_LITTLE_ENDIAN__LREAL", [.input .LREAL], .LREAL, (.native [.val .f64] (.val .f64))⟩,  -- endianness_conversion_functions.st:19 src/endianness_conversion_functions.rs:109
  ⟨"TO_LITTLE_ENDIAN__TIME", [.input .TIME], .TIME, .missing⟩,  -- endianness_conversion_functions.st:19 
  ⟨"TO_LITTLE_ENDIAN__DATE", [.input .DATE], .DATE, (.native [.val .i64] (.val .i64))⟩,  -- endianness_conversion_functions.st:19 src/endianness_conversion_functions.rs:55
  ⟨"TO_LITTLE_ENDIAN__TIME_OF_DAY", [.input .TIME_OF_DAY], .TIME_OF_DAY, (.native [.val .i64] (.val .i64))⟩,  -- endianness_conversion_functions.st:19 src/endianness_conversion_functions.rs:56
  ⟨"TO_LITTLE_ENDIAN__DATE_AND_TIME", [.input .DATE_AND_TIME], .DATE_AND_TIME, (.native [.val .i64] (.val .i64))⟩,  -- endianness_conversion_functions.st:19 src/endianness_conversion_functions.rs:57
  ⟨"TO_LITTLE_ENDIAN__CHAR", [.input .CHAR], .CHAR, .missing⟩,  -- endianness_conversion_functions.st:19 
  ⟨"TO_LITTLE_ENDIAN__WCHAR", [.input .WCHAR], .WCHAR, (.native [.val .u16] (.val .u16))⟩,  -- endianness_conversion_functions.st:19 src/endianness_conversion_functions.rs:54
  ⟨"TO_LITTLE_ENDIAN__STRING", [.input .STRING], .STRING, .missing⟩,  -- endianness_conversion_functions.st:19 
  ⟨"TO_LITTLE_ENDIAN__WSTRING", [.input .WSTRING], .WSTRING, .missing⟩,  -- endianness_conversion_functions.st:19 
  ⟨"FROM_BIG_ENDIAN__BOOL", [.input .BOOL], .BOOL, .missing⟩,  -- endianness_conversion_functions.st:31 
  ⟨"FROM_BIG_ENDIAN__BYTE", [.input .BYTE], .BYTE, .missing⟩,  -- endianness_conversion_functions.st:31 
  ⟨"FROM_BIG_ENDIAN__WORD", [.input .WORD], .WORD, (.native [.val .u16] (.val .u16))⟩,  -- endianness_conversion_functions.st:31 src/endianness_conversion_functions.rs:51
  ⟨"FROM_BIG_ENDIAN__DWORD", [.input .DWORD], .DWORD, (.native [.val .u32] (.val .u32))⟩,  -- endianness_conversion_functions.st:31 src/endianness_conversion_functions.rs:52
  ⟨"FROM_BIG_ENDIAN__LWORD", [.input .LWORD], .LWORD, (.native [.val .u64] (.val .u64))⟩,  -- endianness_conversion_functions.st:31 src/endianness_conversion_functions.rs:53
  ⟨"FROM_BIG_ENDIAN__SINT", [.input .SINT], .SINT, .missing⟩,  -- endianness_conversion_functions.st:31 
  ⟨"FROM_BIG_ENDIAN__USINT", [.input .USINT], .USINT, .missing⟩,  -- endianness_conversion_functions.st:31 
  ⟨"FROM_BIG_ENDIAN__INT", [.input .INT], .INT, (.native [.val .i16] (.val .i16))⟩,  -- endianness_conversion_functions.st:31 src/endianness_conversion_functions.rs:45
  ⟨"FROM_BIG_ENDIAN__UINT", [.input .UINT], .UINT, (.native [.val .u16] (.val .u16))⟩,  -- endianness_conversion_functions.st:31 src/endianness_conversion_functions.rs:48
  ⟨"FROM_BIG_ENDIAN__DINT", [.input .DINT], .DINT, (.native [.val .i32] (.val .i32))⟩,  -- endianness_conversion_functions.st:31 src/endianness_conversion_functions.rs:46
  ⟨"FROM_BIG_ENDIAN__UDINT", [.input .UDINT], .UDINT, (.native [.val .u32] (.val .u32))⟩,  -- endianness_conversion_functions.st:31 src/endianness_conversion_functions.rs:49
  ⟨"FROM_BIG_ENDIAN__LINT", [.input .LINT], .LINT, (.native [.val .i64] (.val .i64))⟩,  -- endianness_conversion_functions.st:31 src/endianness_conversion_functions.rs:47
  ⟨"FROM_BIG_ENDIAN__ULINT", [.input .ULINT], .ULINT, (.native [.val .u64] (.val .u64))⟩,  -- endianness_conversion_functions.st:31 src/endianness_conversion_functions.rs:50
  ⟨"FROM_BIG_ENDIAN__REAL", [.input .REAL], .REAL, (.native [.val .f32] (.val .f32))⟩,  -- endianness_conversion_functions.st:31 src/endianness_conversion_functions.rs:82
  ⟨"FROM_BIG_ENDIAN__LREAL", [.input .LREAL], .LREAL, (.native [.val .f64] (.val .f64))⟩,  -- endianness_conversion_functions.st:31 src/endianness_conversion_functions.rs:118
  ⟨"FROM_BIG_ENDIAN__TIME", [.input .TIME], .TIME, .missing⟩,  -- endianness_conversion_functions.st:31 
  ⟨"FROM_BIG_ENDIAN__DATE", [.input .DATE], .DATE, (.native [.val .i64] (.val .i64))⟩,  -- endianness_conversion_functions.st:31 src/endianness_conversion_functions.rs:55
  ⟨"FROM_BIG_ENDIAN__TIME_OF_DAY", [.input .TIME_OF_DAY], .TIME_OF_DAY, (.native [.val .i64] (.val .i64))⟩,  -- endianness_conversion_functions.st:31 src/endianness_conversion_functions.rs:56
  ⟨"FROM_BIG_ENDIAN__DATE_AND_TIME", [.input .DATE_AND_TIME], .DATE_AND_TIME, (.native [.val .i64] (.val .i64))⟩,  -- endianness_conversion_functions.st:31 src/endianness_conversion_functions.rs:57
  ⟨"FROM_BIG_ENDIAN__CHAR", [.input .CHAR], .CHAR, .missing⟩,  -- endianness_conversion_functions.st:31 
  ⟨"FROM_BIG_ENDIAN__WCHAR", [.input .WCHAR], .WCHAR, (.native [.val .u16] (.val .u16))⟩,  -- endianness_conversion_functions.st:31 src/endianness_conversion_functions.rs:54
  ⟨"FROM_BIG_ENDIAN__STRING", [.input .STRING], .STRING, .missing⟩,  -- endianness_conversion_functions.st:31 
  ⟨"FROM_BIG_ENDIAN__WSTRING", [.input .WSTRING], .WSTRING, .missing⟩,  -- endianness_conversion_functions.st:31 
  ⟨"FROM_LITTLE_ENDIAN__BOOL", [.input .BOOL], .BOOL, .missing⟩,  -- endianness_conversion_functions.st:43 
  ⟨"FROM_LITTLE_ENDIAN__BYTE", [.input .BYTE], .BYTE, .missing⟩,  -- endianness_conversion_functions.st:43 
  ⟨"FROM_LITTLE_ENDIAN__WORD", [.input .WORD], .WORD, (.native [.val .u16] (.val .u16))⟩,  -- endianness_conversion_functions.st:43 src/endianness_conversion_functions.rs:51
  ⟨"FROM_LITTLE_ENDIAN__DWORD", [.input .DWORD], .DWORD, (.native [.val .u32] (.val .u32))⟩,  -- endianness_conversion_functions.st:43 src/endianness_conversion_functions.rs:52
  ⟨"FROM_LITTLE_ENDIAN__LWORD", [.input .LWORD], .LWORD, (.native [.val .u64] (.val .u64))⟩,  -- endianness_conversion_functions.st:43 src/endianness_conversion_functions.rs:53
  ⟨"FROM_LITTLE_ENDIAN__SINT", [.input .SINT], .SINT, .missing⟩,  -- endianness_conversion_functions.st:43 
  ⟨"FROM_LITTLE_ENDIAN__USINT", [.input .USINT], .USINT, .missing⟩,  -- endianness_conversion_functions.st:43 
  ⟨"FROM_LITTLE_ENDIAN__INT", [.input .INT], .INT, (.native [.val .i16] (.val .i16))⟩,  -- endianness_conversion_functions.st:43 src/endianness_conversion_functions.rs:45
  ⟨"FROM_LITTLE_ENDIAN__UINT", [.input .UINT], .UINT, (.native [.val .u16] (.val .u16))⟩,  -- endianness_conversion_functions.st:43 src/endianness_conversion_functions.rs:48
  ⟨"FROM_LITTLE_ENDIAN__DINT", [.input .DINT], .DINT, (.native [.val .i32] (.val .i32))⟩,  -- endianness_conversion_functions.st:43 src/endianness_conversion_functions.rs:46
  ⟨"FROM_LITTLE_ENDIAN__UDINT", [.input .UDINT], .UDINT, (.native [.val .u32] (.val .u32))⟩,  -- endianness_conversion_functions.st:43 src/endianness_conversion_functions.rs:49
  ⟨"FROM_LITTLE_ENDIAN__LINT", [.input .LINT], .LINT, (.native [.val .i64] (.val .i64))⟩,  -- endianness_conversion_functions.st:43 src/endianness_conversion_functions.rs:47
  ⟨"FROM_LITTLE_ENDIAN__ULINT", [.input .ULINT], .ULINT, (.native [.val .u64] (.val .u64))⟩,  -- endianness_conversion_functions.st:43 src/endianness_conversion_functions.rs:50
  ⟨"FROM_LITTLE_ENDIAN__REAL", [.input .REAL], .REAL, (.native [.val .f32] (.val .f32))⟩,  -- endianness_conversion_functions.st:43 src/endianness_conversion_functions.rs:91
  ⟨"FROM_LITTLE_ENDIAN__LREAL", [.input .LREAL], .LREAL, (.native [.val .f64] (.val .f64))⟩,  -- endianness_conversion_functions.st:43 src/endianness_conversion_functions.rs:127
  ⟨"FROM_LITTLE_ENDIAN__TIME", [.input .TIME], .TIME, .missing⟩,  -- endianness_conversion_functions.st:43 
  ⟨"FROM_LITTLE_ENDIAN__DATE", [.input .DATE], .DATE, (.native [.val .i64] (.val .i64))⟩,  -- endianness_conversion_functions.st:43 src/endianness_conversion_functions.rs:55
  ⟨"FROM_LITTLE_ENDIAN__TIME_OF_DAY", [.input .TIME_OF_DAY], .TIME_OF_DAY, (.native [.val .i64] (.val .i64))⟩,  -- endianness_conversion_functions.st:43 src/endianness_conversion_functions.rs:56
  ⟨"FROM_LITTLE_ENDIAN__DATE_AND_TIME", [.input .DATE_AND_TIME], .DATE_AND_TIME, (.native [.val .i64] (.val .i64))⟩,  -- endianness_conversion_functions.st:43 src/endianness_conversion_functions.rs:57
  ⟨"FROM_LITTLE_ENDIAN__CHAR", [.input .CHAR], .CHAR, .missing⟩,  -- endianness_conversion_functions.st:43 
  ⟨"FROM_LITTLE_ENDIAN__WCHAR", [.input .WCHAR], .WCHAR, (.native [.val .u16] (.val .u16))⟩,  -- endianness_conversion_functions.st:43 src/endianness_conversion_functions.rs:54
  ⟨"FROM_LITTLE_ENDIAN__STRING", [.input .STRING], .STRING, .missing⟩,  -- endianness_conversion_functions.st:43 
  ⟨"FROM_LITTLE_ENDIAN__WSTRING", [.input .WSTRING], .WSTRING, .missing⟩,  -- endianness_conversion_functions.st:43 
  ⟨"BYTE_TO_STRING_EXT", [.input .BYTE, .inOut .STRING], .DINT, (.native [.val .u8, .mutPtr .u8] (.val .i32))⟩,  -- extra_functions.st:14 src/extra_functions.rs:24
  ⟨"LWORD_TO_STRING_EXT", [.input .LWORD, .inOut .STRING], .DINT, (.native [.val .u64, .mutPtr .u8] (.val .i32))⟩,  -- extra_functions.st:24 src/extra_functions.rs:36
  ⟨"LINT_TO_STRING_EXT", [.input .LINT, .inOut .STRING], .DINT, (.native [.val .i64, .mutPtr .u8] (.val .i32))⟩,  -- extra_functions.st:58 src/extra_functions.rs:48
  ⟨"LREAL_TO_STRING_EXT", [.input .LREAL, .inOut .STRING], .DINT, (.native [.val .f64, .mutPtr .u8] (.val .i32))⟩,  -- extra_functions.st:92 src/extra_functions.rs:59
  ⟨"DT_TO_STRING_EXT", [.input .DATE_AND_TIME, .inOut .STRING], .DINT, (.native [.val .i64, .mutPtr .u8] (.val .i32))⟩,  -- extra_functions.st:121 src/extra_functions.rs:215
  ⟨"TIME_TO_STRING_EXT", [.input .TIME, .inOut .STRING], .DINT, (.native [.val .i64, .mutPtr .u8] (.val .i32))⟩,  -- extra_functions.st:169 src/extra_functions.rs:174
  ⟨"DATE_TO_STRING_EXT", [.input .DATE, .inOut .STRING], .DINT, (.native [.val .i64, .mutPtr .u8] (.val .i32))⟩,  -- extra_functions.st:217 src/extra_functions.rs:230
  ⟨"TOD_TO_STRING_EXT", [.input .TIME_OF_DAY, .inOut .STRING], .DINT, (.native [.val .i64, .mutPtr .u8] (.val .i32))⟩,  -- extra_functions.st:265 src/extra_functions.rs:244
  ⟨"STRING_TO_LINT", [.inputRef .STRING], .LINT, (.native [.constPtr .u8] (.val .i64))⟩,  -- extra_functions.st:483 src/extra_functions.rs:118
  ⟨"STRING_TO_DINT", [.inputRef .STRING], .DINT, (.native [.constPtr .u8] (.val .i32))⟩,  -- extra_functions.st:663 src/extra_functions.rs:126
  ⟨"STRING_TO_LREAL", [.inputRef .STRING], .LREAL, (.native [.constPtr .u8] (.val .f64))⟩,  -- extra_functions.st:691 src/extra_functions.rs:151
  ⟨"STRING_TO_REAL", [.inputRef .STRING], .REAL, (.native [.constPtr .u8] (.val .f32))⟩,  -- extra_functions.st:703 src/extra_functions.rs:159
  ⟨"TRUNC__REAL", [.input .REAL], .LINT, (.st [.input .REAL] .LINT)⟩,  -- extra_functions.st:1023 extra_functions.st:1029
  ⟨"TRUNC__LREAL", [.input .LREAL], .LINT, (.st [.input .LREAL] .LINT)⟩,  -- extra_functions.st:1023 extra_functions.st:1036
  ⟨"TIME", [], .TIME, (.native [] (.val .i64))⟩,  -- extra_functions.st:1050 src/extra_functions.rs:165
  ⟨"ABS__SINT", [.input .SINT], .SINT, (.st [.input .SINT] .SINT)⟩,  -- numerical_functions.st:6 numerical_functions.st:26
  ⟨"ABS__USINT", [.input .USINT], .USINT, .missing⟩,  -- numerical_functions.st:6 
  ⟨"ABS__INT", [.input .INT], .INT, (.st [.input .INT] .INT)⟩,  -- numerical_functions.st:6 numerical_functions.st:34
  ⟨"ABS__UINT", [.input .UINT], .UINT, .missing⟩,  -- numerical_functions.st:6 
  ⟨"ABS__DINT", [.input .DINT], .DINT, (.st [.input .DINT] .DINT)⟩,  -- numerical_functions.st:6 numerical_functions.st:15
  ⟨"ABS__UDINT", [.input .UDINT], .UDINT, .missing⟩,  -- numerical_functions.st:6 
  ⟨"ABS__LINT", [.input .LINT], .LINT, (.st [.input .LINT] .LINT)⟩,  -- numerical_functions.st:6 numerical_functions.st:42
  ⟨"ABS__ULINT", [.input .ULINT], .ULINT, .missing⟩,  -- numerical_functions.st:6 
  ⟨"ABS__REAL", [.input .REAL], .REAL, (.st [.input .REAL] .REAL)⟩,  -- numerical_functions.st:6 numerical_functions.st:53
  ⟨"ABS__LREAL", [.input .LREAL], .LREAL, (.st [.input .LREAL] .LREAL)⟩,  -- numerical_functions.st:6 numerical_functions.st:61
  ⟨"ROUND__REAL", [.input .REAL], .REAL, (.native [.val .f32] (.val .f32))⟩,  -- numerical_functions.st:78 src/numerical_functions.rs:6
  ⟨"ROUND__LREAL", [.input .LREAL], .LREAL, (.native [.val .f64] (.val .f64))⟩,  -- numerical_functions.st:78 src/numerical_functions.rs:15
  ⟨"MAX__BOOL", [.sized .BOOL], .BOOL, (.native [.val .u32, .constPtr .u8] (.val .u8))⟩,  -- selectors.st:9 src/types.rs:116
  ⟨"MAX__BYTE", [.sized .BYTE], .BYTE, (.native [.val .u32, .constPtr .u8] (.val .u8))⟩,  -- selectors.st:9 src/types.rs:117
  ⟨"MAX__WORD", [.sized .WORD], .WORD, (.native [.val .u32, .constPtr .u16] (.val .u16))⟩,  -- selectors.st:9 src/types.rs:119
  ⟨"MAX__DWORD", [.sized .DWORD], .DWORD, (.native [.val .u32, .constPtr .u32] (.val .u32))⟩,  -- selectors.st:9 src/types.rs:121
  ⟨"MAX__LWORD", [.sized .LWORD], .LWORD, (.native [.val .u32, .constPtr .u64] (.val .u64))⟩,  -- selectors.st:9 src/types.rs:122
  ⟨"MAX__SINT", [.sized .SINT], .SINT, (.native [.val .u32, .constPtr .i8] (.val .i8))⟩,  -- selectors.st:9 src/types.rs:124
  ⟨"MAX__USINT", [.sized .USINT], .USINT, (.native [.val .u32, .constPtr .u8] (.val .u8))⟩,  -- selectors.st:9 src/types.rs:125
  ⟨"MAX__INT", [.sized .INT], .INT, (.native [.val .u32, .constPtr .i16] (.val .i16))⟩,  -- selectors.st:9 src/types.rs:126
  ⟨"MAX__UINT", [.sized .UINT], .UINT, (.native [.val .u32, .constPtr .u16] (.val .u16))⟩,  -- selectors.st:9 src/types.rs:127
  ⟨"MAX__DINT", [.sized .DINT], .DINT, (.native [.val .u32, .constPtr .i32] (.val .i32))⟩,  -- selectors.st:9 src/types.rs:128
  ⟨"MAX__UDINT", [.sized .UDINT], .UDINT, (.native [.val .u32, .constPtr .u32] (.val .u32))⟩,  -- selectors.st:9 src/types.rs:129
  ⟨"MAX__LINT", [.sized .LINT], .LINT, (.native [.val .u32, .constPtr .i64] (.val .i64))⟩,  -- selectors.st:9 src/types.rs:130
  ⟨"MAX__ULINT", [.sized .ULINT], .ULINT, (.native [.val .u32, .constPtr .u64] (.val .u64))⟩,  -- selectors.st:9 src/types.rs:131
  ⟨"MAX__REAL", [.sized .REAL], .REAL, (.native [.val .u32, .constPtr .f32] (.val .f32))⟩,  -- selectors.st:9 src/types.rs:142
  ⟨"MAX__LREAL", [.sized .LREAL], .LREAL, (.native [.val .u32, .constPtr .f64] (.val .f64))⟩,  -- selectors.st:9 src/types.rs:143
  ⟨"MAX__TIME", [.sized .TIME], .TIME, (.native [.val .u32, .constPtr .i64] (.val .i64))⟩,  -- selectors.st:9 src/types.rs:139
  ⟨"MAX__DATE", [.sized .DATE], .DATE, (.native [.val .u32, .constPtr .i64] (.val .i64))⟩,  -- selectors.st:9 src/types.rs:132
  ⟨"MAX__TIME_OF_DAY", [.sized .TIME_OF_DAY], .TIME_OF_DAY, (.native [.val .u32, .constPtr .i64] (.val .i64))⟩,  -- selectors.st:9 src/types.rs:140
  ⟨"MAX__DATE_AND_TIME", [.sized .DATE_AND_TIME], .DATE_AND_TIME, (.native [.val .u32, .constPtr .i64] (.val .i64))⟩,  -- selectors.st:9 src/types.rs:133
  ⟨"MAX__CHAR", [.sized .CHAR], .CHAR, (.native [.val .u32, .constPtr .u8] (.val .u8))⟩,  -- selectors.st:9 src/types.rs:118
  ⟨"MAX__WCHAR", [.sized .WCHAR], .WCHAR, (.native [.val .u32, .constPtr .u16] (.val .u16))⟩,  -- selectors.st:9 src/types.rs:120
  ⟨"MAX__STRING", [.sized .STRING], .STRING, .missing⟩,  -- selectors.st:9 
  ⟨"MAX__WSTRING", [.sized .WSTRING], .WSTRING, .missing⟩,  -- selectors.st:9 
  ⟨"MIN__BOOL", [.sized .BOOL], .BOOL, (.native [.val .u32, .constPtr .u8] (.val .u8))⟩,  -- selectors.st:23 src/types.rs:116
  ⟨"MIN__BYTE", [.sized .BYTE], .BYTE, (.native [.val .u32, .constPtr .u8] (.val .u8))⟩,  -- selectors.st:23 src/types.rs:117
  ⟨"MIN__WORD", [.sized .WORD], .WORD, (.native [.val .u32, .constPtr .u16] (.val .u16))⟩,  -- selectors.st:23 src/types.rs:119
  ⟨"MIN__DWORD", [.sized .DWORD], .DWORD, (.native [.val .u32, .constPtr .u32] (.val .u32))⟩,  -- selectors.st:23 src/types.rs:121
  ⟨"MIN__LWORD", [.sized .LWORD], .LWORD, (.native [.val .u32, .constPtr .u64] (.val .u64))⟩,  -- selectors.st:23 src/types.rs:122
  ⟨"MIN__SINT", [.sized .SINT], .SINT, (.native [.val .u32, .constPtr .i8] (.val .i8))⟩,  -- selectors.st:23 src/types.rs:124
  ⟨"MIN__USINT", [.sized .USINT], .USINT, (.native [.val .u32, .constPtr .u8] (.val .u8))⟩,  -- selectors.st:23 src/types.rs:125
  ⟨"MIN__INT", [.sized .INT], .INT, (.native [.val .u32, .constPtr .i16] (.val .i16))⟩,  -- selectors.st:23 src/types.rs:126
  ⟨"MIN__UINT", [.sized .UINT], .UINT, (.native [.val .u32, .constPtr .u16] (.val .u16))⟩,  -- selectors.st:23 src/types.rs:127
  ⟨"MIN__DINT", [.sized .DINT], .DINT, (.native [.val .u32, .constPtr .i32] (.val .i32))⟩,  -- selectors.st:23 src/types.rs:128
  ⟨"MIN__UDINT", [.sized .UDINT], .UDINT, (.native [.val .u32, .constPtr .u32] (.val .u32))⟩,  -- selectors.st:23 src/types.rs:129
  ⟨"MIN__LINT", [.sized .LINT], .LINT, (.native [.val .u32, .constPtr .i64] (.val .i64))⟩,  -- selectors.st:23 src/types.rs:130
  ⟨"MIN__ULINT", [.sized .ULINT], .ULINT, (.native [.val .u32, .constPtr .u64] (.val .u64))⟩,  -- selectors.st:23 src/types.rs:131
  ⟨"MIN__REAL", [.sized .REAL], .REAL, (.native [.val .u32, .constPtr .f32] (.val .f32))⟩,  -- selectors.st:23 src/types.rs:142
  ⟨"MIN__LREAL", [.sized .LREAL], .LREAL, (.native [.val .u32, .constPtr .f64] (.val .f64))⟩,  -- selectors.st:23 src/types.rs:143
  ⟨"MIN__TIME", [.sized .TIME], .TIME, (.native [.val .u32, .constPtr .i64] (.val .i64))⟩,  -- selectors.st:23 src/types.rs:139
  ⟨"MIN__DATE", [.sized .DATE], .DATE, (.native [.val .u32, .constPtr .i64] (.val .i64))⟩,  -- selectors.st:23 src/types.rs:132
  ⟨"MIN__TIME_OF_DAY", [.sized .TIME_OF_DAY], .TIME_OF_DAY, (.native [.val .u32, .constPtr .i64] (.val .i64))⟩,  -- selectors.st:23 src/types.rs:140
  ⟨"MIN__DATE_AND_TIME", [.sized .DATE_AND_TIME], .DATE_AND_TIME, (.native [.val .u32, .constPtr .i64] (.val .i64))⟩,  -- selectors.st:23 src/types.rs:133
  ⟨"MIN__CHAR", [.sized .CHAR], .CHAR, (.native [.val .u32, .constPtr .u8] (.val .u8))⟩,  -- selectors.st:23 src/types.rs:118
  ⟨"MIN__WCHAR", [.sized .WCHAR], .WCHAR, (.native [.val .u32, .constPtr .u16] (.val .u16))⟩,  -- selectors.st:23 src/types.rs:120
  ⟨"MIN__STRING", [.sized .STRING], .STRING, .missing⟩,  -- selectors.st:23 
  ⟨"MIN__WSTRING", [.sized .WSTRING], .WSTRING, .missing⟩,  -- selectors.st:23 
  ⟨"LIMIT__BOOL", [.input .BOOL, .input .BOOL, .input .BOOL], .BOOL, (.native [.val .u8, .val .u8, .val .u8] (.val .u8))⟩,  -- selectors.st:40 src/types.rs:116
  ⟨"LIMIT__BYTE", [.input .BYTE, .input .BYTE, .input .BYTE], .BYTE, (.native [.val .u8, .val .u8, .val .u8] (.val .u8))⟩,  -- selectors.st:40 src/types.rs:117
  ⟨"LIMIT__WORD", [.input .WORD, .input .WORD, .input .WORD], .WORD, (.native [.val .u16, .val .u16, .val .u16] (.val .u16))⟩,  -- selectors.st:40 src/types.rs:119
  ⟨"LIMIT__DWORD", [.input .DWORD, .input .DWORD, .input .DWORD], .DWORD, (.native [.val .u32, .val .u32, .val .u32] (.val .u32))⟩,  -- selectors.st:40 src/types.rs:121
  ⟨"LIMIT__LWORD", [.input .LWORD, .input .LWORD, .input .LWORD], .LWORD, (.native [.val .u64, .val .u64, .val .u64] (.val .u64))⟩,  -- selectors.st:40 src/types.rs:122
  ⟨"LIMIT__SINT", [.input .SINT, .input .SINT, .input .SINT], .SINT, (.native [.val .i8, .val .i8, .val .i8] (.val .i8))⟩,  -- selectors.st:40 src/types.rs:124
  ⟨"LIMIT__USINT", [.input .USINT, .input .USINT, .input .USINT], .USINT, (.native [.val .u8, .val .u8, .val .u8] (.val .u8))⟩,  -- selectors.st:40 src/types.rs:125
  ⟨"LIMIT__INT", [.input .INT, .input .INT, .input .INT], .INT, (.native [.val .i16, .val .i16, .val .i16] (.val .i16))⟩,  -- selectors.st:40 src/types.rs:126
  ⟨"LIMIT__UINT", [.input .UINT, .input .UINT, .input .UINT], .UINT, (.native [.val .u16, .val .u16, .val .u16] (.val .u16))⟩,  -- selectors.st:40 src/types.rs:127
  ⟨"LIMIT__DINT", [.input .DINT, .input .DINT, .input .DINT], .DINT, (.native [.val .i32, .val .i32, .val .i32] (.val .i32))⟩,  -- selectors.st:40 src/types.rs:128
  ⟨"LIMIT__UDINT", [.input .UDINT, .input .UDINT, .input .UDINT], .UDINT, (.native [.val .u32, .val .u32, .val .u32] (.val .u32))⟩,  -- selectors.st:40 src/types.rs:129
  ⟨"LIMIT__LINT", [.input .LINT, .input .LINT, .input .LINT], .LINT, (.native [.val .i64, .val .i64, .val .i64] (.val .i64))⟩,  -- selectors.st:40 src/types.rs:130
  ⟨"LIMIT__ULINT", [.input .ULINT, .input .ULINT, .input .ULINT], .ULINT, (.native [.val .u64, .val .u64, .val .u64] (.val .u64))⟩,  -- selectors.st:40 src/types.rs:131
  ⟨"LIMIT__REAL", [.input .REAL, .input .REAL, .input .REAL], .REAL, (.native [.val .f32, .val .f32, .val .f32] (.val .f32))⟩,  -- selectors.st:40 src/types.rs:142
  ⟨"LIMIT__LREAL", [.input .LREAL, .input .LREAL, .input .LREAL], .LREAL, (.native [.val .f64, .val .f64, .val .f64] (.val .f64))⟩,  -- selectors.st:40 src/types.rs:143
  ⟨"LIMIT__TIME", [.input .TIME, .input .TIME, .input .TIME], .TIME, (.native [.val .i64, .val .i64, .val .i64] (.val .i64))⟩,  -- selectors.st:40 src/types.rs:139
  ⟨"LIMIT__DATE", [.input .DATE, .input .DATE, .input .DATE], .DATE, (.native [.val .i64, .val .i64, .val .i64] (.val .i64))⟩,  -- selectors.st:40 src/types.rs:132
  ⟨"LIMIT__TIME_OF_DAY", [.input .TIME_OF_DAY, .input .TIME_OF_DAY, .input .TIME_OF_DAY], .TIME_OF_DAY, (.native [.val .i64, .val .i64, .val .i64] (.val .i64))⟩,  -- selectors.st:40 src/types.rs:140
  ⟨"LIMIT__DATE_AND_TIME", [.input .DATE_AND_TIME, .input .DATE_AND_TIME, .input .DATE_AND_TIME], .DATE_AND_TIME, (.native [.val .i64, .val .i64, .val .i64] (.val .i64))⟩,  -- selectors.st:40 src/types.rs:133
  ⟨"LIMIT__CHAR", [.input .CHAR, .input .CHAR, .input .CHAR], .CHAR, (.native [.val .u8, .val .u8, .val .u8] (.val .u8))⟩,  -- selectors.st:40 src/types.rs:118
  ⟨"LIMIT__WCHAR", [.input .WCHAR, .input .WCHAR, .input .WCHAR], .WCHAR, (.native [.val .u16, .val .u16, .val .u16] (.val .u16))⟩,  -- selectors.st:40 src/types.rs:120
  ⟨"LIMIT__STRING", [.input .STRING, .input .STRING, .input .STRING], .STRING, .missing⟩,  -- selectors.st:40 
  ⟨"LIMIT__WSTRING", [.input .WSTRING, .input .WSTRING, .input .WSTRING], .WSTRING, .missing⟩,  -- selectors.st:40 
  ⟨"WSTRING_TO_STRING_EXT", [.inputRef .WSTRING, .inOut .STRING], .DINT, (.native [.constPtr .u16, .mutPtr .u8] (.val .i32))⟩,  -- string_conversion.st:14 src/string_conversion.rs:13
  ⟨"STRING_TO_WSTRING_EXT", [.inputRef .STRING, .inOut .WSTRING], .DINT, (.native [.constPtr .u8, .mutPtr .u16] (.val .i32))⟩,  -- string_conversion.st:53 src/string_conversion.rs:32
  ⟨"WCHAR_TO_CHAR", [.input .WCHAR], .CHAR, (.native [.val .u16] (.val .u8))⟩,  -- string_conversion.st:100 src/string_conversion.rs:51
  ⟨"CHAR_TO_WCHAR", [.input .CHAR], .WCHAR, (.native [.val .u8] (.val .u16))⟩,  -- string_conversion.st:128 src/string_conversion.rs:69
  ⟨"LEN__STRING", [.inputRef .STRING], .DINT, (.native [.constPtr .u8] (.val .i32))⟩,  -- string_functions.st:12 src/string_functions.rs:141
  ⟨"LEN__WSTRING", [.inputRef .WSTRING], .DINT, (.native [.constPtr .u16] (.val .i32))⟩,  -- string_functions.st:12 src/string_functions.rs:157
  ⟨"LEFT__STRING", [.inputRef .STRING, .input .DINT], .STRING, (.st [.inputRef .STRING, .input .DINT] .STRING)⟩,  -- string_functions.st:25 string_functions.st:47
  ⟨"LEFT__WSTRING", [.inputRef .WSTRING, .input .DINT], .WSTRING, (.st [.inputRef .WSTRING, .input .DINT] .WSTRING)⟩,  -- string_functions.st:25 string_functions.st:57
  ⟨"LEFT_EXT__STRING", [.inputRef .STRING, .input .DINT, .inOut .STRING], .DINT, (.native [.constPtr .u8, .val .i32, .mutPtr .u8] (.val .i32))⟩,  -- string_functions.st:35 src/string_functions.rs:236
  ⟨"LEFT_EXT__WSTRING", [.inputRef .WSTRING, .input .DINT, .inOut .WSTRING], .DINT, (.native [.constPtr .u16, .val .i32, .mutPtr .u16] (.val .i32))⟩,  -- string_functions.st:35 src/string_functions.rs:263
  ⟨"LEFT_EXT__STRING", [.inputRef .STRING, .input .DINT, .inOut .STRING], .DINT, (.native [.constPtr .u8, .val .i32, .mutPtr .u8] (.val .i32))⟩,  -- string_functions.st:68 src/string_functions.rs:236
  ⟨"LEFT_EXT__WSTRING", [.inputRef .WSTRING, .input .DINT, .inOut .WSTRING], .DINT, (.native [.constPtr .u16, .val .i32, .mutPtr .u16] (.val .i32))⟩,  -- string_functions.st:81 src/string_functions.rs:263
  ⟨"RIGHT__STRING", [.inputRef .STRING, .input .DINT], .STRING, (.st [.inputRef .STRING, .input .DINT] .STRING)⟩,  -- string_functions.st:100 string_functions.st:122
  ⟨"RIGHT__WSTRING", [.inputRef .WSTRING, .input .DINT], .WSTRING, (.st [.inputRef .WSTRING, .input .DINT] .WSTRING)⟩,  -- string_functions.st:100 string_functions.st:132
  ⟨"RIGHT_EXT__STRING", [.inputRef .STRING, .input .DINT, .inOut .STRING], .DINT, (.native [.constPtr .u8, .val .i32, .mutPtr .u8] (.val .i32))⟩,  -- string_functions.st:110 src/string_functions.rs:294
  ⟨"RIGHT_EXT__WSTRING", [.inputRef .WSTRING, .input .DINT, .inOut .WSTRING], .DINT, (.native [.constPtr .u16, .val .i32, .mutPtr .u16] (.val .i32))⟩,  -- string_functions.st:110 src/string_functions.rs:321
  ⟨"RIGHT_EXT__STRING", [.inputRef .STRING, .input .DINT, .inOut .STRING], .DINT, (.native [.constPtr .u8, .val .i32, .mutPtr .u8] (.val .i32))⟩,  -- string_functions.st:143 src/string_functions.rs:294
  ⟨"RIGHT_EXT__WSTRING", [.inputRef .WSTRING, .input .DINT, .inOut .WSTRING], .DINT, (.native [.constPtr .u16, .val .i32, .mutPtr .u16] (.val .i32))⟩,  -- string_functions.st:156 src/string_functions.rs:321
  ⟨"MID__STRING", [.inputRef .STRING, .input .DINT, .input .DINT], .STRING, (.st [.inputRef .STRING, .input .DINT, .input .DINT] .STRING)⟩,  -- string_functions.st:178 string_functions.st:202
  ⟨"MID__WSTRING", [.inputRef .WSTRING, .input .DINT, .input .DINT], .WSTRING, (.st [.inputRef .WSTRING, .input .DINT, .input .DINT] .WSTRING)⟩,  -- string_functions.st:178 string_functions.st:213
  ⟨"MID_EXT__STRING", [.inputRef .STRING, .input .DINT, .input .DINT, .inOut .STRING], .DINT, (.native [.constPtr .u8, .val .i32, .val .i32, .mutPtr .u8] (.val .i32))⟩,  -- string_functions.st:189 src/string_functions.rs:352
  ⟨"MID_EXT__WSTRING", [.inputRef .WSTRING, .input .DINT, .input .DINT, .inOut .WSTRING], .DINT, (.native [.constPtr .u16, .val .i32, .val .i32, .mutPtr .u16] (.val .i32))⟩,  -- string_functions.st:189 src/string_functions.rs:395
  ⟨"MID_EXT__STRING", [.inputRef .STRING, .input .DINT, .input .DINT, .inOut .STRING], .DINT, (.native [.constPtr .u8, .val .i32, .val .i32, .mutPtr .u8] (.val .i32))⟩,  -- string_functions.st:225 src/string_functions.rs:352
  ⟨"MID_EXT__WSTRING", [.inputRef .WSTRING, .input .DINT, .input .DINT, .inOut .WSTRING], .DINT, (.native [.constPtr .u16, .val .i32, .val .i32, .mutPtr .u16] (.val .i32))⟩,  -- string_functions.st:239 src/string_functions.rs:395
  ⟨"CONCAT__STRING", [.sizedRef .STRING], .STRING, (.native [.mutPtr .u8, .val .i32, .constPtrPtr .u8] (.unit))⟩,  -- string_functions.st:262 src/string_functions.rs:687
  ⟨"CONCAT__WSTRING", [.sizedRef .WSTRING], .WSTRING, (.native [.mutPtr .u16, .val .i32, .constPtrPtr .u16] (.unit))⟩,  -- string_functions.st:269 src/string_functions.rs:735
  ⟨"CONCAT__STRING", [.sizedRef .STRING], .STRING, (.native [.mutPtr .u8, .val .i32, .constPtrPtr .u8] (.unit))⟩,  -- string_functions.st:275 src/string_functions.rs:687
  ⟨"CONCAT__WSTRING", [.sizedRef .WSTRING], .WSTRING, (.native [.mutPtr .u16, .val .i32, .constPtrPtr .u16] (.unit))⟩,  -- string_functions.st:275 src/string_functions.rs:735
  ⟨"CONCAT_EXT__STRING", [.inOut .STRING, .sizedRef .STRING], .DINT, (.native [.mutPtr .u8, .val .i32, .constPtrPtr .u8] (.val .i32))⟩,  -- string_functions.st:282 src/string_functions.rs:704
  ⟨"CONCAT_EXT__WSTRING", [.inOut .WSTRING, .sizedRef .WSTRING], .DINT, (.native [.mutPtr .u16, .val .i32, .constPtrPtr .u16] (.val .i32))⟩,  -- string_functions.st:282 src/string_functions.rs:752
  ⟨"INSERT__STRING", [.inputRef .STRING, .inputRef .STRING, .input .DINT], .STRING, (.st [.inputRef .STRING, .inputRef .STRING, .input .DINT] .STRING)⟩,  -- string_functions.st:300 string_functions.st:324
  ⟨"INSERT__WSTRING", [.inputRef .WSTRING, .inputRef .WSTRING, .input .DINT], .WSTRING, (.st [.inputRef .WSTRING, .inputRef .WSTRING, .input .DINT] .WSTRING)⟩,  -- string_functions.st:300 string_functions.st:335
  ⟨"INSERT_EXT__STRING", [.inputRef .STRING, .inputRef .STRING, .input .DINT, .inOut .STRING], .DINT, (.native [.constPtr .u8, .constPtr .u8, .val .i32, .mutPtr .u8] (.val .i32))⟩,  -- string_functions.st:311 src/string_functions.rs:438
  ⟨"INSERT_EXT__WSTRING", [.inputRef .WSTRING, .inputRef .WSTRING, .input .DINT, .inOut .WSTRING], .DINT, (.native [.constPtr .u16, .constPtr .u16, .val .i32, .mutPtr .u16] (.val .i32))⟩,  -- string_functions.st:311 src/string_functions.rs:471
  ⟨"INSERT_EXT__STRING", [.inputRef .STRING, .inputRef .STRING, .input .DINT, .inOut .STRING], .DINT, (.native [.constPtr .u8, .constPtr .u8, .val .i32, .mutPtr .u8] (.val .i32))⟩,  -- string_functions.st:347 src/string_functions.rs:438
  ⟨"INSERT_EXT__WSTRING", [.inputRef .WSTRING, .inputRef .WSTRING, .input .DINT, .inOut .WSTRING], .DINT, (.native [.constPtr .u16, .constPtr .u16, .val .i32, .mutPtr .u16] (.val .i32))⟩,  -- string_functions.st:361 src/string_functions.rs:471
  ⟨"DELETE__STRING", [.inputRef .STRING, .input .DINT, .input .DINT], .STRING, (.st [.inputRef .STRING, .input .DINT, .input .DINT] .STRING)⟩,  -- string_functions.st:382 string_functions.st:406
  ⟨"DELETE__WSTRING", [.inputRef .WSTRING, .input .DINT, .input .DINT], .WSTRING, (.st [.inputRef .WSTRING, .input .DINT, .input .DINT] .WSTRING)⟩,  -- string_functions.st:382 string_functions.st:417
  ⟨"DELETE_EXT__STRING", [.inputRef .STRING, .input .DINT, .input .DINT, .inOut .STRING], .DINT, (.native [.constPtr .u8, .val .i32, .val .i32, .mutPtr .u8] (.val .i32))⟩,  -- string_functions.st:393 src/string_functions.rs:504
  ⟨"DELETE_EXT__WSTRING", [.inputRef .WSTRING, .input .DINT, .input .DINT, .inOut .WSTRING], .DINT, (.native [.constPtr .u16, .val .i32, .val .i32, .mutPtr .u16] (.val .i32))⟩,  -- string_functions.st:393 src/string_functions.rs:547
  ⟨"DELETE_EXT__STRING", [.inputRef .STRING, .input .DINT, .input .DINT, .inOut .STRING], .DINT, (.native [.constPtr .u8, .val .i32, .val .i32, .mutPtr .u8] (.val .i32))⟩,  -- string_functions.st:429 src/string_functions.rs:504
  ⟨"DELETE_EXT__WSTRING", [.inputRef .WSTRING, .input .DINT, .input .DINT, .inOut .WSTRING], .DINT, (.native [.constPtr .u16, .val .i32, .val .i32, .mutPtr .u16] (.val .i32))⟩,  -- string_functions.st:443 src/string_functions.rs:547
  ⟨"REPLACE__STRING", [.inputRef .STRING, .inputRef .STRING, .input .DINT, .input .DINT], .STRING, (.st [.inputRef .STRING, .inputRef .STRING, .input .DINT, .input .DINT] .STRING)⟩,  -- string_functions.st:464 string_functions.st:490
  ⟨"REPLACE__WSTRING", [.inputRef .WSTRING, .inputRef .WSTRING, .input .DINT, .input .DINT], .WSTRING, (.st [.inputRef .WSTRING, .inputRef .WSTRING, .input .DINT, .input .DINT] .WSTRING)⟩,  -- string_functions.st:464 string_functions.st:502
  ⟨"REPLACE_EXT__STRING", [.inputRef .STRING, .inputRef .STRING, .input .DINT, .input .DINT, .inOut .STRING], .DINT, (.native [.constPtr .u8, .constPtr .u8, .val .i32, .val .i32, .mutPtr .u8] (.val .i32))⟩,  -- string_functions.st:476 src/string_functions.rs:591
  ⟨"REPLACE_EXT__WSTRING", [.inputRef .WSTRING, .inputRef .WSTRING, .input .DINT, .input .DINT, .inOut .WSTRING], .DINT, (.native [.constPtr .u16, .constPtr .u16, .val .i32, .val .i32, .mutPtr .u16] (.val .i32))⟩,  -- string_functions.st:476 src/string_functions.rs:639
  ⟨"REPLACE_EXT__STRING", [.inputRef .STRING, .inputRef .STRING, .input .DINT, .input .DINT, .inOut .STRING], .DINT, (.native [.constPtr .u8, .constPtr .u8, .val .i32, .val .i32, .mutPtr .u8] (.val .i32))⟩,  -- string_functions.st:515 src/string_functions.rs:591
  ⟨"REPLACE_EXT__WSTRING", [.inputRef .WSTRING, .inputRef .WSTRING, .input .DINT, .input .DINT, .inOut .WSTRING], .DINT, (.native [.constPtr .u16, .constPtr .u16, .val .i32, .val .i32, .mutPtr .u16] (.val .i32))⟩,  -- string_functions.st:530 src/string_functions.rs:639
  ⟨"FIND__STRING", [.inputRef .STRING, .inputRef .STRING], .DINT, (.native [.constPtr .u8, .constPtr .u8] (.val .i32))⟩,  -- string_functions.st:553 src/string_functions.rs:170
  ⟨"FIND__WSTRING", [.inputRef .WSTRING, .inputRef .WSTRING], .DINT, (.native [.constPtr .u16, .constPtr .u16] (.val .i32))⟩,  -- string_functions.st:553 src/string_functions.rs:202
  ⟨"GT__STRING", [.sizedRef .STRING], .BOOL, (.native [.val .i32, .constPtrPtr .u8] (.val .bool))⟩,  -- string_functions.st:568 src/string_functions.rs:801
  ⟨"GT__WSTRING", [.sizedRef .WSTRING], .BOOL, (.native [.val .i32, .constPtrPtr .u16] (.val .bool))⟩,  -- string_functions.st:568 src/string_functions.rs:813
  ⟨"GE__STRING", [.sizedRef .STRING], .BOOL, (.native [.val .i32, .constPtrPtr .u8] (.val .bool))⟩,  -- string_functions.st:596 src/string_functions.rs:825
  ⟨"GE__WSTRING", [.sizedRef .WSTRING], .BOOL, (.native [.val .i32, .constPtrPtr .u16] (.val .bool))⟩,  -- string_functions.st:596 src/string_functions.rs:837
  ⟨"EQ__STRING", [.sizedRef .STRING], .BOOL, (.native [.val .i32, .constPtrPtr .u8] (.val .bool))⟩,  -- string_functions.st:610 src/string_functions.rs:849
  ⟨"EQ__WSTRING", [.sizedRef .WSTRING], .BOOL, (.native [.val .i32, .constPtrPtr .u16] (.val .bool))⟩,  -- string_functions.st:610 src/string_functions.rs:861
  ⟨"LE__STRING", [.sizedRef .STRING], .BOOL, (.native [.val .i32, .constPtrPtr .u8] (.val .bool))⟩,  -- string_functions.st:638 src/string_functions.rs:873
  ⟨"LE__WSTRING", [.sizedRef .WSTRING], .BOOL, (.native [.val .i32, .constPtrPtr .u16] (.val .bool))⟩,  -- string_functions.st:638 src/string_functions.rs:885
  ⟨"LT__STRING", [.sizedRef .STRING], .BOOL, (.native [.val .i32, .constPtrPtr .u8] (.val .bool))⟩,  -- string_functions.st:652 src/string_functions.rs:897
  ⟨"LT__WSTRING", [.sizedRef .WSTRING], .BOOL, (.native [.val .i32, .constPtrPtr .u16] (.val .bool))⟩,  -- string_functions.st:652 src/string_functions.rs:909
  ⟨"NE__STRING", [.inputRef .STRING, .inputRef .STRING], .BOOL, (.native [.constPtr .u8, .constPtr .u8] (.val .bool))⟩,  -- string_functions.st:680 src/string_functions.rs:921
  ⟨"NE__WSTRING", [.inputRef .WSTRING, .inputRef .WSTRING], .BOOL, (.native [.constPtr .u16, .constPtr .u16] (.val .bool))⟩,  -- string_functions.st:680 src/string_functions.rs:933
  ⟨"IS_VALID__REAL", [.input .REAL], .BOOL, (.native [.val .f32] (.val .bool))⟩,  -- validation_functions.st:10 src/validation_functions.rs:12
  ⟨"IS_VALID__LREAL", [.input .LREAL], .BOOL, (.native [.val .f64] (.val .bool))⟩,  -- validation_functions.st:10 src/validation_functions.rs:22
  ⟨"IS_VALID_BCD__BOOL", [.input .BOOL], .BOOL, .missing⟩,  -- validation_functions.st:27 
  ⟨"IS_VALID_BCD__BYTE", [.input .BYTE], .BOOL, (.native [.val .u8] (.val .bool))⟩,  -- validation_functions.st:27 src/validation_functions.rs:51
  ⟨"IS_VALID_BCD__WORD", [.input .WORD], .BOOL, (.native [.val .u16] (.val .bool))⟩,  -- validation_functions.st:27 src/validation_functions.rs:60
  ⟨"IS_VALID_BCD__DWORD", [.input .DWORD], .BOOL, (.native [.val .u32] (.val .bool))⟩,  -- validation_functions.st:27 src/validation_functions.rs:69
  ⟨"IS_VALID_BCD__LWORD", [.input .LWORD], .BOOL, (.native [.val .u64] (.val .bool))⟩  -- validation_functions.st:27 src/validation_functions.rs:78
  ]

end Verif.Abi
